import Verif.Lemmas.DyrDirect
import Verif.Spec.DyrRead

/-! Lemmas about reading .dyr files: files with one record, and what becomes of the parameters that are read wrongly. -/
namespace GridPACK.Dyr
open StringUtils DataCollection
open RawBus (Val Data get idxOk intVal getInt intVal_get getValue_get get_add get_add_other get_set get_set_other)
open DyrSpec (Par Complete Rest IsDevice Describes Gives Proper Unknown Place count deviceName Usable)
open HashDistr (BoundOk)

/-- The one step for a name decides. -/
theorem runEntries_at {α : Type} {val : α → Option AnyVal} {nstr : Nat} {idx : Option Int}
    (hi : idxOk idx) {k : String} (hk : ':' ∉ k.toList) {pre post : List (Entry α)} {e : Entry α}
    (hpre : NoColon pre) (hpost : NoColon post)
    (h1 : ∀ x ∈ pre, x.addKey ≠ k ∧ x.setKey ≠ k) (h2 : ∀ x ∈ post, x.addKey ≠ k ∧ x.setKey ≠ k)
    (hp : passes nstr e.guard = true) (hpr : e.probeKey = k) (ha : e.addKey = k) (hs : e.setKey = k)
    {c c' : Data} (h : runEntries val nstr idx (pre ++ e :: post) c = some c') :
    (get c e.probe ⟨k.toList, idx⟩ = none → ∀ v, val e.add = some v → v.1 = e.probe → Has c' ⟨k.toList, idx⟩ v) ∧
    ((get c e.probe ⟨k.toList, idx⟩).isSome → ∀ v, val e.set = some v → v.1 = e.probe → Has c' ⟨k.toList, idx⟩ v) := by
  have happ : ∀ (l l' : List (Entry α)) (c : Data), runEntries val nstr idx (l ++ l') c =
      (runEntries val nstr idx l c).bind (runEntries val nstr idx l') := by
    intro l
    induction l with
    | nil => intro l' c; rfl
    | cons x l ih =>
      intro l' c
      simp only [List.cons_append, runEntries, Option.bind_assoc]
      congr 1
      funext d
      exact ih l' d
  rw [happ, Option.bind_eq_some_iff] at h
  obtain ⟨d, hd, h⟩ := h
  simp only [runEntries, Option.bind_eq_some_iff] at h
  obtain ⟨f, hf, h⟩ := h
  have hne : ∀ l : List (Entry α), (∀ x ∈ l, x.addKey ≠ k ∧ x.setKey ≠ k) → ((⟨k.toList, idx⟩ : Key).idx = idx →
      ∀ x ∈ l, (⟨k.toList, idx⟩ : Key).name ≠ x.addKey.toList ∧ (⟨k.toList, idx⟩ : Key).name ≠ x.setKey.toList) := by
    intro l hl _ x hx
    exact ⟨fun he => (hl x hx).1 (String.toList_injective he).symm, fun he => (hl x hx).2 (String.toList_injective he).symm⟩
  have e1 : ∀ t, get d t ⟨k.toList, idx⟩ = get c t ⟨k.toList, idx⟩ :=
    fun t => runEntries_other hi hpre hk (hne pre h1) hd
  have e2 : ∀ t, get c' t ⟨k.toList, idx⟩ = get f t ⟨k.toList, idx⟩ :=
    fun t => runEntries_other hi hpost hk (hne post h2) h
  rw [runEntry_eq _ _ _ hi, if_pos hp, hpr, ha, hs, e1] at hf
  refine ⟨?_, ?_⟩
  · intro hg v hv ht
    rw [hg] at hf
    simp only [Option.isSome_none, Bool.false_eq_true, if_false, hv, Option.bind_some] at hf
    unfold Has
    rw [← ht] at hg
    rw [e2, get_add hf, e1, hg]
    rfl
  · intro hg v hv ht
    rw [if_pos hg, hv, Option.bind_some, Option.map_eq_some_iff] at hf
    obtain ⟨r, hr, rfl⟩ := hf
    obtain ⟨r1, rb⟩ := r
    unfold Has
    rw [e2]
    simp only
    rw [← ht] at hg
    rw [get_set hr, e1]
    obtain ⟨w, hw⟩ := Option.isSome_iff_exists.mp hg
    rw [hw]
    rfl

/-- The struct of a load. -/
theorem storeRec_load' {cv : Conv} (junk : Struct) {ts : List Str} {b : Int} {tag : Str} {m : String} {ps : List Par}
    (h : Describes cv ts (.load b tag) m ps) (hc : Complete ps ts) :
    ∃ k s0 s, storeRec cv junk ts = some (.load b s) ∧ pick loadExtract m.toList = some k ∧
      runStore cv ts k.store s0 = some s ∧ s .string "id" = tag ∧ s .string "model" = m.toList := by
  cases h with
  | load hm h0 h1 h2 hn =>
    rename_i t0 t1 t2
    have hx := loads_ext _ hm
    obtain ⟨n1, n2, n3, n4⟩ := loads_kind _ hm
    obtain ⟨k, bad, hst, hex, hok, hbad, hb, hg, hmod⟩ := hx.cls
    simp only at hst hex hok hbad
    obtain ⟨s, hs, hmem, hkeep, hput⟩ := ext_ok hx.format hok cv hc
      ((junk.put "bus_id" ⟨.int, cv.atoi t0⟩).put "id" ⟨.string, cv.tag t2⟩)
    have hsb : s .int "bus_id" = cv.atoi t0 := by
      rw [hkeep .int "bus_id" hb, put_other _ _ _ (by decide)]
      exact put_same junk "bus_id" ⟨.int, cv.atoi t0⟩
    have hsg := hmem "id" _ ⟨.string, cv.tag t2⟩ hg (by simp [Src.eval, h2])
    have hsm := hmem "model" _ ⟨.string, cv.name t1⟩ hmod (by simp [Src.eval, h1])
    refine ⟨k, _, s, ?_, hex, hs, hsg, hsm.trans hn⟩
    simp only [storeRec, h0, h1, h2, hn, n1, n2, n3, n4, if_true, if_false, Bool.false_eq_true, hst, hs,
        Option.map_some, hsb]
  | userLoad hm h0 h1 h2 h3 hn hp hp' =>
    rename_i t0 t1 t2 t3
    have hx := userLoads_ext _ hm
    obtain ⟨n1, n2, n3⟩ := usrlod_kind
    obtain ⟨k, bad, hst, hex, hok, hbad, hb, hg, hmod⟩ := hx.cls
    simp only at hst hex hok hbad
    obtain ⟨s, hs, hmem, hkeep, hput⟩ := ext_ok hx.format hok cv hc
      ((junk.put "bus_id" ⟨.int, cv.atoi t0⟩).put "id" ⟨.string, cv.tag t2⟩)
    have hsb : s .int "bus_id" = cv.atoi t0 := by
      rw [hkeep .int "bus_id" hb, put_other _ _ _ (by decide)]
      exact put_same junk "bus_id" ⟨.int, cv.atoi t0⟩
    have hsg := hmem "id" _ ⟨.string, cv.tag t2⟩ hg (by simp [Src.eval, h2])
    have hsm := hmem "model" _ ⟨.string, cv.name t3⟩ hmod (by simp [Src.eval, h3])
    refine ⟨k, _, s, ?_, hex, hs, hsg, hsm.trans hp'⟩
    simp only [storeRec, h0, h1, h2, h3, hn, hp, n1, n2, n3, if_true, if_false, Bool.false_eq_true, hst, hs,
        Option.map_some, hsb]

/-- The struct of a generator. -/
theorem storeRec_gen' {cv : Conv} (junk : Struct) {ts : List Str} {b : Int} {tag : Str} {m : String} {ps : List Par}
    (h : Describes cv ts (.gen b tag) m ps) (hc : Complete ps ts) :
    ∃ k s0 s, storeRec cv junk ts = some (.gen b s) ∧ pick genExtract m.toList = some k ∧
      runStore cv ts k.store s0 = some s ∧ s .string "gen_id" = tag ∧ s .string "model" = m.toList := by
  cases h with
  | gen hm h0 h1 h2 hn =>
    rename_i t0 t1 t2
    have hx := gens_ext _ hm
    obtain ⟨k, bad, hst, hex, hok, hbad, hb, hg, hmod⟩ := hx.cls
    simp only at hst hex hok hbad
    obtain ⟨s, hs, hmem, _, hput⟩ := ext_ok hx.format hok cv hc
      (((junk.put "bus_id" ⟨.int, cv.atoi t0⟩).put "gen_id" ⟨.string, cv.tag t2⟩).put "model" ⟨.string, m.toList⟩)
    have hsb := hmem "bus_id" _ ⟨.int, cv.atoi t0⟩ hb (by simp [Src.eval, h0])
    have hsg := hmem "gen_id" _ ⟨.string, cv.tag t2⟩ hg (by simp [Src.eval, h2])
    have hsm := hmem "model" _ ⟨.string, cv.name t1⟩ hmod (by simp [Src.eval, h1])
    refine ⟨k, _, s, ?_, hex, hs, hsg, hsm.trans hn⟩
    simp only [storeRec, h0, h1, h2, hn, hx.known, if_true, hst, hs, Option.map_some, hsb]

/-- The struct of a relay of a branch. -/
theorem storeRec_line' {cv : Conv} (junk : Struct) {ts : List Str} {a b : Int} {m : String} {ps : List Par}
    (h : Describes cv ts (.line a b) m ps) (hc : Complete ps ts) :
    ∃ s0 s, storeRec cv junk ts = some (.branchRelay (a, b) s) ∧ runStore cv ts distr1.store s0 = some s ∧
      s .string "model" = "DISTR1".toList := by
  cases h with
  | line h0 h1 h2 hn =>
    rename_i t0 t1 t2
    obtain ⟨n1, n2, n3, n4, hf, ht, hmod, h3⟩ := distr1_kind
    have h3 : 3 < ts.length := lt_of_le_of_lt h3 (last_lt distr1_format hc)
    obtain ⟨s, hs, hmem, hkeep, hput⟩ := ext_ok distr1_format distr1_ext cv hc
      ((junk.put "from_bus" ⟨.int, cv.atoi t0⟩).put "to_bus" ⟨.int, cv.atoi ts[3]⟩)
    have hsf := hmem "from_bus" _ ⟨.int, cv.atoi t0⟩ hf (by simp [Src.eval, h0])
    have hst := hmem "to_bus" _ ⟨.int, cv.atoi t2⟩ ht (by simp [Src.eval, h2])
    have hsm := hmem "model" _ ⟨.string, cv.name t1⟩ hmod (by simp [Src.eval, h1])
    refine ⟨_, s, ?_, hs, hsm.trans hn⟩
    simp only [storeRec, h0, h1, List.getElem?_eq_getElem h3, hn, n1, n2, n3, n4, if_true, if_false,
        Bool.false_eq_true, hs, Option.map_some, hsf, hst]

theorem made_of {cv : Conv} {junk : Struct} {ts : List Str} (hp : Proper cv ts) {o : Out}
    (h : storeRec cv junk ts = some o) : Made cv ts o := by
  obtain ⟨o', h1, h2⟩ := storeRec_proper junk hp
  rw [h] at h1
  obtain rfl := Option.some.inj h1
  exact h2

/-- A file with one record, for a load. -/
theorem single_load {cv : Conv} {n : Nat} (hn : 0 < n) {bound : Nat → Nat → Nat}
    (hb : ∀ total, BoundOk n total (bound total)) {puts : List Nat} (hp : puts.Perm (List.range n)) (me : Nat)
    (junk : Struct) {ts : List Str} {b : Int} {tag : Str} {m : String} {ps : List Par}
    (hd : Describes cv ts (.load b tag) m ps) (hc : Complete ps ts) (busNo : List Int) (ends : List (Int × Int))
    (bus branch : List Data) (hlb : busNo.length = bus.length) (hle : ends.length = branch.length)
    (hub : ∀ c ∈ bus, Usable 1 c) (hue : ∀ c ∈ branch, Usable 1 c) {i g : Nat} {c : Data}
    (hi : busNo[i]? = some b) (hic : bus[i]? = some c) (hg : IsDevice c "LOAD_NUMBER" "LOAD_ID" g tag) :
    ∃ k s0 s bus' branch' c', pick loadExtract m.toList = some k ∧ runStore cv ts k.store s0 = some s ∧
      external cv n bound puts me [(junk, ts)] busNo ends bus branch = some (bus', branch') ∧ bus'[i]? = some c' ∧
      k.runExtract s (some (g : Int)) c = some c' := by
  obtain ⟨k, s0, s, h1, h2, h3, h4, h5⟩ := storeRec_load' junk hd hc
  obtain ⟨bus', branch', e1, _, _, e2, _⟩ := external_runs (cv := cv) hn hb hp me [(junk, ts)] (z := [(ts, .load b s)]) rfl
    (by simp [storeAll, h1]) (by
      intro x hx
      obtain rfl := List.mem_singleton.mp hx
      exact made_of (Or.inl ⟨_, m, ps, hd, hc⟩) h1) busNo ends bus branch hlb hle hub hue
  obtain ⟨c1, c2, c', lg, lr, ll, f1, f2, f3, f4, f5, f6, f7, _⟩ := e2 i b c hi hic
  simp only [genZ, relayZ, loadZ, List.filterMap_cons, List.filterMap_nil, List.filter_nil, List.map_nil,
    List.perm_nil, List.filter_cons, decide_true, if_true, List.map_cons, List.perm_singleton] at f2 f3 f4
  subst f2 f3 f4
  obtain rfl := Option.some.inj f5
  obtain rfl := Option.some.inj f6
  simp only [runList, Option.bind_eq_some_iff, Option.some.injEq, exists_eq_right] at f7
  unfold putLoad at f7
  rw [h4, devIndex_device hg, h5] at f7
  simp only [h2] at f7
  exact ⟨k, s0, s, bus', branch', c', h2, h3, e1, f1, f7⟩

/-- A file with one record, for a generator. -/
theorem single_gen {cv : Conv} {n : Nat} (hn : 0 < n) {bound : Nat → Nat → Nat}
    (hb : ∀ total, BoundOk n total (bound total)) {puts : List Nat} (hp : puts.Perm (List.range n)) (me : Nat)
    (junk : Struct) {ts : List Str} {b : Int} {tag : Str} {m : String} {ps : List Par}
    (hd : Describes cv ts (.gen b tag) m ps) (hc : Complete ps ts) (busNo : List Int) (ends : List (Int × Int))
    (bus branch : List Data) (hlb : busNo.length = bus.length) (hle : ends.length = branch.length)
    (hub : ∀ c ∈ bus, Usable 1 c) (hue : ∀ c ∈ branch, Usable 1 c) {i g : Nat} {c : Data}
    (hi : busNo[i]? = some b) (hic : bus[i]? = some c) (hg : IsDevice c "GENERATOR_NUMBER" "GENERATOR_ID" g tag) :
    ∃ k s0 s bus' branch' c', pick genExtract m.toList = some k ∧ runStore cv ts k.store s0 = some s ∧
      external cv n bound puts me [(junk, ts)] busNo ends bus branch = some (bus', branch') ∧ bus'[i]? = some c' ∧
      k.runExtract s (some (g : Int)) c = some c' := by
  obtain ⟨k, s0, s, h1, h2, h3, h4, h5⟩ := storeRec_gen' junk hd hc
  obtain ⟨bus', branch', e1, _, _, e2, _⟩ := external_runs (cv := cv) hn hb hp me [(junk, ts)] (z := [(ts, .gen b s)]) rfl
    (by simp [storeAll, h1]) (by
      intro x hx
      obtain rfl := List.mem_singleton.mp hx
      exact made_of (Or.inl ⟨_, m, ps, hd, hc⟩) h1) busNo ends bus branch hlb hle hub hue
  obtain ⟨c1, c2, c', lg, lr, ll, f1, f2, f3, f4, f5, f6, f7, _⟩ := e2 i b c hi hic
  simp only [genZ, relayZ, loadZ, List.filterMap_cons, List.filterMap_nil, List.filter_nil, List.map_nil,
    List.perm_nil, List.filter_cons, decide_true, if_true, List.map_cons, List.perm_singleton] at f2 f3 f4
  subst f2 f3 f4
  obtain rfl := Option.some.inj f6
  obtain rfl := Option.some.inj f7
  simp only [runList, Option.bind_eq_some_iff, Option.some.injEq, exists_eq_right] at f5
  unfold putGen at f5
  rw [h4, devIndex_device hg, h5] at f5
  simp only [h2] at f5
  exact ⟨k, s0, s, bus', branch', _, h2, h3, e1, f1, f5⟩

/-- A file with one record, for a relay of a branch. -/
theorem single_line {cv : Conv} {n : Nat} (hn : 0 < n) {bound : Nat → Nat → Nat}
    (hb : ∀ total, BoundOk n total (bound total)) {puts : List Nat} (hp : puts.Perm (List.range n)) (me : Nat)
    (junk : Struct) {ts : List Str} {a b : Int} {m : String} {ps : List Par}
    (hd : Describes cv ts (.line a b) m ps) (hc : Complete ps ts) (busNo : List Int) (ends : List (Int × Int))
    (bus branch : List Data) (hlb : busNo.length = bus.length) (hle : ends.length = branch.length)
    (hub : ∀ c ∈ bus, Usable 1 c) (hue : ∀ c ∈ branch, Usable 1 c) {i : Nat} {c : Data}
    (hi : ends[i]? = some (a, b)) (hic : branch[i]? = some c) :
    ∃ s0 s bus' branch' c1 c', runStore cv ts distr1.store s0 = some s ∧
      external cv n bound puts me [(junk, ts)] busNo ends bus branch = some (bus', branch') ∧ branch'[i]? = some c' ∧
      distr1.runExtract s (some (count c "RELAY_NUMBER")) c1 = some c' := by
  obtain ⟨s0, s, h1, h3, h5⟩ := storeRec_line' junk hd hc
  obtain ⟨bus', branch', e1, _, _, _, e2⟩ := external_runs (cv := cv) hn hb hp me [(junk, ts)] (z := [(ts, .branchRelay (a, b) s)]) rfl
    (by simp [storeAll, h1]) (by
      intro x hx
      obtain rfl := List.mem_singleton.mp hx
      exact made_of (Or.inl ⟨_, m, ps, hd, hc⟩) h1) busNo ends bus branch hlb hle hub hue
  obtain ⟨c', l, f1, f2, f3, _⟩ := e2 i (a, b) c hi hic
  simp only [lineZ, List.filterMap_cons, List.filterMap_nil, List.filter_nil, List.map_nil,
    List.filter_cons, decide_true, if_true, List.map_cons, List.perm_singleton] at f2
  subst f2
  simp only [runList, Option.bind_eq_some_iff, Option.some.injEq, exists_eq_right] at f3
  unfold putBranchRelay at f3
  obtain ⟨c1, hn', _, _⟩ := nextRelay_ok c
  rw [h5, if_pos (isIn_of (by decide +kernel)), extractRelay, hn', Option.bind_some, relays_count] at f3
  exact ⟨s0, s, bus', branch', c1, c', h3, e1, f1, f3⟩

/-- What the class does, whatever the format says. -/
theorem actual_ext {k : Kind} {ps' : List Par} {bad : List String} (hf : formatOk ps' = true)
    (hk : extOk k ps' bad = true) {cv : Conv} {ts : List Str} (hc : Complete ps' ts) {s0 s : Struct}
    (hs : runStore cv ts k.store s0 = some s) {idx : Option Int} (hi : idxOk idx) {c c' : Data}
    (he : k.runExtract s idx c = some c') : ∀ p ∈ ps', p.key ∉ bad → p.Stored cv ts c' idx := by
  obtain ⟨s', h1, _, _, h2⟩ := ext_ok hf hk cv hc s0
  rw [hs] at h1
  obtain rfl := Option.some.inj h1
  obtain ⟨d, h3, h4, _⟩ := h2 hi c
  rw [he] at h3
  obtain rfl := Option.some.inj h3
  exact h4

/-- The same for `parse`. -/
theorem actual_dir {k : Kind} {ps' : List Par} {bad : List String} (hf : formatOk ps' = true)
    (hk : dirOk k ps' bad = true) {cv : Conv} {ts : List Str} (hc : Complete ps' ts) {idx : Option Int}
    (hi : idxOk idx) {c c' : Data} (he : k.runParse cv ts idx c = some c') :
    ∀ p ∈ ps', p.key ∉ bad → p.Stored cv ts c' idx := by
  obtain ⟨d, h1, h2, _⟩ := parse_ok hf hk cv hc hi c
  rw [he] at h1
  obtain rfl := Option.some.inj h1
  exact h2

/-- The format with another place for a parameter. -/
def replaced (q : Par) (ps : List Par) : List Par := ps.map (fun p => if same p.key q.key then q else p)

theorem mem_replaced {q : Par} {ps : List Par} (h : among (ps.map Par.key) q.key = true) : q ∈ replaced q ps := by
  rw [among_iff] at h
  obtain ⟨p, hp, he⟩ := List.mem_map.mp h
  exact List.mem_map.mpr ⟨p, hp, by rw [if_pos (same_iff.mpr he)]⟩

theorem mem_replaced_other {q q' : Par} {ps : List Par} (h : q ∈ ps) (hne : same q.key q'.key = false) :
    q ∈ replaced q' ps :=
  List.mem_map.mpr ⟨q, h, by rw [hne]; rfl⟩

theorem le_lastPlace {ps : List Par} : ∀ p ∈ ps, ∀ n, p.place = some n → n ≤ lastPlace ps := by
  induction ps with
  | nil => simp
  | cons q ps ih =>
    intro p hp n hn
    have : lastPlace (q :: ps) = max (q.place.getD 0) (lastPlace ps) := rfl
    rw [this]
    rcases List.mem_cons.mp hp with rfl | hp
    · rw [hn]; exact le_max_left _ _
    · exact (ih p hp n hn).trans (le_max_right _ _)

theorem complete_of {ps ps' : List Par} (hf : formatOk ps = true) (hl : lastPlace ps' ≤ lastPlace ps) {ts : List Str}
    (hc : Complete ps ts) : Complete ps' ts :=
  fun p hp n hn => ((le_lastPlace p hp n hn).trans hl).trans_lt (last_lt hf hc)

/-- Only step `i` is about the name. -/
def onlyStep {α : Type} (es : List (Entry α)) (i : Nat) (k : String) : Bool :=
  (es.take i).all (fun e => !same e.addKey k && !same e.setKey k) &&
  (es.drop (i + 1)).all (fun e => !same e.addKey k && !same e.setKey k) &&
  es.all (fun e => plainName e.addKey && plainName e.setKey) && plainName k

structure OnlyStep {α : Type} (es : List (Entry α)) (i : Nat) (k : String) : Prop where
  before : ∀ x ∈ es.take i, x.addKey ≠ k ∧ x.setKey ≠ k
  after : ∀ x ∈ es.drop (i + 1), x.addKey ≠ k ∧ x.setKey ≠ k
  colonBefore : NoColon (es.take i)
  colonAfter : NoColon (es.drop (i + 1))
  plain : ':' ∉ k.toList

theorem onlyStep_iff {α : Type} {es : List (Entry α)} {i : Nat} {k : String} (h : onlyStep es i k = true) :
    OnlyStep es i k := by
  simp only [onlyStep, Bool.and_eq_true, List.all_eq_true, Bool.not_eq_true'] at h
  obtain ⟨⟨⟨h1, h2⟩, h3⟩, h4⟩ := h
  refine ⟨fun x hx => ?_, fun x hx => ?_, fun x hx => ?_, fun x hx => ?_, noColon_of h4⟩
  · exact ⟨same_false.mp (h1 x hx).1, same_false.mp (h1 x hx).2⟩
  · exact ⟨same_false.mp (h2 x hx).1, same_false.mp (h2 x hx).2⟩
  · exact ⟨noColon_of (h3 x (List.mem_of_mem_take hx)).1, noColon_of (h3 x (List.mem_of_mem_take hx)).2⟩
  · exact ⟨noColon_of (h3 x (List.mem_of_mem_drop hx)).1, noColon_of (h3 x (List.mem_of_mem_drop hx)).2⟩

theorem split_at {α : Type} {es : List α} {i : Nat} {e : α} (he : es[i]? = some e) :
    es = es.take i ++ e :: es.drop (i + 1) := by
  obtain ⟨hi, he⟩ := List.getElem?_eq_some_iff.mp he
  rw [← he, ← List.drop_eq_getElem_cons hi, List.take_append_drop]

theorem runEntries_app {α : Type} {val : α → Option AnyVal} {nstr : Nat} {idx : Option Int} :
    ∀ (l l' : List (Entry α)) (c : Data), runEntries val nstr idx (l ++ l') c =
      (runEntries val nstr idx l c).bind (runEntries val nstr idx l') := by
  intro l
  induction l with
  | nil => intro l' c; rfl
  | cons x l ih =>
    intro l' c
    simp only [List.cons_append, runEntries, Option.bind_assoc]
    congr 1
    funext d
    exact ih l' d

/-- If the step for a name writes elsewhere or a value of another type, nothing happens under the name. -/
theorem runEntries_keeps {α : Type} {val : α → Option AnyVal} {nstr : Nat} {idx : Option Int}
    (hi : idxOk idx) {k : String} {es : List (Entry α)} {i : Nat} {e : Entry α} (ho : OnlyStep es i k)
    (he : es[i]? = some e) (hpr : e.probeKey = k) (hca : ':' ∉ e.addKey.toList) (hcs : ':' ∉ e.setKey.toList)
    {c c' : Data} {u : Ty}
    (h1 : (get c e.probe ⟨k.toList, idx⟩).isSome = true → ∀ v, val e.set = some v → e.setKey = k → u ≠ v.1)
    (h2 : get c e.probe ⟨k.toList, idx⟩ = none → ∀ v, val e.add = some v → e.addKey = k → u ≠ v.1)
    (h : runEntries val nstr idx es c = some c') : get c' u ⟨k.toList, idx⟩ = get c u ⟨k.toList, idx⟩ := by
  have hne : ∀ l : List (Entry α), (∀ x ∈ l, x.addKey ≠ k ∧ x.setKey ≠ k) → ((⟨k.toList, idx⟩ : Key).idx = idx →
      ∀ x ∈ l, (⟨k.toList, idx⟩ : Key).name ≠ x.addKey.toList ∧ (⟨k.toList, idx⟩ : Key).name ≠ x.setKey.toList) :=
    fun l hl _ x hx => ⟨ofList_toList_ne (hl x hx).1.symm, ofList_toList_ne (hl x hx).2.symm⟩
  rw [split_at he, runEntries_app, Option.bind_eq_some_iff] at h
  obtain ⟨d, hd, h⟩ := h
  simp only [runEntries, Option.bind_eq_some_iff] at h
  obtain ⟨f, hf, h⟩ := h
  have e1 := fun u => runEntries_other (u := u) hi ho.colonBefore (l := ⟨k.toList, idx⟩) ho.plain (hne _ ho.before) hd
  have e2 := runEntries_other (u := u) hi ho.colonAfter (l := ⟨k.toList, idx⟩) ho.plain (hne _ ho.after) h
  rw [e2]
  have e3 : get f u ⟨k.toList, idx⟩ = get d u ⟨k.toList, idx⟩ := by
    rw [runEntry_eq _ _ _ hi, hpr, e1] at hf
    by_cases hp : passes nstr e.guard = true
    · rw [if_pos hp] at hf
      by_cases hg : (get c e.probe ⟨k.toList, idx⟩).isSome = true
      · rw [if_pos hg, Option.bind_eq_some_iff] at hf
        obtain ⟨v, hv, hf⟩ := hf
        rw [Option.map_eq_some_iff] at hf
        obtain ⟨⟨r, b⟩, hr, rfl⟩ := hf
        exact get_set_other hr hcs ho.plain (by
          intro hh
          rw [Prod.mk.injEq] at hh
          exact h1 hg v hv (String.toList_injective (congrArg Key.name hh.2)).symm hh.1)
      · rw [if_neg hg, Option.bind_eq_some_iff] at hf
        obtain ⟨v, hv, hf⟩ := hf
        exact get_add_other hf hca ho.plain (by
          intro hh
          rw [Prod.mk.injEq] at hh
          exact h2 (by simpa using hg) v hv (String.toList_injective (congrArg Key.name hh.2)).symm hh.1)
    · rw [if_neg hp] at hf
      obtain rfl := Option.some.inj hf
      rfl
  rw [e3, e1]

theorem Alone.ok {cv : Conv} {texts : List (List Str)} {net : Net} (h : DyrSpec.Alone cv texts net) :
    ∃ net', direct cv texts net = some net' ∧ net'.buses.map (·.1) = net.buses.map (·.1) ∧
      ∀ (i : Nat) b c, net.buses[i]? = some (b, c) → ∃ c', net'.buses[i]? = some (b, c') ∧
        runList (busRec cv b) texts c = some c' := by
  refine direct_buses texts net h.numbers h.proper (fun r hr e he hl => ?_) (fun b c hbc => ?_)
  · obtain ⟨m, ps, hd⟩ := hl
    exact h.noLines r hr e he m ps hd
  · obtain ⟨c', hc', _⟩ := directAfter_of (b := b) h.proper (h.usable b c hbc)
    exact ⟨c', hc'⟩

/-- A file with one record, for a generator, read directly. -/
theorem single_gen_direct {cv : Conv} {ts : List Str} {net : Net} (h : DyrSpec.Alone cv [ts] net) {b : Int} {tag : Str}
    {m : String} {ps : List Par} (hd : Describes cv ts (.gen b tag) m ps) {i g : Nat} {c : Data}
    (hi : net.buses[i]? = some (b, c)) (hg : IsDevice c "GENERATOR_NUMBER" "GENERATOR_ID" g tag) :
    ∃ net' c', direct cv [ts] net = some net' ∧ net'.buses[i]? = some (b, c') ∧
      (match pick genDirect m.toList with
        | none => some c
        | some k => k.runParse cv ts (some (g : Int)) c) = some c' := by
  obtain ⟨net', h1, _, h2⟩ := Alone.ok h
  obtain ⟨c', h3, h4⟩ := h2 i b c hi
  refine ⟨net', c', h1, h3, ?_⟩
  simp only [runList, Option.bind_eq_some_iff, Option.some.injEq, exists_eq_right] at h4
  cases hd with
  | gen hm h0 h1 h2 hn =>
    rename_i t0 t1 t2
    have hkn := (gens_ext _ hm).known
    simp only [busRec, h0, h1, hn, hkn, if_true, directGen_eq h2, devIndex_device hg] at h4
    exact h4

/-- A file with one record, for a load, read directly. -/
theorem single_load_direct {cv : Conv} {ts : List Str} {net : Net} (h : DyrSpec.Alone cv [ts] net) {b : Int} {tag : Str}
    {m : String} {ps : List Par} (hd : Describes cv ts (.load b tag) m ps) {i g : Nat} {c : Data}
    (hi : net.buses[i]? = some (b, c)) (hg : IsDevice c "LOAD_NUMBER" "LOAD_ID" g tag) :
    ∃ net' c' k, direct cv [ts] net = some net' ∧ net'.buses[i]? = some (b, c') ∧
      pick loadExtract m.toList = some k ∧ k.runParse cv ts (some (g : Int)) c = some c' := by
  obtain ⟨net', h1, _, h2⟩ := Alone.ok h
  obtain ⟨c', h3, h4⟩ := h2 i b c hi
  simp only [runList, Option.bind_eq_some_iff, Option.some.injEq, exists_eq_right] at h4
  cases hd with
  | load hm h0 h1' h2 hn =>
    rename_i t0 t1 t2
    obtain ⟨n1, n2, n3, n4⟩ := loads_kind _ hm
    obtain ⟨k, bad, hst, hex, _⟩ := (loads_ext _ hm).cls
    simp only at hst hex
    refine ⟨net', c', k, h1, h3, hex, ?_⟩
    simp only [busRec, h0, h1', hn, n1, n2, n3, if_true, if_false, Bool.false_eq_true, directLoad_eq h2,
      devIndex_device hg, n4, hst] at h4
    exact h4
  | userLoad hm h0 h1' h2 h3' hn hp hp' =>
    rename_i t0 t1 t2 t3
    obtain ⟨n1, n2, n3⟩ := usrlod_kind
    obtain ⟨k, bad, hst, hex, _⟩ := (userLoads_ext _ hm).cls
    simp only at hst hex
    refine ⟨net', c', k, h1, h3, hex, ?_⟩
    simp only [busRec, h0, h1', hn, n1, n2, n3, if_true, if_false, Bool.false_eq_true, directLoad_eq h2,
      devIndex_device hg, h3', hp, hst] at h4
    exact h4

end GridPACK.Dyr
