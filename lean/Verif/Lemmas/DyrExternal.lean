import Verif.Lemmas.DyrRelays

/-! Lemmas about reading .dyr files: the whole external reading. -/
namespace GridPACK.Dyr
open StringUtils DataCollection
open RawBus (Val Data get idxOk intVal getInt intVal_get getValue_get)
open DyrSpec (Par Complete Rest IsDevice Describes Gives Proper Unknown Place externalErrors)
open HashDistr (BoundOk)

/-- Where a model belongs. -/
def Belongs (s : Str) : Place → Prop
  | .gen _ _ => isIn genModels s = true
  | .relay _ => isIn genModels s = false ∧ isIn busModels s = true
  | .load _ _ => isIn genModels s = false ∧ isIn busModels s = false ∧ isIn loadModels s = true
  | .line _ _ => isIn genModels s = false ∧ isIn busModels s = false ∧ isIn loadModels s = false

theorem belongs_of {cv : Conv} {ts : List Str} {w : Place} {m : String} {ps : List Par} (h : Describes cv ts w m ps) :
    ∃ t1, ts[1]? = some t1 ∧ Belongs (cv.name t1) w := by
  cases h with
  | gen hm h0 h1 h2 hn => exact ⟨_, h1, by rw [hn]; exact (gens_ext _ hm).known⟩
  | load hm h0 h1 h2 hn =>
    obtain ⟨n1, n2, n3, _⟩ := loads_kind _ hm
    exact ⟨_, h1, by rw [hn]; exact ⟨n1, n2, n3⟩⟩
  | userLoad hm h0 h1 h2 h3 hn => exact ⟨_, h1, by rw [hn]; exact usrlod_kind⟩
  | voltage h0 h1 hn => exact ⟨_, h1, by rw [hn]; exact ⟨lvshbl_kind.1, lvshbl_kind.2.1⟩⟩
  | frequency h0 h1 h3 hn => exact ⟨_, h1, by rw [hn]; exact ⟨frqtpat_kind.1, frqtpat_kind.2.1⟩⟩
  | line h0 h1 h2 hn => exact ⟨_, h1, by rw [hn]; exact ⟨distr1_kind.1, distr1_kind.2.1, distr1_kind.2.2.1⟩⟩

theorem line_unique {cv : Conv} {ts : List Str} {w w' : Place} {m m' : String} {ps ps' : List Par} {a b a' b' : Int}
    (hw : w = .line a b) (hw' : w' = .line a' b')
    (h : Describes cv ts w m ps) (h' : Describes cv ts w' m' ps') : w = w' ∧ m = m' ∧ ps = ps' := by
  subst hw hw'
  cases h with
  | line h0 h1 h2 hn =>
    cases h' with
    | line h0' h1' h2' hn' =>
      rw [h0] at h0'; rw [h2] at h2'
      obtain rfl := Option.some.inj h0'
      obtain rfl := Option.some.inj h2'
      exact ⟨rfl, rfl, rfl⟩

/-- A record describes at most one thing. -/
theorem describes_unique {cv : Conv} {ts : List Str} {w w' : Place} {m m' : String} {ps ps' : List Par}
    (h : Describes cv ts w m ps) (h' : Describes cv ts w' m' ps') : w = w' ∧ m = m' ∧ ps = ps' := by
  obtain ⟨t, ht, hb⟩ := belongs_of h
  obtain ⟨t', ht', hb'⟩ := belongs_of h'
  rw [ht] at ht'
  obtain rfl := Option.some.inj ht'
  cases w <;> cases w' <;> simp_all only [Belongs, Bool.false_eq_true, Bool.true_eq_false, and_false, false_and]
  · exact gen_unique rfl rfl h h'
  · exact load_unique rfl rfl h h'
  · exact relay_unique rfl rfl h h'
  · exact line_unique rfl rfl h h'

theorem models_all {cv : Conv} {ts : List Str} {w : Place} {m : String} {ps : List Par} (h : Describes cv ts w m ps) :
    ¬ Unknown cv ts := by
  rintro ⟨t0, t1, _, h1, hne⟩
  have key : ∀ l : List String, (∀ x ∈ l, x ∈ genModels ++ busModels ++ loadModels ++ branchModels) →
      isIn l (cv.name t1) = false := by
    intro l hl
    rw [← Bool.not_eq_true]
    simp only [isIn, List.any_eq_true, decide_eq_true_eq, not_exists, not_and]
    intro x hx he
    have := models_known
    rw [List.all_eq_true] at this
    exact hne x (among_iff.mp (this x (hl x hx))) he.symm
  obtain ⟨t, ht, hb⟩ := belongs_of h
  rw [h1] at ht
  obtain rfl := Option.some.inj ht
  cases w with
  | gen b tag => rw [Belongs, key genModels (by simp +contextual)] at hb; simp at hb
  | load b tag => rw [Belongs, key loadModels (by simp +contextual)] at hb; simp at hb
  | relay b => rw [Belongs, key busModels (by simp +contextual)] at hb; simp at hb
  | line a b =>
    cases h with
    | line h0 h1' h2 hn =>
      rw [h1] at h1'
      obtain rfl := Option.some.inj h1'
      have := key branchModels (by simp +contextual)
      rw [hn, distr1_kind.2.2.2.1] at this
      simp at this

/-- The place of what becomes of a record. -/
def Out.At : Out → Place → Prop
  | .gen b _, .gen b' _ => b = b'
  | .load b _, .load b' _ => b = b'
  | .busRelay b _, .relay b' => b = b'
  | .branchRelay e _, .line a b => e = (a, b)
  | _, _ => False

theorem made_at {cv : Conv} {ts : List Str} {o : Out} (h : Made cv ts o) {w : Place} {m : String} {ps : List Par}
    (hd : Describes cv ts w m ps) : o.At w := by
  cases h with
  | gen hd' => obtain ⟨rfl, _, _⟩ := describes_unique hd hd'; exact rfl
  | load hd' => obtain ⟨rfl, _, _⟩ := describes_unique hd hd'; exact rfl
  | relay hd' => obtain ⟨rfl, _, _⟩ := describes_unique hd hd'; exact rfl
  | line hd' => obtain ⟨rfl, _, _⟩ := describes_unique hd hd'; exact rfl
  | nothing hu => exact absurd hu (models_all hd)

/-! ## The four lists with their records -/

def genZ (z : List (List Str × Out)) : List (Int × (List Str × Struct)) :=
  z.filterMap (fun x => match x.2 with | .gen b s => some (b, (x.1, s)) | _ => none)
def loadZ (z : List (List Str × Out)) : List (Int × (List Str × Struct)) :=
  z.filterMap (fun x => match x.2 with | .load b s => some (b, (x.1, s)) | _ => none)
def relayZ (z : List (List Str × Out)) : List (Int × (List Str × Struct)) :=
  z.filterMap (fun x => match x.2 with | .busRelay b s => some (b, (x.1, s)) | _ => none)
def lineZ (z : List (List Str × Out)) : List ((Int × Int) × (List Str × Struct)) :=
  z.filterMap (fun x => match x.2 with | .branchRelay b s => some (b, (x.1, s)) | _ => none)

theorem genZ_eq (z : List (List Str × Out)) : gensOf (z.map (·.2)) = (genZ z).map (fun kv => (kv.1, kv.2.2)) := by
  unfold gensOf genZ
  rw [List.filterMap_map, List.map_filterMap]
  congr 1
  funext x
  obtain ⟨r, o⟩ := x
  cases o <;> rfl
theorem loadZ_eq (z : List (List Str × Out)) : loadsOf (z.map (·.2)) = (loadZ z).map (fun kv => (kv.1, kv.2.2)) := by
  unfold loadsOf loadZ
  rw [List.filterMap_map, List.map_filterMap]
  congr 1
  funext x
  obtain ⟨r, o⟩ := x
  cases o <;> rfl
theorem relayZ_eq (z : List (List Str × Out)) :
    busRelaysOf (z.map (·.2)) = (relayZ z).map (fun kv => (kv.1, kv.2.2)) := by
  unfold busRelaysOf relayZ
  rw [List.filterMap_map, List.map_filterMap]
  congr 1
  funext x
  obtain ⟨r, o⟩ := x
  cases o <;> rfl
theorem lineZ_eq (z : List (List Str × Out)) :
    branchRelaysOf (z.map (·.2)) = (lineZ z).map (fun kv => (kv.1, kv.2.2)) := by
  unfold branchRelaysOf lineZ
  rw [List.filterMap_map, List.map_filterMap]
  congr 1
  funext x
  obtain ⟨r, o⟩ := x
  cases o <;> rfl

theorem genZ_mem {z : List (List Str × Out)} {b : Int} {x : List Str × Struct} :
    x ∈ ((genZ z).filter (fun kv => decide (kv.1 = b))).map (·.2) ↔ (x.1, Out.gen b x.2) ∈ z := by
  obtain ⟨r, s⟩ := x
  simp only [genZ, List.mem_map, List.mem_filter, List.mem_filterMap, decide_eq_true_eq, Prod.exists]
  constructor
  · rintro ⟨b', r', s', ⟨⟨r'', o, hz, ho⟩, rfl⟩, he⟩
    cases o <;> simp_all
  · intro h
    exact ⟨b, r, s, ⟨⟨r, .gen b s, h, rfl⟩, rfl⟩, rfl⟩
theorem loadZ_mem {z : List (List Str × Out)} {b : Int} {x : List Str × Struct} :
    x ∈ ((loadZ z).filter (fun kv => decide (kv.1 = b))).map (·.2) ↔ (x.1, Out.load b x.2) ∈ z := by
  obtain ⟨r, s⟩ := x
  simp only [loadZ, List.mem_map, List.mem_filter, List.mem_filterMap, decide_eq_true_eq, Prod.exists]
  constructor
  · rintro ⟨b', r', s', ⟨⟨r'', o, hz, ho⟩, rfl⟩, he⟩
    cases o <;> simp_all
  · intro h
    exact ⟨b, r, s, ⟨⟨r, .load b s, h, rfl⟩, rfl⟩, rfl⟩
theorem relayZ_mem {z : List (List Str × Out)} {b : Int} {x : List Str × Struct} :
    x ∈ ((relayZ z).filter (fun kv => decide (kv.1 = b))).map (·.2) ↔ (x.1, Out.busRelay b x.2) ∈ z := by
  obtain ⟨r, s⟩ := x
  simp only [relayZ, List.mem_map, List.mem_filter, List.mem_filterMap, decide_eq_true_eq, Prod.exists]
  constructor
  · rintro ⟨b', r', s', ⟨⟨r'', o, hz, ho⟩, rfl⟩, he⟩
    cases o <;> simp_all
  · intro h
    exact ⟨b, r, s, ⟨⟨r, .busRelay b s, h, rfl⟩, rfl⟩, rfl⟩
theorem lineZ_mem {z : List (List Str × Out)} {e : Int × Int} {x : List Str × Struct} :
    x ∈ ((lineZ z).filter (fun kv => decide (kv.1 = e))).map (·.2) ↔ (x.1, Out.branchRelay e x.2) ∈ z := by
  obtain ⟨r, s⟩ := x
  simp only [lineZ, List.mem_map, List.mem_filter, List.mem_filterMap, decide_eq_true_eq, Prod.exists]
  constructor
  · rintro ⟨a', b', r', s', ⟨⟨r'', o, hz, ho⟩, rfl⟩, he⟩
    cases o <;> simp_all
  · intro h
    exact ⟨e.1, e.2, r, s, ⟨⟨r, .branchRelay e s, h, rfl⟩, rfl⟩, rfl⟩

/-! ## One bus -/

open DyrSpec (count deviceName Usable)

theorem Usable.sized {extra : Nat} {c : Data} (h : Usable extra c) : Sized c := by
  obtain ⟨h1, h2, _, _⟩ := h
  refine ⟨?_, ?_⟩
  · rw [intVal_get]; exact h1
  · rw [intVal_get]; exact h2

theorem relays_count (c : Data) : relays c = count c "RELAY_NUMBER" := relays_get c

theorem strVal_name (c : Data) (id : String) (g : Nat) : strVal c id g = deviceName c id g := strVal_get c id g

theorem agree_relay {c0 c c' : Data} (h : Agree c0 c)
    (hk : ∀ t (k : Key), ':' ∉ k.name → k.name ≠ "RELAY_NUMBER".toList →
      (∀ s ∈ keysOf DyrSpec.relays, k.name ≠ s.toList) → get c' t k = get c t k) : Agree c0 c' := by
  rintro t k ⟨n, hn, hkn⟩
  rw [hk t k (by rw [hkn]; exact reserved_plain n hn) ?_ ?_]
  · exact h t k ⟨n, hn, hkn⟩
  · rw [hkn]
    intro he
    obtain rfl := String.toList_injective he
    revert hn
    decide
  · intro s hs he
    rw [hkn] at he
    obtain rfl := String.toList_injective he
    obtain ⟨x, hx, hs⟩ := List.mem_flatMap.mp hs
    obtain ⟨p, hp, rfl⟩ := List.mem_map.mp hs
    exact avoids_use relays_names (m := x.1) (ps := x.2) (List.mem_append_left _ hx) hp (List.mem_cons_of_mem _ hn)

theorem filterMap_length {α β : Type} (f : α → Option β) (p : β → Bool) (l : List α) :
    ((l.filterMap f).filter p).length ≤ l.length :=
  (List.length_filter_le _ _).trans (List.length_filterMap_le _ _)

theorem relayStage {cv : Conv} {z : List (List Str × Out)} (hz : ∀ x ∈ z, Made cv x.1 x.2) {b : Int}
    {c : Data} (h0 : 0 ≤ relays c) (hlen : relays c + z.length ≤ 10000000) (lr : List (List Str × Struct))
    (hlr : lr.Perm (((relayZ z).filter (fun kv => decide (kv.1 = b))).map (·.2))) :
    ∃ c', runList (fun x => putBusRelay x.2) lr c = some c' ∧ relays c' = relays c + lr.length ∧
        (∀ (j : Nat) x, lr[j]? = some x → ∀ m ps, Describes cv x.1 (.relay b) m ps → ∀ p ∈ ps,
          (m, p.key) ∉ externalErrors → p.Stored cv x.1 c' (some (relays c + j))) ∧
        ∀ t k, ':' ∉ k.name → k.name ≠ "RELAY_NUMBER".toList →
          ((∃ j < lr.length, k.idx = some (relays c + j)) → ∀ s ∈ keysOf DyrSpec.relays, k.name ≠ s.toList) →
          get c' t k = get c t k := by
  have hm : ∀ x ∈ lr, Made cv x.1 (.busRelay b x.2) := fun x hx => hz _ (relayZ_mem.mp (hlr.mem_iff.mp hx))
  obtain ⟨c', h1, h2, h3, h4⟩ := relays_ok (cv := cv) relays_names1 (f := putBusRelay) lr c (by
    intro x hx
    have := hm x hx
    have hmm := this
    cases this with
    | relay hd => exact ⟨_, _, busRelay_item hmm hd⟩) h0 (by
    have h1 := hlr.length_eq
    rw [List.length_map] at h1
    have h2 := filterMap_length (fun x : List Str × Out => match x.2 with | .busRelay b s => some (b, (x.1, s)) | _ => none)
      (fun kv => decide (kv.1 = b)) z
    have h3 : lr.length ≤ z.length := by rw [h1]; exact h2
    omega)
  refine ⟨c', h1, h2, ?_, h4⟩
  intro j x hj m ps hd p hp hne
  exact h3 j x hj m ps (busRelay_item (hm x (List.mem_of_getElem? hj)) hd) p hp hne

/-- A record that puts a relay at the bus. -/
def IsRelay (cv : Conv) (b : Int) (ts : List Str) : Prop := ∃ m ps, Describes cv ts (.relay b) m ps

open Classical in
theorem relayZ_texts {cv : Conv} {b : Int} : ∀ {z : List (List Str × Out)}, (∀ x ∈ z, Made cv x.1 x.2) →
    (((relayZ z).filter (fun kv => decide (kv.1 = b))).map (·.2)).map (·.1) =
      (z.map (·.1)).filter (fun r => decide (IsRelay cv b r)) := by
  intro z
  induction z with
  | nil => intro _; rfl
  | cons x z ih =>
    intro hz
    have ih := ih (fun y hy => hz y (by simp [hy]))
    have hx := hz x (by simp)
    obtain ⟨r, o⟩ := x
    rw [List.map_cons, List.filter_cons, ← ih]
    have hno : ∀ w m ps, Describes cv r w m ps → (∀ b', w ≠ .relay b') → ¬ IsRelay cv b r := by
      rintro w m ps hd hw ⟨m', ps', hd'⟩
      exact hw b (describes_unique hd hd').1
    cases hx with
    | gen hd =>
      have := hno _ _ _ hd (by simp)
      simp [relayZ, this]
    | load hd =>
      have := hno _ _ _ hd (by simp)
      simp [relayZ, this]
    | line hd =>
      have := hno _ _ _ hd (by simp)
      simp [relayZ, this]
    | nothing hu =>
      have : ¬ IsRelay cv b r := fun ⟨m, ps, hd⟩ => models_all hd hu
      simp [relayZ, this]
    | @relay b' m ps k s hd _ _ _ =>
      by_cases hb : b' = b
      · subst hb
        have : IsRelay cv b' r := ⟨m, ps, hd⟩
        simp [relayZ, this]
      · have : ¬ IsRelay cv b r := by
          rintro ⟨m', ps', hd'⟩
          exact hb (Place.relay.inj (describes_unique hd hd').1)
        simp [relayZ, this, hb]

/-- What a file does to the collection of a bus. -/
structure BusAfter (cv : Conv) (texts : List (List Str)) (b : Int) (c c' : Data) : Prop where
  gens : ∀ pre r post tag m ps p g, texts = pre ++ r :: post → Describes cv r (.gen b tag) m ps →
    IsDevice c "GENERATOR_NUMBER" "GENERATOR_ID" g tag → p ∈ ps → (m, p.key) ∉ externalErrors →
    (∀ r' ∈ pre ++ post, ¬ Gives cv r' (.gen b tag) p.key) → p.Stored cv r c' (some (g : Int))
  loads : ∀ pre r post tag m ps p g, texts = pre ++ r :: post → Describes cv r (.load b tag) m ps →
    IsDevice c "LOAD_NUMBER" "LOAD_ID" g tag → p ∈ ps → (m, p.key) ∉ externalErrors →
    (∀ r' ∈ pre ++ post, ¬ Gives cv r' (.load b tag) p.key) → p.Stored cv r c' (some (g : Int))
  relays : ∃ l : List (List Str), (open Classical in l.Perm (texts.filter (fun r => decide (IsRelay cv b r)))) ∧
    count c' "RELAY_NUMBER" = count c "RELAY_NUMBER" + l.length ∧
    ∀ (j : Nat) r, l[j]? = some r → ∀ m ps, Describes cv r (.relay b) m ps → ∀ p ∈ ps,
      (m, p.key) ∉ externalErrors → p.Stored cv r c' (some (count c "RELAY_NUMBER" + j))
  rest : ∀ t k, ':' ∉ k.name →
    (∀ (g : Nat) (name : String) r, k = ⟨name.toList, some (g : Int)⟩ → r ∈ texts →
      ¬ Gives cv r (.gen b (deviceName c "GENERATOR_ID" g)) name ∧
      ¬ Gives cv r (.load b (deviceName c "LOAD_ID" g)) name) →
    ((∃ r ∈ texts, IsRelay cv b r) → k.name ≠ "RELAY_NUMBER".toList ∧
      ((∃ j : Nat, k.idx = some (count c "RELAY_NUMBER" + j)) → ∀ s ∈ keysOf DyrSpec.relays, k.name ≠ s.toList)) →
    get c' t k = get c t k

theorem gives_of_touch {cv : Conv} {c : Data} {b : Int} {ts : List Str} {K : Key} (h : GenTouch cv c b ts K) :
    ∃ (g : Nat) (name : String), K = ⟨name.toList, some (g : Int)⟩ ∧ Gives cv ts (.gen b (deviceName c "GENERATOR_ID" g)) name := by
  obtain ⟨tag, m, ps, g, hd, hg, hi, p, hp, hn⟩ := h
  refine ⟨g, p.key, ?_, m, ps, ?_, List.mem_map.mpr ⟨p, hp, rfl⟩⟩
  · obtain ⟨nm, ix⟩ := K
    simp only at hi hn
    rw [hi, hn]
  · rw [← strVal_name, (devIndex_some hg).2]
    exact hd

theorem gives_of_loadTouch {cv : Conv} {c : Data} {b : Int} {ts : List Str} {K : Key} (h : LoadTouch cv c b ts K) :
    ∃ (g : Nat) (name : String), K = ⟨name.toList, some (g : Int)⟩ ∧ Gives cv ts (.load b (deviceName c "LOAD_ID" g)) name := by
  obtain ⟨tag, m, ps, g, hd, hg, hi, p, hp, hn⟩ := h
  refine ⟨g, p.key, ?_, m, ps, ?_, List.mem_map.mpr ⟨p, hp, rfl⟩⟩
  · obtain ⟨nm, ix⟩ := K
    simp only at hi hn
    rw [hi, hn]
  · rw [← strVal_name, (devIndex_some hg).2]
    exact hd

theorem mem_keysOf {l : List (String × List Par)} {m : String} {ps : List Par} (hm : (m, ps) ∈ l) {p : Par}
    (hp : p ∈ ps) : p.key ∈ keysOf l :=
  List.mem_flatMap.mpr ⟨(m, ps), hm, List.mem_map.mpr ⟨p, hp, rfl⟩⟩

theorem device_name {c : Data} {num id : String} {g : Nat} {tag : Str} (h : IsDevice c num id g tag) :
    deviceName c id g = tag := by
  obtain ⟨_, _, _, h, _⟩ := h
  unfold deviceName
  rw [h]
  rfl

/-- The position of a record among the results. -/
theorem split_z {z : List (List Str × Out)} {texts pre post : List (List Str)} {r : List Str}
    (hz : z.map (·.1) = texts) (ht : texts = pre ++ r :: post) :
    ∃ z1 o z2, z = z1 ++ (r, o) :: z2 ∧ z1.map (·.1) = pre ∧ z2.map (·.1) = post := by
  rw [ht] at hz
  obtain ⟨z1, z2, rfl, h1, h2⟩ := List.map_eq_append_iff.mp hz
  obtain ⟨x, z3, rfl, h3, h4⟩ := List.map_eq_cons_iff.mp h2
  obtain ⟨a, o⟩ := x
  simp only at h3
  subst h3
  exact ⟨z1, o, z3, rfl, h1, h4⟩

/-- The stages for one bus: generators, relays, loads. -/
theorem stages {cv : Conv} {z : List (List Str × Out)} (hz : ∀ x ∈ z, Made cv x.1 x.2) {b : Int} {c : Data}
    (hu : Usable z.length c) (lg lr ll : List (List Str × Struct))
    (hlg : lg.Perm (((genZ z).filter (fun kv => decide (kv.1 = b))).map (·.2)))
    (hlr : lr.Perm (((relayZ z).filter (fun kv => decide (kv.1 = b))).map (·.2)))
    (hll : ll.Perm (((loadZ z).filter (fun kv => decide (kv.1 = b))).map (·.2))) :
    ∃ c1 c2 c3, runList (fun x => putGen x.2) lg c = some c1 ∧ runList (fun x => putBusRelay x.2) lr c1 = some c2 ∧
      runList (fun x => putLoad x.2) ll c2 = some c3 ∧ BusAfter cv (z.map (·.1)) b c c3 := by
  have hsz := Usable.sized hu
  have sg : ∀ x ∈ lg, StepOk c (putGen x.2) (GenTouch cv c b x.1) :=
    fun x hx => putGen_step hsz (hz _ (genZ_mem.mp (hlg.mem_iff.mp hx)))
  have sl : ∀ x ∈ ll, StepOk c (putLoad x.2) (LoadTouch cv c b x.1) :=
    fun x hx => putLoad_step hsz (hz _ (loadZ_mem.mp (hll.mem_iff.mp hx)))
  obtain ⟨c1, g1, g2, g3⟩ := runList_ok (f := fun x : List Str × Struct => putGen x.2)
    (T := fun x => GenTouch cv c b x.1) sg c (.refl c)
  -- names of generator parameters
  have gname : ∀ {x : List Str × Struct} {K : Key}, GenTouch cv c b x.1 K → K.name ≠ "RELAY_NUMBER".toList ∧
      (∀ s ∈ keysOf DyrSpec.relays, K.name ≠ s.toList) := by
    rintro x K ⟨tag, m, ps, g, hd, hg, hi, p, hp, hn⟩
    refine ⟨?_, ?_⟩
    · rw [hn]; intro he
      exact avoids_use gens_names (gens_mem rfl hd) hp (by rw [String.toList_injective he]; simp)
    · intro s hs he
      rw [hn] at he
      exact avoids_use gens_relays (gens_mem rfl hd) hp (String.toList_injective he ▸ hs)
  have hr1 : relays c1 = relays c := by
    rw [relays_get, relays_get, g3 .int ⟨"RELAY_NUMBER".toList, none⟩ relayNumber_plain]
    rintro ⟨x, _, hT⟩
    exact (gname hT).1 rfl
  obtain ⟨_, _, u3, u4⟩ := hu
  rw [← relays_count] at u3 u4
  obtain ⟨c2, r1, r2, r3, r4⟩ := relayStage hz (b := b) (c := c1) (by rw [hr1]; exact u3) (by rw [hr1]; exact u4) lr hlr
  have r4' : ∀ t (k : Key), ':' ∉ k.name → k.name ≠ "RELAY_NUMBER".toList →
      (∀ s ∈ keysOf DyrSpec.relays, k.name ≠ s.toList) → get c2 t k = get c1 t k :=
    fun t k hk hne hs => r4 t k hk hne (fun _ => hs)
  obtain ⟨c3, l1, l2, l3⟩ := runList_ok (f := fun x : List Str × Struct => putLoad x.2)
    (T := fun x => LoadTouch cv c b x.1) sl c2 (agree_relay g2 r4')
  have lname : ∀ {x : List Str × Struct} {K : Key}, LoadTouch cv c b x.1 K → K.name ≠ "RELAY_NUMBER".toList ∧
      (∀ s ∈ keysOf DyrSpec.relays, K.name ≠ s.toList) ∧
      (∀ m ps, (m, ps) ∈ DyrSpec.gens → ∀ p ∈ ps, K.name ≠ p.key.toList) := by
    rintro x K ⟨tag, m, ps, g, hd, hg, hi, p, hp, hn⟩
    refine ⟨?_, ?_, ?_⟩
    · rw [hn]; intro he
      exact avoids_use loads_names (loads_mem rfl hd) hp (by rw [String.toList_injective he]; simp)
    · intro s hs he
      rw [hn] at he
      exact avoids_use loads_relays (loads_mem rfl hd) hp (String.toList_injective he ▸ hs)
    · intro m' ps' hm' p' hp' he
      rw [hn] at he
      exact avoids_use gens_loads hm' hp' (String.toList_injective he ▸ mem_keysOf (loads_mem rfl hd) hp)
  refine ⟨c1, c2, c3, g1, r1, l1, ?_, ?_, ?_, ?_⟩
  · intro pre r post tag m ps p g ht hd hdev hp hne hothers
    obtain ⟨z1, o, z2, rfl, e1, e2⟩ := split_z rfl ht
    have hmade := hz (r, o) (by simp)
    have hat := made_at hmade hd
    obtain ⟨s, rfl⟩ : ∃ s, o = .gen b s := by
      cases o <;> simp only [Out.At] at hat
      subst hat
      exact ⟨_, rfl⟩
    have hperm : lg.Perm ((r, s) :: (((genZ z1).filter (fun kv => decide (kv.1 = b))).map (·.2) ++
        ((genZ z2).filter (fun kv => decide (kv.1 = b))).map (·.2))) := by
      refine hlg.trans ?_
      have : genZ (z1 ++ (r, .gen b s) :: z2) = genZ z1 ++ (b, (r, s)) :: genZ z2 := by
        simp [genZ, List.filterMap_append, List.filterMap_cons]
      rw [this, List.filter_append, List.filter_cons, if_pos (by simp), List.map_append, List.map_cons]
      exact List.perm_middle
    have hk := key_plain (format_of hd) p hp
    obtain ⟨ca, cb, ha, hb, hget⟩ := runList_decides (f := fun x : List Str × Struct => putGen x.2)
      (T := fun x => GenTouch cv c b x.1) hperm sg (K := ⟨p.key.toList, some (g : Int)⟩) hk (by
        intro x hx hT
        obtain ⟨g', name, hK, hgiv⟩ := gives_of_touch hT
        rw [Key.mk.injEq] at hK
        obtain ⟨hK1, hK2⟩ := hK
        have hgg : g' = g := by
          have := Option.some.inj hK2
          omega
        subst hgg
        rw [device_name hdev, ← String.toList_injective hK1] at hgiv
        refine hothers x.1 ?_ hgiv
        rw [← e1, ← e2, List.mem_append]
        rcases List.mem_append.mp hx with hx | hx
        · exact Or.inl (List.mem_map.mpr ⟨_, genZ_mem.mp hx, rfl⟩)
        · exact Or.inr (List.mem_map.mpr ⟨_, genZ_mem.mp hx, rfl⟩)) (.refl c) g1
    have hst := putGen_stored hsz hmade hd (devIndex_device hdev) hp hne ha hb
    refine stored_congr ?_ hst
    intro t
    have hT : GenTouch cv c b r ⟨p.key.toList, some (g : Int)⟩ :=
      ⟨tag, m, ps, g, hd, devIndex_device hdev, rfl, p, hp, rfl⟩
    rw [l3 t _ hk ?_, r4' t _ hk (gname (x := (r, s)) hT).1 (gname (x := (r, s)) hT).2, hget t]
    rintro ⟨x, _, hx⟩
    exact (lname hx).2.2 m ps (gens_mem rfl hd) p hp rfl
  · intro pre r post tag m ps p g ht hd hdev hp hne hothers
    obtain ⟨z1, o, z2, rfl, e1, e2⟩ := split_z rfl ht
    have hmade := hz (r, o) (by simp)
    have hat := made_at hmade hd
    obtain ⟨s, rfl⟩ : ∃ s, o = .load b s := by
      cases o <;> simp only [Out.At] at hat
      subst hat
      exact ⟨_, rfl⟩
    have hperm : ll.Perm ((r, s) :: (((loadZ z1).filter (fun kv => decide (kv.1 = b))).map (·.2) ++
        ((loadZ z2).filter (fun kv => decide (kv.1 = b))).map (·.2))) := by
      refine hll.trans ?_
      have : loadZ (z1 ++ (r, .load b s) :: z2) = loadZ z1 ++ (b, (r, s)) :: loadZ z2 := by
        simp [loadZ, List.filterMap_append, List.filterMap_cons]
      rw [this, List.filter_append, List.filter_cons, if_pos (by simp), List.map_append, List.map_cons]
      exact List.perm_middle
    have hk := key_plain (format_of hd) p hp
    obtain ⟨ca, cb, ha, hb, hget⟩ := runList_decides (f := fun x : List Str × Struct => putLoad x.2)
      (T := fun x => LoadTouch cv c b x.1) hperm sl (K := ⟨p.key.toList, some (g : Int)⟩) hk (by
        intro x hx hT
        obtain ⟨g', name, hK, hgiv⟩ := gives_of_loadTouch hT
        rw [Key.mk.injEq] at hK
        obtain ⟨hK1, hK2⟩ := hK
        have hgg : g' = g := by
          have := Option.some.inj hK2
          omega
        subst hgg
        rw [device_name hdev, ← String.toList_injective hK1] at hgiv
        refine hothers x.1 ?_ hgiv
        rw [← e1, ← e2, List.mem_append]
        rcases List.mem_append.mp hx with hx | hx
        · exact Or.inl (List.mem_map.mpr ⟨_, loadZ_mem.mp hx, rfl⟩)
        · exact Or.inr (List.mem_map.mpr ⟨_, loadZ_mem.mp hx, rfl⟩)) (agree_relay g2 r4') l1
    have hst := putLoad_stored hsz hmade hd (devIndex_device hdev) hp hne ha hb
    exact stored_congr hget hst
  · refine ⟨lr.map (·.1), ?_, ?_, ?_⟩
    · rw [← relayZ_texts hz]
      exact hlr.map _
    · rw [← relays_count, ← relays_count, List.length_map, ← hr1, ← r2, relays_get, relays_get,
        l3 .int ⟨"RELAY_NUMBER".toList, none⟩ relayNumber_plain]
      rintro ⟨x, _, hx⟩
      exact (lname hx).1 rfl
    · intro j r hj m ps hd p hp hne
      rw [List.getElem?_map, Option.map_eq_some_iff] at hj
      obtain ⟨x, hj, rfl⟩ := hj
      have := r3 j x hj m ps hd p hp hne
      rw [hr1, relays_count] at this
      refine stored_congr ?_ this
      intro t
      refine l3 t _ (key_plain (format_of hd) p hp) ?_
      rintro ⟨y, _, hy⟩
      exact (lname hy).2.1 p.key (mem_keysOf (relays_mem rfl hd) hp) rfl
  · intro t k hk h1 h2
    rw [l3 t k hk ?_]
    · have e12 : get c2 t k = get c1 t k := by
        cases lr with
        | nil => rw [← Option.some.inj r1]
        | cons x lr =>
          have hx := hz _ (relayZ_mem.mp (hlr.mem_iff.mp (List.mem_cons_self ..)))
          have hrel : ∃ r ∈ z.map (·.1), IsRelay cv b r := by
            refine ⟨x.1, List.mem_map.mpr ⟨_, relayZ_mem.mp (hlr.mem_iff.mp (List.mem_cons_self ..)), rfl⟩, ?_⟩
            cases hx with
            | relay hd => exact ⟨_, _, hd⟩
          refine r4 t k hk (h2 hrel).1 ?_
          rintro ⟨j, _, hj⟩
          exact (h2 hrel).2 ⟨j, by rw [hj, hr1, relays_count]⟩
      rw [e12]
      refine g3 t k hk ?_
      rintro ⟨x, hx, hT⟩
      obtain ⟨g, name, hK, hg⟩ := gives_of_touch hT
      exact (h1 g name x.1 hK (List.mem_map.mpr ⟨_, genZ_mem.mp (hlg.mem_iff.mp hx), rfl⟩)).1 hg
    · rintro ⟨x, hx, hT⟩
      obtain ⟨g, name, hK, hg⟩ := gives_of_loadTouch hT
      exact (h1 g name x.1 hK (List.mem_map.mpr ⟨_, loadZ_mem.mp (hll.mem_iff.mp hx), rfl⟩)).2 hg

/-- A record that puts a relay at the branch. -/
def IsLine (cv : Conv) (e : Int × Int) (ts : List Str) : Prop := ∃ m ps, Describes cv ts (.line e.1 e.2) m ps

open Classical in
theorem lineZ_texts {cv : Conv} {e : Int × Int} : ∀ {z : List (List Str × Out)}, (∀ x ∈ z, Made cv x.1 x.2) →
    (((lineZ z).filter (fun kv => decide (kv.1 = e))).map (·.2)).map (·.1) =
      (z.map (·.1)).filter (fun r => decide (IsLine cv e r)) := by
  intro z
  induction z with
  | nil => intro _; rfl
  | cons x z ih =>
    intro hz
    have ih := ih (fun y hy => hz y (by simp [hy]))
    have hx := hz x (by simp)
    obtain ⟨r, o⟩ := x
    rw [List.map_cons, List.filter_cons, ← ih]
    have hno : ∀ w m ps, Describes cv r w m ps → (∀ a' b', w ≠ .line a' b') → ¬ IsLine cv e r := by
      rintro w m ps hd hw ⟨m', ps', hd'⟩
      exact hw e.1 e.2 (describes_unique hd hd').1
    cases hx with
    | gen hd =>
      have := hno _ _ _ hd (by simp)
      simp [lineZ, this]
    | load hd =>
      have := hno _ _ _ hd (by simp)
      simp [lineZ, this]
    | relay hd =>
      have := hno _ _ _ hd (by simp)
      simp [lineZ, this]
    | nothing hu =>
      have : ¬ IsLine cv e r := fun ⟨m, ps, hd⟩ => models_all hd hu
      simp [lineZ, this]
    | @line a' b' m ps s hd _ _ _ =>
      by_cases hb : (a', b') = e
      · subst hb
        have : IsLine cv (a', b') r := ⟨m, ps, hd⟩
        simp [lineZ, this]
      · have : ¬ IsLine cv e r := by
          rintro ⟨m', ps', hd'⟩
          have := (describes_unique hd hd').1
          simp only [Place.line.injEq] at this
          exact hb (Prod.ext this.1 this.2)
        simp [lineZ, this, hb]

/-- What a file does to the collection of a branch. -/
structure BranchAfter (cv : Conv) (texts : List (List Str)) (e : Int × Int) (c c' : Data) : Prop where
  relays : ∃ l : List (List Str), (open Classical in l.Perm (texts.filter (fun r => decide (IsLine cv e r)))) ∧
    count c' "RELAY_NUMBER" = count c "RELAY_NUMBER" + l.length ∧
    ∀ (j : Nat) r, l[j]? = some r → ∀ m ps, Describes cv r (.line e.1 e.2) m ps → ∀ p ∈ ps,
      (m, p.key) ∉ externalErrors → p.Stored cv r c' (some (count c "RELAY_NUMBER" + j))
  rest : ∀ t k, ':' ∉ k.name →
    ((∃ r ∈ texts, IsLine cv e r) → k.name ≠ "RELAY_NUMBER".toList ∧
      ((∃ j : Nat, k.idx = some (count c "RELAY_NUMBER" + j)) → ∀ s ∈ keysOf DyrSpec.lines, k.name ≠ s.toList)) →
    get c' t k = get c t k

theorem lineStage {cv : Conv} {z : List (List Str × Out)} (hz : ∀ x ∈ z, Made cv x.1 x.2) {e : Int × Int}
    {c : Data} (hu : Usable z.length c) (lr : List (List Str × Struct))
    (hlr : lr.Perm (((lineZ z).filter (fun kv => decide (kv.1 = e))).map (·.2))) :
    ∃ c', runList (fun x => putBranchRelay x.2) lr c = some c' ∧ BranchAfter cv (z.map (·.1)) e c c' := by
  have hm : ∀ x ∈ lr, Made cv x.1 (.branchRelay e x.2) := fun x hx => hz _ (lineZ_mem.mp (hlr.mem_iff.mp hx))
  obtain ⟨_, _, u3, u4⟩ := hu
  rw [← relays_count] at u3 u4
  have hd : ∀ x ∈ lr, ∃ m ps, Describes cv x.1 (.line e.1 e.2) m ps := by
    intro x hx
    have := hm x hx
    cases this with
    | line hd => exact ⟨_, _, hd⟩
  obtain ⟨c', h1, h2, h3, h4⟩ := relays_ok (cv := cv) lines_names1 (f := putBranchRelay) lr c (by
    intro x hx
    obtain ⟨m, ps, h⟩ := hd x hx
    exact ⟨m, ps, line_item (hm x hx) h⟩) u3 (by
    have h1 := hlr.length_eq
    rw [List.length_map] at h1
    have h2 := filterMap_length (fun x : List Str × Out => match x.2 with | .branchRelay b s => some (b, (x.1, s)) | _ => none)
      (fun kv => decide (kv.1 = e)) z
    have h3 : lr.length ≤ z.length := by rw [h1]; exact h2
    omega)
  refine ⟨c', h1, ⟨lr.map (·.1), ?_, ?_, ?_⟩, ?_⟩
  · rw [← lineZ_texts hz]
    exact hlr.map _
  · rw [← relays_count, ← relays_count, List.length_map, h2]
  · intro j r hj m ps hd p hp hne
    rw [List.getElem?_map, Option.map_eq_some_iff] at hj
    obtain ⟨x, hj, rfl⟩ := hj
    have := h3 j x hj m ps (line_item (hm x (List.mem_of_getElem? hj)) hd) p hp hne
    rwa [relays_count] at this
  · intro t k hk h2'
    cases lr with
    | nil => rw [← Option.some.inj h1]
    | cons x lr =>
      have hrel : ∃ r ∈ z.map (·.1), IsLine cv e r :=
        ⟨x.1, List.mem_map.mpr ⟨_, lineZ_mem.mp (hlr.mem_iff.mp (List.mem_cons_self ..)), rfl⟩, hd x (by simp)⟩
      refine h4 t k hk (h2' hrel).1 ?_
      rintro ⟨j, _, hj⟩
      exact (h2' hrel).2 ⟨j, by rw [hj, relays_count]⟩

/-- What happens to the structs of a file. -/
theorem external_runs {cv : Conv} {n : Nat} (hn : 0 < n) {bound : Nat → Nat → Nat}
    (hb : ∀ total, BoundOk n total (bound total)) {puts : List Nat} (hp : puts.Perm (List.range n)) (me : Nat)
    (recs : List (Struct × List Str)) {z : List (List Str × Out)} (hz1 : z.map (·.1) = recs.map (·.2))
    (hz2 : storeAll cv recs = some (z.map (·.2))) (hz : ∀ x ∈ z, Made cv x.1 x.2) (busNo : List Int) (ends : List (Int × Int))
    (bus branch : List Data) (hlb : busNo.length = bus.length) (hle : ends.length = branch.length)
    (hub : ∀ c ∈ bus, Usable recs.length c) (hue : ∀ c ∈ branch, Usable recs.length c) :
    ∃ bus' branch', external cv n bound puts me recs busNo ends bus branch = some (bus', branch') ∧
      bus'.length = bus.length ∧ branch'.length = branch.length ∧
      (∀ (i : Nat) b c, busNo[i]? = some b → bus[i]? = some c → ∃ c1 c2 c' lg lr ll, bus'[i]? = some c' ∧
        lg.Perm (((genZ z).filter (fun kv => decide (kv.1 = b))).map (·.2)) ∧
        lr.Perm (((relayZ z).filter (fun kv => decide (kv.1 = b))).map (·.2)) ∧
        ll.Perm (((loadZ z).filter (fun kv => decide (kv.1 = b))).map (·.2)) ∧
        runList (fun x => putGen x.2) lg c = some c1 ∧ runList (fun x => putBusRelay x.2) lr c1 = some c2 ∧
        runList (fun x => putLoad x.2) ll c2 = some c' ∧ BusAfter cv (recs.map (·.2)) b c c') ∧
      (∀ (i : Nat) e c, ends[i]? = some e → branch[i]? = some c → ∃ c' l, branch'[i]? = some c' ∧
        l.Perm (((lineZ z).filter (fun kv => decide (kv.1 = e))).map (·.2)) ∧
        runList (fun x => putBranchRelay x.2) l c = some c' ∧ BranchAfter cv (recs.map (·.2)) e c c') := by
  have hzl : z.length = recs.length := by
    have := congrArg List.length hz1
    simpa using this
  have hz' : ∀ x ∈ z, Made cv x.1 x.2 := hz
  have nonempty : ∀ {K : Type} [DecidableEq K] (zs : List (K × (List Str × Struct))) (b : K),
      ∃ l : List (List Str × Struct), l.Perm ((zs.filter (fun kv => decide (kv.1 = b))).map (·.2)) :=
    fun zs b => ⟨_, List.Perm.refl _⟩
  -- the buses, stage by stage
  obtain ⟨bus1, e1, len1, at1⟩ := spread_ok hn hb hp me putGen (genZ z) busNo bus hlb (by
    intro i b c hib hic l hl
    obtain ⟨c1, _, _, h1, _⟩ := stages hz' (b := b) (c := c) (by rw [hzl]; exact hub c (List.mem_of_getElem? hic))
      l _ _ hl (List.Perm.refl _) (List.Perm.refl _)
    exact ⟨c1, h1⟩)
  have back1 : ∀ (i : Nat) (b : Int) (c1 : Data), busNo[i]? = some b → bus1[i]? = some c1 → ∃ c l,
      bus[i]? = some c ∧ l.Perm (((genZ z).filter (fun kv => decide (kv.1 = b))).map (·.2)) ∧
      runList (fun x => putGen x.2) l c = some c1 := by
    intro i b c1 hib hic
    have hlt : i < bus.length := by
      rw [← len1]
      exact (List.getElem?_eq_some_iff.mp hic).1
    obtain ⟨c', l, h1, h2, h3⟩ := at1 i b bus[i] hib (List.getElem?_eq_getElem hlt)
    rw [hic] at h1
    obtain rfl := Option.some.inj h1
    exact ⟨bus[i], l, List.getElem?_eq_getElem hlt, h2, h3⟩
  obtain ⟨bus2, e2, len2, at2⟩ := spread_ok hn hb hp me putBusRelay (relayZ z) busNo bus1 (by rw [hlb, len1]) (by
    intro i b c1 hib hic l hl
    obtain ⟨c, lg, hc, hlg, hrun⟩ := back1 i b c1 hib hic
    obtain ⟨d1, d2, _, h1, h2, _⟩ := stages hz' (b := b) (c := c) (by rw [hzl]; exact hub c (List.mem_of_getElem? hc))
      lg l _ hlg hl (List.Perm.refl _)
    rw [hrun] at h1
    obtain rfl := Option.some.inj h1
    exact ⟨d2, h2⟩)
  have back2 : ∀ (i : Nat) (b : Int) (c2 : Data), busNo[i]? = some b → bus2[i]? = some c2 → ∃ c c1 lg lr,
      bus[i]? = some c ∧ lg.Perm (((genZ z).filter (fun kv => decide (kv.1 = b))).map (·.2)) ∧
      lr.Perm (((relayZ z).filter (fun kv => decide (kv.1 = b))).map (·.2)) ∧
      runList (fun x => putGen x.2) lg c = some c1 ∧ runList (fun x => putBusRelay x.2) lr c1 = some c2 := by
    intro i b c2 hib hic
    have hlt : i < bus1.length := by
      rw [← len2]
      exact (List.getElem?_eq_some_iff.mp hic).1
    obtain ⟨c', l, h1, h2, h3⟩ := at2 i b bus1[i] hib (List.getElem?_eq_getElem hlt)
    rw [hic] at h1
    obtain rfl := Option.some.inj h1
    obtain ⟨c, lg, hc, hlg, hrun⟩ := back1 i b bus1[i] hib (List.getElem?_eq_getElem hlt)
    exact ⟨c, bus1[i], lg, l, hc, hlg, h2, hrun, h3⟩
  obtain ⟨bus3, e3, len3, at3⟩ := spread_ok hn hb hp me putLoad (loadZ z) busNo bus2 (by rw [hlb, len2, len1]) (by
    intro i b c2 hib hic l hl
    obtain ⟨c, c1, lg, lr, hc, hlg, hlr, hrun, hrun2⟩ := back2 i b c2 hib hic
    obtain ⟨d1, d2, d3, h1, h2, h3, _⟩ := stages hz' (b := b) (c := c)
      (by rw [hzl]; exact hub c (List.mem_of_getElem? hc)) lg lr l hlg hlr hl
    rw [hrun] at h1
    obtain rfl := Option.some.inj h1
    rw [hrun2] at h2
    obtain rfl := Option.some.inj h2
    exact ⟨d3, h3⟩)
  obtain ⟨br, e4, len4, at4⟩ := spread_ok hn hb hp me putBranchRelay (lineZ z) ends branch hle (by
    intro i e c _ hic l hl
    obtain ⟨c', h1, _⟩ := lineStage hz' (e := e) (c := c) (by rw [hzl]; exact hue c (List.mem_of_getElem? hic)) l hl
    exact ⟨c', h1⟩)
  refine ⟨bus3, br, ?_, by rw [len3, len2, len1], len4, ?_, ?_⟩
  · unfold external
    rw [hz2, Option.bind_some, genZ_eq, e1, Option.bind_some, relayZ_eq, e2, Option.bind_some, lineZ_eq, e4,
      Option.bind_some, loadZ_eq, e3, Option.map_some]
  · intro i b c hib hic
    have hlt : i < bus2.length := by
      rw [len2, len1]
      exact (List.getElem?_eq_some_iff.mp hic).1
    obtain ⟨c3, l, h1, h2, h3⟩ := at3 i b bus2[i] hib (List.getElem?_eq_getElem hlt)
    obtain ⟨c0, c1, lg, lr, hc, hlg, hlr, hrun, hrun2⟩ := back2 i b bus2[i] hib (List.getElem?_eq_getElem hlt)
    rw [hic] at hc
    obtain rfl := Option.some.inj hc
    obtain ⟨d1, d2, d3, g1, g2, g3, g4⟩ := stages hz' (b := b) (c := c)
      (by rw [hzl]; exact hub c (List.mem_of_getElem? hic)) lg lr l hlg hlr h2
    rw [hrun] at g1
    obtain rfl := Option.some.inj g1
    rw [hrun2] at g2
    obtain rfl := Option.some.inj g2
    rw [h3] at g3
    obtain rfl := Option.some.inj g3
    rw [hz1] at g4
    exact ⟨_, _, c3, lg, lr, l, h1, hlg, hlr, h2, hrun, hrun2, h3, g4⟩
  · intro i e c hie hic
    obtain ⟨c', l, h1, h2, h3⟩ := at4 i e c hie hic
    obtain ⟨d, g1, g2⟩ := lineStage hz' (e := e) (c := c) (by rw [hzl]; exact hue c (List.mem_of_getElem? hic)) l h2
    rw [h3] at g1
    obtain rfl := Option.some.inj g1
    rw [hz1] at g2
    exact ⟨c', l, h1, h2, h3, g2⟩

/-- The reading of a file with the external interface. -/
theorem external_ok {cv : Conv} {n : Nat} (hn : 0 < n) {bound : Nat → Nat → Nat}
    (hb : ∀ total, BoundOk n total (bound total)) {puts : List Nat} (hp : puts.Perm (List.range n)) (me : Nat)
    (recs : List (Struct × List Str)) (hrecs : ∀ r ∈ recs, Proper cv r.2) (busNo : List Int) (ends : List (Int × Int))
    (bus branch : List Data) (hlb : busNo.length = bus.length) (hle : ends.length = branch.length)
    (hub : ∀ c ∈ bus, Usable recs.length c) (hue : ∀ c ∈ branch, Usable recs.length c) :
    ∃ bus' branch', external cv n bound puts me recs busNo ends bus branch = some (bus', branch') ∧
      bus'.length = bus.length ∧ branch'.length = branch.length ∧
      (∀ (i : Nat) b c, busNo[i]? = some b → bus[i]? = some c →
        ∃ c', bus'[i]? = some c' ∧ BusAfter cv (recs.map (·.2)) b c c') ∧
      (∀ (i : Nat) e c, ends[i]? = some e → branch[i]? = some c →
        ∃ c', branch'[i]? = some c' ∧ BranchAfter cv (recs.map (·.2)) e c c') := by
  obtain ⟨z, hz1, hz2, hz⟩ := storeAll_made cv recs hrecs
  obtain ⟨bus', branch', h1, h2, h3, h4, h5⟩ := external_runs hn hb hp me recs hz1 hz2 hz busNo ends bus branch hlb hle
    hub hue
  refine ⟨bus', branch', h1, h2, h3, ?_, ?_⟩
  · intro i b c hi hc
    obtain ⟨_, _, c', _, _, _, g1, _, _, _, _, _, _, g2⟩ := h4 i b c hi hc
    exact ⟨c', g1, g2⟩
  · intro i e c hi hc
    obtain ⟨c', _, g1, _, _, g2⟩ := h5 i e c hi hc
    exact ⟨c', g1, g2⟩

end GridPACK.Dyr
