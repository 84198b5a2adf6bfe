import Verif.Lemmas.SeqRows
import Verif.Lemmas.DyrSteps

/-! Storing the structs of a sequence file. -/
namespace GridPACK.SeqParser
open StringUtils DataCollection Dyr
open RawBus (Val Data get idxOk intVal getInt intVal_get)
open DyrSpec (count deviceName)
open HashDistr (BoundOk)

/-- The names that decide about the index of an element. -/
def seqNames : List String := ["GENERATOR_NUMBER", "GENERATOR_ID", "BRANCH_NUM_ELEMENTS", "BRANCH_CKT"]

def Same (c0 c : Data) : Prop := ∀ t (k : Key), (∃ n ∈ seqNames, k.name = n.toList) → get c t k = get c0 t k

theorem Same.refl (c : Data) : Same c c := fun _ _ _ => rfl

theorem seqIndex_congr {cv : Conv} {c0 c : Data} (h : Same c0 c) {num id : String} (hn : num ∈ seqNames)
    (hid : id ∈ seqNames) (tag : Str) : seqIndex cv c num id tag = seqIndex cv c0 num id tag := by
  unfold seqIndex
  have h1 : intVal c num.toList = intVal c0 num.toList := by
    rw [intVal_get, intVal_get]
    unfold RawBus.getInt
    rw [h .int ⟨num.toList, none⟩ ⟨num, hn, rfl⟩]
  have h2 : ∀ j, strVal c id j = strVal c0 id j := by
    intro j
    rw [strVal_get, strVal_get, h .string ⟨id.toList, some (j : Int)⟩ ⟨id, hid, rfl⟩]
  simp only [h1, h2]

theorem intVal_count (c : Data) (num : String) : intVal c num.toList = count c num := by
  rw [intVal_get]
  rfl

theorem seqIndex_iff {cv : Conv} {c : Data} {num id : String} {tag : Str} {g : Nat} :
    seqIndex cv c num id tag = (g : Int) ↔ IsElement cv c num id g tag := by
  unfold seqIndex IsElement
  rw [intVal_count]
  have hs : ∀ j, strVal c id j = deviceName c id j := fun j => strVal_get c id j
  constructor
  · intro h
    split at h
    · rename_i j hj
      rw [List.find?_range_eq_some] at hj
      obtain rfl : j = g := by exact_mod_cast h
      obtain ⟨h1, h2, h3⟩ := hj
      refine ⟨by simp at h2; omega, by simpa [hs] using h1, fun i hi => by simpa [hs] using h3 i hi⟩
    · exact absurd h (by omega)
  · rintro ⟨h1, h2, h3⟩
    have : (List.range (count c num).toNat).find? (fun j => cv.tag (strVal c id j) = tag) = some g := by
      rw [List.find?_range_eq_some]
      exact ⟨by simpa [hs] using h2, by simp; omega, fun i hi => by simpa [hs] using h3 i hi⟩
    rw [this]

theorem seqIndex_none {cv : Conv} {c : Data} {num id : String} {tag : Str} :
    seqIndex cv c num id tag = -1 ↔ ∀ g, ¬ IsElement cv c num id g tag := by
  constructor
  · intro h g hg
    rw [seqIndex_iff.mpr hg] at h
    omega
  · intro h
    unfold seqIndex
    split
    · rename_i j hj
      exact absurd (seqIndex_iff.mp (by unfold seqIndex; rw [hj])) (h j)
    · rfl

theorem seqIndex_ok {cv : Conv} {c : Data} {num id : String} (h : count c num ≤ 10000000) (tag : Str) :
    idxOk (some (seqIndex cv c num id tag)) := by
  rintro i ⟨⟩
  by_cases hn : seqIndex cv c num id tag = -1
  · rw [hn]; omega
  · obtain ⟨g, hg⟩ : ∃ g : Nat, seqIndex cv c num id tag = g := by
      unfold seqIndex at hn ⊢
      split at hn
      · exact ⟨_, rfl⟩
      · exact absurd rfl hn
    rw [hg]
    have := (seqIndex_iff.mp hg).1
    omega

/-! ### Steps -/

/-- A step that exists, keeps an invariant and changes only the keys in `T`. -/
def Step (I : Data → Prop) (f : Data → Option Data) (T : Key → Prop) : Prop :=
  ∀ c, I c → ∃ c', f c = some c' ∧ I c' ∧ ∀ t k, ':' ∉ k.name → ¬ T k → get c' t k = get c t k

theorem Step.bind {I : Data → Prop} {f g : Data → Option Data} {T T' : Key → Prop} (hf : Step I f T) (hg : Step I g T') :
    Step I (fun c => (f c).bind g) (fun k => T k ∨ T' k) := by
  intro c hc
  obtain ⟨c1, h1, i1, k1⟩ := hf c hc
  obtain ⟨c2, h2, i2, k2⟩ := hg c1 i1
  refine ⟨c2, by simp [h1, h2], i2, fun t k hk hT => ?_⟩
  rw [k2 t k hk (fun h => hT (.inr h)), k1 t k hk (fun h => hT (.inl h))]

theorem Step.mono {I : Data → Prop} {f : Data → Option Data} {T T' : Key → Prop} (hf : Step I f T)
    (h : ∀ k, T k → T' k) : Step I f T' := by
  intro c hc
  obtain ⟨c1, h1, i1, k1⟩ := hf c hc
  exact ⟨c1, h1, i1, fun t k hk hT => k1 t k hk (fun x => hT (h k x))⟩

theorem steps_ok {σ : Type} {I : Data → Prop} {f : σ → Data → Option Data} {T : σ → Key → Prop} {l : List σ}
    (h : ∀ s ∈ l, Step I (f s) (T s)) : Step I (runList f l) (fun k => ∃ s ∈ l, T s k) := by
  induction l with
  | nil => intro c hc; exact ⟨c, rfl, hc, fun _ _ _ _ => rfl⟩
  | cons s l ih =>
    refine (Step.bind (h s (by simp)) (ih (fun x hx => h x (by simp [hx])))).mono ?_
    rintro k (hk | ⟨x, hx, hk⟩)
    · exact ⟨s, by simp, hk⟩
    · exact ⟨x, by simp [hx], hk⟩

theorem steps_decide {σ : Type} {I : Data → Prop} {f : σ → Data → Option Data} {T : σ → Key → Prop} {l rest : List σ}
    {x : σ} (hl : l.Perm (x :: rest)) (h : ∀ s ∈ l, Step I (f s) (T s)) {K : Key} (hK : ':' ∉ K.name)
    (hrest : ∀ s ∈ rest, ¬ T s K) {c c' : Data} (hc : I c) (hr : runList f l c = some c') :
    ∃ ca cb, I ca ∧ f x ca = some cb ∧ ∀ t, get c' t K = get cb t K := by
  obtain ⟨l1, l2, rfl⟩ := List.append_of_mem (hl.symm.subset (List.mem_cons_self ..))
  have hp : (l1 ++ l2).Perm rest := List.Perm.cons_inv (List.perm_middle.symm.trans hl)
  rw [runList_append, Option.bind_eq_some_iff] at hr
  obtain ⟨ca, ha, hr⟩ := hr
  simp only [runList, Option.bind_eq_some_iff] at hr
  obtain ⟨cb, hb, hr⟩ := hr
  obtain ⟨d, hd, ad, _⟩ := steps_ok (fun s hs => h s (by simp [hs])) (l := l1) c hc
  rw [ha] at hd
  obtain rfl := Option.some.inj hd
  obtain ⟨e, he, ae, _⟩ := h x (by simp) ca ad
  rw [hb] at he
  obtain rfl := Option.some.inj he
  obtain ⟨g, hg, _, kg⟩ := steps_ok (fun s hs => h s (by simp [hs])) (l := l2) cb ae
  rw [hr] at hg
  obtain rfl := Option.some.inj hg
  refine ⟨ca, cb, ad, hb, fun t => kg t K hK ?_⟩
  rintro ⟨s, hs, hT⟩
  exact hrest s (hp.subset (by simp [hs])) hT

/-- The distribution of the structs of a table: what happens to the data of one component. -/
structure Spread {κ K : Type} [DecidableEq κ] (t : Table κ) (keyOf : κ → K) (f : Struct → Data → Option Data)
    (T : Data → Struct → Key → Prop) (b : K) (c c' : Data) : Prop where
  keep : ∀ u k, ':' ∉ k.name → (∀ x s, t.look x = some s → keyOf x = b → ¬ T c s k) → get c' u k = get c u k
  gives : ∀ x s k, t.look x = some s → keyOf x = b → ':' ∉ k.name →
    (∀ x' s', t.look x' = some s' → x' ≠ x → keyOf x' = b → ¬ T c s' k) →
    ∃ ca cb, Same c ca ∧ f s ca = some cb ∧ ∀ u, get c' u k = get cb u k

theorem spread_table {κ K : Type} [DecidableEq κ] [DecidableEq K] {n : Nat} (hn : 0 < n) {bound : Nat → Nat → Nat}
    (hb : ∀ total, BoundOk n total (bound total)) {puts : List Nat} (hp : puts.Perm (List.range n)) (me : Nat)
    {f : Struct → Data → Option Data} {t : Table κ} (ht : t.WF) {keyOf : κ → K} {vk : Struct → K}
    (hk : ∀ x s, t.look x = some s → vk s = keyOf x) {orig : List K} {cs : List Data}
    (hlen : orig.length = cs.length) {T : Data → Struct → Key → Prop}
    (hstep : ∀ c ∈ cs, ∀ x s, t.look x = some s → Step (Same c) (f s) (T c s)) :
    ∃ cs', spread n bound puts me f (t.data.map (fun s => (vk s, s))) orig cs = some cs' ∧ cs'.length = cs.length ∧
      ∀ (i : Nat) (b : K) (c : Data), orig[i]? = some b → cs[i]? = some c →
        ∃ c', cs'[i]? = some c' ∧ Same c c' ∧ Spread t keyOf f T b c c' := by
  have hz : t.data.map (fun s => (vk s, s)) =
      (t.data.map (fun s => (vk s, (([] : List Str), s)))).map (fun kv => (kv.1, kv.2.2)) := by
    rw [List.map_map]; rfl
  have hmem : ∀ b (l : List (List Str × Struct)),
      l.Perm (((t.data.map (fun s => (vk s, (([] : List Str), s)))).filter (fun kv => decide (kv.1 = b))).map (·.2)) →
      ∀ x ∈ l, ∃ y, t.look y = some x.2 ∧ keyOf y = b := by
    intro b l hl x hx
    have := hl.subset hx
    simp only [List.mem_map, List.mem_filter, decide_eq_true_eq] at this
    obtain ⟨_, ⟨⟨s, hs, rfl⟩, hb⟩, rfl⟩ := this
    obtain ⟨y, hy⟩ := ht.mem hs
    exact ⟨y, hy, by rw [← hk y s hy]; exact hb⟩
  obtain ⟨cs', h1, h2, h3⟩ := spread_ok hn hb hp me f (t.data.map (fun s => (vk s, (([] : List Str), s)))) orig cs hlen (by
    intro i b c hib hic l hl
    obtain ⟨c', hc', _⟩ := steps_ok (I := Same c) (f := fun x : List Str × Struct => f x.2) (T := fun x => T c x.2)
      (l := l) (fun x hx => by
        obtain ⟨y, hy, _⟩ := hmem b l hl x hx
        exact hstep c (List.mem_of_getElem? hic) y _ hy) c (Same.refl c)
    exact ⟨c', hc'⟩)
  refine ⟨cs', by rw [hz]; exact h1, h2, ?_⟩
  intro i b c hib hic
  obtain ⟨c', l, hc', hl, hr⟩ := h3 i b c hib hic
  have hst : ∀ x ∈ l, Step (Same c) (f x.2) (T c x.2) := by
    intro x hx
    obtain ⟨y, hy, _⟩ := hmem b l hl x hx
    exact hstep c (List.mem_of_getElem? hic) y _ hy
  obtain ⟨d, hd, hs, hkeep⟩ := steps_ok (I := Same c) (f := fun x : List Str × Struct => f x.2) (T := fun x => T c x.2)
      hst c (Same.refl c)
  rw [hr] at hd
  obtain rfl := Option.some.inj hd
  refine ⟨c', hc', hs, ?_, ?_⟩
  · intro u k hkn hT
    refine hkeep u k hkn ?_
    rintro ⟨x, hx, hx'⟩
    obtain ⟨y, hy, hyb⟩ := hmem b l hl x hx
    exact hT y _ hy hyb hx'
  · intro x s k hxs hxb hkn hothers
    obtain ⟨d1, d2, hdata, hd12⟩ := ht.split hxs
    have hvk : vk s = b := by rw [hk x s hxs, hxb]
    have hperm : l.Perm ((([] : List Str), s) ::
        (((d1 ++ d2).map (fun s => (vk s, (([] : List Str), s)))).filter (fun kv => decide (kv.1 = b))).map (·.2)) := by
      refine hl.trans ?_
      rw [hdata]
      simp only [List.map_append, List.map_cons, List.filter_append, List.filter_cons, hvk, decide_true, if_true]
      exact List.perm_middle
    refine steps_decide hperm hst hkn ?_ (Same.refl c) hr
    intro y hy
    simp only [List.mem_map, List.mem_filter, decide_eq_true_eq] at hy
    obtain ⟨_, ⟨⟨s', hs', rfl⟩, hb'⟩, rfl⟩ := hy
    obtain ⟨x', hx', hl'⟩ := hd12 s' hs'
    exact hothers x' s' hl' hx' (by rw [← hk x' s' hl']; exact hb')

/-! ### Members -/

/-- What the theorems need of a list of members: the same name throughout, no test, no colon, no reserved name. -/
def Good (es : List (Entry FSrc)) : Bool :=
  es.all (fun e => plainName e.addKey && plainName e.setKey && decide (e.addKey = e.setKey) &&
    decide (e.guard = none) && !seqNames.contains e.addKey)

structure GoodAt (e : Entry FSrc) : Prop where
  add : ':' ∉ e.addKey.toList
  set : ':' ∉ e.setKey.toList
  same : e.addKey = e.setKey
  guard : e.guard = none
  free : e.addKey ∉ seqNames

theorem Good.at {es : List (Entry FSrc)} (h : Good es = true) : ∀ e ∈ es, GoodAt e := by
  intro e he
  unfold Good at h
  rw [List.all_eq_true] at h
  have := h e he
  simp only [Bool.and_eq_true, decide_eq_true_eq, Bool.not_eq_true', List.contains_eq_mem, decide_eq_false_iff_not] at this
  obtain ⟨⟨⟨⟨h1, h2⟩, h3⟩, h4⟩, h5⟩ := this
  exact ⟨noColon_of h1, noColon_of h2, h3, h4, h5⟩

theorem putIf_keep {cond : Bool} {s : Struct} {idx : Option Int} (hi : idxOk idx) {es : List (Entry FSrc)}
    (hg : Good es = true) {c c' : Data} (h : putIf cond s idx es c = some c') {u : Ty} {K : Key} (hK : ':' ∉ K.name)
    (hne : K.idx = idx → ∀ e ∈ es, K.name ≠ e.addKey.toList) : get c' u K = get c u K := by
  unfold putIf at h
  split at h
  · refine runEntries_other hi (fun e he => ⟨(Good.at hg e he).add, (Good.at hg e he).set⟩) hK ?_ h
    intro h' e he
    exact ⟨hne h' e he, by rw [← (Good.at hg e he).same]; exact hne h' e he⟩
  · obtain rfl := Option.some.inj h
    rfl

theorem putIf_gives {s : Struct} {idx : Option Int} (hi : idxOk idx) {es : List (Entry FSrc)}
    (hg : Good es = true) {c c' : Data} (h : putIf true s idx es c = some c') {k : String} (hk : ':' ∉ k.toList)
    {a : FSrc} (hf : fate FSrc.ty es k = .gives a) : Has c' ⟨k.toList, idx⟩ (a.eval s) := by
  unfold putIf at h
  rw [if_pos rfl] at h
  refine runEntries_gives (fun a v hv => fsrc_ty s a v hv) hi hk rfl
    (fun e he => ⟨(Good.at hg e he).add, (Good.at hg e he).set⟩) (fun e he _ => by rw [(Good.at hg e he).guard]; rfl) hf h

/-- The keys under which the members are stored. -/
def Under (idx : Option Int) (es : List (Entry FSrc)) (K : Key) : Prop := K.idx = idx ∧ ∃ e ∈ es, K.name = e.addKey.toList

theorem putIf_step (c0 : Data) (cond : Bool) (s : Struct) {idx : Option Int} (hi : idxOk idx) {es : List (Entry FSrc)}
    (hg : Good es = true) : Step (Same c0) (putIf cond s idx es) (fun K => cond = true ∧ Under idx es K) := by
  intro c hc
  obtain ⟨c', hc'⟩ : ∃ c', putIf cond s idx es c = some c' := by
    unfold putIf
    split
    · exact runEntries_some hi (fun e he => ⟨by rw [(Good.at hg e he).guard]; rfl, rfl, rfl⟩) c
    · exact ⟨c, rfl⟩
  refine ⟨c', hc', ?_, ?_⟩
  · rintro u k ⟨n, hn, hkn⟩
    rw [← hc u k ⟨n, hn, hkn⟩]
    refine putIf_keep hi hg hc' (by
      rw [hkn]
      have : seqNames.all plainName = true := by decide +kernel
      rw [List.all_eq_true] at this
      exact noColon_of (this n hn)) ?_
    intro _ e he heq
    rw [hkn] at heq
    exact (Good.at hg e he).free (String.toList_injective heq ▸ hn)
  · intro u k hk hT
    cases cond with
    | false =>
      unfold putIf at hc'
      obtain rfl := Option.some.inj hc'
      rfl
    | true => exact putIf_keep hi hg hc' hk (fun h e he hn => hT ⟨rfl, h, e, he, hn⟩)

/-! ### Generators -/

/-- The members of one sequence. -/
def genExtract : Sequence → List (Entry FSrc)
  | .pos => [eDbl "GENERATOR_SEQ_ZRPOS" "zrpos", eDbl "GENERATOR_SEQ_ZXPOS" "zxpos"]
  | .neg => [eDbl "GENERATOR_SEQ_ZRNEG" "zrneg", eDbl "GENERATOR_SEQ_ZXNEG" "zxneg"]
  | .zero => [eDbl "GENERATOR_SEQ_RZERO" "rzero", eDbl "GENERATOR_SEQ_XZERO" "xzero"]

/-- The index of a generator. -/
def genIdx (cv : Conv) (c : Data) (tag : Str) : Option Int :=
  some (seqIndex cv c "GENERATOR_NUMBER" "GENERATOR_ID" tag)

theorem putGen_eq (cv : Conv) (s : Struct) (c : Data) : putGen cv s c =
    (putIf (flag s (useOf .pos)) s (genIdx cv c (s .string "gen_id")) (genExtract .pos) c).bind (fun d =>
      (putIf (flag s (useOf .neg)) s (genIdx cv c (s .string "gen_id")) (genExtract .neg) d).bind
        (putIf (flag s (useOf .zero)) s (genIdx cv c (s .string "gen_id")) (genExtract .zero))) := rfl

theorem genExtract_good (q : Sequence) : Good (genExtract q) = true := by cases q <;> decide +kernel

theorem genIdx_congr {cv : Conv} {c0 c : Data} (h : Same c0 c) (s : Struct) :
    genIdx cv c (s .string "gen_id") = genIdx cv c0 (s .string "gen_id") :=
  congrArg some (seqIndex_congr h (by decide) (by decide) _)

def GenTouch (cv : Conv) (c : Data) (s : Struct) (K : Key) : Prop :=
  ∃ q, flag s (useOf q) = true ∧ Under (genIdx cv c (s .string "gen_id")) (genExtract q) K

theorem putGen_step {cv : Conv} {c0 : Data} (hs : count c0 "GENERATOR_NUMBER" ≤ 10000000) (s : Struct) :
    Step (Same c0) (putGen cv s) (GenTouch cv c0 s) := by
  intro c hc
  rw [putGen_eq, genIdx_congr hc s]
  have hi := seqIndex_ok (cv := cv) (id := "GENERATOR_ID") hs (s .string "gen_id")
  have hstep := fun q => putIf_step c0 (flag s (useOf q)) s hi (genExtract_good q)
  obtain ⟨c', h1, h2, h3⟩ := ((hstep .pos).bind ((hstep .neg).bind (hstep .zero))) c hc
  refine ⟨c', h1, h2, fun u k hk hT => h3 u k hk ?_⟩
  rintro (h | h | h)
  · exact hT ⟨.pos, h⟩
  · exact hT ⟨.neg, h⟩
  · exact hT ⟨.zero, h⟩

theorem putGen_gives {cv : Conv} {c0 : Data} (hs : count c0 "GENERATOR_NUMBER" ≤ 10000000) {s : Struct} {ca cb : Data}
    (ha : Same c0 ca) (h : putGen cv s ca = some cb) {q : Sequence} (hq : flag s (useOf q) = true) :
    Has cb ⟨(genNames q).1.toList, genIdx cv c0 (s .string "gen_id")⟩ ⟨.double, s .double (rOf q)⟩ ∧
    Has cb ⟨(genNames q).2.toList, genIdx cv c0 (s .string "gen_id")⟩ ⟨.double, s .double (xOf q)⟩ := by
  rw [putGen_eq, genIdx_congr ha s] at h
  have hi : idxOk (genIdx cv c0 (s .string "gen_id")) := seqIndex_ok hs _
  obtain ⟨c1, h1, h⟩ := Option.bind_eq_some_iff.mp h
  obtain ⟨c2, h2, h3⟩ := Option.bind_eq_some_iff.mp h
  have hgood := genExtract_good
  have hcol : ∀ q, ':' ∉ (genNames q).1.toList ∧ ':' ∉ (genNames q).2.toList := by
    intro q; cases q <;> exact ⟨noColon_of (by decide +kernel), noColon_of (by decide +kernel)⟩
  have hne : ∀ q q', q ≠ q' → ∀ e ∈ genExtract q', (genNames q).1.toList ≠ e.addKey.toList ∧
      (genNames q).2.toList ≠ e.addKey.toList := by
    have : ∀ q q', q ≠ q' → ∀ e ∈ genExtract q', (genNames q).1 ≠ e.addKey ∧ (genNames q).2 ≠ e.addKey := by
      intro q q' hqq
      cases q <;> cases q' <;> first | exact absurd rfl hqq | simp [genExtract, genNames, eDbl]
    intro q q' hqq e he
    exact ⟨fun hx => (this q q' hqq e he).1 (String.toList_injective hx),
      fun hx => (this q q' hqq e he).2 (String.toList_injective hx)⟩
  have hgive : ∀ q d d', putIf true s (genIdx cv c0 (s .string "gen_id")) (genExtract q) d = some d' →
      Has d' ⟨(genNames q).1.toList, genIdx cv c0 (s .string "gen_id")⟩ ⟨.double, s .double (rOf q)⟩ ∧
      Has d' ⟨(genNames q).2.toList, genIdx cv c0 (s .string "gen_id")⟩ ⟨.double, s .double (xOf q)⟩ := by
    intro q d d' hd
    exact ⟨putIf_gives (a := .field .double (rOf q)) hi (hgood q) hd (hcol q).1 (by cases q <;> decide +kernel),
      putIf_gives (a := .field .double (xOf q)) hi (hgood q) hd (hcol q).2 (by cases q <;> decide +kernel)⟩
  have hkeep : ∀ q q' (v w : AnyVal) d d' cond, q ≠ q' →
      putIf cond s (genIdx cv c0 (s .string "gen_id")) (genExtract q') d = some d' →
      (Has d ⟨(genNames q).1.toList, genIdx cv c0 (s .string "gen_id")⟩ v ∧
        Has d ⟨(genNames q).2.toList, genIdx cv c0 (s .string "gen_id")⟩ w) →
      Has d' ⟨(genNames q).1.toList, genIdx cv c0 (s .string "gen_id")⟩ v ∧
        Has d' ⟨(genNames q).2.toList, genIdx cv c0 (s .string "gen_id")⟩ w := by
    intro q q' v w d d' cond hqq hd ⟨ho1, ho2⟩
    exact ⟨(putIf_keep hi (hgood q') hd (hcol q).1 (fun _ e he => (hne q q' hqq e he).1)).trans ho1,
      (putIf_keep hi (hgood q') hd (hcol q).2 (fun _ e he => (hne q q' hqq e he).2)).trans ho2⟩
  cases q with
  | pos =>
    rw [hq] at h1
    exact hkeep _ .zero _ _ _ _ _ (by decide) h3 (hkeep _ .neg _ _ _ _ _ (by decide) h2 (hgive _ _ _ h1))
  | neg =>
    rw [hq] at h2
    exact hkeep _ .zero _ _ _ _ _ (by decide) h3 (hgive _ _ _ h2)
  | zero =>
    rw [hq] at h3
    exact hgive _ _ _ h3

/-! ### Buses -/

def negExtract : List (Entry FSrc) := [eDbl "BUS_SEQ_GNEG" "gneg", eDbl "BUS_SEQ_BNEG" "bneg"]
def zeroExtract : List (Entry FSrc) := [eDbl "BUS_SEQ_GZERO" "gzero", eDbl "BUS_SEQ_BZERO" "bzero"]

def BusTouch (_ : Data) (s : Struct) (K : Key) : Prop :=
  (flag s "use_neg" = true ∧ Under none negExtract K) ∨ (flag s "use_zero" = true ∧ Under none zeroExtract K)

theorem idxOk_none : idxOk none := fun _ h => by cases h

theorem putBus_step (c0 : Data) (s : Struct) : Step (Same c0) (putBus s) (BusTouch c0 s) :=
  (putIf_step c0 (flag s "use_neg") s idxOk_none (es := negExtract) (by decide +kernel)).bind
    (putIf_step c0 (flag s "use_zero") s idxOk_none (es := zeroExtract) (by decide +kernel))

theorem putBus_gives {s : Struct} {ca cb : Data} (h : putBus s ca = some cb) (hn : flag s "use_neg" = true)
    (hz : flag s "use_zero" = false) :
    Has cb ⟨"BUS_SEQ_GNEG".toList, none⟩ ⟨.double, s .double "gneg"⟩ ∧
    Has cb ⟨"BUS_SEQ_BNEG".toList, none⟩ ⟨.double, s .double "bneg"⟩ := by
  unfold putBus at h
  rw [hn, hz] at h
  obtain ⟨c1, h1, h2⟩ := Option.bind_eq_some_iff.mp h
  obtain rfl : c1 = cb := Option.some.inj h2
  exact ⟨putIf_gives (a := .field .double "gneg") (es := negExtract) idxOk_none (by decide +kernel) h1
      (noColon_of (by decide +kernel)) (by decide +kernel),
    putIf_gives (a := .field .double "bneg") (es := negExtract) idxOk_none (by decide +kernel) h1
      (noColon_of (by decide +kernel)) (by decide +kernel)⟩

/-! ### Branches -/

def branchIdx (cv : Conv) (c : Data) (tag : Str) : Option Int :=
  some (seqIndex cv c "BRANCH_NUM_ELEMENTS" "BRANCH_CKT" tag)

theorem branchIdx_congr {cv : Conv} {c0 c : Data} (h : Same c0 c) (s : Struct) :
    branchIdx cv c (s .string "branch_id") = branchIdx cv c0 (s .string "branch_id") :=
  congrArg some (seqIndex_congr h (by decide) (by decide) _)

/-- The members stored for a branch. -/
def branchExtract (s : Struct) : List (Entry FSrc) :=
  if flag s "is_xform" then xformExtract ++ (if flag s "three_winding" then threeExtract else twoExtract)
  else lineExtract

theorem putIf_append (s : Struct) (idx : Option Int) (es es' : List (Entry FSrc)) (c : Data) :
    putIf true s idx (es ++ es') c = (putIf true s idx es c).bind (putIf true s idx es') := by
  have : ∀ es c, putIf true s idx es c = runEntries (fun f => some (FSrc.eval s f)) 0 idx es c := by
    intro es c; unfold putIf; rw [if_pos rfl]
  rw [this, this, show putIf true s idx es' = _ from funext (this es')]
  induction es generalizing c with
  | nil => rfl
  | cons x l ih =>
    simp only [List.cons_append, runEntries]
    cases runEntry (fun f => some (FSrc.eval s f)) 0 idx x c with
    | none => rfl
    | some d => simp [ih]

theorem putBranch_eq (cv : Conv) (s : Struct) (c : Data) :
    putBranch cv s c = putIf true s (branchIdx cv c (s .string "branch_id")) (branchExtract s) c := by
  unfold putBranch branchExtract branchIdx
  split
  · rw [putIf_append]
    split <;> rfl
  · rfl

theorem branchExtract_cases (s : Struct) {P : List (Entry FSrc) → Prop} (h1 : P lineExtract)
    (h2 : P (xformExtract ++ twoExtract)) (h3 : P (xformExtract ++ threeExtract)) : P (branchExtract s) := by
  unfold branchExtract
  split
  · split
    · exact h3
    · exact h2
  · exact h1

theorem branchExtract_good (s : Struct) : Good (branchExtract s) = true :=
  branchExtract_cases s (P := fun es => Good es = true) (by decide +kernel) (by decide +kernel) (by decide +kernel)

def BranchTouch (cv : Conv) (c : Data) (s : Struct) (K : Key) : Prop :=
  Under (branchIdx cv c (s .string "branch_id")) (branchExtract s) K

theorem putBranch_step {cv : Conv} {c0 : Data} (hs : count c0 "BRANCH_NUM_ELEMENTS" ≤ 10000000) (s : Struct) :
    Step (Same c0) (putBranch cv s) (BranchTouch cv c0 s) := by
  intro c hc
  rw [putBranch_eq, branchIdx_congr hc s]
  obtain ⟨c', h1, h2, h3⟩ := putIf_step c0 true s (seqIndex_ok (cv := cv) (id := "BRANCH_CKT") hs (s .string "branch_id"))
    (branchExtract_good s) c hc
  exact ⟨c', h1, h2, fun u k hk hT => h3 u k hk (fun h => hT h.2)⟩

theorem extract_tab {s : Struct} {r : BranchRow} (hx : flag s "is_xform" = r.1)
    (hw : r.1 = true → flag s "three_winding" = three r.2) :
    (∀ p ∈ tabOf r, fate FSrc.ty (branchExtract s) p.1 = .gives (.field .double p.2.1) ∧ plainName p.1 = true) ∧
    (r.1 = true → ∀ p ∈ wholeTab, fate FSrc.ty (branchExtract s) p.1 = .gives (.field .int p.2.1) ∧
      plainName p.1 = true) := by
  obtain ⟨x, r⟩ := r
  simp only at hx hw
  unfold branchExtract
  rw [hx]
  cases x
  · exact ⟨by
      show ∀ p ∈ lineTab, fate FSrc.ty lineExtract p.1 = .gives (.field .double p.2.1) ∧ plainName p.1 = true
      decide +kernel, by simp⟩
  · rw [hw rfl]
    simp only [tabOf, if_true]
    cases h : three r
    · simp only [Bool.false_eq_true, if_false]
      exact ⟨by decide +kernel, fun _ => by decide +kernel⟩
    · simp only [if_true]
      exact ⟨by decide +kernel, fun _ => by decide +kernel⟩

theorem putBranch_gives {cv : Conv} {c0 : Data} (hs : count c0 "BRANCH_NUM_ELEMENTS" ≤ 10000000) {s : Struct}
    {ca cb : Data} (ha : Same c0 ca) (h : putBranch cv s ca = some cb) {k : String} (hk : plainName k = true) {a : FSrc}
    (hf : fate FSrc.ty (branchExtract s) k = .gives a) :
    Has cb ⟨k.toList, branchIdx cv c0 (s .string "branch_id")⟩ (a.eval s) := by
  rw [putBranch_eq, branchIdx_congr ha s] at h
  exact putIf_gives (seqIndex_ok hs _) (branchExtract_good s) h (noColon_of hk) hf

end GridPACK.SeqParser
