import Verif.Model.DsLoad
import Mathlib.Tactic.Linarith
import Mathlib.Tactic.Positivity
import Mathlib.Tactic.FieldSimp
import Mathlib.Tactic.Ring
import Mathlib.Algebra.BigOperators.Group.List.Basic
import Mathlib.Algebra.BigOperators.Ring.List

/-! Properties C152-C155 and C164: the generators and loads of a bus in the dynamic simulation. -/
namespace GridPACK.DsLoad

/-! ### Specification: a generator of the data -/

/-- A generator with all data: status, power, and the name of its dynamic model (known or not), if any. -/
structure Gen where
  on : ℤ
  p : ℝ
  q : ℝ
  model : Option Bool

/-- The record of a generator. -/
def Gen.record (g : Gen) : GenRec := ⟨some g.on, some g.p, some g.q, g.model⟩

/-- It produces power and has a dynamic model. -/
def Gen.Modelled (g : Gen) : Prop := 0 ≤ g.p ∧ g.model ≠ none

/-- It has to be represented by an admittance: it has no dynamic model, or is a load. -/
def Gen.Static (g : Gen) : Prop := g.p < 0 ∨ g.model = none

/-- The admittance which takes `-(p + i q)` at the voltage `v`. -/
noncomputable def Gen.admittance (v : ℝ) (g : Gen) : ℂ := (-(g.p : ℂ) + g.q * Complex.I) / (v : ℂ) ^ 2

open Classical in
/-- Sum of the admittances of the generators with a property. -/
noncomputable def total (v : ℝ) (c : Gen → Prop) (gs : List Gen) : ℂ :=
  (gs.map fun g => if c g then g.admittance v else 0).sum

/-! ### Lemmas -/

/-- The vectors after a generator with record number `i`. -/
noncomputable def GenVecs.push (v : GenVecs) (i : ℕ) (g : Gen) : GenVecs :=
  open Classical in
  { gstatus := v.gstatus ++ [g.on], pq := v.pq ++ [(g.p, g.q)],
    slots := v.slots ++ (if 0 ≤ g.p then [if g.model = none then none else some i] else []),
    neg := v.neg ++ (if g.p < 0 then [(g.p, g.q)] else []),
    noModel := v.noModel ++ [if 0 ≤ g.p ∧ g.model = none then some (g.p, g.q) else none] }

theorem loadLoop_cons (junk : ℕ → ℤ) (i : ℕ) (p q : ℝ) (v : GenVecs) (g : Gen) (rs : List GenRec) (hi : v.slots.length ≤ i) :
    open Classical in
    loadLoop junk i p q v (g.record :: rs) =
      if g.Modelled ∧ (g.model = some false ∨ v.slots.length < i) then none
      else loadLoop junk (i + 1) g.p g.q (v.push i g) rs := by
  classical
  obtain ⟨on, gp, gq, model⟩ := g
  simp only [loadLoop, Gen.record, Option.getD_some, Gen.Modelled, GenVecs.push]
  by_cases hp : gp ≥ 0
  · have hn : ¬ gp < 0 := not_lt.mpr hp
    have hp' : 0 ≤ gp := hp
    rcases model with _ | k
    · simp [hp', hn]
    · rcases k with _ | _
      · simp [hp', Nat.not_lt.mpr hi]
      · rcases Nat.lt_or_eq_of_le hi with h | h
        · have : ¬ i < v.slots.length + 1 := by omega
          simp [hp', h, this]
        · have h1 : ¬ v.slots.length < i := by omega
          have h2 : i < v.slots.length + 1 := by omega
          subst h
          simp [hp', hn]
  · have hn : gp < 0 := not_le.mp hp
    have hp' : ¬ 0 ≤ gp := hp
    simp [hp', hn]

theorem push_length (v : GenVecs) (i : ℕ) (g : Gen) (hi : v.slots.length ≤ i) : (v.push i g).slots.length ≤ i + 1 := by
  simp only [GenVecs.push, List.length_append]
  split_ifs <;> simp <;> omega

/-- When the loop stays within the vectors. -/
theorem loadLoop_isSome (junk : ℕ → ℤ) (gs : List Gen) : ∀ (i : ℕ) (p q : ℝ) (v : GenVecs), v.slots.length ≤ i →
    ((loadLoop junk i p q v (gs.map Gen.record)).isSome ↔
      (∀ g ∈ gs, g.Modelled → g.model = some true) ∧ (v.slots.length < i → ∀ g ∈ gs, ¬ g.Modelled) ∧
      gs.Pairwise (fun a b => a.p < 0 → ¬ b.Modelled)) := by
  induction gs with
  | nil => intro i p q v hi; simp [loadLoop]
  | cons g gs ih =>
    intro i p q v hi
    rw [List.map_cons, loadLoop_cons _ _ _ _ _ _ _ hi]
    have hl := push_length v i g hi
    have hlt : (v.push i g).slots.length < i + 1 ↔ (v.slots.length < i ∨ g.p < 0) := by
      simp only [GenVecs.push, List.length_append]
      by_cases hp : 0 ≤ g.p
      · have := not_lt.mpr hp; simp [hp, this]
      · have := not_le.mp hp; simp [hp, this]; omega
    split_ifs with h
    · simp only [Option.isSome_none, Bool.false_eq_true, false_iff, not_and]
      intro h1 h2
      obtain ⟨hm, h⟩ := h
      rcases h with h | h
      · have := h1 g List.mem_cons_self hm; rw [h] at this; simp at this
      · exact absurd hm (h2 h g List.mem_cons_self)
    · rw [ih _ _ _ _ hl, hlt, List.pairwise_cons]
      have hk : g.Modelled → g.model = some true := by
        intro hm
        have h3 : g.model ≠ some false := fun e => h ⟨hm, Or.inl e⟩
        obtain ⟨_, h4⟩ := hm
        cases hh : g.model with
        | none => exact absurd hh h4
        | some b => cases b with
          | true => rfl
          | false => exact absurd hh h3
      constructor
      · rintro ⟨h1, h2, h3⟩
        refine ⟨fun x hx => ?_, fun hlt' x hx => ?_, fun x hx hn => h2 (Or.inr hn) x hx, h3⟩
        · rcases List.mem_cons.mp hx with rfl | hx
          · exact hk
          · exact h1 x hx
        · rcases List.mem_cons.mp hx with rfl | hx
          · exact fun hm => h ⟨hm, Or.inr hlt'⟩
          · exact h2 (Or.inl hlt') x hx
      · rintro ⟨h1, h2, h3, h4⟩
        refine ⟨fun x hx => h1 x (List.mem_cons_of_mem _ hx), ?_, h4⟩
        rintro (hc | hc) x hx
        · exact h2 hc x (List.mem_cons_of_mem _ hx)
        · exact h3 x hx hc

open Classical in
/-- Contents of the vectors after the loop. -/
theorem loadLoop_vecs (junk : ℕ → ℤ) (gs : List Gen) : ∀ (i : ℕ) (p q : ℝ) (v v' : GenVecs), v.slots.length ≤ i →
    loadLoop junk i p q v (gs.map Gen.record) = some v' →
    v'.gstatus = v.gstatus ++ gs.map (·.on) ∧ v'.pq = v.pq ++ gs.map (fun g => (g.p, g.q)) ∧
    v'.neg = v.neg ++ (gs.filter fun g => g.p < 0).map (fun g => (g.p, g.q)) ∧
    v'.noModel = v.noModel ++ gs.map (fun g => if 0 ≤ g.p ∧ g.model = none then some (g.p, g.q) else none) ∧
    v'.slots = v.slots ++ ((gs.zipIdx i).filter fun g => 0 ≤ g.1.p).map
      (fun g => if g.1.model = none then none else some g.2) := by
  induction gs with
  | nil => intro i p q v v' _ h; simp only [List.map_nil, loadLoop, Option.some.injEq] at h; subst h; simp
  | cons g gs ih =>
    intro i p q v v' hi h
    rw [List.map_cons, loadLoop_cons _ _ _ _ _ _ _ hi] at h
    split_ifs at h with hc
    obtain ⟨h1, h2, h3, h4, h5⟩ := ih _ _ _ _ _ (push_length v i g hi) h
    refine ⟨?_, ?_, ?_, ?_, ?_⟩
    · rw [h1]; simp [GenVecs.push]
    · rw [h2]; simp [GenVecs.push]
    · rw [h3]; by_cases hn : g.p < 0 <;> simp [GenVecs.push, hn]
    · rw [h4]; simp [GenVecs.push]
    · rw [h5]; by_cases hn : 0 ≤ g.p <;> simp [GenVecs.push, hn]

/-! ### C153: the slots of the generators -/

/-- **C153** (when `load` is defined) Loading the generators of a bus stays within the vectors exactly if every
model of a producing generator is known and no producing generator with a model comes after one with negative
power. -/
theorem C153_load_iff (junk : ℕ → ℤ) (p q : ℝ) (gs : List Gen) :
    (GenVecs.new.load junk p q (gs.map Gen.record)).isSome ↔
      (∀ g ∈ gs, g.Modelled → g.model = some true) ∧ gs.Pairwise (fun a b => a.p < 0 → ¬ b.Modelled) := by
  rw [GenVecs.load, loadLoop_isSome _ _ _ _ _ _ (by simp)]
  simp

/-- **C153** (partial: without generators of negative power and with known models) Loading succeeds, there is one
model per generator, the model of a generator is read from its own data, and every later loop stays within the
vector. -/
theorem C153_slots_partial (junk : ℕ → ℤ) (p q : ℝ) (gs : List Gen) (hp : ∀ g ∈ gs, 0 ≤ g.p)
    (hk : ∀ g ∈ gs, g.model ≠ some false) :
    ∃ v, GenVecs.new.load junk p q (gs.map Gen.record) = some v ∧ v.slots.length = gs.length ∧
      (∀ (i : ℕ) (g : Gen), gs[i]? = some g → v.slots[i]? = some (if g.model = none then none else some i)) ∧
      v.Accessible gs.length := by
  classical
  have hs : (GenVecs.new.load junk p q (gs.map Gen.record)).isSome := by
    rw [C153_load_iff]
    refine ⟨fun g hg hm => ?_, ?_⟩
    · have := hk g hg
      obtain ⟨_, h4⟩ := hm
      cases hh : g.model with
      | none => exact absurd hh h4
      | some b => cases b <;> simp_all
    · exact List.pairwise_of_forall_mem_list (fun a ha b _ hn => absurd (hp a ha) (not_le.mpr hn))
  obtain ⟨v, hv⟩ := Option.isSome_iff_exists.mp hs
  obtain ⟨_, _, _, _, h5⟩ := loadLoop_vecs _ _ _ _ _ _ _ (by simp) hv
  have hf : ((gs.zipIdx 0).filter fun g => 0 ≤ g.1.p) = gs.zipIdx 0 := by
    rw [List.filter_eq_self]
    rintro ⟨g, k⟩ hg
    simpa using hp g (List.fst_mem_of_mem_zipIdx hg)
  rw [hf] at h5
  have hl : v.slots.length = gs.length := by rw [h5]; simp
  refine ⟨v, hv, hl, ?_, Or.inr (fun i hi _ => hl ▸ hi)⟩
  intro i g hg
  rw [h5]
  simp [hg]

/-- **C153 is violated**: if some generator of a bus has negative power and another one produces, then -- if loading
is defined at all -- the vector of models is shorter than the list of generators, and when the last generator is in
service the later loops access the vector beyond its end. -/
theorem C153_negative_violated (junk : ℕ → ℤ) (p q : ℝ) (gs : List Gen) (last : Gen) (hon : last.on ≠ 0)
    (hneg : ∃ g ∈ gs ++ [last], g.p < 0) (hpos : ∃ g ∈ gs ++ [last], 0 ≤ g.p) (v : GenVecs)
    (hv : GenVecs.new.load junk p q ((gs ++ [last]).map Gen.record) = some v) :
    v.slots.length < (gs ++ [last]).length ∧ ¬ v.Accessible (gs ++ [last]).length := by
  classical
  obtain ⟨h1, _, _, _, h5⟩ := loadLoop_vecs _ _ _ _ _ _ _ (by simp) hv
  have hlen : v.slots.length < (gs ++ [last]).length := by
    rw [h5]
    simp only [List.nil_append, List.length_map]
    obtain ⟨g, hg, hn⟩ := hneg
    obtain ⟨k, hk⟩ := List.getElem?_of_mem hg
    have hmem : (g, k) ∈ (gs ++ [last]).zipIdx 0 := List.mk_mem_zipIdx_iff_getElem?.mpr hk
    have := List.length_filter_lt_length_iff_exists (p := fun g : Gen × ℕ => decide (0 ≤ g.1.p)) (l := (gs ++ [last]).zipIdx 0)
    have h := this.mpr ⟨(g, k), hmem, by simpa using hn⟩
    simpa using h
  refine ⟨hlen, ?_⟩
  rintro (hs | hs)
  · rw [h5] at hs
    simp only [List.nil_append, List.map_eq_nil_iff, List.filter_eq_nil_iff] at hs
    obtain ⟨g, hg, hn⟩ := hpos
    obtain ⟨k, hk⟩ := List.getElem?_of_mem hg
    exact hs (g, k) (List.mk_mem_zipIdx_iff_getElem?.mpr hk) (by simpa using hn)
  · have := hs gs.length (by simp) (by rw [h1]; simpa [GenVecs.new] using hon)
    simp only [List.length_append, List.length_singleton] at hlen
    omega

/-- Two generators, one of them a motor, in service: the vectors have one model for two generators. -/
example : ∃ v, GenVecs.new.load (fun _ => 0) 0 0 ([⟨1, 5, 1, some true⟩, ⟨1, -2, 0, none⟩].map Gen.record) = some v ∧
    ¬ v.Accessible 2 := by
  have h : (GenVecs.new.load (fun _ => 0) 0 0 ([⟨1, 5, 1, some true⟩, ⟨1, -2, 0, none⟩].map Gen.record)).isSome := by
    rw [C153_load_iff]; simp [Gen.Modelled]; try norm_num
  obtain ⟨v, hv⟩ := Option.isSome_iff_exists.mp h
  exact ⟨v, hv, (C153_negative_violated _ _ _ [⟨1, 5, 1, some true⟩] ⟨1, -2, 0, none⟩ (by norm_num) (by norm_num) (by norm_num) v hv).2⟩

/-- In the other order already loading leaves the vector. -/
example : GenVecs.new.load (fun _ => 0) 0 0 ([⟨1, -2, 0, none⟩, ⟨1, 5, 1, some true⟩].map Gen.record) = none := by
  rw [← Option.not_isSome_iff_eq_none, C153_load_iff]; norm_num [Gen.Modelled]; simp

example : ∃ v, GenVecs.new.load (fun _ => 0) 0 0 ([⟨1, 2, 0, none⟩, ⟨0, 5, 1, some true⟩].map Gen.record) = some v ∧
    v.slots[1]? = some (some 1) := by
  obtain ⟨v, hv, _, h, _⟩ := C153_slots_partial (fun _ => 0) 0 0 [⟨1, 2, 0, none⟩, ⟨0, 5, 1, some true⟩] (by norm_num) (by simp)
  exact ⟨v, hv, by simpa using h 1 ⟨0, 5, 1, some true⟩ rfl⟩

/-! ### C152: generators as admittances -/

theorem negative_eq (v p q : ℝ) : DsEvents.negative v p q = (-(p : ℂ) + q * Complex.I) / (v : ℂ) ^ 2 := by
  have h : ((v : ℂ) ^ 2) = ((v * v : ℝ) : ℂ) := by push_cast; ring
  rw [h]
  apply Complex.ext
  · rw [Complex.div_ofReal_re]; simp [DsEvents.negative]
  · rw [Complex.div_ofReal_im]; simp [DsEvents.negative]

theorem fold_negative (v : ℝ) (l : List (ℝ × ℝ)) : ∀ a : ℂ,
    l.foldl (fun y g => y + DsEvents.negative v g.1 g.2) a = a + (l.map fun g => DsEvents.negative v g.1 g.2).sum := by
  induction l with
  | nil => intro a; simp
  | cons g l ih => intro a; rw [List.foldl_cons, ih, List.map_cons, List.sum_cons]; ring

theorem total_cons (v : ℝ) (c : Gen → Prop) (g : Gen) (gs : List Gen) :
    open Classical in total v c (g :: gs) = (if c g then g.admittance v else 0) + total v c gs := by
  simp [total]

open Classical in
/-- **C152** (exact account) Once the generators are loaded, the step that adds the generation to the diagonal of a
bus adds every generator in service that has no model or negative power as an admittance, and then once more those
in service with negative power, and also those out of service. -/
theorem C152_account (junk : ℕ → ℤ) (p q : ℝ) (gs : List Gen) (v : GenVecs)
    (hv : GenVecs.new.load junk p q (gs.map Gen.record) = some v) (volt : ℝ) (y : ℂ) :
    (v.setup gs.length volt).pg y = y + total volt (fun g => g.on ≠ 0 ∧ g.Static) gs
      + total volt (fun g => g.on ≠ 0 ∧ g.p < 0) gs + total volt (fun g => g.on = 0 ∧ g.Static) gs := by
  obtain ⟨h1, h2, h3, h4, h5⟩ := loadLoop_vecs _ _ _ _ _ _ _ (by simp) hv
  have hg : (v.setup gs.length volt).gens = gs.map fun g => (decide (g.on ≠ 0), g.p, g.q, (0 : ℂ)) := by
    apply List.ext_getElem
    · simp [GenVecs.setup]
    · intro i hi hi'
      have hi : i < gs.length := by simpa using hi'
      simp [GenVecs.setup, h1, h2, GenVecs.new, hi]
  have hnm : (v.setup gs.length volt).noModel = (gs.filter fun g => 0 ≤ g.p ∧ g.model = none).map fun g => (g.p, g.q) := by
    simp only [GenVecs.setup, h4, List.nil_append]
    clear hv h1 h2 h3 h4 h5 hg
    induction gs with
    | nil => simp
    | cons g gs ih =>
      by_cases hc : 0 ≤ g.p ∧ g.model = none
      · simpa [hc] using ih
      · simpa [hc] using ih
  rw [DsEvents.Setup.pg, hg, hnm]
  simp only [GenVecs.setup, h3, List.nil_append, fold_negative]
  have hfold : ∀ (l : List Gen) (a : ℂ),
      (l.map fun g => (decide (g.on ≠ 0), g.p, g.q, (0 : ℂ))).foldl
        (fun y g => if !g.1 then y else if g.2.1 < 0 then y + DsEvents.negative volt g.2.1 g.2.2.1 else y) a =
      a + total volt (fun g => g.on ≠ 0 ∧ g.p < 0) l := by
    intro l
    induction l with
    | nil => intro a; simp [total]
    | cons g l ih =>
      intro a
      rw [List.map_cons, List.foldl_cons, ih, total_cons]
      by_cases ho : g.on = 0
      · simp [ho]
      · by_cases hp : g.p < 0
        · simp [ho, hp, negative_eq, Gen.admittance]; ring
        · simp [ho, hp]
  rw [hfold]
  clear hv h1 h2 h3 h4 hg hnm hfold
  have : ∀ l : List Gen,
      (((l.filter fun g => g.p < 0).map fun g => (g.p, g.q)).map fun g => DsEvents.negative volt g.1 g.2).sum
      + (((l.filter fun g => 0 ≤ g.p ∧ g.model = none).map fun g => (g.p, g.q)).map fun g => DsEvents.negative volt g.1 g.2).sum
      = total volt (fun g => g.on ≠ 0 ∧ g.Static) l + total volt (fun g => g.on = 0 ∧ g.Static) l := by
    intro l
    induction l with
    | nil => simp [total]
    | cons g l ih =>
      rw [total_cons, total_cons]
      have e : ∀ a b : ℂ, (open Classical in if g.on ≠ 0 ∧ g.Static then g.admittance volt else 0) + a
          + ((open Classical in if g.on = 0 ∧ g.Static then g.admittance volt else 0) + b)
          = (if g.Static then g.admittance volt else 0) + (a + b) := by
        intro a b
        by_cases ho : g.on = 0 <;> by_cases hs : g.Static <;> simp [ho, hs] <;> ring
      refine Eq.trans ?_ (Eq.trans (e _ _).symm (by congr))
      rw [← ih]
      by_cases hp : g.p < 0
      · have hp' : ¬ 0 ≤ g.p := not_le.mpr hp
        simp [hp, hp', Gen.Static, negative_eq, Gen.admittance]; ring
      · have hp' : 0 ≤ g.p := not_lt.mp hp
        by_cases hm : g.model = none
        · simp [hp, hp', hm, Gen.Static, negative_eq, Gen.admittance]; ring
        · simp [hp, hm, Gen.Static]
  rw [add_assoc, this]
  ring

/-- **C152** (partial: no generator in service with negative power, and those out of service all produce and have a
model) Every generator in service without model is represented by its admittance, once, and nothing else is added. -/
theorem C152_admittance_partial (junk : ℕ → ℤ) (p q : ℝ) (gs : List Gen) (v : GenVecs)
    (hv : GenVecs.new.load junk p q (gs.map Gen.record) = some v) (volt : ℝ) (y : ℂ)
    (h1 : ∀ g ∈ gs, g.on ≠ 0 → 0 ≤ g.p) (h2 : ∀ g ∈ gs, g.on = 0 → g.Modelled) :
    (v.setup gs.length volt).pg y = y + total volt (fun g => g.on ≠ 0 ∧ g.Static) gs := by
  rw [C152_account junk p q gs v hv]
  have e1 : total volt (fun g => g.on ≠ 0 ∧ g.p < 0) gs = 0 := by
    rw [total]
    apply List.sum_eq_zero
    intro x hx
    obtain ⟨g, hg, rfl⟩ := List.mem_map.mp hx
    rw [if_neg]
    rintro ⟨ho, hp⟩
    exact absurd (h1 g hg ho) (not_le.mpr hp)
  have e2 : total volt (fun g => g.on = 0 ∧ g.Static) gs = 0 := by
    rw [total]
    apply List.sum_eq_zero
    intro x hx
    obtain ⟨g, hg, rfl⟩ := List.mem_map.mp hx
    rw [if_neg]
    rintro ⟨ho, hs⟩
    obtain ⟨ha, hb⟩ := h2 g hg ho
    rcases hs with hs | hs
    · exact absurd ha (not_le.mpr hs)
    · exact hb hs
  rw [e1, e2]; ring

open Classical in
theorem total_re_nonneg (volt : ℝ) (c : Gen → Prop) (gs : List Gen) (h : ∀ g ∈ gs, c g → g.p ≤ 0) :
    0 ≤ (total volt c gs).re := by
  induction gs with
  | nil => simp [total]
  | cons g gs ih =>
    rw [total_cons, Complex.add_re]
    have h2 := ih (fun x hx => h x (List.mem_cons_of_mem _ hx))
    have : 0 ≤ (if c g then g.admittance volt else 0).re := by
      split_ifs with hc
      · have hp := h g List.mem_cons_self hc
        rw [Gen.admittance, ← negative_eq]
        simp only [DsEvents.negative]
        exact div_nonneg (by linarith) (mul_self_nonneg _)
      · simp
    linarith

theorem total_re_pos (volt : ℝ) (hvolt : volt ≠ 0) (c : Gen → Prop) (gs : List Gen) (h : ∀ g ∈ gs, c g → g.p < 0)
    (hex : ∃ g ∈ gs, c g) : 0 < (total volt c gs).re := by
  induction gs with
  | nil => simp at hex
  | cons g gs ih =>
    rw [total_cons, Complex.add_re]
    have h0 := total_re_nonneg volt c gs (fun x hx hc => (h x (List.mem_cons_of_mem _ hx) hc).le)
    by_cases hc : c g
    · have hp := h g List.mem_cons_self hc
      rw [if_pos hc, Gen.admittance, ← negative_eq]
      have : 0 < (DsEvents.negative volt g.p g.q).re := by
        simp only [DsEvents.negative]
        exact div_pos (by linarith) (mul_self_pos.mpr hvolt)
      linarith
    · obtain ⟨x, hx, hcx⟩ := hex
      rcases List.mem_cons.mp hx with rfl | hx
      · exact absurd hcx hc
      · have := ih (fun x hx => h x (List.mem_cons_of_mem _ hx)) ⟨x, hx, hcx⟩
        simpa [hc] using this

/-- **C152 is violated** for negative generation: as soon as some generator has negative power, in service or not,
and those without model are in service, the bus gets too much conductance: a motor in service counts twice, and one
out of service counts once. -/
theorem C152_negative_violated (junk : ℕ → ℤ) (p q : ℝ) (gs : List Gen) (v : GenVecs)
    (hv : GenVecs.new.load junk p q (gs.map Gen.record) = some v) (volt : ℝ) (hvolt : volt ≠ 0) (y : ℂ)
    (hneg : ∃ g ∈ gs, g.p < 0) (hoff : ∀ g ∈ gs, g.on = 0 → g.p < 0 ∨ g.model ≠ none) :
    (y + total volt (fun g => g.on ≠ 0 ∧ g.Static) gs).re < ((v.setup gs.length volt).pg y).re := by
  rw [C152_account junk p q gs v hv]
  have n1 : ∀ g ∈ gs, (g.on ≠ 0 ∧ g.p < 0) → g.p < 0 := fun g _ h => h.2
  have n2 : ∀ g ∈ gs, (g.on = 0 ∧ g.Static) → g.p < 0 := by
    rintro g hg ⟨ho, hs⟩
    rcases hoff g hg ho with h | h
    · exact h
    · exact hs.resolve_right h
  have a1 := total_re_nonneg volt _ gs (fun g hg h => (n1 g hg h).le)
  have a2 := total_re_nonneg volt _ gs (fun g hg h => (n2 g hg h).le)
  obtain ⟨g, hg, hp⟩ := hneg
  simp only [Complex.add_re]
  by_cases ho : g.on = 0
  · have := total_re_pos volt hvolt _ gs n2 ⟨g, hg, ho, Or.inl hp⟩
    linarith
  · have := total_re_pos volt hvolt _ gs n1 ⟨g, hg, ho, hp⟩
    linarith

/-- **C152 is violated** for generators out of service: a producing generator without model injects its power
although it is out of service. -/
theorem C152_off_violated (junk : ℕ → ℤ) (p q : ℝ) (g : Gen) (hoff : g.on = 0) (hp : 0 < g.p) (hm : g.model = none)
    (volt : ℝ) (hvolt : volt ≠ 0) (y : ℂ) :
    ∃ v, GenVecs.new.load junk p q [g.record] = some v ∧ (v.setup 1 volt).pg y = y + g.admittance volt ∧
      (v.setup 1 volt).pg y ≠ y + total volt (fun g => g.on ≠ 0 ∧ g.Static) [g] := by
  have h : (GenVecs.new.load junk p q ([g].map Gen.record)).isSome := by
    rw [C153_load_iff]; simp [Gen.Modelled, hm]
  obtain ⟨v, hv⟩ := Option.isSome_iff_exists.mp h
  have e := C152_account junk p q [g] v hv volt y
  simp only [total, List.map_cons, List.map_nil, List.sum_cons, List.sum_nil, hoff, Gen.Static, hm, not_lt.mpr hp.le,
    List.length_singleton, ne_eq, not_true_eq_false, false_and, if_false, or_true, and_self, if_true, add_zero] at e
  refine ⟨v, hv, e, ?_⟩
  rw [e]
  simp only [total, hoff, List.map_cons, List.map_nil, List.sum_cons, List.sum_nil, ne_eq, not_true_eq_false, false_and,
    if_false, add_zero]
  intro hc
  have : g.admittance volt = 0 := by simpa using hc
  have hr := congrArg Complex.re this
  rw [Gen.admittance, ← negative_eq] at hr
  simp only [DsEvents.negative, Complex.zero_re, div_eq_zero_iff, neg_eq_zero, mul_self_eq_zero, hp.ne', hvolt, or_self] at hr

example : ∃ v, GenVecs.new.load (fun _ => 0) 0 0 ([⟨1, 2, 1, none⟩, ⟨0, 5, 1, some true⟩].map Gen.record) = some v ∧
    (v.setup 2 1).pg 0 = ⟨-2, 1⟩ := by
  obtain ⟨v, hv, _⟩ := C153_slots_partial (fun _ => 0) 0 0 [⟨1, 2, 1, none⟩, ⟨0, 5, 1, some true⟩] (by norm_num) (by simp)
  have h := C152_admittance_partial _ _ _ _ v hv 1 0 (by norm_num) (by simp [Gen.Modelled])
  refine ⟨v, hv, ?_⟩
  simp only [List.length_cons, List.length_nil] at h
  rw [h]
  apply Complex.ext <;> simp [total, Gen.Static, Gen.admittance]

example : ∃ v, GenVecs.new.load (fun _ => 0) 0 0 ([⟨1, -2, 1, none⟩].map Gen.record) = some v ∧
    (0 + total 1 (fun g => g.on ≠ 0 ∧ g.Static) [⟨1, -2, 1, none⟩]).re < ((v.setup 1 1).pg 0).re := by
  have h : (GenVecs.new.load (fun _ => 0) 0 0 ([⟨1, -2, 1, none⟩].map Gen.record)).isSome := by
    rw [C153_load_iff]; simp [Gen.Modelled]; try norm_num
  obtain ⟨v, hv⟩ := Option.isSome_iff_exists.mp h
  exact ⟨v, hv, C152_negative_violated _ _ _ _ v hv 1 one_ne_zero 0 (by norm_num) (by norm_num)⟩

/-! ### C154: loading a bus again -/

/-- **C154** (partial: when the number of generators and their status have not changed) After a bus is loaded again,
with whatever powers and models, the status of every generator is the one in the data. -/
theorem C154_status_partial (junk : ℕ → ℤ) (p q p' q' : ℝ) (gs gs' : List Gen) (v v' : GenVecs)
    (hv : GenVecs.new.load junk p q (gs.map Gen.record) = some v)
    (hv' : v.load junk p' q' (gs'.map Gen.record) = some v') (hsame : gs'.map (·.on) = gs.map (·.on)) (i : ℕ) (g : Gen)
    (hg : gs'[i]? = some g) : v'.status i = some g.on := by
  obtain ⟨h1, _⟩ := loadLoop_vecs _ _ _ _ _ _ _ (by simp) hv
  obtain ⟨h2, _⟩ := loadLoop_vecs _ _ _ _ _ _ _ (by simp) hv'
  have hi : i < gs'.length := (List.getElem?_eq_some_iff.mp hg).1
  have hl : gs'.length = gs.length := by simpa using congrArg List.length hsame
  rw [GenVecs.status, h2]
  simp only [h1, GenVecs.new, List.nil_append, ← hsame]
  rw [List.getElem?_append_left (by simpa using hi), List.getElem?_map, hg]
  rfl

/-- **C154 is violated**: after a bus is loaded again the status of a generator is the one of the first time; a
generator taken out of service in the data in between stays in service, and one put into service stays out. -/
theorem C154_stale_violated (junk : ℕ → ℤ) (p q p' q' : ℝ) (gs gs' : List Gen) (v v' : GenVecs)
    (hv : GenVecs.new.load junk p q (gs.map Gen.record) = some v)
    (hv' : v.load junk p' q' (gs'.map Gen.record) = some v') (i : ℕ) (g g' : Gen)
    (hg : gs[i]? = some g) (hg' : gs'[i]? = some g') (hne : g.on ≠ g'.on) :
    v'.status i = some g.on ∧ v'.status i ≠ some g'.on := by
  obtain ⟨h1, _⟩ := loadLoop_vecs _ _ _ _ _ _ _ (by simp) hv
  obtain ⟨h2, _⟩ := loadLoop_vecs _ _ _ _ _ _ _ (by simp) hv'
  have hi : i < gs.length := (List.getElem?_eq_some_iff.mp hg).1
  have : v'.status i = some g.on := by
    rw [GenVecs.status, h2]
    simp only [h1, GenVecs.new, List.nil_append]
    rw [List.getElem?_append_left (by simpa using hi), List.getElem?_map, hg]
    rfl
  exact ⟨this, by rw [this]; simpa using hne⟩

/-- A generator of 5 MW taken out of service before the second load is still in service. -/
example : ∃ v v', GenVecs.new.load (fun _ => 0) 0 0 ([⟨1, 5, 1, some true⟩].map Gen.record) = some v ∧
    v.load (fun _ => 0) 0 0 ([⟨0, 5, 1, some true⟩].map Gen.record) = some v' ∧ v'.status 0 = some 1 := by
  obtain ⟨v, hv, _⟩ := C153_slots_partial (fun _ => 0) 0 0 [⟨1, 5, 1, some true⟩] (by norm_num) (by simp)
  have h : (v.load (fun _ => 0) 0 0 ([⟨0, 5, 1, some true⟩].map Gen.record)).isSome := by
    rw [GenVecs.load, loadLoop_isSome _ _ _ _ _ _ (by simp)]; simp
  obtain ⟨v', hv'⟩ := Option.isSome_iff_exists.mp h
  exact ⟨v, v', hv, hv', (C154_stale_violated _ _ _ _ _ _ _ v v' hv hv' 0 ⟨1, 5, 1, some true⟩ ⟨0, 5, 1, some true⟩ rfl rfl
    (by norm_num)).1⟩

/-! ### C155: static and dynamic load -/

/-- A load with all data, in MW and Mvar at unity voltage: constant power, current and admittance. -/
structure Load where
  pl : ℝ
  ql : ℝ
  ip : ℝ
  iq : ℝ
  yp : ℝ
  yq : ℝ
  on : ℤ
  model : LoadModel

/-- The record of a load. -/
def Load.record (d : Load) : LoadRec :=
  ⟨some d.pl, some d.ql, some d.ip, some d.iq, some d.yp, some d.yq, some d.on, d.model⟩

/-- Active power at unity voltage. -/
def Load.p (d : Load) : ℝ := d.pl + d.ip + d.yp

/-- Reactive power at unity voltage. -/
def Load.q (d : Load) : ℝ := d.ql - d.iq - d.yq

/-- Load of a bus: what the loads in service take. -/
noncomputable def served (f : Load → ℝ) (ds : List Load) : ℝ := (ds.map fun d => if d.on ≠ 0 then f d else 0).sum

/-- The dynamic part. -/
def dynOf (ds : List Load) : List (ℝ × ℝ) :=
  ds.filterMap fun d => match d.model with | .dynamic f g => some (f d.p d.q, g d.p d.q) | _ => none

theorem loadsLoop_vecs (ds : List Load) (hc : ∀ d ∈ ds, d.model ≠ .composite) : ∀ (l : Loc) (v : LoadVecs),
    loadsLoop l v (ds.map Load.record) =
      ⟨v.p ++ ds.map Load.p, v.q ++ ds.map Load.q, v.status ++ ds.map (·.on), v.dyn ++ dynOf ds, v.dropped⟩ := by
  induction ds with
  | nil => intro l v; simp [loadsLoop, dynOf]
  | cons d ds ih =>
    intro l v
    have ih := ih (fun x hx => hc x (List.mem_cons_of_mem _ hx))
    have hd := hc d List.mem_cons_self
    cases hm : d.model with
    | composite => exact absurd hm hd
    | none => simp [loadsLoop, Load.record, hm, ih, dynOf, Loc.read, Load.p, Load.q]
    | unknown => simp [loadsLoop, Load.record, hm, ih, dynOf, Loc.read, Load.p, Load.q]
    | dynamic f g => simp [loadsLoop, Load.record, hm, ih, dynOf, Loc.read, Load.p, Load.q]

theorem fold_range {α β : Type} (f : β → Option α → β) (l : List α) (a : β) :
    (List.range l.length).foldl (fun s i => f s l[i]?) a = l.foldl (fun s x => f s (some x)) a := by
  have h : (List.range l.length).map (fun i => l[i]?) = l.map some := by
    apply List.ext_getElem <;> simp
  have h2 := congrArg (List.foldl f a) h
  rwa [List.foldl_map, List.foldl_map] at h2

theorem fold_served (f : Load → ℝ) (ds : List Load) :
    (List.range ds.length).foldl (fun s i => if (ds.map (·.on)).getD i 0 ≠ 0 then s + (ds.map f).getD i 0 else s) 0
      = served f ds := by
  have h := fold_range (fun (s : ℝ) (x : Option Load) => if (x.map (·.on)).getD 0 ≠ 0 then s + (x.map f).getD 0 else s) ds 0
  simp only [List.getD_eq_getElem?_getD, List.getElem?_map]
  rw [h]
  have : ∀ (l : List Load) (a : ℝ), l.foldl (fun s x => if x.on ≠ 0 then s + f x else s) a = a + served f l := by
    intro l
    induction l with
    | nil => intro a; simp [served]
    | cons d l ih =>
      intro a
      rw [List.foldl_cons, ih]
      by_cases ho : d.on = 0 <;> simp [served, ho] <;> ring
  simpa using this ds 0

/-- **C155** (partial: without composite load models) The static load of a bus and its dynamic loads together are
the load in service of the data, in per unit. -/
theorem C155_load_partial (sbase : ℝ) (hs : sbase ≠ 0) (l : Loc) (ds : List Load)
    (hc : ∀ d ∈ ds, d.model ≠ .composite) :
    (staticLoad sbase l (ds.map Load.record)).1 + (dynamicLoad l (ds.map Load.record)).1 / sbase = served Load.p ds / sbase ∧
    (staticLoad sbase l (ds.map Load.record)).2 + (dynamicLoad l (ds.map Load.record)).2 / sbase = served Load.q ds / sbase ∧
    dynamicLoad l (ds.map Load.record) = (((dynOf ds).map (·.1)).sum, ((dynOf ds).map (·.2)).sum) := by
  simp only [staticLoad, dynamicLoad, loadsLoop_vecs ds hc, List.nil_append, Bool.false_eq_true, if_false, List.length_map,
    fold_served]
  refine ⟨?_, ?_, trivial⟩ <;> field_simp <;> ring

theorem loadsLoop_composite (pre post : List Load) (d : Load) (hd : d.model = .composite)
    (hc : ∀ d ∈ pre, d.model ≠ .composite) : ∀ (l : Loc) (v : LoadVecs),
    (loadsLoop l v ((pre ++ d :: post).map Load.record)).dropped = true ∧
    (loadsLoop l v ((pre ++ d :: post).map Load.record)).dyn = v.dyn ++ dynOf pre := by
  induction pre with
  | nil => intro l v; simp [loadsLoop, Load.record, hd, dynOf]
  | cons x pre ih =>
    intro l v
    have ih := ih (fun x hx => hc x (List.mem_cons_of_mem _ hx))
    have hx := hc x List.mem_cons_self
    have e : (x :: pre ++ d :: post).map Load.record = x.record :: (pre ++ d :: post).map Load.record := by simp
    rw [e]
    cases hm : x.model with
    | composite => exact absurd hm hx
    | none =>
      simp only [loadsLoop, Load.record, hm]
      refine ⟨(ih _ _).1, ?_⟩
      rw [(ih _ _).2]; simp [dynOf, hm]
    | unknown =>
      simp only [loadsLoop, Load.record, hm]
      refine ⟨(ih _ _).1, ?_⟩
      rw [(ih _ _).2]; simp [dynOf, hm]
    | dynamic f g =>
      simp only [loadsLoop, Load.record, hm]
      refine ⟨(ih _ _).1, ?_⟩
      rw [(ih _ _).2]; simp [dynOf, hm, Loc.read, Load.p, Load.q]

/-- **C155 is violated** with a composite load model: whatever other loads the bus has, before or after it, the
static load and the dynamic loads of the bus together are zero: all other loads of the bus disappear. -/
theorem C155_composite_violated (sbase : ℝ) (hs : sbase ≠ 0) (l : Loc) (pre post : List Load) (d : Load)
    (hd : d.model = .composite) (hc : ∀ d ∈ pre, d.model ≠ .composite) :
    (staticLoad sbase l ((pre ++ d :: post).map Load.record)).1
      + (dynamicLoad l ((pre ++ d :: post).map Load.record)).1 / sbase = 0 ∧
    (dynamicLoad l ((pre ++ d :: post).map Load.record)).1 = ((dynOf pre).map (·.1)).sum := by
  obtain ⟨h1, h2⟩ := loadsLoop_composite pre post d hd hc l ⟨[], [], [], [], false⟩
  simp only [staticLoad, dynamicLoad, h1, h2, if_true, List.range_zero, List.foldl_nil, List.nil_append]
  refine ⟨?_, trivial⟩
  field_simp
  ring

/-- A load of 50 MW beside a composite load of 30 MW: nothing of it is left. -/
example : (staticLoad 100 ⟨0, 0, 0, 0, 0, 0⟩ ([⟨50, 10, 0, 0, 0, 0, 1, .none⟩, ⟨30, 5, 0, 0, 0, 0, 1, .composite⟩].map Load.record)).1 = 0 ∧
    served Load.p [⟨50, 10, 0, 0, 0, 0, 1, .none⟩] = 50 := by
  have h := (C155_composite_violated 100 (by norm_num) ⟨0, 0, 0, 0, 0, 0⟩ [⟨50, 10, 0, 0, 0, 0, 1, .none⟩] []
    ⟨30, 5, 0, 0, 0, 0, 1, .composite⟩ rfl (by simp))
  constructor
  · have h2 := h.1
    rw [h.2] at h2
    simpa [dynOf] using h2
  · simp [served, Load.p]

/-- A load of 50 MW, half of it dynamic. -/
example : (staticLoad 100 ⟨0, 0, 0, 0, 0, 0⟩ ([⟨50, 10, 0, 0, 0, 0, 1, .dynamic (fun p _ => p / 2) (fun _ _ => 0)⟩].map Load.record)).1
    = 1 / 4 := by
  obtain ⟨h, _, h3⟩ := C155_load_partial 100 (by norm_num) ⟨0, 0, 0, 0, 0, 0⟩
    [⟨50, 10, 0, 0, 0, 0, 1, .dynamic (fun p _ => p / 2) (fun _ _ => 0)⟩] (by simp)
  rw [h3] at h
  simp [dynOf, served, Load.p] at h
  norm_num at h ⊢
  linarith

/-! ### C164: values missing in the data -/

/-- **C164** (partial: for the status of a load) A load without status in the data is in service. -/
theorem C164_status_partial (sbase : ℝ) (l : Loc) (r : LoadRec) (hr : r.stat = none) :
    staticLoad sbase l [r] = staticLoad sbase l [{ r with stat := some 1 }] := by
  obtain ⟨pl, ql, ip, iq, yp, yq, stat, model⟩ := r
  subst hr
  cases model <;> rfl

/-- **C164 is violated** for the power of a load: a load whose constant power is missing in the data takes the whole
power -- constant power, current and admittance -- of the load before it as its constant power. -/
theorem C164_load_violated (sbase : ℝ) (hs : sbase ≠ 0) (l : Loc) (d d' : Load) (hm : d.model = .none) (hm' : d'.model = .none)
    (hon : d.on ≠ 0) (hon' : d'.on ≠ 0) :
    (staticLoad sbase l [d.record, { d'.record with pl := none }]).1 = (d.p + (d.p + d'.ip + d'.yp)) / sbase ∧
    (d.p ≠ 0 → (staticLoad sbase l [d.record, { d'.record with pl := none }]).1 ≠
      served Load.p [d, { d' with pl := 0 }] / sbase) := by
  have h : (staticLoad sbase l [d.record, { d'.record with pl := none }]).1 = (d.p + (d.p + d'.ip + d'.yp)) / sbase := by
    simp [staticLoad, loadsLoop, Load.record, hm, hm', Loc.read, hon, hon', List.range_succ, Load.p]
  refine ⟨h, fun hp => ?_⟩
  rw [h]
  simp only [served, List.map_cons, List.map_nil, List.sum_cons, List.sum_nil, hon, hon', Load.p, ne_eq, not_false_eq_true,
    if_true] at hp ⊢
  intro he
  rw [div_left_inj' hs] at he
  apply hp
  linarith

/-- **C164 is violated** for the power of a generator: a generator without power in the data has the power of the
generator before it. -/
theorem C164_generator_violated (junk : ℕ → ℤ) (p q : ℝ) (g g' : Gen) (hm : g.model = none) (hm' : g'.model = none)
    (hp : 0 ≤ g.p) : ∃ v, GenVecs.new.load junk p q [g.record, { g'.record with pg := none, qg := none }] = some v ∧
    v.pq[1]? = some (g.p, g.q) := by
  refine ⟨_, by simp [GenVecs.load, loadLoop, Gen.record, hm, hm', hp]; rfl, ?_⟩
  simp

example : (staticLoad 100 ⟨0, 0, 0, 0, 0, 0⟩ [Load.record ⟨50, 0, 10, 0, 0, 0, 1, .none⟩,
    { Load.record ⟨0, 0, 1, 0, 0, 0, 1, .none⟩ with pl := none }]).1 = 121 / 100 := by
  rw [(C164_load_violated 100 (by norm_num) _ _ _ rfl rfl (by norm_num) (by norm_num)).1]
  norm_num [Load.p]

end GridPACK.DsLoad
