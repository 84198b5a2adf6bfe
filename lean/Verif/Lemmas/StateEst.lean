import Verif.Model.StateEst
import Mathlib.Analysis.SpecialFunctions.Trigonometric.Deriv
import Mathlib.Analysis.SpecialFunctions.Sqrt
import Mathlib.Algebra.BigOperators.Group.Finset.Basic
import Mathlib.Tactic.Ring
import Mathlib.Tactic.Linarith
import Mathlib.Tactic.FieldSimp

/-! Auxiliary facts for state estimation. -/
namespace GridPACK.StateEst

/-! ### Matrix entries -/

abbrev Entry.key (e : Entry) : Nat × Nat := (e.1, e.2.1)

/-- Product of a row with a vector, over the values written. -/
def dot (l : List Entry) (d : Nat → Nat → ℝ) : ℝ := (l.map (fun e => e.2.2 * d e.1 e.2.1)).sum

theorem dot_append (l l' : List Entry) (d : Nat → Nat → ℝ) : dot (l ++ l') d = dot l d + dot l' d := by
  simp [dot]

theorem fold_not_mem (l : List Entry) (j c : Nat) (x : ℝ) (h : (j, c) ∉ l.map Entry.key) :
    l.foldl (fun x e => if e.1 = j ∧ e.2.1 = c then e.2.2 else x) x = x := by
  induction l generalizing x with
  | nil => rfl
  | cons a l ih =>
    simp only [List.map_cons, List.mem_cons, not_or] at h
    rw [List.foldl_cons, if_neg, ih x h.2]
    intro q
    exact h.1 (by simp [Entry.key, q.1, q.2])

theorem entryOf_eq_sum (l : List Entry) (h : (l.map Entry.key).Nodup) (j c : Nat) :
    entryOf l j c = (l.map (fun e => if e.1 = j ∧ e.2.1 = c then e.2.2 else 0)).sum := by
  unfold entryOf
  suffices H : ∀ x : ℝ, (j, c) ∈ l.map Entry.key ∨ x = 0 →
      l.foldl (fun x e => if e.1 = j ∧ e.2.1 = c then e.2.2 else x) x =
        (l.map (fun e => if e.1 = j ∧ e.2.1 = c then e.2.2 else 0)).sum from H 0 (Or.inr rfl)
  induction l with
  | nil => intro x hx; rcases hx with hx | hx; · simp at hx
           · simp [hx]
  | cons a l ih =>
    intro x hx
    rw [List.map_cons, List.nodup_cons] at h
    rw [List.foldl_cons, List.map_cons, List.sum_cons]
    by_cases ha : a.1 = j ∧ a.2.1 = c
    · rw [if_pos ha, if_pos ha]
      have hn : (j, c) ∉ l.map Entry.key := by
        have := h.1
        simpa only [Entry.key, ha.1, ha.2] using this
      rw [fold_not_mem l j c _ hn]
      have : (l.map (fun e => if e.1 = j ∧ e.2.1 = c then e.2.2 else 0)).sum = 0 := by
        apply List.sum_eq_zero
        intro y hy
        obtain ⟨e, he, rfl⟩ := List.mem_map.mp hy
        rw [if_neg]
        intro q
        exact hn (List.mem_map.mpr ⟨e, he, by simp [Entry.key, q.1, q.2]⟩)
      rw [this, add_zero]
    · rw [if_neg ha, if_neg ha, zero_add]
      apply ih h.2
      rcases hx with hx | hx
      · left
        rw [List.map_cons, List.mem_cons] at hx
        rcases hx with hx | hx
        · exact absurd ⟨(Prod.mk.inj hx).1.symm, (Prod.mk.inj hx).2.symm⟩ ha
        · exact hx
      · exact Or.inr hx

theorem sum_one (B : Finset Nat) (e : Entry) (d : Nat → Nat → ℝ) (h1 : e.1 ∈ B) (h2 : e.2.1 < 2) :
    (∑ j ∈ B, ∑ c ∈ Finset.range 2, (if e.1 = j ∧ e.2.1 = c then e.2.2 else 0) * d j c) =
      e.2.2 * d e.1 e.2.1 := by
  rw [Finset.sum_eq_single e.1]
  · rw [Finset.sum_eq_single e.2.1]
    · simp
    · intro c _ hc; rw [if_neg (fun q => hc q.2.symm), zero_mul]
    · intro hc; exact absurd (Finset.mem_range.mpr h2) hc
  · intro j _ hj
    apply Finset.sum_eq_zero
    intro c _
    rw [if_neg (fun q => hj q.1.symm), zero_mul]
  · intro hj; exact absurd h1 hj

/-- A row of the assembled matrix times a vector. -/
theorem row_dot (l : List Entry) (h : (l.map Entry.key).Nodup) (B : Finset Nat)
    (hB : ∀ e ∈ l, e.1 ∈ B ∧ e.2.1 < 2) (d : Nat → Nat → ℝ) :
    (∑ j ∈ B, ∑ c ∈ Finset.range 2, entryOf l j c * d j c) = dot l d := by
  simp only [entryOf_eq_sum l h]
  clear h
  induction l with
  | nil => simp [dot]
  | cons a l ih =>
    have ha := hB a (by simp)
    have hl := ih (fun e he => hB e (by simp [he]))
    simp only [List.map_cons, List.sum_cons, add_mul, Finset.sum_add_distrib]
    rw [hl, sum_one B a d ha.1 ha.2]
    simp [dot]

/-! ### Corrections -/

/-- Change of the magnitude and of the angle of bus `j` under the correction `d`. -/
def Net.dv (n : Net) (d : Nat → Nat → ℝ) (j : Nat) : ℝ :=
  if (n.bus j).iso then 0 else if (n.bus j).ref then d j 0 else d j 1
def Net.da (n : Net) (d : Nat → Nat → ℝ) (j : Nat) : ℝ :=
  if (n.bus j).iso then 0 else if (n.bus j).ref then 0 else d j 0

theorem correct_v (n : Net) (s : State) (d : Nat → Nat → ℝ) (t : ℝ) (j : Nat) :
    (n.correct s (fun j c => t * d j c)).v j = s.v j + t * n.dv d j := by
  unfold Net.correct Net.setValues Net.dv
  cases h1 : (n.bus j).iso <;> cases h2 : (n.bus j).ref <;> simp [h1, h2]

theorem correct_a (n : Net) (s : State) (d : Nat → Nat → ℝ) (t : ℝ) (j : Nat) :
    (n.correct s (fun j c => t * d j c)).θ j = s.θ j + t * n.da d j := by
  unfold Net.correct Net.setValues Net.da
  cases h1 : (n.bus j).iso <;> cases h2 : (n.bus j).ref <;> simp [h1, h2]

theorem pair_dot (n : Net) (d : Nat → Nat → ℝ) (j : Nat) (a m : ℝ) (h : (n.bus j).iso = false) :
    dot (n.pair j a m) d = a * n.da d j + m * n.dv d j := by
  unfold Net.pair Net.da Net.dv dot
  cases (n.bus j).ref <;> simp [h]

theorem pair_keys (n : Net) (j : Nat) (a m : ℝ) :
    (n.pair j a m).map Entry.key = if !(n.bus j).ref then [(j, 0), (j, 1)] else [(j, 0)] := by
  unfold Net.pair
  cases (n.bus j).ref <;> simp

theorem pair_nodup (n : Net) (j : Nat) (a m : ℝ) : ((n.pair j a m).map Entry.key).Nodup := by
  rw [pair_keys]; cases (n.bus j).ref <;> simp

theorem pair_mem (n : Net) (j : Nat) (a m : ℝ) (e : Entry) (h : e ∈ n.pair j a m) : e.1 = j ∧ e.2.1 < 2 := by
  unfold Net.pair at h
  cases hr : (n.bus j).ref <;> simp [hr] at h
  · rcases h with rfl | rfl <;> simp
  · subst h; simp

theorem pair_length (n : Net) (j : Nat) (a m : ℝ) :
    (n.pair j a m).length = if !(n.bus j).ref then 2 else 1 := by
  unfold Net.pair
  cases (n.bus j).ref <;> simp

/-! ### Derivatives -/

theorem lin (a d : ℝ) : HasDerivAt (fun t : ℝ => a + t * d) d 0 := by
  simpa using ((hasDerivAt_id (0 : ℝ)).mul_const d).const_add a

theorem d_gc {P : ℝ → ℝ} {p : ℝ} (g b : ℝ) (hP : HasDerivAt P p 0) :
    HasDerivAt (fun t => g * Real.cos (P t) + b * Real.sin (P t))
      ((-(g * Real.sin (P 0)) + b * Real.cos (P 0)) * p) 0 := by
  refine ((hP.cos.const_mul g).add (hP.sin.const_mul b)).congr_deriv ?_
  ring

theorem d_gd {P : ℝ → ℝ} {p : ℝ} (g b : ℝ) (hP : HasDerivAt P p 0) :
    HasDerivAt (fun t => g * Real.sin (P t) - b * Real.cos (P t))
      ((g * Real.cos (P 0) + b * Real.sin (P 0)) * p) 0 := by
  refine ((hP.sin.const_mul g).sub (hP.cos.const_mul b)).congr_deriv ?_
  ring

theorem d_list {α : Type} (l : List α) (f : α → ℝ → ℝ) (d : α → ℝ) (x : ℝ)
    (h : ∀ a ∈ l, HasDerivAt (f a) (d a) x) :
    HasDerivAt (fun y => (l.map (fun a => f a y)).sum) ((l.map d).sum) x := by
  induction l with
  | nil => simpa using hasDerivAt_const x (0 : ℝ)
  | cons a l ih =>
    simp only [List.map_cons, List.sum_cons]
    exact (h a (by simp)).add (ih (fun b hb => h b (by simp [hb])))

/-! ### Loops over the branches of a bus -/

/-- No branch connects a bus to itself. -/
def Net.NoLoops (n : Net) : Prop := ∀ e ∈ n.branches, e.bus1 ≠ e.bus2

/-- At most one branch object between two buses (parallel lines are elements of one branch): the other ends of
the branches of a bus are different. -/
def Net.Simple (n : Net) : Prop := ∀ i, ((n.neighbors i).map (fun e => e.far i)).Nodup

theorem mem_neighbors {n : Net} {i : Nat} {e : Branch} (he : e ∈ n.neighbors i) :
    e ∈ n.branches ∧ (e.bus1 = i ∨ e.bus2 = i) := by
  unfold Net.neighbors at he
  simpa using he

theorem far_ne {n : Net} (hl : n.NoLoops) {i : Nat} {e : Branch} (he : e ∈ n.neighbors i) : e.far i ≠ i := by
  obtain ⟨h1, h2⟩ := mem_neighbors he
  have := hl e h1
  unfold Branch.far
  split
  · next h => rw [← h]; exact fun q => this q.symm
  · next h => exact h

theorem far_iso {n : Net} {i : Nat} {e : Branch} (hok : e.ok n = true) : (n.bus (e.far i)).iso = false := by
  unfold Branch.ok at hok
  unfold Branch.far
  simp at hok
  split
  · exact hok.2
  · exact hok.1

/-- The other end's magnitude and the angle difference. -/
def Branch.seen (e : Branch) (s : State) (i : Nat) : ℝ × ℝ := (s.v (e.far i), s.θ i - s.θ (e.far i))

theorem getVTheta_eq {n : Net} {i : Nat} {e : Branch} (he : e ∈ n.neighbors i)
    (hok : e.ok n = true) (s : State) (w : ℝ × ℝ) : e.getVTheta n s i w = e.seen s i := by
  obtain ⟨_, h2⟩ := mem_neighbors he
  unfold Branch.getVTheta Branch.seen Branch.far
  rw [if_pos hok]
  by_cases h : e.bus1 = i
  · rw [if_pos h.symm, if_pos h, h]
  · rw [if_neg (fun q => h q.symm), if_neg h, if_pos (h2.resolve_left h).symm, h2.resolve_left h]

theorem sumLoop_eq (n : Net) (s : State) (i : Nat) (hn : ∀ e ∈ n.neighbors i, e.ok n = true)
    (w : ℝ × ℝ) (f : ℝ × ℝ → ℝ × ℝ → ℝ) :
    (n.sumLoop s i w f).2 = ((n.neighbors i).map (fun e => f (e.y i) (e.seen s i))).sum := by
  unfold Net.sumLoop
  suffices H : ∀ (l : List Branch), (∀ e ∈ l, e ∈ n.neighbors i) → ∀ (a : (ℝ × ℝ) × ℝ),
      (l.foldl (fun a e =>
        let w := e.getVTheta n s i a.1
        (w, a.2 + f (e.y i) w)) a).2 = a.2 + (l.map (fun e => f (e.y i) (e.seen s i))).sum by
    rw [H _ (fun e he => he), zero_add]
  intro l
  induction l with
  | nil => intro _ a; simp
  | cons e l ih =>
    intro hm a
    have he := hm e (by simp)
    rw [List.foldl_cons, ih (fun e he => hm e (by simp [he]))]
    simp only [getVTheta_eq he (hn e he), List.map_cons, List.sum_cons, add_assoc]

theorem busLoop_eq (n : Net) (s : State) (i : Nat) (hn : ∀ e ∈ n.neighbors i, e.ok n = true)
    (w : ℝ × ℝ) (off : Branch → ℝ × ℝ → List Entry) (ret : Branch → ℝ × ℝ → ℝ × ℝ) :
    (n.busLoop s i w off ret).r1 = ((n.neighbors i).map (fun e => (ret e (e.seen s i)).1)).sum ∧
    (n.busLoop s i w off ret).r2 = ((n.neighbors i).map (fun e => (ret e (e.seen s i)).2)).sum ∧
    (n.busLoop s i w off ret).out = (n.neighbors i).flatMap (fun e => off e (e.seen s i)) := by
  unfold Net.busLoop
  suffices H : ∀ (l : List Branch), (∀ e ∈ l, e ∈ n.neighbors i) → ∀ (a : Acc),
      (l.foldl (fun a e =>
        if e.ok n then
          let w := e.getVTheta n s i a.w
          ({ w := w, r1 := a.r1 + (ret e w).1, r2 := a.r2 + (ret e w).2, out := a.out ++ off e w } : Acc)
        else a) a).r1 = a.r1 + (l.map (fun e => (ret e (e.seen s i)).1)).sum ∧
      (l.foldl (fun a e =>
        if e.ok n then
          let w := e.getVTheta n s i a.w
          ({ w := w, r1 := a.r1 + (ret e w).1, r2 := a.r2 + (ret e w).2, out := a.out ++ off e w } : Acc)
        else a) a).r2 = a.r2 + (l.map (fun e => (ret e (e.seen s i)).2)).sum ∧
      (l.foldl (fun a e =>
        if e.ok n then
          let w := e.getVTheta n s i a.w
          ({ w := w, r1 := a.r1 + (ret e w).1, r2 := a.r2 + (ret e w).2, out := a.out ++ off e w } : Acc)
        else a) a).out = a.out ++ l.flatMap (fun e => off e (e.seen s i)) by
    have := H _ (fun e he => he) { w := w, r1 := 0, r2 := 0, out := [] }
    simpa using this
  intro l
  induction l with
  | nil => intro _ a; simp
  | cons e l ih =>
    intro hm a
    have he := hm e (by simp)
    rw [List.foldl_cons, if_pos (hn e he)]
    have := ih (fun e he => hm e (by simp [he]))
      { w := e.getVTheta n s i a.w, r1 := a.r1 + (ret e (e.getVTheta n s i a.w)).1,
        r2 := a.r2 + (ret e (e.getVTheta n s i a.w)).2, out := a.out ++ off e (e.getVTheta n s i a.w) }
    refine ⟨this.1.trans ?_, this.2.1.trans ?_, this.2.2.trans ?_⟩
    · simp only [getVTheta_eq he (hn e he), List.map_cons, List.sum_cons, add_assoc]
    · simp only [getVTheta_eq he (hn e he), List.map_cons, List.sum_cons, add_assoc]
    · simp only [getVTheta_eq he (hn e he), List.flatMap_cons, List.append_assoc]

/-- What one handled bus measurement is compared with. -/
noncomputable def Net.hBus (n : Net) (s : State) (i : Nat) : BusType → ℝ
  | .VM => s.v i
  | .VA => s.θ i
  | .PI => (((n.neighbors i).map (fun e => s.v (e.far i) * ((e.y i).1 * Real.cos (s.θ i - s.θ (e.far i)) +
      (e.y i).2 * Real.sin (s.θ i - s.θ (e.far i))))).sum + s.v i * (n.bus i).g) * s.v i
  | .QI => (((n.neighbors i).map (fun e => s.v (e.far i) * ((e.y i).1 * Real.sin (s.θ i - s.θ (e.far i)) -
      (e.y i).2 * Real.cos (s.θ i - s.θ (e.far i))))).sum - s.v i * (n.bus i).b) * s.v i
  | .other => 0

theorem busResiduals_eq (n : Net) (s : State) (i : Nat) (hi : (n.bus i).iso = false)
    (hn : ∀ e ∈ n.neighbors i, e.ok n = true) (ht : ∀ m ∈ (n.bus i).meas, m.type ≠ .other) (w : ℝ × ℝ) :
    n.busResiduals s i w = (n.bus i).meas.map (fun m => m.value - n.hBus s i m.type) := by
  unfold Net.busResiduals
  rw [hi, if_pos (by simp)]
  suffices H : ∀ (l : List BusMeas), (∀ m ∈ l, m.type ≠ .other) → ∀ (a : (ℝ × ℝ) × List ℝ),
      (l.foldl (n.busResStep s i) a).2 = a.2 ++ l.map (fun m => m.value - n.hBus s i m.type) by
    rw [H _ ht, List.nil_append]
  intro l
  induction l with
  | nil => intro _ a; simp
  | cons m l ih =>
    intro hm a
    rw [List.foldl_cons, ih (fun m h => hm m (by simp [h])), List.map_cons]
    have h0 := hm m (by simp)
    have : (n.busResStep s i a m).2 = a.2 ++ [m.value - n.hBus s i m.type] := by
      unfold Net.busResStep Net.hBus
      cases h : m.type with
      | VM => rfl
      | VA => rfl
      | PI => simp only [sumLoop_eq n s i hn]; rfl
      | QI => simp only [sumLoop_eq n s i hn]; rfl
      | other => exact absurd h h0
    rw [this, List.append_assoc, List.singleton_append]

end GridPACK.StateEst
