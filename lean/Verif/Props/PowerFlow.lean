import Verif.Model.PowerFlow
import Mathlib.Analysis.SpecialFunctions.Trigonometric.Deriv
import Mathlib.Data.Complex.Basic
import Mathlib.Data.Complex.BigOperators
import Mathlib.Tactic.Ring
import Mathlib.Tactic.Linarith
import Mathlib.Tactic.FieldSimp

/-! C46: the Jacobian is the derivative of the mismatch.  C82: the mismatch is the complex power balance.
C83: block sizes fit. -/
namespace GridPACK.PowerFlow

/-- Change the voltage variable of bus `j`: `c = 0` the angle, otherwise the magnitude. -/
noncomputable def State.set (s : State) (j c : Nat) (x : ℝ) : State :=
  if c = 0 then { s with θ := Function.update s.θ j x } else { s with v := Function.update s.v j x }

/-- The voltage variable of bus `j`. -/
def State.get (s : State) (j c : Nat) : ℝ := if c = 0 then s.θ j else s.v j

/-- Element `r` of the mismatch block of bus `i`. -/
noncomputable def Net.mismatch (n : Net) (s : State) (i r : Nat) : ℝ := ((n.rhsValues s i)[r]?).getD 0

/-! ### One branch -/

/-- Power at the end with voltage `v1`, angle `t1` of an element with transfer admittance `g`, `b`. -/
noncomputable def bp (g b v1 v2 t1 t2 : ℝ) : ℝ :=
  v1 * v2 * (g * Real.cos (t1 - t2) + b * Real.sin (t1 - t2))
noncomputable def bq (g b v1 v2 t1 t2 : ℝ) : ℝ :=
  v1 * v2 * (g * Real.sin (t1 - t2) - b * Real.cos (t1 - t2))

theorem getPQ_1 (e : Branch) (s : State) :
    e.getPQ s e.bus1 = (bp e.gf e.bf (s.v e.bus1) (s.v e.bus2) (s.θ e.bus1) (s.θ e.bus2),
      bq e.gf e.bf (s.v e.bus1) (s.v e.bus2) (s.θ e.bus1) (s.θ e.bus2)) := by
  unfold Branch.getPQ bp bq Branch.theta
  simp

theorem getPQ_2 (e : Branch) (s : State) (h : e.bus2 ≠ e.bus1) :
    e.getPQ s e.bus2 = (bp e.gr e.br (s.v e.bus2) (s.v e.bus1) (s.θ e.bus2) (s.θ e.bus1),
      bq e.gr e.br (s.v e.bus2) (s.v e.bus1) (s.θ e.bus2) (s.θ e.bus1)) := by
  unfold Branch.getPQ bp bq Branch.theta
  rw [if_neg h, if_pos rfl, neg_sub]
  simp only [mul_comm (s.v e.bus1)]

theorem d_cos_l (t2 x : ℝ) : HasDerivAt (fun t => Real.cos (t - t2)) (-Real.sin (x - t2)) x := by
  simpa using ((hasDerivAt_id x).sub_const t2).cos
theorem d_sin_l (t2 x : ℝ) : HasDerivAt (fun t => Real.sin (t - t2)) (Real.cos (x - t2)) x := by
  simpa using ((hasDerivAt_id x).sub_const t2).sin
theorem d_cos_r (t1 x : ℝ) : HasDerivAt (fun t => Real.cos (t1 - t)) (Real.sin (t1 - x)) x := by
  simpa using ((hasDerivAt_id x).const_sub t1).cos
theorem d_sin_r (t1 x : ℝ) : HasDerivAt (fun t => Real.sin (t1 - t)) (-Real.cos (t1 - x)) x := by
  simpa using ((hasDerivAt_id x).const_sub t1).sin

theorem bp_own_angle (g b v1 v2 t1 t2 : ℝ) :
    HasDerivAt (fun x => bp g b v1 v2 x t2) (-bq g b v1 v2 t1 t2) t1 := by
  have := (((d_cos_l t2 t1).const_mul g).add ((d_sin_l t2 t1).const_mul b)).const_mul (v1 * v2)
  refine this.congr_deriv ?_
  unfold bq; ring
theorem bq_own_angle (g b v1 v2 t1 t2 : ℝ) :
    HasDerivAt (fun x => bq g b v1 v2 x t2) (bp g b v1 v2 t1 t2) t1 := by
  have := (((d_sin_l t2 t1).const_mul g).sub ((d_cos_l t2 t1).const_mul b)).const_mul (v1 * v2)
  refine this.congr_deriv ?_
  unfold bp; ring
theorem bp_other_angle (g b v1 v2 t1 t2 : ℝ) :
    HasDerivAt (fun x => bp g b v1 v2 t1 x) (bq g b v1 v2 t1 t2) t2 := by
  have := (((d_cos_r t1 t2).const_mul g).add ((d_sin_r t1 t2).const_mul b)).const_mul (v1 * v2)
  refine this.congr_deriv ?_
  unfold bq; ring
theorem bq_other_angle (g b v1 v2 t1 t2 : ℝ) :
    HasDerivAt (fun x => bq g b v1 v2 t1 x) (-bp g b v1 v2 t1 t2) t2 := by
  have := (((d_sin_r t1 t2).const_mul g).sub ((d_cos_r t1 t2).const_mul b)).const_mul (v1 * v2)
  refine this.congr_deriv ?_
  unfold bp; ring
theorem bp_own_mag (g b v1 v2 t1 t2 : ℝ) :
    HasDerivAt (fun x => bp g b x v2 t1 t2) (bp g b 1 v2 t1 t2) v1 := by
  have := ((hasDerivAt_id v1).mul_const (v2 * (g * Real.cos (t1 - t2) + b * Real.sin (t1 - t2))))
  refine (this.congr_deriv ?_).congr_of_eventuallyEq (Filter.Eventually.of_forall fun x => ?_)
  · unfold bp; ring
  · unfold bp; simp [id]; ring
theorem bq_own_mag (g b v1 v2 t1 t2 : ℝ) :
    HasDerivAt (fun x => bq g b x v2 t1 t2) (bq g b 1 v2 t1 t2) v1 := by
  have := ((hasDerivAt_id v1).mul_const (v2 * (g * Real.sin (t1 - t2) - b * Real.cos (t1 - t2))))
  refine (this.congr_deriv ?_).congr_of_eventuallyEq (Filter.Eventually.of_forall fun x => ?_)
  · unfold bq; ring
  · unfold bq; simp [id]; ring
theorem bp_other_mag (g b v1 v2 t1 t2 : ℝ) :
    HasDerivAt (fun x => bp g b v1 x t1 t2) (bp g b v1 1 t1 t2) v2 := by
  have := ((hasDerivAt_id v2).mul_const (v1 * (g * Real.cos (t1 - t2) + b * Real.sin (t1 - t2))))
  refine (this.congr_deriv ?_).congr_of_eventuallyEq (Filter.Eventually.of_forall fun x => ?_)
  · unfold bp; ring
  · unfold bp; simp [id]; ring
theorem bq_other_mag (g b v1 v2 t1 t2 : ℝ) :
    HasDerivAt (fun x => bq g b v1 x t1 t2) (bq g b v1 1 t1 t2) v2 := by
  have := ((hasDerivAt_id v2).mul_const (v1 * (g * Real.sin (t1 - t2) - b * Real.cos (t1 - t2))))
  refine (this.congr_deriv ?_).congr_of_eventuallyEq (Filter.Eventually.of_forall fun x => ?_)
  · unfold bq; ring
  · unfold bq; simp [id]; ring

/-- A sum of differentiable functions over a list. -/
theorem hasDerivAt_list {α : Type} (l : List α) (f : α → ℝ → ℝ) (d : α → ℝ) (x : ℝ)
    (h : ∀ a ∈ l, HasDerivAt (f a) (d a) x) :
    HasDerivAt (fun y => (l.map (fun a => f a y)).sum) ((l.map d).sum) x := by
  induction l with
  | nil => simpa using hasDerivAt_const x (0 : ℝ)
  | cons a l ih =>
    simp only [List.map_cons, List.sum_cons]
    exact (h a (by simp)).add (ih (fun b hb => h b (by simp [hb])))

/-- The power entering branch `e` at bus `i`, as `bp`, `bq` of the own and the other end. -/
def Branch.other (e : Branch) (i : Nat) : Nat := if i = e.bus1 then e.bus2 else e.bus1
def Branch.gOf (e : Branch) (i : Nat) : ℝ := if i = e.bus1 then e.gf else e.gr
def Branch.bOf (e : Branch) (i : Nat) : ℝ := if i = e.bus1 then e.bf else e.br

theorem getPQ_eq (e : Branch) (s : State) (i : Nat) (h : e.bus1 ≠ e.bus2) (hi : e.bus1 = i ∨ e.bus2 = i) :
    e.getPQ s i = (bp (e.gOf i) (e.bOf i) (s.v i) (s.v (e.other i)) (s.θ i) (s.θ (e.other i)),
      bq (e.gOf i) (e.bOf i) (s.v i) (s.v (e.other i)) (s.θ i) (s.θ (e.other i))) := by
  unfold Branch.gOf Branch.bOf Branch.other
  rcases hi with rfl | rfl
  · simp only [if_pos, getPQ_1]
  · have h' : e.bus2 ≠ e.bus1 := fun x => h x.symm
    simp only [if_neg h', getPQ_2 e s h']

theorem other_ne (e : Branch) (i : Nat) (h : e.bus1 ≠ e.bus2) (hi : e.bus1 = i ∨ e.bus2 = i) :
    e.other i ≠ i := by
  unfold Branch.other
  rcases hi with rfl | rfl
  · rw [if_pos rfl]; exact fun x => h x.symm
  · rw [if_neg (fun x => h x.symm)]; exact h

/-! ### Derivative of the power of one branch -/

theorem branch_deriv_own (e : Branch) (s : State) (i : Nat) (h : e.bus1 ≠ e.bus2)
    (hi : e.bus1 = i ∨ e.bus2 = i) :
    HasDerivAt (fun x => (e.getPQ (s.set i 0 x) i).1) (-(e.getPQ s i).2) (s.θ i) ∧
    HasDerivAt (fun x => (e.getPQ (s.set i 0 x) i).2) ((e.getPQ s i).1) (s.θ i) ∧
    (s.v i ≠ 0 → HasDerivAt (fun x => (e.getPQ (s.set i 1 x) i).1) ((e.getPQ s i).1 / s.v i) (s.v i)) ∧
    (s.v i ≠ 0 → HasDerivAt (fun x => (e.getPQ (s.set i 1 x) i).2) ((e.getPQ s i).2 / s.v i) (s.v i)) := by
  have ho := other_ne e i h hi
  simp only [getPQ_eq e _ i h hi, State.set, Function.update_self,
    Function.update_of_ne ho, if_pos, one_ne_zero, if_false]
  refine ⟨bp_own_angle _ _ _ _ _ _, bq_own_angle _ _ _ _ _ _, fun hv => ?_, fun hv => ?_⟩
  · refine (bp_own_mag _ _ _ _ _ _).congr_deriv ?_
    unfold bp; field_simp
  · refine (bq_own_mag _ _ _ _ _ _).congr_deriv ?_
    unfold bq; field_simp

theorem branch_deriv_other (e : Branch) (s : State) (i j : Nat) (h : e.bus1 ≠ e.bus2)
    (hi : e.bus1 = i ∨ e.bus2 = i) (hij : i ≠ j) :
    HasDerivAt (fun x => (e.getPQ (s.set j 0 x) i).1) (if e.other i = j then (e.getPQ s i).2 else 0) (s.θ j) ∧
    HasDerivAt (fun x => (e.getPQ (s.set j 0 x) i).2) (if e.other i = j then -(e.getPQ s i).1 else 0) (s.θ j) ∧
    HasDerivAt (fun x => (e.getPQ (s.set j 1 x) i).1)
      (if e.other i = j then bp (e.gOf i) (e.bOf i) (s.v i) 1 (s.θ i) (s.θ j) else 0) (s.v j) ∧
    HasDerivAt (fun x => (e.getPQ (s.set j 1 x) i).2)
      (if e.other i = j then bq (e.gOf i) (e.bOf i) (s.v i) 1 (s.θ i) (s.θ j) else 0) (s.v j) := by
  simp only [getPQ_eq e _ i h hi, State.set, if_pos, one_ne_zero, if_false,
    Function.update_of_ne hij]
  by_cases ho : e.other i = j
  · simp only [ho, if_true, Function.update_self]
    exact ⟨bp_other_angle _ _ _ _ _ _, bq_other_angle _ _ _ _ _ _, bp_other_mag _ _ _ _ _ _,
      bq_other_mag _ _ _ _ _ _⟩
  · simp only [if_neg ho, Function.update_of_ne ho]
    exact ⟨hasDerivAt_const _ _, hasDerivAt_const _ _, hasDerivAt_const _ _, hasDerivAt_const _ _⟩

/-! ### Derivatives of the injections -/

/-- No branch connects a bus to itself. -/
def Net.NoLoops (n : Net) : Prop := ∀ e ∈ n.branches, e.bus1 ≠ e.bus2

theorem mem_neighbors {n : Net} {i : Nat} {e : Branch} (he : e ∈ n.neighbors i) :
    e ∈ n.branches ∧ (e.bus1 = i ∨ e.bus2 = i) := by
  unfold Net.neighbors at he
  simpa using he

theorem sum_neg_map (l : List Branch) (f : Branch → ℝ) : (l.map (fun e => -f e)).sum = -(l.map f).sum := by
  induction l with
  | nil => simp
  | cons a l ih => simp only [List.map_cons, List.sum_cons, ih]; ring

theorem sum_div_map (l : List Branch) (f : Branch → ℝ) (c : ℝ) :
    (l.map (fun e => f e / c)).sum = (l.map f).sum / c := by
  induction l with
  | nil => simp
  | cons a l ih => simp only [List.map_cons, List.sum_cons, ih]; ring

theorem sq_deriv (g v : ℝ) : HasDerivAt (fun x : ℝ => x * x * g) (2 * v * g) v := by
  have := ((hasDerivAt_id v).mul (hasDerivAt_id v)).mul_const g
  refine this.congr_deriv ?_
  simp only [id]; ring

theorem inj_deriv_own (n : Net) (hl : n.NoLoops) (s : State) (i : Nat) :
    HasDerivAt (fun x => n.pinj (s.set i 0 x) i) (-n.qinj s i - (n.bus i).b * s.v i * s.v i) (s.θ i) ∧
    HasDerivAt (fun x => n.qinj (s.set i 0 x) i) (n.pinj s i - (n.bus i).g * s.v i * s.v i) (s.θ i) ∧
    (s.v i ≠ 0 →
      HasDerivAt (fun x => n.pinj (s.set i 1 x) i) (n.pinj s i / s.v i + (n.bus i).g * s.v i) (s.v i)) ∧
    (s.v i ≠ 0 →
      HasDerivAt (fun x => n.qinj (s.set i 1 x) i) (n.qinj s i / s.v i - (n.bus i).b * s.v i) (s.v i)) := by
  have hb := fun e (he : e ∈ n.neighbors i) =>
    branch_deriv_own e s i (hl e (mem_neighbors he).1) (mem_neighbors he).2
  have hv0 : ∀ x, (s.set i 0 x).v i = s.v i := fun x => rfl
  have hv1 : ∀ x, (s.set i 1 x).v i = x := fun x => by simp [State.set]
  refine ⟨?_, ?_, fun hv => ?_, fun hv => ?_⟩
  · have := (hasDerivAt_list (n.neighbors i) _ _ _ (fun e he => (hb e he).1)).add_const
      (s.v i * s.v i * (n.bus i).g)
    refine this.congr_deriv ?_
    rw [sum_neg_map]
    unfold Net.qinj; ring
  · have := (hasDerivAt_list (n.neighbors i) _ _ _ (fun e he => (hb e he).2.1)).add_const
      (s.v i * s.v i * (-(n.bus i).b))
    refine this.congr_deriv ?_
    unfold Net.pinj; ring
  · have := (hasDerivAt_list (n.neighbors i) _ _ _ (fun e he => (hb e he).2.2.1 hv)).add
      (sq_deriv (n.bus i).g (s.v i))
    refine (this.congr_deriv ?_).congr_of_eventuallyEq (Filter.Eventually.of_forall fun x => ?_)
    · rw [sum_div_map]
      unfold Net.pinj; field_simp; ring
    · unfold Net.pinj
      simp only [hv1, Pi.add_apply]
  · have := (hasDerivAt_list (n.neighbors i) _ _ _ (fun e he => (hb e he).2.2.2 hv)).add
      (sq_deriv (-(n.bus i).b) (s.v i))
    refine (this.congr_deriv ?_).congr_of_eventuallyEq (Filter.Eventually.of_forall fun x => ?_)
    · rw [sum_div_map]
      unfold Net.qinj; field_simp; ring
    · unfold Net.qinj
      simp only [hv1, Pi.add_apply]

theorem inj_deriv_other (n : Net) (hl : n.NoLoops) (s : State) (i j : Nat) (hij : i ≠ j) :
    HasDerivAt (fun x => n.pinj (s.set j 0 x) i)
      ((n.neighbors i).map (fun e => if e.other i = j then (e.getPQ s i).2 else 0)).sum (s.θ j) ∧
    HasDerivAt (fun x => n.qinj (s.set j 0 x) i)
      ((n.neighbors i).map (fun e => if e.other i = j then -(e.getPQ s i).1 else 0)).sum (s.θ j) ∧
    HasDerivAt (fun x => n.pinj (s.set j 1 x) i)
      ((n.neighbors i).map (fun e => if e.other i = j then
        bp (e.gOf i) (e.bOf i) (s.v i) 1 (s.θ i) (s.θ j) else 0)).sum (s.v j) ∧
    HasDerivAt (fun x => n.qinj (s.set j 1 x) i)
      ((n.neighbors i).map (fun e => if e.other i = j then
        bq (e.gOf i) (e.bOf i) (s.v i) 1 (s.θ i) (s.θ j) else 0)).sum (s.v j) := by
  have hb := fun e (he : e ∈ n.neighbors i) =>
    branch_deriv_other e s i j (hl e (mem_neighbors he).1) (mem_neighbors he).2 hij
  have hv1 : ∀ x, (s.set j 1 x).v i = s.v i := fun x => by
    simp [State.set, Function.update_of_ne hij]
  refine ⟨?_, ?_, ?_, ?_⟩
  · exact (hasDerivAt_list (n.neighbors i) _ _ _ (fun e he => (hb e he).1)).add_const
      (s.v i * s.v i * (n.bus i).g)
  · exact (hasDerivAt_list (n.neighbors i) _ _ _ (fun e he => (hb e he).2.1)).add_const
      (s.v i * s.v i * (-(n.bus i).b))
  · have := (hasDerivAt_list (n.neighbors i) _ _ _ (fun e he => (hb e he).2.2.1)).add_const
      (s.v i * s.v i * (n.bus i).g)
    refine this.congr_of_eventuallyEq (Filter.Eventually.of_forall fun x => ?_)
    unfold Net.pinj
    simp only [hv1]
  · have := (hasDerivAt_list (n.neighbors i) _ _ _ (fun e he => (hb e he).2.2.2)).add_const
      (s.v i * s.v i * (-(n.bus i).b))
    refine this.congr_of_eventuallyEq (Filter.Eventually.of_forall fun x => ?_)
    unfold Net.qinj
    simp only [hv1]

/-! ### Assembly -/

/-- An inactive branch has no in-service element, hence no admittance. -/
def Net.ActiveOk (n : Net) : Prop :=
  ∀ e ∈ n.branches, e.active = false → e.gf = 0 ∧ e.bf = 0 ∧ e.gr = 0 ∧ e.br = 0

/-- Branch `e` connects `i` and `j`. -/
def Branch.joins (e : Branch) (i j : Nat) : Prop := (e.bus1 = i ∧ e.bus2 = j) ∨ (e.bus1 = j ∧ e.bus2 = i)

instance (e : Branch) (i j : Nat) : Decidable (e.joins i j) := by unfold Branch.joins; infer_instance

/-- At most one branch object between two buses (parallel lines are elements of one branch). -/
def Net.Simple (n : Net) : Prop :=
  ∀ i j, (n.branches.filter (fun e => e.joins i j)).length ≤ 1

theorem fold_none (n : Net) (s : State) (i r j c : Nat) (l : List Branch)
    (h : ∀ e ∈ l, ¬ e.joins i j) (x : ℝ) : l.foldl (n.putBranch s i r j c) x = x := by
  induction l generalizing x with
  | nil => rfl
  | cons a l ih =>
    have ha := h a (by simp)
    unfold Branch.joins at ha
    have h1 : ¬ (a.bus1 = i ∧ a.bus2 = j) := fun q => ha (Or.inl q)
    have h2 : ¬ (a.bus1 = j ∧ a.bus2 = i) := fun q => ha (Or.inr q)
    rw [List.foldl_cons, ih (fun e he => h e (by simp [he]))]
    unfold Net.putBranch
    simp only [if_neg h1, if_neg h2, ite_self]

theorem fold_eq_sum (n : Net) (s : State) (i r j c : Nat) (l : List Branch)
    (h : (l.filter (fun e => e.joins i j)).length ≤ 1) :
    l.foldl (n.putBranch s i r j c) 0 = (l.map (n.putBranch s i r j c 0)).sum := by
  induction l with
  | nil => rfl
  | cons a l ih =>
    rw [List.foldl_cons, List.map_cons, List.sum_cons]
    by_cases ha : a.joins i j
    · have hl : ∀ e ∈ l, ¬ e.joins i j := by
        rw [List.filter_cons_of_pos (by simpa using ha), List.length_cons] at h
        have h0 : (l.filter (fun e => e.joins i j)).length = 0 := by omega
        intro e he hj
        have : e ∈ l.filter (fun e => e.joins i j) := by simp [he, hj]
        rw [List.length_eq_zero_iff.mp h0] at this
        cases this
      rw [fold_none n s i r j c l hl]
      have : (l.map (n.putBranch s i r j c 0)).sum = 0 := by
        apply List.sum_eq_zero
        intro x hx
        obtain ⟨e, he, rfl⟩ := List.mem_map.mp hx
        have := fold_none n s i r j c [e] (by simpa using hl e he) 0
        simpa using this
      rw [this, add_zero]
    · rw [List.filter_cons_of_neg (by simpa using ha)] at h
      have h0 := fold_none n s i r j c [a] (by simpa using ha) 0
      rw [List.foldl_cons, List.foldl_nil] at h0
      rw [h0, zero_add]
      exact ih h

/-- Derivative of row `r` (0: real power, 1: reactive power) of bus `i` along branch `e` with respect to
variable `c` of the other end `j`. -/
noncomputable def Branch.part (e : Branch) (s : State) (i r j c : Nat) : ℝ :=
  if c = 0 then (if r = 0 then (e.getPQ s i).2 else -(e.getPQ s i).1)
  else (if r = 0 then bp (e.gOf i) (e.bOf i) (s.v i) 1 (s.θ i) (s.θ j)
    else bq (e.gOf i) (e.bOf i) (s.v i) 1 (s.θ i) (s.θ j))

theorem size_some (n : Net) (i k : Nat) (h : n.vectorSize i = some k) :
    (n.bus i).iso = false ∧ (n.bus i).ref = false ∧ k = if (n.bus i).pv then 1 else 2 := by
  unfold Net.vectorSize at h
  cases hi : (n.bus i).iso <;> cases hr : (n.bus i).ref <;> cases hp : (n.bus i).pv <;>
    simp [hi, hr, hp] at h ⊢ <;> exact h.symm

theorem put_eq (n : Net) (s : State) (e : Branch) (i r j c ki kj : Nat) (hne : i ≠ j)
    (hact : e.active = false → e.gf = 0 ∧ e.bf = 0 ∧ e.gr = 0 ∧ e.br = 0)
    (hi : n.vectorSize i = some ki) (hr : r < ki) (hj : n.vectorSize j = some kj) (hc : c < kj)
    (hl : e.bus1 ≠ e.bus2) :
    n.putBranch s i r j c 0 e =
      if e.bus1 = i ∨ e.bus2 = i then (if e.other i = j then e.part s i r j c else 0) else 0 := by
  obtain ⟨hi1, hi2, hi3⟩ := size_some n i ki hi
  obtain ⟨hj1, hj2, hj3⟩ := size_some n j kj hj
  by_cases h1 : e.bus1 = i ∧ e.bus2 = j
  · obtain ⟨rfl, rfl⟩ := h1
    have ho : e.other e.bus1 = e.bus2 := by simp [Branch.other]
    rw [if_pos (Or.inl rfl), if_pos ho]
    unfold Net.putBranch Net.branchOk
    cases ha : e.active
    · obtain ⟨z1, z2, -, -⟩ := hact ha
      unfold Branch.part
      simp [getPQ_1, z1, z2, bp, bq, Branch.gOf, Branch.bOf]
    · simp only [hi1, hi2, hj1, hj2]
      simp only [Bool.not_false, Bool.and_self, if_true, and_self]
      unfold Net.forwardSize Net.forwardValues Net.branchOk Branch.part
      simp only [hi1, hi2, hj1, hj2, ha, Bool.not_false, Bool.and_self, if_true, getPQ_1]
      unfold entry bp bq Branch.gOf Branch.bOf Branch.theta
      have hr2 : r = 0 ∨ r = 1 := by
        cases hp : (n.bus e.bus1).pv <;> simp [hp] at hi3 <;> omega
      have hc2 : c = 0 ∨ c = 1 := by
        cases hp : (n.bus e.bus2).pv <;> simp [hp] at hj3 <;> omega
      cases hp1 : (n.bus e.bus1).pv <;> cases hp2 : (n.bus e.bus2).pv <;>
        rcases hr2 with rfl | rfl <;> rcases hc2 with rfl | rfl <;>
        simp [hp1, hp2] at hi3 hj3 ⊢ <;> first | (exfalso; omega) | ring1
  · by_cases h2 : e.bus1 = j ∧ e.bus2 = i
    · obtain ⟨rfl, rfl⟩ := h2
      have ho : e.other e.bus2 = e.bus1 := by simp [Branch.other, hl.symm]
      rw [if_pos (Or.inr rfl), if_pos ho]
      unfold Net.putBranch Net.branchOk
      cases ha : e.active
      · obtain ⟨-, -, z1, z2⟩ := hact ha
        unfold Branch.part
        simp [getPQ_2 _ _ hl.symm, z1, z2, bp, bq, Branch.gOf, Branch.bOf, hl.symm]
      · simp only [hi1, hi2, hj1, hj2, if_neg h1]
        simp only [Bool.not_false, Bool.and_self, if_true, and_self]
        unfold Net.reverseSize Net.reverseValues Net.branchOk Branch.part
        simp only [hi1, hi2, hj1, hj2, ha, Bool.not_false, Bool.and_self, if_true, getPQ_2 _ _ hl.symm]
        unfold entry bp bq Branch.gOf Branch.bOf Branch.theta
        simp only [if_neg hl.symm, neg_sub]
        have hr2 : r = 0 ∨ r = 1 := by
          cases hp : (n.bus e.bus2).pv <;> simp [hp] at hi3 <;> omega
        have hc2 : c = 0 ∨ c = 1 := by
          cases hp : (n.bus e.bus1).pv <;> simp [hp] at hj3 <;> omega
        cases hp1 : (n.bus e.bus1).pv <;> cases hp2 : (n.bus e.bus2).pv <;>
          rcases hr2 with rfl | rfl <;> rcases hc2 with rfl | rfl <;>
          simp [hp1, hp2] at hi3 hj3 ⊢ <;> first | (exfalso; omega) | ring1
    · have : n.putBranch s i r j c 0 e = 0 := by
        unfold Net.putBranch
        simp only [if_neg h1, if_neg h2, ite_self]
      rw [this]
      by_cases hb : e.bus1 = i ∨ e.bus2 = i
      · rw [if_pos hb, if_neg]
        intro ho
        unfold Branch.other at ho
        rcases hb with hb | hb
        · rw [if_pos hb.symm] at ho; exact h1 ⟨hb, ho⟩
        · have : i ≠ e.bus1 := fun q => hl (q.symm.trans hb.symm)
          rw [if_neg this] at ho; exact h2 ⟨ho, hb⟩
      · rw [if_neg hb]

theorem sum_filter_if (l : List Branch) (p : Branch → Prop) [DecidablePred p] (f : Branch → ℝ) :
    ((l.filter (fun e => p e)).map f).sum = (l.map (fun e => if p e then f e else 0)).sum := by
  induction l with
  | nil => rfl
  | cons a l ih =>
    by_cases h : p a
    · rw [List.filter_cons_of_pos (by simpa using h)]; simp [h, ih]
    · rw [List.filter_cons_of_neg (by simpa using h)]; simp [h, ih]

/-- C46.  In every network without self-loops, with at most one branch object between two buses and with
activity flags that agree with the admittances: for every row `r` of bus `i` and every column `c` of bus `j`
of the equations (buses that are neither isolated nor reference; one row for a voltage-controlled bus, two
otherwise), the assembled Jacobian element is the partial derivative of the mismatch element with respect to
the voltage variable. -/
theorem C46_jacobian_partial (n : Net) (s : State) (hl : n.NoLoops) (ha : n.ActiveOk) (hs : n.Simple)
    (i r j c ki kj : Nat) (hi : n.vectorSize i = some ki) (hr : r < ki) (hj : n.vectorSize j = some kj)
    (hc : c < kj) (hv : s.v j ≠ 0) :
    HasDerivAt (fun x => n.mismatch (s.set j c x) i r) (n.jacobian s i r j c) (s.get j c) := by
  obtain ⟨hi1, hi2, hi3⟩ := size_some n i ki hi
  obtain ⟨hj1, hj2, hj3⟩ := size_some n j kj hj
  have hc2 : c = 0 ∨ c = 1 := by
    cases hp : (n.bus j).pv <;> simp [hp] at hj3 <;> omega
  have hr2 : r = 0 ∨ (r = 1 ∧ (n.bus i).pv = false) := by
    cases hp : (n.bus i).pv <;> simp [hp] at hi3 <;> simp <;> omega
  -- the mismatch elements
  have hm0 : ∀ t, n.mismatch t i 0 = n.pinj t i - (n.bus i).p0 := by
    intro t
    unfold Net.mismatch Net.rhsValues
    cases hp : (n.bus i).pv <;> simp [hi1, hi2]
  have hm1 : (n.bus i).pv = false → ∀ t, n.mismatch t i 1 = n.qinj t i - (n.bus i).q0 := by
    intro hp t
    unfold Net.mismatch Net.rhsValues
    simp [hi1, hi2, hp]
  by_cases hij : i = j
  · subst hij
    unfold Net.jacobian
    rw [if_pos rfl]
    obtain ⟨d1, d2, d3, d4⟩ := inj_deriv_own n hl s i
    have hent : ∀ r c, r < ki → c < ki → entry (n.diagSize i) (n.diagValues s i) r c =
        if c = 0 then (if r = 0 then -n.qinj s i - (n.bus i).b * s.v i * s.v i
            else n.pinj s i - (n.bus i).g * s.v i * s.v i)
          else (if r = 0 then n.pinj s i / s.v i + (n.bus i).g * s.v i
            else n.qinj s i / s.v i - (n.bus i).b * s.v i) := by
      intro r c hr hc
      unfold entry Net.diagSize Net.diagValues
      simp only [hi1, hi2]
      cases hp : (n.bus i).pv
      · simp [hp] at hi3
        have h1 : r = 0 ∨ r = 1 := by omega
        have h2 : c = 0 ∨ c = 1 := by omega
        rcases h1 with rfl | rfl <;> rcases h2 with rfl | rfl <;> simp
      · simp [hp] at hi3
        have h1 : r = 0 := by omega
        have h2 : c = 0 := by omega
        subst h1 h2
        simp
    have hc' : c < ki := by
      rw [hi] at hj; cases hj; exact hc
    rw [hent r c hr hc']
    rcases hc2 with rfl | rfl <;> rcases hr2 with rfl | ⟨rfl, hp⟩
    · simp only [hm0]; exact d1.sub_const _
    · simp only [hm1 hp]; exact d2.sub_const _
    · simp only [hm0]; exact (d3 hv).sub_const _
    · simp only [hm1 hp]; exact (d4 hv).sub_const _
  · unfold Net.jacobian
    rw [if_neg hij, fold_eq_sum n s i r j c n.branches (hs i j)]
    have hsum : (n.branches.map (n.putBranch s i r j c 0)).sum =
        ((n.neighbors i).map (fun e => if e.other i = j then e.part s i r j c else 0)).sum := by
      unfold Net.neighbors
      rw [sum_filter_if]
      congr 1
      apply List.map_congr_left
      intro e he
      exact put_eq n s e i r j c ki kj hij (ha e he) hi hr hj hc (hl e he)
    rw [hsum]
    obtain ⟨d1, d2, d3, d4⟩ := inj_deriv_other n hl s i j hij
    unfold Branch.part
    rcases hc2 with rfl | rfl <;> rcases hr2 with rfl | ⟨rfl, hp⟩
    · simp only [hm0]; exact d1.sub_const _
    · simp only [hm1 hp]; exact d2.sub_const _
    · simp only [hm0]; exact d3.sub_const _
    · simp only [hm1 hp]; exact d4.sub_const _

/-- C46 fails when the activity flag does not agree with the statuses (see C44_set_status_violated): the
off-diagonal element is missing. -/
theorem C46_inactive_violated (n : Net) (s : State) (e : Branch) (hn : n.branches = [e])
    (hne : e.bus1 ≠ e.bus2) (ha : e.active = false) (h1 : (n.vectorSize e.bus1).isSome)
    (hq : (e.getPQ s e.bus1).2 ≠ 0) :
    ¬ HasDerivAt (fun x => n.mismatch (s.set e.bus2 0 x) e.bus1 0) (n.jacobian s e.bus1 0 e.bus2 0)
      (s.get e.bus2 0) := by
  obtain ⟨k, hk⟩ := Option.isSome_iff_exists.mp h1
  obtain ⟨hi1, hi2, hi3⟩ := size_some n _ k hk
  have hl : n.NoLoops := by intro x hx; rw [hn] at hx; simp at hx; rw [hx]; exact hne
  have hm0 : ∀ t, n.mismatch t e.bus1 0 = n.pinj t e.bus1 - (n.bus e.bus1).p0 := by
    intro t
    unfold Net.mismatch Net.rhsValues
    cases hp : (n.bus e.bus1).pv <;> simp [hi1, hi2]
  obtain ⟨d1, -, -, -⟩ := inj_deriv_other n hl s e.bus1 e.bus2 hne
  have hj : n.jacobian s e.bus1 0 e.bus2 0 = 0 := by
    unfold Net.jacobian Net.putBranch Net.branchOk
    rw [if_neg hne, hn]
    simp [ha]
  intro h
  simp only [hm0, hj] at h
  have := h.unique (d1.sub_const _)
  apply hq
  have ho : e.other e.bus1 = e.bus2 := by simp [Branch.other]
  unfold Net.neighbors at this
  rw [hn] at this
  simp [ho] at this
  exact this.symm

/-- C46 fails for two branch objects between the same buses: only the last one is in the matrix, both are in
the mismatch. -/
theorem C46_two_branches_violated (n : Net) (s : State) (e f : Branch) (hn : n.branches = [e, f])
    (hne : e.bus1 ≠ e.bus2) (h1 : f.bus1 = e.bus1) (h2 : f.bus2 = e.bus2) (hf : f.active = true)
    (hs1 : (n.vectorSize e.bus1).isSome) (hs2 : (n.vectorSize e.bus2).isSome)
    (hq : (e.getPQ s e.bus1).2 ≠ 0) :
    ¬ HasDerivAt (fun x => n.mismatch (s.set e.bus2 0 x) e.bus1 0) (n.jacobian s e.bus1 0 e.bus2 0)
      (s.get e.bus2 0) := by
  obtain ⟨k, hk⟩ := Option.isSome_iff_exists.mp hs1
  obtain ⟨k2, hk2⟩ := Option.isSome_iff_exists.mp hs2
  obtain ⟨hi1, hi2, hi3⟩ := size_some n _ k hk
  obtain ⟨hj1, hj2, hj3⟩ := size_some n _ k2 hk2
  have hfne : f.bus1 ≠ f.bus2 := by rw [h1, h2]; exact hne
  have hl : n.NoLoops := by
    intro x hx; rw [hn] at hx; simp at hx
    rcases hx with rfl | rfl
    · exact hne
    · exact hfne
  have hm0 : ∀ t, n.mismatch t e.bus1 0 = n.pinj t e.bus1 - (n.bus e.bus1).p0 := by
    intro t
    unfold Net.mismatch Net.rhsValues
    cases hp : (n.bus e.bus1).pv <;> simp [hi1, hi2]
  obtain ⟨d1, -, -, -⟩ := inj_deriv_other n hl s e.bus1 e.bus2 hne
  have hfo : f.other e.bus1 = e.bus2 := by simp [Branch.other, h1, h2]
  have heo : e.other e.bus1 = e.bus2 := by simp [Branch.other]
  have hj : n.jacobian s e.bus1 0 e.bus2 0 = (f.getPQ s e.bus1).2 := by
    unfold Net.jacobian
    rw [if_neg hne, hn, List.foldl_cons, List.foldl_cons, List.foldl_nil]
    have hpos : ∀ x, n.putBranch s e.bus1 0 e.bus2 0 x f = n.putBranch s e.bus1 0 e.bus2 0 0 f := by
      intro x
      unfold Net.putBranch Net.branchOk
      simp [h1, h2, hf, hi1, hi2, hj1, hj2]
    have hk0 : 0 < k := by cases hp : (n.bus e.bus1).pv <;> simp [hp] at hi3 <;> omega
    have hk20 : 0 < k2 := by cases hp : (n.bus e.bus2).pv <;> simp [hp] at hj3 <;> omega
    rw [hpos, put_eq n s f e.bus1 0 e.bus2 0 k k2 hne (by simp [hf]) hk hk0 hk2 hk20 hfne,
      if_pos (Or.inl h1), if_pos hfo]
    simp [Branch.part]
  intro h
  simp only [hm0, hj] at h
  have := h.unique (d1.sub_const _)
  apply hq
  unfold Net.neighbors at this
  rw [hn] at this
  simp [heo, hfo, h1] at this
  linarith

/-! ### C82: the mismatch is the complex power balance -/

/-- Complex bus voltage. -/
noncomputable def State.V (s : State) (k : Nat) : ℂ := ⟨s.v k * Real.cos (s.θ k), s.v k * Real.sin (s.θ k)⟩

/-- Current injected at bus `i`: row `i` of the admittance matrix times the voltages. -/
noncomputable def Net.current (n : Net) (s : State) (i : Nat) : ℂ :=
  ⟨(n.bus i).g, (n.bus i).b⟩ * s.V i +
    ((n.branches.filter (fun e => e.bus1 = i ∨ e.bus2 = i)).map (fun e =>
      if e.bus1 = i then (⟨e.gf, e.bf⟩ : ℂ) * s.V e.bus2 else (⟨e.gr, e.br⟩ : ℂ) * s.V e.bus1)).sum

theorem branch_power (g b v1 v2 t1 t2 : ℝ) :
    (⟨v1 * Real.cos t1, v1 * Real.sin t1⟩ : ℂ) *
      (starRingEnd ℂ) ((⟨g, b⟩ : ℂ) * ⟨v2 * Real.cos t2, v2 * Real.sin t2⟩) =
    ⟨bp g b v1 v2 t1 t2, bq g b v1 v2 t1 t2⟩ := by
  unfold bp bq
  rw [Real.cos_sub, Real.sin_sub]
  apply Complex.ext
  · simp only [Complex.mul_re, Complex.mul_im, Complex.conj_re, Complex.conj_im]; ring
  · simp only [Complex.mul_re, Complex.mul_im, Complex.conj_re, Complex.conj_im]; ring

theorem complex_inj (n : Net) (hl : n.NoLoops) (s : State) (i : Nat) :
    s.V i * (starRingEnd ℂ) (n.current s i) = ⟨n.pinj s i, n.qinj s i⟩ := by
  have hown : s.V i * (starRingEnd ℂ) ((⟨(n.bus i).g, (n.bus i).b⟩ : ℂ) * s.V i) =
      ⟨s.v i * s.v i * (n.bus i).g, s.v i * s.v i * (-(n.bus i).b)⟩ := by
    unfold State.V
    rw [branch_power]
    unfold bp bq
    rw [sub_self, Real.cos_zero, Real.sin_zero]
    apply Complex.ext <;> simp
  have key : ∀ l : List Branch, (∀ e ∈ l, e.bus1 ≠ e.bus2 ∧ (e.bus1 = i ∨ e.bus2 = i)) →
      s.V i * (starRingEnd ℂ) (l.map (fun e =>
        if e.bus1 = i then (⟨e.gf, e.bf⟩ : ℂ) * s.V e.bus2 else (⟨e.gr, e.br⟩ : ℂ) * s.V e.bus1)).sum =
      ⟨(l.map (fun e => (e.getPQ s i).1)).sum, (l.map (fun e => (e.getPQ s i).2)).sum⟩ := by
    intro l
    induction l with
    | nil => intro _; apply Complex.ext <;> simp
    | cons a l ih =>
      intro h
      obtain ⟨hn, hi⟩ := h a (by simp)
      simp only [List.map_cons, List.sum_cons, map_add, mul_add, ih (fun e he => h e (by simp [he]))]
      have : s.V i * (starRingEnd ℂ)
          (if a.bus1 = i then (⟨a.gf, a.bf⟩ : ℂ) * s.V a.bus2 else (⟨a.gr, a.br⟩ : ℂ) * s.V a.bus1) =
          ⟨(a.getPQ s i).1, (a.getPQ s i).2⟩ := by
        rcases hi with rfl | rfl
        · rw [if_pos rfl, getPQ_1]; unfold State.V; rw [branch_power]
        · rw [if_neg hn, getPQ_2 _ _ hn.symm]; unfold State.V; rw [branch_power]
      rw [this]
      apply Complex.ext <;> simp
  unfold Net.current
  rw [map_add, mul_add, hown]
  have := key (n.neighbors i) (fun e he => ⟨hl e (mem_neighbors he).1, (mem_neighbors he).2⟩)
  unfold Net.neighbors at this
  rw [this]
  unfold Net.pinj Net.qinj Net.neighbors
  apply Complex.ext <;> simp <;> ring

/-- C82.  For every bus in the equations the mismatch is the real part (and, unless the bus is
voltage-controlled, the imaginary part) of voltage times conjugated current minus the scheduled power. -/
theorem C82_power_balance (n : Net) (hl : n.NoLoops) (s : State) (i : Nat)
    (hiso : (n.bus i).iso = false) (href : (n.bus i).ref = false) :
    n.rhsValues s i =
      (if (n.bus i).pv then
        [(s.V i * (starRingEnd ℂ) (n.current s i) - ⟨(n.bus i).p0, (n.bus i).q0⟩).re]
      else
        [(s.V i * (starRingEnd ℂ) (n.current s i) - ⟨(n.bus i).p0, (n.bus i).q0⟩).re,
         (s.V i * (starRingEnd ℂ) (n.current s i) - ⟨(n.bus i).p0, (n.bus i).q0⟩).im]) := by
  rw [complex_inj n hl s i]
  unfold Net.rhsValues
  cases hp : (n.bus i).pv <;> simp [hiso, href]

/-! ### C83: block sizes -/

/-- C83.  Every block of the Jacobian has as many rows as the mismatch block of its row bus and as many
columns as the block of its column bus, and as many values are written as announced. -/
theorem C83_block_sizes (n : Net) (s : State) :
    (∀ i, (n.rhsValues s i).length = (n.vectorSize i).getD 0) ∧
    (∀ i, n.diagSize i = (n.vectorSize i).map (fun k => (k, k))) ∧
    (∀ i, (n.diagValues s i).length = (n.vectorSize i).getD 0 * (n.vectorSize i).getD 0) ∧
    (∀ e r c, n.forwardSize e = some (r, c) →
      n.vectorSize e.bus1 = some r ∧ n.vectorSize e.bus2 = some c ∧ (n.forwardValues s e).length = r * c) ∧
    (∀ e r c, n.reverseSize e = some (r, c) →
      n.vectorSize e.bus2 = some r ∧ n.vectorSize e.bus1 = some c ∧ (n.reverseValues s e).length = r * c) ∧
    (∀ e, (n.forwardSize e).isSome ↔
      e.active = true ∧ (n.vectorSize e.bus1).isSome ∧ (n.vectorSize e.bus2).isSome) ∧
    (∀ e, (n.reverseSize e).isSome = (n.forwardSize e).isSome) := by
  refine ⟨fun i => ?_, fun i => ?_, fun i => ?_, fun e r c => ?_, fun e r c => ?_, fun e => ?_,
    fun e => ?_⟩
  · unfold Net.rhsValues Net.vectorSize
    cases (n.bus i).iso <;> cases (n.bus i).ref <;> cases (n.bus i).pv <;> simp
  · unfold Net.diagSize Net.vectorSize
    cases (n.bus i).iso <;> cases (n.bus i).ref <;> cases (n.bus i).pv <;> simp
  · unfold Net.diagValues Net.vectorSize
    cases h1 : (n.bus i).iso <;> cases h2 : (n.bus i).ref <;> cases h3 : (n.bus i).pv <;> simp [h1, h2, h3]
  · unfold Net.forwardSize Net.forwardValues Net.vectorSize Net.branchOk
    cases (n.bus e.bus1).iso <;> cases (n.bus e.bus1).ref <;> cases (n.bus e.bus1).pv <;>
      cases (n.bus e.bus2).iso <;> cases (n.bus e.bus2).ref <;> cases (n.bus e.bus2).pv <;>
      cases e.active <;> simp <;> (intro h1 h2; subst h1 h2; simp)
  · unfold Net.reverseSize Net.reverseValues Net.vectorSize Net.branchOk
    cases (n.bus e.bus1).iso <;> cases (n.bus e.bus1).ref <;> cases (n.bus e.bus1).pv <;>
      cases (n.bus e.bus2).iso <;> cases (n.bus e.bus2).ref <;> cases (n.bus e.bus2).pv <;>
      cases e.active <;> simp <;> (intro h1 h2; subst h1 h2; simp)
  · unfold Net.forwardSize Net.vectorSize Net.branchOk
    cases (n.bus e.bus1).iso <;> cases (n.bus e.bus1).ref <;> cases (n.bus e.bus1).pv <;>
      cases (n.bus e.bus2).iso <;> cases (n.bus e.bus2).ref <;> cases (n.bus e.bus2).pv <;>
      cases e.active <;> simp
  · unfold Net.reverseSize Net.forwardSize Net.branchOk
    cases (n.bus e.bus1).iso <;> cases (n.bus e.bus1).ref <;> cases (n.bus e.bus1).pv <;>
      cases (n.bus e.bus2).iso <;> cases (n.bus e.bus2).ref <;> cases (n.bus e.bus2).pv <;>
      cases e.active <;> simp

/-! ### C84: applying the corrections -/

/-- Position of the block of the `k`-th bus of the list. -/
def offsetOf (l : List (Nat × Nat)) (k : Nat) : Nat := ((l.take k).map (·.2)).sum

theorem mapToBus_other (n : Net) (l : List (Nat × Nat)) (s : State) (vals : Nat → ℝ) (i : Nat)
    (h : i ∉ l.map (·.1)) :
    (n.mapToBus s l vals).v i = s.v i ∧ (n.mapToBus s l vals).θ i = s.θ i := by
  induction l generalizing s vals with
  | nil => exact ⟨rfl, rfl⟩
  | cons a l ih =>
    obtain ⟨j, k⟩ := a
    simp only [List.map_cons, List.mem_cons, not_or] at h
    unfold Net.mapToBus
    obtain ⟨h1, h2⟩ := ih (n.setValues s j vals) (fun m => vals (m + k)) h.2
    rw [h1, h2]
    unfold Net.setValues
    constructor
    · simp only
      split
      · rw [Function.update_of_ne h.1]
      · rfl
    · simp only
      rw [Function.update_of_ne h.1]

/-- C84.  Pushing a correction vector onto the buses: the angle of every listed bus is reduced by the first
element of its block, the magnitude of every bus that is not voltage-controlled by the second one; nothing
else changes.  The bus types must be those used when the mapper was built. -/
theorem C84_corrections_partial (n : Net) (s : State) (l : List (Nat × Nat)) (vals : Nat → ℝ)
    (hnd : (l.map (·.1)).Nodup) (hsz : ∀ e ∈ l, n.vectorSize e.1 = some e.2) :
    (∀ (k : Nat) (e : Nat × Nat), l[k]? = some e →
      (n.mapToBus s l vals).θ e.1 = s.θ e.1 - vals (offsetOf l k) ∧
      (n.mapToBus s l vals).v e.1 =
        (if e.2 = 2 then s.v e.1 - vals (offsetOf l k + 1) else s.v e.1)) ∧
    (∀ i, i ∉ l.map (·.1) → (n.mapToBus s l vals).v i = s.v i ∧ (n.mapToBus s l vals).θ i = s.θ i) := by
  refine ⟨?_, fun i hi => mapToBus_other n l s vals i hi⟩
  induction l generalizing s vals with
  | nil => intro k e h; simp at h
  | cons a l ih =>
    obtain ⟨j, m⟩ := a
    rw [List.map_cons, List.nodup_cons] at hnd
    intro k e he
    unfold Net.mapToBus
    cases k with
    | zero =>
      simp only [List.getElem?_cons_zero, Option.some.injEq] at he
      subst he
      obtain ⟨h1, h2⟩ := mapToBus_other n l (n.setValues s j vals) (fun p => vals (p + m)) j hnd.1
      rw [h1, h2]
      obtain ⟨-, -, hm⟩ := size_some n j m (hsz (j, m) (by simp))
      unfold Net.setValues offsetOf
      cases hp : (n.bus j).pv <;> simp [hp] at hm ⊢ <;> simp [hm]
    | succ k =>
      rw [List.getElem?_cons_succ] at he
      obtain ⟨h1, h2⟩ := ih (n.setValues s j vals) (fun p => vals (p + m)) hnd.2
        (fun x hx => hsz x (by simp [hx])) k e he
      have hne : e.1 ≠ j := by
        intro h
        apply hnd.1
        rw [← h]
        exact List.mem_map.mpr ⟨e, List.mem_of_getElem? he, rfl⟩
      have ho : offsetOf ((j, m) :: l) (k + 1) = offsetOf l k + m := by
        unfold offsetOf; simp; omega
      have hv : (n.setValues s j vals).v e.1 = s.v e.1 := by
        unfold Net.setValues
        simp only
        split
        · rw [Function.update_of_ne hne]
        · rfl
      have ht : (n.setValues s j vals).θ e.1 = s.θ e.1 := by
        unfold Net.setValues
        simp only
        rw [Function.update_of_ne hne]
      rw [h1, h2, ho, hv, ht]
      refine ⟨rfl, ?_⟩
      rw [show offsetOf l k + 1 + m = offsetOf l k + m + 1 by omega]

/-- C84 fails in `solve`: reactive limits are checked before the last correction is pushed
(pf_app_module.cpp 537-549), and a bus that has just been converted takes the element after its block, which
is the angle correction of the next bus, as its magnitude correction. -/
theorem C84_converted_bus_violated (n : Net) (s : State) (i j : Nat) (l : List (Nat × Nat))
    (vals : Nat → ℝ) (hi : i ∉ ((j, 1) :: l).map (·.1)) (hj : j ∉ l.map (·.1)) (hc : (n.bus i).pv = false) :
    (n.mapToBus s ((i, 1) :: (j, 1) :: l) vals).v i = s.v i - vals 1 ∧
    (n.mapToBus s ((i, 1) :: (j, 1) :: l) vals).θ j = s.θ j - vals 1 := by
  constructor
  · unfold Net.mapToBus
    rw [(mapToBus_other n ((j, 1) :: l) _ _ i hi).1]
    unfold Net.setValues
    simp [hc]
  · unfold Net.mapToBus
    unfold Net.mapToBus
    rw [(mapToBus_other n l _ _ j hj).2]
    have : j ≠ i := by
      intro h; apply hi; simp [h]
    unfold Net.setValues
    simp [Function.update_of_ne this]

/-! ### Examples -/

/-- Three buses in a triangle: reference, voltage-controlled, load. -/
noncomputable def sampleNet : Net where
  bus := fun i => ⟨2, -20, 0.5, 0.1, i == 0, false, i == 1⟩
  branches := [⟨0, 1, -1, 10, -1, 10, true⟩, ⟨2, 1, -1, 10, -1, 10, true⟩, ⟨0, 2, -1, 10, -1, 10, true⟩]

noncomputable def sampleState : State := ⟨fun _ => 1, fun i => i / 10⟩

theorem sampleNet_simple : sampleNet.Simple := by
  intro i j
  unfold sampleNet Branch.joins
  simp only [List.filter_cons, List.filter_nil]
  by_cases h0 : i = 0 <;> by_cases h1 : i = 1 <;> by_cases h2 : i = 2 <;>
    by_cases k0 : j = 0 <;> by_cases k1 : j = 1 <;> by_cases k2 : j = 2 <;>
    simp_all [eq_comm]

/-- `C46_jacobian_partial` applies to the triangle: derivative of the reactive mismatch of bus 2 with respect
to the angle of bus 1. -/
example : HasDerivAt (fun x => sampleNet.mismatch (sampleState.set 1 0 x) 2 1)
    (sampleNet.jacobian sampleState 2 1 1 0) (sampleState.get 1 0) := by
  refine C46_jacobian_partial sampleNet sampleState ?_ ?_ sampleNet_simple 2 1 1 0 2 1 ?_ (by omega) ?_
    (by omega) ?_
  · intro e he; simp [sampleNet] at he; rcases he with rfl | rfl | rfl <;> simp
  · intro e he; simp [sampleNet] at he; rcases he with rfl | rfl | rfl <;> simp
  · simp [Net.vectorSize, sampleNet]
  · simp [Net.vectorSize, sampleNet]
  · simp [sampleState]

/-- `C84_corrections_partial`: the two unknown buses of the triangle. -/
example : (∀ e ∈ [(1, 1), (2, 2)], sampleNet.vectorSize e.1 = some e.2) := by
  simp [Net.vectorSize, sampleNet]

end GridPACK.PowerFlow
