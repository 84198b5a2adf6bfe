import Verif.Model.NewtonRaphson
import Mathlib.Tactic.Linarith
import Mathlib.Algebra.Group.Basic
import Mathlib.Tactic.Abel
import Mathlib.Tactic.Ring
import Mathlib.Data.Real.Basic

/-! Properties C42 (when the Newton loop stops) and C79 (linear systems). -/
namespace GridPACK.NewtonRaphson

variable {V : Type} [AddCommGroup V]

/-- Specification: the Newton sequence. -/
def newton (p : Problem V) (x0 : V) : Nat → V
  | 0 => x0
  | k + 1 => newton p x0 k + p.solve (newton p x0 k) (-(p.f (newton p x0 k)))

/-- Specification: length of the step from iterate `k`. -/
def stepNorm (p : Problem V) (x0 : V) (k : Nat) : ℝ :=
  p.norm (p.solve (newton p x0 k) (-(p.f (newton p x0 k))))

theorem loop_spec (p : Problem V) (tol : ℝ) (maxIter : Nat) (x0 : V) (fuel k : Nat) (s : St V)
    (hk : s.iter = k) (hx : s.x = newton p x0 k) (hfuel : maxIter ≤ k + fuel)
    (hprev : ∀ i, i < k → i + 1 < k → stepNorm p x0 i > tol)
    (hst : (k = 0 ∧ s.stol = 10 ^ 30) ∨ (0 < k ∧ s.stol = stepNorm p x0 (k - 1)))
    (hkm : k ≤ maxIter) :
    let r := loop p tol maxIter fuel s
    r.x = newton p x0 r.iter ∧ r.iter ≤ maxIter ∧
    (r.iter = maxIter ∨ (r.iter = 0 ∧ (10 : ℝ) ^ 30 ≤ tol) ∨ (0 < r.iter ∧ stepNorm p x0 (r.iter - 1) ≤ tol)) ∧
    (∀ i, i + 1 < r.iter → stepNorm p x0 i > tol) ∧
    ((r.iter = 0 ∧ r.stol = 10 ^ 30) ∨ (0 < r.iter ∧ r.stol = stepNorm p x0 (r.iter - 1))) := by
  induction fuel generalizing k s with
  | zero =>
    simp only [loop]
    refine ⟨by rw [hk]; exact hx, by omega, .inl (by omega), ?_, ?_⟩
    · intro i hi; rw [hk] at hi; exact hprev i (by omega) hi
    · rw [hk]; exact hst
  | succ fuel ih =>
    simp only [loop]
    by_cases hc : s.stol > tol ∧ s.iter < maxIter
    · rw [if_pos hc]
      apply ih (k + 1)
      · show s.iter + 1 = k + 1; omega
      · show s.x + _ = _
        rw [hx]; rfl
      · omega
      · intro i hi hi2
        by_cases hlast : i + 1 = k
        · rcases hst with ⟨h0, _⟩ | ⟨_, h1⟩
          · omega
          · have : i = k - 1 := by omega
            rw [this, ← h1]; exact hc.1
        · exact hprev i (by omega) (by omega)
      · right
        refine ⟨by omega, ?_⟩
        show p.norm _ = _
        rw [hx]; rfl
      · omega
    · rw [if_neg hc]
      refine ⟨by rw [hk]; exact hx, by omega, ?_, ?_, by rw [hk]; exact hst⟩
      · by_cases hm : s.iter < maxIter
        · have hle : s.stol ≤ tol := by
            by_contra hgt
            exact hc ⟨not_le.mp hgt, hm⟩
          right
          rcases hst with ⟨h0, h1⟩ | ⟨h0, h1⟩
          · left; exact ⟨by omega, by rw [← h1]; exact hle⟩
          · right; rw [hk]; exact ⟨h0, by rw [← h1]; exact hle⟩
        · left; omega
      · intro i hi; rw [hk] at hi; exact hprev i (by omega) hi

/-- C42.  For every function, Jacobian, tolerance (below 1e30), maximum number of iterations (at least one)
and starting point: the result is the Newton iterate whose number is reported, that number is at most the
maximum, and the loop stopped either at the maximum or right after the first step that was not longer than
the tolerance. -/
theorem C42_newton (p : Problem V) (tol : ℝ) (maxIter : Nat) (x0 : V) (htol : tol < 10 ^ 30)
    (hmax : 0 < maxIter) :
    let r := solve p tol maxIter x0
    r.x = newton p x0 r.iter ∧ 0 < r.iter ∧ r.iter ≤ maxIter ∧
    r.stol = stepNorm p x0 (r.iter - 1) ∧
    (∀ i, i + 1 < r.iter → stepNorm p x0 i > tol) ∧
    (r.stol ≤ tol ∨ r.iter = maxIter) := by
  obtain ⟨h1, h2, h3, h4, h5⟩ := loop_spec p tol maxIter x0 maxIter 0 ⟨x0, 10 ^ 30, 0⟩ rfl rfl (by omega)
    (by intro i hi; omega) (.inl ⟨rfl, rfl⟩) (by omega)
  intro r
  have hpos : 0 < r.iter := by
    rcases h3 with h | ⟨_, h⟩ | ⟨h, _⟩
    · show 0 < (solve p tol maxIter x0).iter
      unfold solve; omega
    · linarith
    · exact h
  have hst : r.stol = stepNorm p x0 (r.iter - 1) := by
    rcases h5 with ⟨h, _⟩ | ⟨_, h⟩
    · exact absurd h (Nat.pos_iff_ne_zero.mp hpos)
    · exact h
  refine ⟨h1, hpos, h2, hst, h4, ?_⟩
  rcases h3 with h | ⟨h, _⟩ | ⟨_, h⟩
  · exact .inr h
  · exact absurd h (Nat.pos_iff_ne_zero.mp hpos)
  · left; rw [hst]; exact h

/-- The number of iterations is the least one after which the stopping test holds; with the previous
theorem this fixes the result completely. -/
theorem C42_first (p : Problem V) (tol : ℝ) (maxIter : Nat) (x0 : V) (htol : tol < 10 ^ 30) (k : Nat)
    (hk : k < maxIter) (hs : stepNorm p x0 k ≤ tol) : (solve p tol maxIter x0).iter ≤ k + 1 := by
  obtain ⟨_, _, _, _, h, _⟩ := C42_newton p tol maxIter x0 htol (by omega)
  by_contra hgt
  exact absurd (h k (by omega)) (not_lt.mpr hs)

/-- C79.  For a linear system with an exact linear solver the loop needs at most two iterations, whatever
the starting point and tolerance, and the result solves the system. -/
theorem C79_linear (A : V → V) (b : V) (norm : V → ℝ) (lin : V → V → V)
    (hadd : ∀ x y, A (x + y) = A x + A y) (hinj : ∀ x, A x = 0 → x = 0)
    (hsolve : ∀ x r, A (lin x r) = r) (hnorm : norm 0 = 0)
    (tol : ℝ) (h0 : 0 ≤ tol) (htol : tol < 10 ^ 30) (maxIter : Nat) (hmax : 0 < maxIter) (x0 : V) :
    let r := solve ⟨fun x => A x + -b, lin, norm⟩ tol maxIter x0
    A r.x = b ∧ r.iter ≤ 2 := by
  intro r
  set p : Problem V := ⟨fun x => A x + -b, lin, norm⟩ with hp
  have hstep : ∀ k, A (newton p x0 (k + 1)) = b := by
    intro k
    show A (newton p x0 k + lin (newton p x0 k) (-(A (newton p x0 k) + -b))) = b
    rw [hadd, hsolve]
    abel
  obtain ⟨h1, h2, h3, _, _, _⟩ := C42_newton p tol maxIter x0 htol hmax
  constructor
  · have hr : r = solve p tol maxIter x0 := rfl
    rw [hr, h1]
    obtain ⟨k, hk⟩ : ∃ k, (solve p tol maxIter x0).iter = k + 1 := ⟨(solve p tol maxIter x0).iter - 1, by omega⟩
    rw [hk]; exact hstep k
  · by_cases hm : 1 < maxIter
    · apply C42_first p tol maxIter x0 htol 1 hm
      have hz : p.solve (newton p x0 1) (-(p.f (newton p x0 1))) = 0 := by
        apply hinj
        show A (lin (newton p x0 1) (-(A (newton p x0 1) + -b))) = 0
        rw [hsolve, hstep 0]
        abel
      unfold stepNorm
      rw [hz]
      show norm 0 ≤ tol
      rw [hnorm]; exact h0
    · exact le_trans h3 (by omega)

/-- Nothing tells the caller about failure: with one allowed iteration the same kind of result is returned
although the step is longer than the tolerance. -/
theorem C42_no_convergence_report_violated :
    ∃ (p : Problem ℝ) (x0 : ℝ), (solve p 1 1 x0).iter = 1 ∧ ¬ (solve p 1 1 x0).stol ≤ 1 ∧
      p.f (solve p 1 1 x0).x ≠ 0 := by
  refine ⟨⟨fun x => x * x + 1, fun _ r => r, fun x => |x|⟩, 2, ?_⟩
  have : solve (⟨fun x => x * x + 1, fun _ r => r, fun x => |x|⟩ : Problem ℝ) 1 1 2 = ⟨-3, 5, 1⟩ := by
    unfold solve loop
    rw [if_pos ⟨by norm_num, by norm_num⟩]
    unfold loop body
    norm_num
  rw [this]
  norm_num

/-- `C79_linear` applies: the equation 2 x = 6 over the reals. -/
example : (2 : ℝ) * (solve (⟨fun x => 2 * x + -6, fun _ r => r / 2, fun x => |x|⟩ : Problem ℝ) 0 50 17).x = 6 :=
  (C79_linear (fun x : ℝ => 2 * x) 6 (fun x => |x|) (fun _ r => r / 2) (by intros; ring)
    (by intro x h; linarith) (by intros; ring) (by simp) 0 (le_refl _) (by norm_num) 50 (by norm_num) 17).1

end GridPACK.NewtonRaphson
