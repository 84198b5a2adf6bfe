import Verif.Model.DaeBus
import Mathlib.Analysis.SpecialFunctions.Trigonometric.Deriv
import Mathlib.Analysis.SpecialFunctions.Sqrt
import Mathlib.Analysis.Calculus.Deriv.Inv
import Mathlib.Tactic.IntervalCases

/-! Derivatives of the equations of the devices along a curve, and the sums of matrix entries they have to equal. -/
namespace GridPACK.Dae

/-- Sum over the assignments to row `r` of value times direction. -/
noncomputable def lin (ws : List (Wr Ix)) (d : Ix → ℝ) (r : Ix) : ℝ :=
  (ws.map (fun w => if w.r = r then w.v * d w.c else 0)).sum

theorem lin_nil (d : Ix → ℝ) (r : Ix) : lin [] d r = 0 := by simp [lin]

theorem lin_append (a b : List (Wr Ix)) (d : Ix → ℝ) (r : Ix) : lin (a ++ b) d r = lin a d r + lin b d r := by
  simp [lin]

theorem lin_set (c r' : Ix) (v : ℝ) (l : List (Wr Ix)) (d : Ix → ℝ) (r : Ix) :
    lin (set c r' v :: l) d r = (if r' = r then v * d c else 0) + lin l d r := by
  simp [lin, set]

theorem lin_plus (c r' : Ix) (v : ℝ) (l : List (Wr Ix)) (d : Ix → ℝ) (r : Ix) :
    lin (plus c r' v :: l) d r = (if r' = r then v * d c else 0) + lin l d r := by
  simp [lin, plus]

theorem lin_ite (c : Prop) [Decidable c] (a b : List (Wr Ix)) (d : Ix → ℝ) (r : Ix) :
    lin (if c then a else b) d r = if c then lin a d r else lin b d r := by
  split <;> rfl

section
variable {Y : ℝ → Ix → ℝ} {Z : ℝ → Ix → ℝ} {d : Ix → ℝ} {s : ℝ}

/-! ### Classical machine -/

theorem Cls.igq_deriv (p : Cls) (hY : ∀ ix, HasDerivAt (fun t => Y t ix) (d ix) 0) :
    HasDerivAt (fun t => p.igq (Y t)) (lin (p.jac .resid s (Y 0)) d rowIGQ) 0 := by
  have h := ((hY VD).sub (((hY (.gen 0)).cos).const_mul p.Ep)).div_const p.Xdp
  refine HasDerivAt.congr_deriv h ?_
  simp [Cls.jac, lin_set, lin_plus, lin_nil]
  ring

theorem Cls.igd_deriv (p : Cls) (hY : ∀ ix, HasDerivAt (fun t => Y t ix) (d ix) 0) :
    HasDerivAt (fun t => p.igd (Y t)) (lin (p.jac .resid s (Y 0)) d rowIGD) 0 := by
  have h := ((hY VQ).neg.add (((hY (.gen 0)).sin).const_mul p.Ep)).div_const p.Xdp
  refine HasDerivAt.congr_deriv h ?_
  simp [Cls.jac, lin_set, lin_plus, lin_nil]
  ring

theorem Cls.resid_deriv (p : Cls) (hY : ∀ ix, HasDerivAt (fun t => Y t ix) (d ix) 0)
    (hZ : ∀ k, HasDerivAt (fun t => Z t (.gen k)) (s * d (.gen k)) 0) (P : Ix → ℝ) (k : ℕ) (hk : k < 2) :
    HasDerivAt (fun t => p.resid .resid (Y t) (Z t) P k) (lin (p.jac .resid s (Y 0)) d (.gen k)) 0 := by
  have h0 : HasDerivAt (fun t => p.resid .resid (Y t) (Z t) P 0) (lin (p.jac .resid s (Y 0)) d (.gen 0)) 0 := by
    have h := ((hY (.gen 1)).div_const omegaS).sub (hZ 0)
    refine HasDerivAt.congr_deriv h ?_
    simp [Cls.jac, lin_set, lin_plus, lin_nil]
    ring
  have h1 : HasDerivAt (fun t => p.resid .resid (Y t) (Z t) P 1) (lin (p.jac .resid s (Y 0)) d (.gen 1)) 0 := by
    have h := ((((((hasDerivAt_const (0:ℝ) p.Pm).sub ((((hY VD).mul_const p.Ep).mul (hY (.gen 0)).sin).div_const p.Xdp)).add
      ((((hY VQ).mul_const p.Ep).mul (hY (.gen 0)).cos).div_const p.Xdp)).sub
      ((hY (.gen 1)).const_mul p.D)).div_const (2 * p.H))).sub (hZ 1)
    refine HasDerivAt.congr_deriv h ?_
    simp [Cls.jac, lin_set, lin_plus, lin_nil]
    ring
  interval_cases k
  · exact h0
  · exact h1

theorem Cls.fault_deriv (p : Cls) (hY : ∀ ix, HasDerivAt (fun t => Y t ix) (d ix) 0) (P : Ix → ℝ) (k : ℕ) (hk : k < 2) :
    HasDerivAt (fun t => p.resid .fault (Y t) (Z t) P k) (lin (p.jac .fault s (Y 0)) d (.gen k)) 0 := by
  interval_cases k
  · have h := (hY (.gen 0)).sub_const (P (.gen 0))
    refine HasDerivAt.congr_deriv h ?_
    simp [Cls.jac, lin_set, lin_plus, lin_nil]
  · have h := (hY (.gen 1)).sub_const (P (.gen 1))
    refine HasDerivAt.congr_deriv h ?_
    simp [Cls.jac, lin_set, lin_plus, lin_nil]

end
end GridPACK.Dae
