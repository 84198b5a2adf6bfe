import Verif.Model.MotorW
import Mathlib.Tactic.Ring
import Mathlib.Tactic.FieldSimp
import Mathlib.Tactic.LinearCombination
import Mathlib.Tactic.Linarith
import Mathlib.Tactic.Positivity
import Mathlib.Tactic.NormNum

namespace GridPACK.MotorW

open Complex

/-- The four quotients solve the four equations. -/
theorem solve_eqs (c : Coef) (s : ℝ) (h : c.det ≠ 0) :
    let x := c.solve s
    c.A1 * x.epq + c.B1 * x.epd + c.C1 * x.eppq + c.D1 * x.eppd + c.E1 = 0 ∧
    c.A2 * x.epq + c.B2 * x.epd + c.C2 * x.eppq + c.D2 * x.eppd + c.E2 = 0 ∧
    c.A3 * x.epq + c.B3 * x.epd + c.C3 * x.eppq + c.D3 * x.eppd + c.E3 = 0 ∧
    c.A4 * x.epq + c.B4 * x.epd + c.C4 * x.eppq + c.D4 * x.eppd + c.E4 = 0 := by
  refine ⟨?_, ?_, ?_, ?_⟩ <;>
  · simp only [Coef.solve]
    field_simp
    simp only [Coef.det]
    ring

/-- Real part of the impedance at a slip, times the product of `1 + a²` and `1 + b²`. -/
noncomputable def nn (d : Data) (a b : ℝ) : ℝ :=
  d.rs * (1 + a^2) * (1 + b^2) + (d.Ls - d.Lp) * a * (1 + b^2) + (d.Lp - d.Lpp) * b * (1 + a^2)

/-- Imaginary part of the impedance at a slip, times the product. -/
noncomputable def mm (d : Data) (a b : ℝ) : ℝ :=
  d.Ls * (1 + a^2) * (1 + b^2) - (d.Ls - d.Lp) * a^2 * (1 + b^2) - (d.Lp - d.Lpp) * b^2 * (1 + a^2)

set_option maxRecDepth 20000 in
set_option maxHeartbeats 4000000 in
theorem det_eq (d : Data) (v : ℂ) (s : ℝ) (h2 : d.tppo ≠ 0)
    (h3 : d.rs * d.rs + d.Lpp * d.Lpp ≠ 0) :
    (coef d v s).det * (d.tppo^2 * (d.rs * d.rs + d.Lpp * d.Lpp) *
      (1 + (w0 * s * d.tpo)^2) * (1 + (w0 * s * d.tppo)^2)) =
    nn d (w0 * s * d.tpo) (w0 * s * d.tppo) ^ 2 + mm d (w0 * s * d.tpo) (w0 * s * d.tppo) ^ 2 := by
  simp only [Coef.det, coef, nn, mm, p, q]
  have hw : -w0 * s = -(w0 * s) := by ring
  simp only [hw]
  generalize w0 * s = k
  obtain ⟨g1, hg1⟩ : ∃ g, d.Ls - d.Lp = g := ⟨_, rfl⟩
  obtain ⟨g2, hg2⟩ : ∃ g, d.Lp - d.Lpp = g := ⟨_, rfl⟩
  have hLs : d.Ls = g1 + g2 + d.Lpp := by rw [← hg1, ← hg2]; ring
  rw [hg1, hg2, hLs]
  generalize d.Lpp = L at *
  generalize d.rs = r at *
  generalize d.tpo = t1
  obtain ⟨n, hn⟩ : ∃ g, r * r + L * L = g := ⟨_, rfl⟩
  rw [hn] at h3 ⊢
  field_simp
  subst hn
  ring


theorem current_re (d : Data) (v : ℂ) (x : Dyn) : (current d v x).re = id0 d v x := by
  simp only [current, id0, Complex.div_re, Complex.normSq_mk, Complex.sub_re, Complex.sub_im]
  ring

theorem current_im (d : Data) (v : ℂ) (x : Dyn) : (current d v x).im = iq0 d v x := by
  simp only [current, iq0, Complex.div_im, Complex.normSq_mk, Complex.sub_re, Complex.sub_im]
  ring

theorem w0_pos : 0 < w0 := by
  unfold w0
  have := Real.pi_pos
  positivity

/-- The assumptions on the parameters of a motor in simulation. -/
structure Good (d : Data) : Prop where
  rs : 0 < d.rs
  lpp : 0 < d.Lpp
  lp : d.Lpp ≤ d.Lp
  ls : d.Lp ≤ d.Ls
  tpo : 0 < d.tpo
  tppo : 0 < d.tppo

theorem Good.n_pos {d : Data} (h : Good d) : 0 < d.rs * d.rs + d.Lpp * d.Lpp := by
  have := h.rs
  have := h.lpp
  positivity

theorem Good.nn_pos {d : Data} (h : Good d) (a b : ℝ) (ha : 0 ≤ a) (hb : 0 ≤ b) : 0 < nn d a b := by
  unfold nn
  have h1 := h.rs
  have h2 : 0 ≤ d.Ls - d.Lp := sub_nonneg.2 h.ls
  have h3 : 0 ≤ d.Lp - d.Lpp := sub_nonneg.2 h.lp
  have : 0 < d.rs * (1 + a ^ 2) * (1 + b ^ 2) := by positivity
  have : 0 ≤ (d.Ls - d.Lp) * a * (1 + b^2) := by positivity
  have : 0 ≤ (d.Lp - d.Lpp) * b * (1 + a^2) := by positivity
  linarith

theorem Good.det {d : Data} (h : Good d) (v : ℂ) (s : ℝ) (hs : 0 ≤ s) : (coef d v s).det ≠ 0 := by
  intro h0
  have e := det_eq d v s h.tppo.ne' h.n_pos.ne'
  rw [h0, zero_mul] at e
  have hw := w0_pos
  have h1 := h.tpo
  have h2 := h.tppo
  have := h.nn_pos (w0 * s * d.tpo) (w0 * s * d.tppo) (by positivity) (by positivity)
  nlinarith [sq_nonneg (mm d (w0 * s * d.tpo) (w0 * s * d.tppo)),
    pow_pos this 2]

/-- The motor at a slip: the electrical derivatives are zero and the torque of
the motor is the constant of the mechanical torque. -/
theorem deriv_zero {d : Data} (h : Good d) (v : ℂ) (b : Bool) (s : ℝ) (hs : 0 ≤ s) (c0 tm0 : ℝ) :
    let x := (motorAt d v b s).x
    (deriv d c0 tm0 v 1 x).epq = 0 ∧ (deriv d c0 tm0 v 1 x).epd = 0 ∧
    (deriv d c0 tm0 v 1 x).eppq = 0 ∧ (deriv d c0 tm0 v 1 x).eppd = 0 := by
  obtain ⟨e1, e2, e3, e4⟩ := solve_eqs (coef d v s) s (h.det v s hs)
  have hn := h.n_pos.ne'
  have ht1 := h.tpo.ne'
  have ht2 := h.tppo.ne'
  have hx : (motorAt d v b s).x = (coef d v s).solve s := rfl
  have hsl : ((coef d v s).solve s).slip = s := rfl
  simp only [hx]
  generalize hy : (coef d v s).solve s = x at *
  have hw : (1 : ℝ) * 2 * 60 * Real.pi = w0 := by unfold w0; ring
  have q1 : (deriv d c0 tm0 v 1 x).epq = 0 := by
    simp only [deriv, current_re, current_im, hw, hsl]
    rw [div_eq_zero_iff]; left
    rw [← e1]; simp only [coef, id0]; ring
  have q2 : (deriv d c0 tm0 v 1 x).epd = 0 := by
    simp only [deriv, current_re, current_im, hw, hsl]
    rw [div_eq_zero_iff]; left
    rw [← e2]; simp only [coef, iq0]; ring
  refine ⟨q1, q2, ?_, ?_⟩
  · have : (deriv d c0 tm0 v 1 x).eppq = (x.epq - x.eppq - (d.Lp - d.Lpp) * (current d v x).re) / d.tppo
      + 1 * 2 * 60 * Real.pi * x.slip * (x.epd - x.eppd) + (deriv d c0 tm0 v 1 x).epq := rfl
    rw [this, q1, add_zero, hw, hsl, current_re, ← e3]
    simp only [coef, id0]; ring
  · have : (deriv d c0 tm0 v 1 x).eppd = (x.epd - x.eppd + (d.Lp - d.Lpp) * (current d v x).im) / d.tppo
      - 1 * 2 * 60 * Real.pi * x.slip * (x.epq - x.eppq) + (deriv d c0 tm0 v 1 x).epd := rfl
    rw [this, q2, add_zero, hw, hsl, current_im, ← e4]
    simp only [coef, iq0]; ring

theorem deriv_slip (d : Data) (v : ℂ) (b b' : Bool) (s : ℝ) :
    (deriv d (motorAt d v b' s).c0 (motorAt d v b s).tm0 v 1 (motorAt d v b s).x).slip =
      (motorAt d v b s).tm0 * (d.A * (1 - s) * (1 - s) + d.B * (1 - s) + (motorAt d v b' s).c0
        + d.D * (1 - s) ^ d.E - 1) / (2 * d.H * (1 - s)) := by
  have hsl : (motorAt d v b s).x.slip = s := rfl
  simp only [deriv, current_re, current_im, hsl]
  have : (motorAt d v b s).tm0 = p * (motorAt d v b s).x.eppd * id0 d v (motorAt d v b s).x
    + q * (motorAt d v b s).x.eppq * iq0 d v (motorAt d v b s).x := rfl
  rw [this]
  ring

/-- The current of the motor at a slip: current times impedance is voltage. -/
theorem current_at {d : Data} (h : Good d) (v : ℂ) (b : Bool) (s : ℝ) (hs : 0 ≤ s) :
    let x := (motorAt d v b s).x
    let α := w0 * s * d.tpo
    let β := w0 * s * d.tppo
    nn d α β * id0 d v x - mm d α β * iq0 d v x = (1 + α^2) * (1 + β^2) * v.re ∧
    mm d α β * id0 d v x + nn d α β * iq0 d v x = (1 + α^2) * (1 + β^2) * v.im := by
  obtain ⟨e1, e2, e3, e4⟩ := solve_eqs (coef d v s) s (h.det v s hs)
  have hn := h.n_pos.ne'
  have ht2 := h.tppo.ne'
  have hx : (motorAt d v b s).x = (coef d v s).solve s := rfl
  simp only [hx]
  generalize hy : (coef d v s).solve s = x at *
  have hn2 : d.rs ^ 2 + d.Lpp ^ 2 ≠ 0 := by convert hn using 1; ring
  have hn3 : d.Lpp ^ 2 + d.rs ^ 2 ≠ 0 := by convert hn using 1; ring
  have i1 : d.rs * id0 d v x - d.Lpp * iq0 d v x = v.re + x.eppd := by
    simp only [id0, iq0, p, q]; field_simp; ring
  have i2 : d.Lpp * id0 d v x + d.rs * iq0 d v x = v.im + x.eppq := by
    simp only [id0, iq0, p, q]; field_simp; ring
  have f1 : -x.epq - w0 * s * d.tpo * x.epd - (d.Ls - d.Lp) * id0 d v x = 0 := by
    rw [← e1]; simp only [coef, id0]; ring
  have f2 : -x.epd + w0 * s * d.tpo * x.epq + (d.Ls - d.Lp) * iq0 d v x = 0 := by
    rw [← e2]; simp only [coef, iq0]; ring
  have f3 : x.epq - x.eppq + w0 * s * d.tppo * (x.epd - x.eppd) - (d.Lp - d.Lpp) * id0 d v x = 0 := by
    have : x.epq - x.eppq + w0 * s * d.tppo * (x.epd - x.eppd) - (d.Lp - d.Lpp) * id0 d v x
        = d.tppo * 0 := by
      rw [← e3]; simp only [coef, id0]; field_simp; ring
    rw [this, mul_zero]
  have f4 : x.epd - x.eppd - w0 * s * d.tppo * (x.epq - x.eppq) + (d.Lp - d.Lpp) * iq0 d v x = 0 := by
    have : x.epd - x.eppd - w0 * s * d.tppo * (x.epq - x.eppq) + (d.Lp - d.Lpp) * iq0 d v x
        = d.tppo * 0 := by
      rw [← e4]; simp only [coef, iq0]; field_simp; ring
    rw [this, mul_zero]
  generalize id0 d v x = I at *
  generalize iq0 d v x = J at *
  generalize w0 * s * d.tpo = α at *
  generalize w0 * s * d.tppo = β at *
  simp only [nn, mm]
  constructor
  · linear_combination (1 + α^2) * (1 + β^2) * i1 + (1 + β^2) * (-α * f1 - f2) +
      (1 + α^2) * (-β * f3 - f4)
  · linear_combination (1 + α^2) * (1 + β^2) * i2 + (1 + β^2) * (-f1 + α * f2) +
      (1 + α^2) * (-f3 + β * f4)

theorem motor_power (d : Data) (v : ℂ) (b : Bool) (s : ℝ) :
    (motorAt d v b s).pmotor = (v.re * id0 d v (motorAt d v b s).x
      + v.im * iq0 d v (motorAt d v b s).x) * d.base := by
  have : (motorAt d v b s).pmotor = (v * star (⟨id0 d v (motorAt d v b s).x,
    iq0 d v (motorAt d v b s).x⟩ : ℂ)).re * d.base := rfl
  rw [this]
  simp [Complex.mul_re]

/-- Closed form of the power at a slip. -/
theorem motor_power_eq {d : Data} (h : Good d) (v : ℂ) (b : Bool) (s : ℝ) (hs : 0 ≤ s) :
    (motorAt d v b s).pmotor =
      (1 + (w0 * s * d.tpo)^2) * (1 + (w0 * s * d.tppo)^2) * nn d (w0 * s * d.tpo) (w0 * s * d.tppo)
      * (v.re ^ 2 + v.im ^ 2) / (nn d (w0 * s * d.tpo) (w0 * s * d.tppo) ^ 2
        + mm d (w0 * s * d.tpo) (w0 * s * d.tppo) ^ 2) * d.base := by
  rw [motor_power]
  obtain ⟨h1, h2⟩ := current_at h v b s hs
  have hw := w0_pos
  have ht1 := h.tpo
  have ht2 := h.tppo
  have hp := h.nn_pos (w0 * s * d.tpo) (w0 * s * d.tppo) (by positivity) (by positivity)
  generalize (motorAt d v b s).x = x at *
  generalize id0 d v x = I at *
  generalize iq0 d v x = J at *
  generalize w0 * s * d.tpo = α at *
  generalize w0 * s * d.tppo = β at *
  generalize nn d α β = N at *
  generalize mm d α β = M at *
  have : N ^ 2 + M ^ 2 ≠ 0 := by positivity
  congr 1
  rw [eq_div_iff this]
  linear_combination v.re * (N * h1 + M * h2) + v.im * (N * h2 - M * h1)

/-- The torque of the motor at a slip above 0 is positive. -/
theorem tm0_pos {d : Data} (h : Good d) (hl : d.Lp < d.Ls) (v : ℂ) (hv : v ≠ 0) (b : Bool) (s : ℝ)
    (hs : 0 < s) : 0 < (motorAt d v b s).tm0 := by
  have e : (motorAt d v b s).tm0 = p * (motorAt d v b s).x.eppd * id0 d v (motorAt d v b s).x
    + q * (motorAt d v b s).x.eppq * iq0 d v (motorAt d v b s).x := rfl
  rw [e]
  obtain ⟨h1, h2⟩ := current_at h v b s hs.le
  have hw := w0_pos
  have ht1 := h.tpo
  have ht2 := h.tppo
  have hn := h.n_pos.ne'
  have hn2 : d.rs ^ 2 + d.Lpp ^ 2 ≠ 0 := by convert hn using 1; ring
  have hn3 : d.Lpp ^ 2 + d.rs ^ 2 ≠ 0 := by convert hn using 1; ring
  generalize (motorAt d v b s).x = x at *
  have i1 : d.rs * id0 d v x - d.Lpp * iq0 d v x = v.re + x.eppd := by
    simp only [id0, iq0, p, q]; field_simp; ring
  have i2 : d.Lpp * id0 d v x + d.rs * iq0 d v x = v.im + x.eppq := by
    simp only [id0, iq0, p, q]; field_simp; ring
  have ha : 0 < w0 * s * d.tpo := by positivity
  have hb : 0 < w0 * s * d.tppo := by positivity
  generalize id0 d v x = I at *
  generalize iq0 d v x = J at *
  generalize w0 * s * d.tpo = α at *
  generalize w0 * s * d.tppo = β at *
  have hIJ : 0 < I ^ 2 + J ^ 2 := by
    rcases eq_or_ne I 0 with hI | hI
    · rcases eq_or_ne J 0 with hJ | hJ
      · exfalso
        apply hv
        have hk : (1 + α^2) * (1 + β^2) ≠ 0 := by positivity
        rw [hI, hJ] at h1 h2
        simp only [mul_zero, sub_zero, add_zero] at h1 h2
        apply Complex.ext
        · exact (mul_eq_zero.1 h1.symm).resolve_left hk
        · exact (mul_eq_zero.1 h2.symm).resolve_left hk
      · positivity
    · positivity
  have hk : 0 < (1 + α^2) * (1 + β^2) := by positivity
  have key : (p * x.eppd * I + q * x.eppq * J) * ((1 + α^2) * (1 + β^2)) =
      (I ^ 2 + J ^ 2) * ((d.Ls - d.Lp) * α * (1 + β^2) + (d.Lp - d.Lpp) * β * (1 + α^2)) := by
    have x1 : x.eppd = d.rs * I - d.Lpp * J - v.re := by linarith
    have x2 : x.eppq = d.Lpp * I + d.rs * J - v.im := by linarith
    simp only [p, q, x1, x2, nn, mm] at *
    linear_combination (-I) * h1 - J * h2
  have hg1 : 0 < d.Ls - d.Lp := sub_pos.2 hl
  have hg2 : 0 ≤ d.Lp - d.Lpp := sub_nonneg.2 h.lp
  have : 0 < (p * x.eppd * I + q * x.eppq * J) * ((1 + α^2) * (1 + β^2)) := by
    rw [key]; positivity
  exact (mul_pos_iff_of_pos_right hk).1 this

theorem par_re (z1 z2 : ℂ) (h1 : 0 ≤ z1.re) (h2 : 0 ≤ z2.re) : 0 ≤ (z1 * z2 / (z1 + z2)).re := by
  have : (z1 * z2 / (z1 + z2)).re =
      (z1.re * (z2.re ^ 2 + z2.im ^ 2) + z2.re * (z1.re ^ 2 + z1.im ^ 2))
        / Complex.normSq (z1 + z2) := by
    rw [Complex.div_re]
    simp only [Complex.mul_re, Complex.mul_im, Complex.add_re, Complex.add_im]
    ring
  rw [this]
  exact div_nonneg (by positivity) (Complex.normSq_nonneg _)

theorem zs_re (d : Data) (s : ℝ) (hs : 0 < s) (h1 : 0 < d.rr1) (h2 : 0 < d.rr2) :
    d.rs ≤ (zs d s).re := by
  simp only [zs, Complex.add_re]
  have hz : 0 ≤ ((⟨d.rr1 / s, d.llr1⟩ : ℂ) * ⟨d.rr2 / s, d.llr2⟩ /
      (⟨d.rr1 / s, d.llr1⟩ + ⟨d.rr2 / s, d.llr2⟩)).re :=
    par_re _ _ (by positivity) (by positivity)
  have hb := par_re ⟨0, d.lm⟩ _ (le_refl (0 : ℝ)) hz
  rw [add_comm (⟨0, d.lm⟩ : ℂ)] at hb
  linarith

theorem pe_bounds (d : Data) (v : ℂ) (k : ℕ) (hk : 1 ≤ k) (hr : 0 < d.rs) (h1 : 0 < d.rr1)
    (h2 : 0 < d.rr2) (hb : 0 < d.base) :
    0 ≤ pe d v k ∧ pe d v k ≤ (v.re ^ 2 + v.im ^ 2) / d.rs * d.base := by
  have hs : 0 < sl k := by
    unfold sl
    split
    · have : (0 : ℝ) < k := by exact_mod_cast hk
      positivity
    · rename_i h
      have : (100 : ℝ) ≤ k := by exact_mod_cast not_lt.1 h
      have h' : 0 ≤ 0.0011 * ((k : ℝ) - 100) := mul_nonneg (by norm_num) (by linarith)
      have : (0 : ℝ) < 0.01 := by norm_num
      linarith
  have hz := zs_re d (sl k) hs h1 h2
  have hz0 : 0 < (zs d (sl k)).re := lt_of_lt_of_le hr hz
  unfold pe
  generalize zs d (sl k) = z at *
  have hq : 0 < Complex.normSq z := by
    rw [Complex.normSq_apply]
    have := mul_self_nonneg z.im
    nlinarith
  have e : (v * star (v / z)).re = (v.re ^ 2 + v.im ^ 2) * (z.re / Complex.normSq z) := by
    simp only [Complex.star_def, Complex.mul_re, Complex.conj_re, Complex.conj_im, Complex.div_re,
      Complex.div_im]
    ring
  rw [e]
  constructor
  · positivity
  · apply mul_le_mul_of_nonneg_right _ hb.le
    rw [div_eq_mul_inv (v.re ^ 2 + v.im ^ 2)]
    apply mul_le_mul_of_nonneg_left _ (by positivity)
    rw [div_le_iff₀ hq, ← div_eq_inv_mul, le_div_iff₀ hr, Complex.normSq_apply]
    nlinarith [mul_self_nonneg z.im]

end GridPACK.MotorW
