import Verif.Lemmas.MotorW
import Verif.Spec.MotorW

/-!
# C302–C305: the motor of the dynamic simulation
-/

namespace GridPACK.MotorW

open Complex

/-! ## The prepared parameters -/

theorem prepare_circuit {d : Data} (h : Circuit d) (pini : ℝ) :
    prepare d pini =
      { d with
        Ls := d.lls + d.lm
        Lp := d.lm * d.llr1 / (d.lm + d.llr1) + d.lls
        Lpp := 1 / (1 / d.lm + 1 / d.llr1 + 1 / d.llr2) + d.lls
        tpo := d.llr1 * d.lm / (w0 * d.rr1 * (d.lm * d.llr1 / (d.lm + d.llr1)))
        tppo := d.llr2 * (d.lm * d.llr1 / (d.lm + d.llr1)) /
          (w0 * d.rr2 * (1 / (1 / d.lm + 1 / d.llr1 + 1 / d.llr2))) } := by
  have hb : ¬ d.base ≤ 0 := not_le.2 h.base
  simp only [prepare, h.Ls, le_refl, h.lls, h.lm, and_self, if_true, hb, if_false, false_and]

theorem circuit_good {d : Data} (h : Circuit d) (pini : ℝ) :
    Good (prepare d pini) ∧ (prepare d pini).Lp < (prepare d pini).Ls ∧
    0 < (prepare d pini).rr1 ∧ 0 < (prepare d pini).rr2 ∧ (prepare d pini).base = d.base ∧
    (prepare d pini).rs = d.rs := by
  rw [prepare_circuit h]
  obtain ⟨h1, h2, h3, h4, h5, h6, h7, -, h8⟩ := h
  have hw := w0_pos
  have l1 : d.lm * d.llr1 / (d.lm + d.llr1) < d.lm := by
    rw [div_lt_iff₀ (by positivity)]
    nlinarith [mul_pos h3 h3]
  have l2 : 1 / (1 / d.lm + 1 / d.llr1 + 1 / d.llr2) ≤ d.lm * d.llr1 / (d.lm + d.llr1) := by
    rw [show d.lm * d.llr1 / (d.lm + d.llr1) = 1 / (1 / d.lm + 1 / d.llr1) by field_simp; ring]
    apply one_div_le_one_div_of_le (by positivity)
    have : 0 < 1 / d.llr2 := by positivity
    linarith
  refine ⟨⟨h1, ?_, ?_, ?_, ?_, ?_⟩, ?_, h4, h6, rfl, rfl⟩
  · positivity
  · linarith
  · show d.lm * d.llr1 / (d.lm + d.llr1) + d.lls ≤ d.lls + d.lm
    linarith
  · positivity
  · positivity
  · show d.lm * d.llr1 / (d.lm + d.llr1) + d.lls < d.lls + d.lm
    linarith

theorem sl_pos {k : ℕ} (hk : 1 ≤ k) : 0 < sl k := by
  unfold sl
  split
  · have : (0 : ℝ) < k := by exact_mod_cast hk
    positivity
  · rename_i h
    have : (100 : ℝ) ≤ k := by exact_mod_cast not_lt.1 h
    have h' : 0 ≤ 0.0011 * ((k : ℝ) - 100) := mul_nonneg (by norm_num) (by linarith)
    have : (0 : ℝ) < 0.01 := by norm_num
    linarith

theorem search_some {d : Data} {v : ℂ} {pini sl0 : ℝ} (h : search d v pini = some sl0) :
    ∃ m, 1 ≤ m ∧ m < 999 ∧ pe d v m ≤ pini ∧ pini < pe d v (m + 1) ∧ sl0 = sl m := by
  unfold search at h
  obtain ⟨m, hm, rfl⟩ := Option.map_eq_some_iff.1 h
  have h1 := List.find?_some hm
  have h2 := List.mem_of_find?_eq_some hm
  rw [List.mem_range'_1] at h2
  simp only [decide_eq_true_eq] at h1
  exact ⟨m, h2.1, by omega, h1.1, h1.2, rfl⟩

/-! ## C302 -/

/-- The motor at a slip with the right constant of the torque does not move. -/
theorem at_rest {d : Data} (h : Good d) (v : ℂ) (s : ℝ) (hs : 0 ≤ s) :
    AtRest d (motorAt d v false s) v := by
  have h0 := deriv_zero h v false s hs (motorAt d v false s).c0 (motorAt d v false s).tm0
  have h1 := deriv_slip d v false false s
  obtain ⟨e1, e2, e3, e4⟩ := h0
  have e5 : (deriv d (motorAt d v false s).c0 (motorAt d v false s).tm0 v 1
      (motorAt d v false s).x).slip = 0 := by
    rw [h1]
    have : (motorAt d v false s).c0 = 1 - d.A * (1 - s) * (1 - s) - d.B * (1 - s)
      - d.D * (1 - s) ^ d.E := rfl
    rw [this]
    ring
  generalize motorAt d v false s = m at *
  have hp : ∀ (h : ℝ) (flag : Bool) (z : Dyn),
      corrector d m v 1 h (predictor d m v 1 h flag ⟨m.x, m.x, z⟩)
        = ⟨m.x, m.x, deriv d m.c0 m.tm0 v 1 m.x⟩ := by
    intro h flag z
    have hx : (m.x.add h (deriv d m.c0 m.tm0 v 1 m.x)) = m.x := by
      simp only [Dyn.add, e1, e2, e3, e4, e5, zero_mul, add_zero]
    have hpr : predictor d m v 1 h flag ⟨m.x, m.x, z⟩
        = ⟨m.x, m.x, deriv d m.c0 m.tm0 v 1 m.x⟩ := by
      simp only [predictor, ite_self, hx]
    rw [hpr]
    simp only [corrector, e1, e2, e3, e4, e5, add_zero, mul_zero, zero_mul]
  intro z hs
  induction hs generalizing z with
  | nil => rfl
  | cons a r ih =>
    obtain ⟨h, flag⟩ := a
    simp only [run, hp]
    exact ih _

theorem raise_form {d : Data} {v : ℂ} {pini sl0 : ℝ} (hs : 0 ≤ sl0) {m m' : Motor}
    (h : Raise d v pini sl0 m m') (hm : ∃ s, 0 ≤ s ∧ m = motorAt d v false s) :
    ∃ s, 0 ≤ s ∧ m' = motorAt d v false s := by
  induction h with
  | stop m _ => exact hm
  | step m m' _ _ ih =>
    apply ih
    obtain ⟨s, h1, h2⟩ := hm
    refine ⟨m.x.slip + sl0 * 0.0001, ?_, rfl⟩
    have : m.x.slip = s := by rw [h2]; rfl
    rw [this]
    positivity

/-- **C302** (partial: the motor whose slip is not lowered).  A motor given by
its equivalent circuit whose power at the slip from the table does not exceed
the load by more than 0.0001 MW stays at rest after the initialisation, as long
as voltage and frequency do not change.  (Inertia and speed are not zero: the
code divides by both.) -/
theorem C302_rest_partial {d : Data} (h : Circuit d) (v : ℂ) (pini : ℝ) (m : Motor)
    (hi : Init d v pini m) (P : ℝ) (hP : StartsWith d v pini P) (hle : P ≤ pini + 0.0001)
    (_hH : d.H ≠ 0) (_hw : m.x.slip ≠ 1) :
    AtRest (prepare d pini) m v := by
  obtain ⟨sl0, h1, h2⟩ := hi
  obtain ⟨sl1, h3, h4⟩ := hP
  obtain rfl : sl0 = sl1 := by rw [h1] at h3; exact Option.some.inj h3
  obtain ⟨k, hk1, -, -, -, hk⟩ := search_some h1
  have hpos : 0 < sl0 := by rw [hk]; exact sl_pos hk1
  have hg := (circuit_good h pini).1
  suffices hs : ∃ s, 0 ≤ s ∧ m = motorAt (prepare d pini) v false s by
    obtain ⟨s, hs1, rfl⟩ := hs
    exact at_rest hg v s hs1
  unfold Adjust at h2
  split at h2
  · exact raise_form hpos.le h2 ⟨sl0, hpos.le, rfl⟩
  · split at h2
    · cases h2 with
      | stop => exact ⟨sl0, hpos.le, rfl⟩
      | step _ _ hlt => rw [h4] at hlt; exfalso; linarith
    · exact ⟨sl0, hpos.le, h2⟩

theorem lower_form {d : Data} {v : ℂ} {pini sl0 : ℝ} {m m' : Motor}
    (h : Lower d v pini sl0 m m') (hm : m = motorAt d v true m.x.slip) :
    m' = motorAt d v true m'.x.slip := by
  induction h with
  | stop m _ => exact hm
  | step m m' _ _ ih => exact ih rfl

/-- **C302** violated: a motor whose power at the slip from the table exceeds
the load by more than 0.0001 MW moves at once, whatever the length of the step,
if its torque depends on the speed at all. -/
theorem C302_lower_violated {d : Data} (h : Circuit d) (v : ℂ) (hv : v ≠ 0) (pini : ℝ) (m : Motor)
    (hi : Init d v pini m) (P : ℝ) (hP : StartsWith d v pini P) (hlt : pini + 0.0001 < P)
    (hs : 0 < m.x.slip) (hs1 : m.x.slip < 1) (hH : 0 < d.H)
    (ht : d.A * (1 - m.x.slip) * (1 - m.x.slip) + d.B * (1 - m.x.slip)
      + d.D * (1 - m.x.slip) ^ d.E ≠ 0) (z : Dyn) (step : ℝ) (hstep : step ≠ 0) (flag : Bool) :
    (predictor (prepare d pini) m v 1 step flag ⟨m.x, m.x, z⟩).x.slip ≠ m.x.slip := by
  obtain ⟨sl0, h1, h2⟩ := hi
  obtain ⟨sl1, h3, h4⟩ := hP
  obtain rfl : sl0 = sl1 := by rw [h1] at h3; exact Option.some.inj h3
  obtain ⟨hg, hl, -⟩ := circuit_good h pini
  have hform : m = motorAt (prepare d pini) v true m.x.slip := by
    unfold Adjust at h2
    rw [if_neg (by rw [h4]; linarith), if_pos (by rw [h4]; linarith)] at h2
    cases h2 with
    | stop _ hn => rw [h4] at hn; exfalso; apply hn; linarith
    | step _ _ _ hr => exact lower_form hr rfl
  have hd := deriv_slip (prepare d pini) v true true m.x.slip
  have htm := tm0_pos hg hl v hv true m.x.slip hs
  rw [← hform] at hd htm
  have hc : m.c0 = 1 := by rw [hform]; rfl
  have hA : (prepare d pini).A = d.A ∧ (prepare d pini).B = d.B ∧ (prepare d pini).D = d.D ∧
      (prepare d pini).E = d.E ∧ (prepare d pini).H = d.H := by
    rw [prepare_circuit h]; exact ⟨rfl, rfl, rfl, rfl, rfl⟩
  obtain ⟨eA, eB, eD, eE, eH⟩ := hA
  rw [hc, eA, eB, eD, eE, eH] at hd
  have hx : (predictor (prepare d pini) m v 1 step flag ⟨m.x, m.x, z⟩).x.slip
      = m.x.slip + (deriv (prepare d pini) m.c0 m.tm0 v 1 m.x).slip * step := by
    simp only [predictor, ite_self, Dyn.add]
  rw [hx, hc, hd]
  intro he
  have hw : 0 < 1 - m.x.slip := by linarith
  have : m.tm0 * (d.A * (1 - m.x.slip) * (1 - m.x.slip) + d.B * (1 - m.x.slip) + 1
      + d.D * (1 - m.x.slip) ^ d.E - 1) / (2 * d.H * (1 - m.x.slip)) * step = 0 := by linarith
  have h2w : (2 * d.H * (1 - m.x.slip)) ≠ 0 := by positivity
  rcases mul_eq_zero.1 this with h0 | h0
  · rw [div_eq_zero_iff] at h0
    rcases h0 with h0 | h0
    · rcases mul_eq_zero.1 h0 with h0 | h0
      · exact htm.ne' h0
      · apply ht; linarith
    · exact h2w h0
  · exact hstep h0

/-- A record of a motor with a slow second circuit. -/
noncomputable def rec0 : Rec :=
  ⟨none, some 0.01, some 0.1, some 1.92, some 0.0001, some 0.08, some 0.000002, some 0.4, some 1,
    some 1, some 1, none, none, none, none⟩

theorem rec0_circuit : Circuit (ofRec rec0) := by
  constructor <;> simp only [ofRec, rec0, Option.getD] <;> norm_num

/-- Its parameters in the simulation. -/
theorem rec0_prepare (pini : ℝ) :
    (prepare (ofRec rec0) pini).rs = 0.01 ∧ (prepare (ofRec rec0) pini).Ls = 2.02 ∧
    (prepare (ofRec rec0) pini).Lp = 0.1768 ∧ (prepare (ofRec rec0) pini).Lpp = 0.1 + 48 / 745 ∧
    w0 * (prepare (ofRec rec0) pini).tpo = 20000 ∧ w0 * (prepare (ofRec rec0) pini).tppo = 238400 ∧
    (prepare (ofRec rec0) pini).base = 1 := by
  have hw := w0_pos.ne'
  rw [prepare_circuit rec0_circuit]
  simp only [ofRec, rec0, Option.getD]
  refine ⟨by norm_num, by norm_num, by norm_num, by norm_num, ?_, ?_, by norm_num⟩
  · field_simp; norm_num
  · field_simp; norm_num

theorem rec0_power (pini : ℝ) (b : Bool) (s : ℝ) (hs : 0 ≤ s) :
    (motorAt (prepare (ofRec rec0) pini) 1 b s).pmotor =
      (1 + (s * 20000)^2) * (1 + (s * 238400)^2) *
        (0.01 * (1 + (s * 20000)^2) * (1 + (s * 238400)^2)
          + (2.02 - 0.1768) * (s * 20000) * (1 + (s * 238400)^2)
          + (0.1768 - (0.1 + 48 / 745)) * (s * 238400) * (1 + (s * 20000)^2)) /
      ((0.01 * (1 + (s * 20000)^2) * (1 + (s * 238400)^2)
          + (2.02 - 0.1768) * (s * 20000) * (1 + (s * 238400)^2)
          + (0.1768 - (0.1 + 48 / 745)) * (s * 238400) * (1 + (s * 20000)^2)) ^ 2
        + (2.02 * (1 + (s * 20000)^2) * (1 + (s * 238400)^2)
          - (2.02 - 0.1768) * (s * 20000)^2 * (1 + (s * 238400)^2)
          - (0.1768 - (0.1 + 48 / 745)) * (s * 238400)^2 * (1 + (s * 20000)^2)) ^ 2) := by
  obtain ⟨h1, h2, h3, h4, h5, h6, h7⟩ := rec0_prepare pini
  rw [motor_power_eq (circuit_good rec0_circuit pini).1 1 b s hs]
  have e1 : w0 * s * (prepare (ofRec rec0) pini).tpo = s * 20000 := by rw [← h5]; ring
  have e2 : w0 * s * (prepare (ofRec rec0) pini).tppo = s * 238400 := by rw [← h6]; ring
  rw [e1, e2, h7]
  simp only [nn, mm, h1, h2, h3, h4, Complex.one_re, Complex.one_im]
  norm_num

theorem rec0_zs (pini s : ℝ) (zr z : ℂ)
    (h1 : zr * ((⟨0.0001 / s, 0.08⟩ : ℂ) + ⟨0.000002 / s, 0.4⟩)
      = ⟨0.0001 / s, 0.08⟩ * ⟨0.000002 / s, 0.4⟩)
    (h0 : (⟨0.0001 / s, 0.08⟩ : ℂ) + ⟨0.000002 / s, 0.4⟩ ≠ 0)
    (h2 : zr + ⟨0, 1.92⟩ ≠ 0)
    (h3 : (z - ⟨0.01, 0.1⟩) * (zr + ⟨0, 1.92⟩) = ⟨0, 1.92⟩ * zr) :
    zs (prepare (ofRec rec0) pini) s = z := by
  rw [prepare_circuit rec0_circuit]
  simp only [zs, ofRec, rec0, Option.getD]
  rw [← h1, mul_div_cancel_right₀ _ h0, ← h3, mul_div_cancel_right₀ _ h2]
  ring

theorem rec0_search (pini : ℝ) (hl : 0.71 ≤ pini) (hu : pini ≤ 1.16) :
    search (prepare (ofRec rec0) pini) 1 pini = some 0.0001 := by
  have z1 : zs (prepare (ofRec rec0) pini) 0.0001
      = ⟨114048517 / 1006438900, 7766753 / 20128778⟩ := by
    apply rec0_zs (zr := ⟨3761 / 26475, 8654 / 26475⟩) <;>
      simp only [Complex.ext_iff, ne_eq, Complex.mul_re, Complex.mul_im, Complex.add_re,
        Complex.add_im, Complex.sub_re, Complex.sub_im, Complex.zero_re, Complex.zero_im] <;>
      norm_num
  have z2 : zs (prepare (ofRec rec0) pini) 0.0002
      = ⟨818676673 / 5730604900, 36666605 / 114612098⟩ := by
    apply rec0_zs (zr := ⟨13769 / 81750, 9614 / 40875⟩) <;>
      simp only [Complex.ext_iff, ne_eq, Complex.mul_re, Complex.mul_im, Complex.add_re,
        Complex.add_im, Complex.sub_re, Complex.sub_im, Complex.zero_re, Complex.zero_im] <;>
      norm_num
  have hb := (rec0_prepare pini).2.2.2.2.2.2
  have s1 : sl 1 = 0.0001 := by norm_num [sl]
  have s2 : sl 2 = 0.0002 := by norm_num [sl]
  have p1 : pe (prepare (ofRec rec0) pini) 1 1 ≤ pini := by
    refine le_trans ?_ hl
    simp only [pe, s1, z1, hb, Complex.star_def, Complex.conj_re, Complex.div_re, one_mul,
      Complex.normSq_mk, Complex.one_re, Complex.one_im]
    norm_num
  have p2 : pini < pe (prepare (ofRec rec0) pini) 1 (1 + 1) := by
    refine lt_of_le_of_lt hu ?_
    simp only [pe, s2, z2, hb, Complex.star_def, Complex.conj_re, Complex.div_re, one_mul,
      Complex.normSq_mk, Complex.one_re, Complex.one_im, Nat.reduceAdd]
    norm_num
  unfold search
  rw [show List.range' 1 998 = 1 :: List.range' 2 997 from rfl,
    List.find?_cons_of_pos (by simpa using ⟨p1, p2⟩)]
  simp [s1]

/-- The case of `C302_lower_violated` is reached: a motor of 1 MVA with a load
of 0.8865 MW. -/
example : ∃ m P, Init (ofRec rec0) 1 0.8865 m ∧ StartsWith (ofRec rec0) 1 0.8865 P ∧
    0.8865 + 0.0001 < P ∧ 0 < m.x.slip ∧ m.x.slip < 1 ∧
    (ofRec rec0).A * (1 - m.x.slip) * (1 - m.x.slip) + (ofRec rec0).B * (1 - m.x.slip)
      + (ofRec rec0).D * (1 - m.x.slip) ^ (ofRec rec0).E ≠ 0 := by
  have g1 : 0.8865 + 0.0001 < (motorAt (prepare (ofRec rec0) 0.8865) 1 false 0.0001).pmotor := by
    rw [rec0_power _ _ _ (by norm_num)]
    norm_num
  have g2 : (motorAt (prepare (ofRec rec0) 0.8865) 1 true (0.0001 - 0.0001 * 0.0001)).pmotor
      ≤ 0.8865 + 0.0001 := by
    rw [rec0_power _ _ _ (by norm_num)]
    norm_num
  refine ⟨motorAt (prepare (ofRec rec0) 0.8865) 1 true (0.0001 - 0.0001 * 0.0001), _,
    ⟨0.0001, rec0_search _ (by norm_num) (by norm_num), ?_⟩,
    ⟨0.0001, rec0_search _ (by norm_num) (by norm_num), rfl⟩, g1, ?_, ?_, ?_⟩
  · unfold Adjust
    rw [if_neg (by linarith), if_pos (by linarith)]
    refine Lower.step _ _ (by linarith) ?_
    exact Lower.stop _ (by
      have : (motorAt (prepare (ofRec rec0) 0.8865) 1 false 0.0001).x.slip = 0.0001 := rfl
      rw [this]
      linarith)
  · show (0 : ℝ) < 0.0001 - 0.0001 * 0.0001
    norm_num
  · show (0.0001 - 0.0001 * 0.0001 : ℝ) < 1
    norm_num
  · show (ofRec rec0).A * (1 - (0.0001 - 0.0001 * 0.0001)) * (1 - (0.0001 - 0.0001 * 0.0001)) + (ofRec rec0).B * (1 - (0.0001 - 0.0001 * 0.0001))
      + (ofRec rec0).D * (1 - (0.0001 - 0.0001 * 0.0001 : ℝ)) ^ (ofRec rec0).E ≠ 0
    simp only [ofRec, rec0, Option.getD]
    norm_num

/-- The case of `C302_rest_partial`: the same motor with a load of 0.8867 MW. -/
example : ∃ m P, Init (ofRec rec0) 1 0.8867 m ∧ StartsWith (ofRec rec0) 1 0.8867 P ∧
    P ≤ 0.8867 + 0.0001 ∧ (ofRec rec0).H ≠ 0 ∧ m.x.slip ≠ 1 := by
  have g1 : (motorAt (prepare (ofRec rec0) 0.8867) 1 false 0.0001).pmotor < 0.8867 := by
    rw [rec0_power _ _ _ (by norm_num)]
    norm_num
  have g2 : 0.8866 < (motorAt (prepare (ofRec rec0) 0.8867) 1 false 0.0001).pmotor := by
    rw [rec0_power _ _ _ (by norm_num)]
    norm_num
  refine ⟨motorAt (prepare (ofRec rec0) 0.8867) 1 false 0.0001, _,
    ⟨0.0001, rec0_search _ (by norm_num) (by norm_num), ?_⟩,
    ⟨0.0001, rec0_search _ (by norm_num) (by norm_num), rfl⟩, by linarith, ?_, ?_⟩
  · unfold Adjust
    rw [if_pos (by linarith)]
    exact Raise.stop _ (by linarith)
  · simp only [ofRec, rec0, Option.getD]
    norm_num
  · show (0.0001 : ℝ) ≠ 1
    norm_num

/-! ## C303 -/

theorem raise_end {d : Data} {v : ℂ} {pini sl0 : ℝ} {m m' : Motor}
    (h : Raise d v pini sl0 m m') : pini - m'.pmotor ≤ 0.0001 := by
  induction h with
  | stop m hn => exact not_lt.1 hn
  | step _ _ _ _ ih => exact ih

theorem lower_end {d : Data} {v : ℂ} {pini sl0 : ℝ} {m m' : Motor}
    (h : Lower d v pini sl0 m m') : m'.pmotor - pini ≤ 0.0001 := by
  induction h with
  | stop m hn => linarith [not_lt.1 hn]
  | step _ _ _ _ ih => exact ih

/-- **C303** (partial: one side, and only if a slip is found and the adjustment
ends).  The motor does not start with less than the load by more than 0.0001 MW
if its slip was too small, and not with more if it was too large. -/
theorem C303_power_partial (d : Data) (v : ℂ) (pini : ℝ) (m : Motor) (hi : Init d v pini m)
    (P : ℝ) (hP : StartsWith d v pini P) :
    (P ≤ pini → pini - m.pmotor ≤ 0.0001) ∧ (pini ≤ P → m.pmotor - pini ≤ 0.0001) := by
  obtain ⟨sl0, h1, h2⟩ := hi
  obtain ⟨sl1, h3, h4⟩ := hP
  obtain rfl : sl0 = sl1 := by rw [h1] at h3; exact Option.some.inj h3
  have hp : (0 : ℝ) ≤ 0.0001 := by norm_num
  unfold Adjust at h2
  rw [h4] at h2
  split at h2
  · rename_i hgt
    exact ⟨fun _ => raise_end h2, fun hle => by linarith⟩
  · rename_i hgt
    split at h2
    · rename_i hlt
      exact ⟨fun hle => by linarith, fun _ => lower_end h2⟩
    · rename_i hlt
      rw [h2, h4]
      constructor <;> intro <;> linarith [not_lt.1 hgt, not_lt.1 hlt]

/-- **C303** violated: for a load above the power that the motor can draw, the
slip is not determined. -/
theorem C303_overload_violated {d : Data} (h : Circuit d) (v : ℂ) (pini : ℝ)
    (ho : (v.re ^ 2 + v.im ^ 2) / d.rs * d.base ≤ pini) :
    search (prepare d pini) v pini = none ∧ ¬ ∃ m, Init d v pini m := by
  obtain ⟨hg, -, hr1, hr2, hb, hr⟩ := circuit_good h pini
  have : search (prepare d pini) v pini = none := by
    cases hs : search (prepare d pini) v pini with
    | none => rfl
    | some s =>
      obtain ⟨k, hk1, -, -, hk2, -⟩ := search_some hs
      have := (pe_bounds (prepare d pini) v (k + 1) (by omega) hg.rs hr1 hr2 (by rw [hb]; exact h.base)).2
      rw [hb, hr] at this
      linarith
  refine ⟨this, ?_⟩
  rintro ⟨m, sl0, h1, -⟩
  rw [this] at h1
  cases h1

/-- **C303** violated: for a negative load the slip is not determined. -/
theorem C303_negative_violated {d : Data} (h : Circuit d) (v : ℂ) (pini : ℝ) (ho : pini < 0) :
    search (prepare d pini) v pini = none ∧ ¬ ∃ m, Init d v pini m := by
  obtain ⟨hg, -, hr1, hr2, hb, hr⟩ := circuit_good h pini
  have : search (prepare d pini) v pini = none := by
    cases hs : search (prepare d pini) v pini with
    | none => rfl
    | some s =>
      obtain ⟨k, hk1, -, hk2, -, -⟩ := search_some hs
      have := (pe_bounds (prepare d pini) v k hk1 hg.rs hr1 hr2 (by rw [hb]; exact h.base)).1
      linarith
  refine ⟨this, ?_⟩
  rintro ⟨m, sl0, h1, -⟩
  rw [this] at h1
  cases h1

/-- A motor of 1 MVA with the resistance 0.01 and a load of 100 MW, or of −1 MW. -/
example : (¬ ∃ m, Init (ofRec rec0) 1 100 m) ∧ ¬ ∃ m, Init (ofRec rec0) 1 (-1) m :=
  ⟨(C303_overload_violated rec0_circuit 1 100 (by
      simp only [ofRec, rec0, Option.getD, Complex.one_re, Complex.one_im]; norm_num)).2,
    (C303_negative_violated rec0_circuit 1 (-1) (by norm_num)).2⟩

/-! ## C304 -/

/-- **C304** (partial: all parameters but one).  The motor has the parameters of
its record. -/
theorem C304_parameters_partial (pm ra xa xm r1 x1 r2 x2 mb h a b d e pc : ℝ) :
    let m := ofRec ⟨some pm, some ra, some xa, some xm, some r1, some x1, some r2, some x2,
      some mb, some h, some a, some b, some d, some e, some pc⟩
    m.pul = pm ∧ m.rs = ra ∧ m.lls = xa ∧ m.lm = xm ∧ m.rr1 = r1 ∧ m.rr2 = r2 ∧ m.llr2 = x2 ∧
    m.base = mb ∧ m.H = h ∧ m.A = a ∧ m.B = b ∧ m.D = d ∧ m.E = e :=
  ⟨rfl, rfl, rfl, rfl, rfl, rfl, rfl, rfl, rfl, rfl, rfl, rfl, rfl⟩

/-- **C304** violated: the reactance of the first rotor circuit of a record is
never used: motors that differ in it are the same, at 0.08. -/
theorem C304_x1_violated (r : Rec) (x y : Option ℝ) :
    ofRec { r with x1 := x } = ofRec { r with x1 := y } ∧ (ofRec r).llr1 = 0.08 := ⟨rfl, rfl⟩

/-! ## C305 -/

/-- **C305**.  A share `f` of the motor in service draws this share of its
power, and the static load of the bus is lower by the other share. -/
theorem C305_share (d : Data) (v : ℂ) (f pl ql mag : ℝ) (x : Dyn) :
    v * star (norton d * v - injection d v f (staticY pl ql mag) x) * 100 =
      f * power d v x - (1 - f) * (v * star (staticY pl ql mag * v) * 100) := by
  have hi : norton d * v - injection d v f (staticY pl ql mag) x =
      f * (current d v x * d.base / 100) - (1 - f) * (staticY pl ql mag * v) := by
    simp only [norton, injection, current]
    ring
  rw [hi]
  simp only [power, Complex.star_def, map_sub, map_mul, map_div₀, Complex.conj_ofReal, map_one,
    map_ofNat]
  ring

/-- **C305**.  At the magnitude of the voltage at the start, the static load
that is taken off is the same share of the load of the power flow. -/
theorem C305_static (v : ℂ) (pl ql mag : ℝ) (hm : 0 < mag) (hv : v.re ^ 2 + v.im ^ 2 = mag * mag) :
    v * star (staticY pl ql mag * v) = ⟨pl, ql⟩ := by
  have h0 : mag ≠ 0 := hm.ne'
  apply Complex.ext
  · simp only [staticY, Complex.star_def, Complex.mul_re, Complex.mul_im, Complex.conj_re,
      Complex.conj_im]
    have : v.re * (pl / (mag * mag) * v.re - -ql / (mag * mag) * v.im)
        - v.im * -(pl / (mag * mag) * v.im + -ql / (mag * mag) * v.re)
        = pl * ((v.re ^ 2 + v.im ^ 2) / (mag * mag)) := by ring
    rw [this, hv, div_self (by positivity), mul_one]
  · simp only [staticY, Complex.star_def, Complex.mul_re, Complex.mul_im, Complex.conj_re,
      Complex.conj_im]
    have : v.re * -(pl / (mag * mag) * v.im + -ql / (mag * mag) * v.re)
        + v.im * (pl / (mag * mag) * v.re - -ql / (mag * mag) * v.im)
        = ql * ((v.re ^ 2 + v.im ^ 2) / (mag * mag)) := by ring
    rw [this, hv, div_self (by positivity), mul_one]

/-- Half of the motor in service and a voltage off the real axis. -/
example (d : Data) (x : Dyn) :
    (⟨0.6, 0.8⟩ : ℂ) * star (norton d * ⟨0.6, 0.8⟩
      - injection d ⟨0.6, 0.8⟩ (1 / 2) (staticY 0.3 0.1 1) x) * 100 =
      ((1 / 2 : ℝ) : ℂ) * power d ⟨0.6, 0.8⟩ x - (1 - ((1 / 2 : ℝ) : ℂ)) * ((⟨0.3, 0.1⟩ : ℂ) * 100) := by
  rw [C305_share, C305_static _ _ _ _ one_pos (by norm_num)]

end GridPACK.MotorW
