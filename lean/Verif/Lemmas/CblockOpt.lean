import Verif.Model.Exciters
import Verif.Lemmas.CblockHeun

/-! Optional blocks at rest. -/
namespace GridPACK.Exciters
open GridPACK.Cblock

/-- An optional block ready to report `y` for the input `u`; `alt` is the value used without the block. -/
def ReadyOpt (z : Bool) (s : Stage) (b : Block) (u y alt : Real) : Prop :=
  if z then alt = y else Ready s b u y

theorem pass_step {z : Bool} {s : Stage} {b : Block} {u y alt : Real} (h : ReadyOpt z s b u y alt) (dt : Real) :
    (pass z b u alt dt s).2 = y ∧ ∀ s', ReadyOpt z s' (pass z b u alt dt s).1 u y alt := by
  cases z
  · obtain ⟨h1, h2⟩ := ready_step (s := s) (b := b) (u := u) (y := y) h dt
    exact ⟨h1, fun _ => ready_of_held h2⟩
  · exact ⟨h, fun _ => h⟩

/-- The derivative feedback `s KF / (1 + s TF)` at rest with output 0. -/
theorem feedback_rest {b b' : Block} {TF KF u : Real} (hc : Constructed b)
    (h : setcoeffs b TF 1 KF 0 = some b') (hT : |TF| ≤ 10 ^ 10)
    (hK : KF = 0 ∨ eps * (TF * TF) ≤ |KF|) (hx : |KF / TF * u| ≤ 1000) :
    (initGivenU b' u).2 = 0 ∧ Rest (initGivenU b' u).1 u 0 := by
  have hT0 : TF ≠ 0 := by
    rintro rfl
    unfold setcoeffs at h
    rw [if_pos rfl] at h
    cases h
  unfold setcoeffs at h
  rw [if_neg hT0] at h
  simp only [Option.some.injEq] at h
  subst h
  obtain ⟨c1, c2, c3, c4, c5, c6, _⟩ := hc
  have hpos : 0 < TF * TF := mul_self_pos.mpr hT0
  have eB : (0 : Real) / TF - 1 * KF / (TF * TF) = -(KF / (TF * TF)) := by ring
  rw [abs_le] at hx
  rcases hK with h0 | hK
  · subst h0
    unfold initGivenU
    rw [if_pos (by rw [eB]; simp [eps_pos])]
    refine ⟨by simp, ⟨by simp, by simp, ?_, ?_, ?_⟩⟩
    · simp only [c1, c2]; constructor <;> norm_num
    · simp only [c5, c6]; constructor <;> norm_num
    · simp only [c3, c4]; constructor <;> norm_num
  · have hnB : ¬ |(0 : Real) / TF - 1 * KF / (TF * TF)| < eps := by
      rw [eB, abs_neg, abs_div, abs_of_pos hpos, not_lt, le_div_iff₀ hpos]
      exact hK
    unfold initGivenU
    rw [if_neg hnB, if_neg (not_lt.mpr (eps_le_inv hT0 hT))]
    have e2 : -((0 : Real) / TF - 1 * KF / (TF * TF)) / (-1 / TF) * u = -(KF / TF * u) := by
      field_simp; ring
    refine ⟨?_, ⟨?_, ?_, ?_, ?_, ?_⟩⟩
    · show 1 * (-((0 : Real) / TF - 1 * KF / (TF * TF)) / (-1 / TF) * u) + KF / TF * u = 0
      rw [e2]; ring
    · show -1 / TF * (-((0 : Real) / TF - 1 * KF / (TF * TF)) / (-1 / TF) * u) +
        (0 / TF - 1 * KF / (TF * TF)) * u = 0
      rw [e2]; field_simp; ring
    · show 1 * (-((0 : Real) / TF - 1 * KF / (TF * TF)) / (-1 / TF) * u) + KF / TF * u = 0
      rw [e2]; ring
    · show b.xmin ≤ -((0 : Real) / TF - 1 * KF / (TF * TF)) / (-1 / TF) * u ∧
        -((0 : Real) / TF - 1 * KF / (TF * TF)) / (-1 / TF) * u ≤ b.xmax
      rw [e2, c1, c2]; constructor <;> linarith
    · show b.dxmin ≤ 0 ∧ 0 ≤ b.dxmax
      rw [c5, c6]; constructor <;> norm_num
    · show b.ymin ≤ 0 ∧ 0 ≤ b.ymax
      rw [c3, c4]; constructor <;> norm_num

/-- Integrator at rest. -/
theorem integrator_rest {b b' : Block} {T y : Real} (hc : Constructed b) (h : integrator b T = some b')
    (hy : |y| ≤ 1000) : (initGivenY b' y).2 = 0 ∧ Rest (initGivenY b' y).1 0 y := by
  obtain ⟨_, e⟩ := integrator_coeffs h
  subst e
  obtain ⟨_, _, _, _, c5, c6, _⟩ := hc
  rw [abs_le] at hy
  apply integral_rest rfl rfl hy hy
  show b.dxmin ≤ 0 ∧ 0 ≤ b.dxmax
  rw [c5, c6]; constructor <;> norm_num

/-- Filter with gain and state limits at rest, started from its output. -/
theorem regulator_rest {b b' : Block} {K T L U y : Real}
    (h : withLimits (filter b K T) L U (-1000) 1000 = some b') (hT : |T| ≤ 10 ^ 10) (hK : K ≠ 0)
    (hx : L ≤ y ∧ y ≤ U) (hy : |y| ≤ 1000) :
    (initGivenY b' y).2 = y / K ∧ Rest (initGivenY b' y).1 (y / K) y := by
  obtain ⟨b0, h0, e⟩ := withLimits_some h
  obtain ⟨hT0, e0⟩ := filter_coeffs h0
  subst e e0
  rw [abs_le] at hy
  refine filter_rest hT0 hT hK rfl rfl rfl rfl hx hy ?_
  constructor <;> simp [defaultLimits, setxlimits, setdxlimits, setylimits]

/-- Measurement lag with gain 1, started from its input. -/
theorem measure_rest {b b' : Block} {T u : Real} (h : filter b 1 T = some b') (hT : |T| ≤ 10 ^ 10)
    (hu : |u| ≤ 1000) : (initGivenU b' u).2 = u ∧ Rest (initGivenU b' u).1 u u := by
  obtain ⟨hT0, e0⟩ := filter_coeffs h
  subst e0
  rw [abs_le] at hu
  have := filter_rest_u (b := { defaultLimits b with A := -1 / T, B := 1 / T, C := 1, D := 0 }) (K := 1)
    (T := T) (u := u) hT0 hT
    (by unfold eps; rw [abs_one, div_mul_eq_mul_div, one_mul, div_le_one (by norm_num)]; exact hT)
    rfl rfl rfl rfl (by rw [one_mul]; exact hu) (by rw [one_mul]; exact hu)
    (by constructor <;> simp [defaultLimits, setxlimits, setdxlimits, setylimits])
  rw [one_mul] at this
  exact this

/-- Lead-lag block at rest, started from its output. -/
theorem lead_rest {b b' : Block} {TA TB y : Real} (h : leadLag b TA TB = some b') (hT : |TB| ≤ 10 ^ 10)
    (hy : |y| ≤ 1000) (hx : |(1 - TA / TB) * y| ≤ 1000) :
    (initGivenY b' y).2 = y ∧ Rest (initGivenY b' y).1 y y := by
  obtain ⟨hT0, e⟩ := leadLag_coeffs h
  subst e
  rw [abs_le] at hy hx
  refine leadLag_rest hT0 hT rfl rfl rfl rfl hx hy ?_
  constructor <;> simp [defaultLimits, setxlimits, setdxlimits, setylimits]

theorem gain_rest {g : Dblock.GainLimiter} {K L U y : Real} (hK : K ≠ 0) (hy : L ≤ y ∧ y ≤ U) :
    (setGain g K L U).output (y / K) = y := by
  show clamp L U (K * (y / K)) = y
  rw [mul_div_cancel₀ y hK]
  exact clamp_of_mem _ _ _ hy.1 hy.2

theorem filter_exists (b : Block) {K T : Real} (h : T ≠ 0) : ∃ b', filter b K T = some b' := by
  unfold filter setcoeffs; rw [if_neg h]; exact ⟨_, rfl⟩

theorem regulator_exists (b : Block) {K T L U : Real} (h : T ≠ 0) :
    ∃ b', withLimits (filter b K T) L U (-1000) 1000 = some b' := by
  unfold withLimits filter setcoeffs; rw [if_neg h]; exact ⟨_, rfl⟩

theorem leadLag_exists (b : Block) {TA TB : Real} (h : TB ≠ 0) : ∃ b', leadLag b TA TB = some b' := by
  unfold leadLag setcoeffs; rw [if_neg h]; exact ⟨_, rfl⟩

theorem integrator_exists (b : Block) {T : Real} (h : T ≠ 0) : ∃ b', integrator b T = some b' := by
  unfold integrator setcoeffs; rw [if_neg h]; exact ⟨_, rfl⟩

theorem feedback_exists (b : Block) {TF KF : Real} (h : TF ≠ 0) : ∃ b', setcoeffs b TF 1 KF 0 = some b' := by
  unfold setcoeffs; rw [if_neg h]; exact ⟨_, rfl⟩

theorem small_pos : 0 < small := by unfold small; norm_num

theorem isSmall_zero : isSmall 0 = true := by
  unfold isSmall; rw [if_pos (by rw [abs_zero]; exact small_pos)]

theorem isSmall_true {v : Real} (h : |v| < small) : isSmall v = true := by
  unfold isSmall; rw [if_pos h]

theorem isSmall_false {v : Real} (h : small ≤ |v|) : isSmall v = false := by
  unfold isSmall; rw [if_neg (not_lt.mpr h)]

theorem ne_zero_of_isSmall {v : Real} (h : isSmall v = false) : v ≠ 0 := by
  rintro rfl
  rw [isSmall_zero] at h
  cases h

end GridPACK.Exciters
