import Verif.Props.Exdc1

/-! Property C122 (saturation of EXDC1 and IEEET1). -/
namespace GridPACK.Exciters
open GridPACK.Cblock

/-- Two points of an increasing curve, in either order. -/
def Increasing (E1 S1 E2 S2 : Real) : Prop := (E1 < E2 ∧ S1 < S2) ∨ (E2 < E1 ∧ S2 < S1)

theorem sat_points {E1 SE1 E2 SE2 : Real} (h1 : 0 < E1) (h2 : 0 < E2) (s1 : 0 < SE1) (s2 : 0 < SE2)
    (hi : Increasing E1 (SE1 * E1) E2 (SE2 * E2)) :
    satCoefA E1 SE1 E2 SE2 < E1 ∧ satCoefA E1 SE1 E2 SE2 < E2 ∧
    satCoefB E1 SE1 E2 SE2 * (E1 - satCoefA E1 SE1 E2 SE2) * (E1 - satCoefA E1 SE1 E2 SE2) / E1 = SE1 ∧
    satCoefB E1 SE1 E2 SE2 * (E2 - satCoefA E1 SE1 E2 SE2) * (E2 - satCoefA E1 SE1 E2 SE2) / E2 = SE2 := by
  have p1 : 0 < SE1 * E1 := mul_pos s1 h1
  have p2 : 0 < SE2 * E2 := mul_pos s2 h2
  obtain ⟨r, hr⟩ : ∃ r, r = satRatio E1 SE1 E2 SE2 := ⟨_, rfl⟩
  have hr0 : 0 < r := by rw [hr]; exact Real.sqrt_pos.mpr (div_pos p1 p2)
  have hr2 : r * r = SE1 * E1 / (SE2 * E2) := by
    rw [hr]; exact Real.mul_self_sqrt (div_pos p1 p2).le
  have hrel : r * r * (SE2 * E2) = SE1 * E1 := by rw [hr2]; field_simp
  -- the sign of `1 - r` is that of `E2 - E1`
  have hq : 0 < (E2 - E1) / (1 - r) := by
    rcases hi with ⟨a, b⟩ | ⟨a, b⟩
    · have : r < 1 := by
        by_contra hc
        have hc := not_lt.mp hc
        have : 1 ≤ r * r := by nlinarith
        have := mul_le_mul_of_nonneg_right this p2.le
        linarith
      exact div_pos (by linarith) (by linarith)
    · have : 1 < r := by
        by_contra hc
        have hc := not_lt.mp hc
        have : r * r ≤ 1 := by nlinarith
        have := mul_le_mul_of_nonneg_right this p2.le
        linarith
      exact div_pos_of_neg_of_neg (by linarith) (by linarith)
  have hne : 1 - r ≠ 0 := by
    intro h; rw [h, div_zero] at hq; exact lt_irrefl _ hq
  obtain ⟨q, hqd⟩ : ∃ q, q = (E2 - E1) / (1 - r) := ⟨_, rfl⟩
  rw [← hqd] at hq
  have d2 : E2 - satCoefA E1 SE1 E2 SE2 = q := by
    unfold satCoefA; rw [← hr, hqd]; field_simp; ring
  have d1 : E1 - satCoefA E1 SE1 E2 SE2 = r * q := by
    unfold satCoefA; rw [← hr, hqd]; field_simp; ring
  have hB : satCoefB E1 SE1 E2 SE2 = SE1 * E1 / (r * q * (r * q)) := by
    unfold satCoefB; rw [d1]
  have hrq : 0 < r * q := mul_pos hr0 hq
  refine ⟨by linarith, by linarith, ?_, ?_⟩
  · rw [d1, hB]; field_simp
  · rw [d2, hB, ← hrel]; field_simp

/-- The regulator output that holds a field voltage above the start of saturation. -/
theorem holding_of_sat {g : Exdc1} {KE E1 SE1 E2 SE2 : Real} (hKE : g.KE = KE) (hs : g.hasSat = true)
    (hA : g.satA = satCoefA E1 SE1 E2 SE2) (hB : g.satB = satCoefB E1 SE1 E2 SE2)
    (h1 : 0 < E1) (h2 : 0 < E2) (s1 : 0 < SE1) (s2 : 0 < SE2)
    (hi : Increasing E1 (SE1 * E1) E2 (SE2 * E2)) :
    g.holding E1 = (KE + SE1) * E1 ∧ g.holding E2 = (KE + SE2) * E2 := by
  obtain ⟨a1, a2, b1, b2⟩ := sat_points h1 h2 s1 s2 hi
  have e : ∀ x S, satCoefA E1 SE1 E2 SE2 < x →
      satCoefB E1 SE1 E2 SE2 * (x - satCoefA E1 SE1 E2 SE2) * (x - satCoefA E1 SE1 E2 SE2) / x = S →
      g.holding x = (KE + S) * x := by
    intro x S hx hS
    unfold Exdc1.holding Exdc1.satSignal
    rw [if_pos (by exact hs)]
    show g.KE * x + x * (if x < g.satA then 0 else g.satB * (x - g.satA) * (x - g.satA) / x) = _
    rw [hA, hB, if_neg (not_lt.mpr hx.le), hS, hKE]
    ring
  exact ⟨e _ _ a1 b1, e _ _ a2 b2⟩

/-- C122 for EXDC1.  With two points of the saturation curve, positive and not too small, for which the
curve increases (in either order), the regulator output needed to hold the field voltage `E1` is
`(KE + SE1) E1`, and for `E2` it is `(KE + SE2) E2`.  Partial: `SE1 = 0` is not covered
(`C122_zero_violated`). -/
theorem C122_exdc1_partial (g0 : Exdc1) (TR KA TA TB TC Vrmax Vrmin KE TE KF TF1 E1 SE1 E2 SE2 : Real)
    (hTE : TE ≠ 0) (hTF : TF1 ≠ 0) (h1 : 0 < E1) (h2 : 0 < E2) (s1 : 0 < SE1) (s2 : 0 < SE2)
    (hb : 1 / 10 ^ 6 ≤ SE1 * SE2) (hi : Increasing E1 (SE1 * E1) E2 (SE2 * E2)) :
    ∃ g, g0.construct.load (exdc1Data TR KA TA TB TC Vrmax Vrmin KE TE KF TF1 E1 SE1 E2 SE2) = some g ∧
      g.holding E1 = (KE + SE1) * E1 ∧ g.holding E2 = (KE + SE2) * E2 := by
  obtain ⟨g, hg, H⟩ := exdc1_load g0 TR KA TA TB TC Vrmax Vrmin KE TE KF TF1 E1 SE1 E2 SE2 hTE hTF
  have hsm : isSmall (SE1 * SE2) = false :=
    isSmall_false (by unfold small; exact le_trans hb (le_abs_self _))
  exact ⟨g, hg, holding_of_sat H.hKE (by rw [H.hs, hsm]; rfl) (H.hA hsm) (H.hB hsm) h1 h2 s1 s2 hi⟩

/-- C122 for IEEET1. -/
theorem C122_ieeet1_partial (g0 : Exdc1) (TR KA TA TB TC Vrmax Vrmin KE TE KF TF1 E1 SE1 E2 SE2 : Real)
    (hTE : TE ≠ 0) (hTF : TF1 ≠ 0) (h1 : 0 < E1) (h2 : 0 < E2) (s1 : 0 < SE1) (s2 : 0 < SE2)
    (hb : 1 / 10 ^ 6 ≤ SE1 * SE2) (hi : Increasing E1 (SE1 * E1) E2 (SE2 * E2)) :
    ∃ g, ieeet1Load g0.construct (exdc1Data TR KA TA TB TC Vrmax Vrmin KE TE KF TF1 E1 SE1 E2 SE2) = some g ∧
      g.holding E1 = (KE + SE1) * E1 ∧ g.holding E2 = (KE + SE2) * E2 := by
  obtain ⟨g, hg, _, hKE, _, _, hs, hA, hB, _⟩ :=
    ieeet1_load g0 TR KA TA TB TC Vrmax Vrmin KE TE KF TF1 E1 SE1 E2 SE2 hTE hTF
  have hsm : isSmall (SE1 * SE2) = false :=
    isSmall_false (by unfold small; exact le_trans hb (le_abs_self _))
  exact ⟨g, hg, holding_of_sat hKE (by rw [hs, hsm]; rfl) (hA hsm) (hB hsm) h1 h2 s1 s2 hi⟩

/-- Typical saturation data. -/
example : (0 : Real) < 28 / 10 ∧ (0 : Real) < 37 / 10 ∧ (1 : Real) / 10 ^ 6 ≤ 4 / 100 * (33 / 100) ∧
    Increasing (28 / 10) (4 / 100 * (28 / 10)) (37 / 10) (33 / 100 * (37 / 10)) := by
  refine ⟨by norm_num, by norm_num, by norm_num, Or.inl ⟨by norm_num, by norm_num⟩⟩

/-- C122 fails if there is no saturation at the first point: with `SE1 = 0` the second point is ignored,
and the regulator output for `E2` is `KE E2`. -/
theorem C122_zero_violated (g0 : Exdc1) (TR KA TA TB TC Vrmax Vrmin KE TE KF TF1 E1 E2 SE2 : Real)
    (hTE : TE ≠ 0) (hTF : TF1 ≠ 0) (h2 : 0 < E2) (s2 : 0 < SE2) :
    ∃ g, g0.construct.load (exdc1Data TR KA TA TB TC Vrmax Vrmin KE TE KF TF1 E1 0 E2 SE2) = some g ∧
      g.holding E2 = KE * E2 ∧ g.holding E2 ≠ (KE + SE2) * E2 := by
  obtain ⟨g, hg, H⟩ := exdc1_load g0 TR KA TA TB TC Vrmax Vrmin KE TE KF TF1 E1 0 E2 SE2 hTE hTF
  have hs : g.hasSat = false := by rw [H.hs, zero_mul, isSmall_zero]; rfl
  have e : g.holding E2 = KE * E2 := by
    unfold Exdc1.holding Exdc1.satSignal
    rw [if_neg (by show ¬ g.hasSat = true; rw [hs]; simp)]
    show g.KE * E2 = _
    rw [H.hKE]
  refine ⟨g, hg, e, ?_⟩
  rw [e]
  have := mul_pos s2 h2
  intro h
  nlinarith

/-- The reference set at initialisation follows from the regulator output: without lags and lead-lag the
exciter asks for the voltage error `((KE + SE1) E1) / KA` to hold the field voltage `E1`. -/
theorem C122_reference_partial (g0 : Exdc1) (KA Vrmax Vrmin KE TE TF1 E1 SE1 E2 SE2 V : Real)
    (hTE : TE ≠ 0) (hTF : TF1 ≠ 0) (h1 : 0 < E1) (h2 : 0 < E2) (s1 : 0 < SE1) (s2 : 0 < SE2)
    (hb : 1 / 10 ^ 6 ≤ SE1 * SE2) (hi : Increasing E1 (SE1 * E1) E2 (SE2 * E2))
    (hTF' : |TF1| ≤ 10 ^ 10) (hcf : Constructed g0.feedback) (hco : Constructed g0.output)
    (hE : E1 ≤ 1000) :
    ∃ g, g0.construct.load (exdc1Data 0 KA 0 0 0 Vrmax Vrmin KE TE 0 TF1 E1 SE1 E2 SE2) = some g ∧
      (exdc1Start g V 0 E1).Vref = (KE + SE1) * E1 / KA + V := by
  obtain ⟨g, hg, H⟩ := exdc1_load g0 0 KA 0 0 0 Vrmax Vrmin KE TE 0 TF1 E1 SE1 E2 SE2 hTE hTF
  have hsm : isSmall (SE1 * SE2) = false :=
    isSmall_false (by unfold small; exact le_trans hb (le_abs_self _))
  have hh := (holding_of_sat H.hKE (by rw [H.hs, hsm]; rfl) (H.hA hsm) (H.hB hsm) h1 h2 s1 s2 hi).1
  obtain ⟨f1, _⟩ := feedback_rest (u := E1) hcf H.fb hTF' (Or.inl rfl) (by simp)
  obtain ⟨o1, _⟩ := integrator_rest (y := E1) hco H.int (by rw [abs_of_pos h1]; exact hE)
  refine ⟨g, hg, ?_⟩
  have es : (((g.setVterminal V).setVstab 0).setFieldVoltage E1).satSignal = (KE + SE1) * E1 := hh
  have zTR : g.zeroTR = true := by rw [H.zTR, isSmall_zero]
  have zTA : g.zeroTA = true := by rw [H.zTA, isSmall_zero]
  have zl : g.hasLeadlag = false := by rw [H.hl, zero_mul, isSmall_zero]; rfl
  unfold exdc1Start Exdc1.init
  simp only [es]
  simp only [Exdc1.setVterminal, Exdc1.setVstab, Exdc1.setFieldVoltage, f1, o1, zero_add, H.hKA, zTA, zTR,
      zl, back, start, Bool.not_false, if_true, sub_zero, add_zero]

/-- A case of C119 for EXDC1 with all blocks present: typical data, field voltage `E1`; the regulator output
`(KE + SE1) E1` lies inside the limits. -/
example (g0 : Exdc1) : ∃ g, g0.construct.load (exdc1Data (2 / 100) 46 (6 / 100) 1 (1 / 2) 5 (-5) 1 (1 / 2)
      (8 / 100) 1 (28 / 10) (4 / 100) (37 / 10) (33 / 100)) = some g ∧
    (-5 ≤ g.holding (28 / 10) ∧ g.holding (28 / 10) ≤ 5) ∧ |g.holding (28 / 10)| ≤ 1000 ∧
    |g.holding (28 / 10) / 46| ≤ 1000 ∧ |(1 - (6 / 100) / 1) * (g.holding (28 / 10) / 46)| ≤ 1000 := by
  obtain ⟨g, hg, h, _⟩ := C122_exdc1_partial g0 (2 / 100) 46 (6 / 100) 1 (1 / 2) 5 (-5) 1 (1 / 2)
      (8 / 100) 1 (28 / 10) (4 / 100) (37 / 10) (33 / 100) (by norm_num) (by norm_num) (by norm_num)
      (by norm_num) (by norm_num) (by norm_num) (by norm_num) (Or.inl ⟨by norm_num, by norm_num⟩)
  refine ⟨g, hg, ?_⟩
  rw [h]
  norm_num [abs_of_pos]

end GridPACK.Exciters
