import Verif.Lemmas.DaeDerivSal

/-! Derivatives of the equations of EXDC1, ESST1A and WSIEG1. -/
namespace GridPACK.Dae

/-- A magnitude of a voltage along a curve. -/
theorem magnitude_deriv {Y : ℝ → Ix → ℝ} {d : Ix → ℝ} (hY : ∀ ix, HasDerivAt (fun t => Y t ix) (d ix) 0)
    (hV : Y 0 VD * Y 0 VD + Y 0 VQ * Y 0 VQ ≠ 0) :
    HasDerivAt (fun t => √(Y t VD * Y t VD + Y t VQ * Y t VQ))
      (Y 0 VD / √(Y 0 VD * Y 0 VD + Y 0 VQ * Y 0 VQ) * d VD + Y 0 VQ / √(Y 0 VD * Y 0 VD + Y 0 VQ * Y 0 VQ) * d VQ) 0 := by
  have h := (((hY VD).mul (hY VD)).add ((hY VQ).mul (hY VQ))).sqrt hV
  refine HasDerivAt.congr_deriv h ?_
  have h0 : √(Y 0 VD * Y 0 VD + Y 0 VQ * Y 0 VQ) ≠ 0 := by
    have : 0 ≤ Y 0 VD * Y 0 VD + Y 0 VQ * Y 0 VQ := add_nonneg (mul_self_nonneg _) (mul_self_nonneg _)
    rw [Real.sqrt_ne_zero this]
    exact hV
  simp only [Pi.add_apply, Pi.mul_apply]
  field_simp
  ring

/-- The product of saturation and field voltage. -/
theorem saturation_deriv (e : Exdc1) (E : ℝ) (hs : e.Efdthresh = e.satA ∨ e.satB = 0) (h0 : E > e.Efdthresh → E ≠ 0) :
    HasDerivAt (fun E => e.SE E * E) (if E > e.Efdthresh then 2 * e.satB * (E - e.satA) else 0) E := by
  have hq : HasDerivAt (fun E => e.satB * (E - e.satA) * (E - e.satA)) (2 * e.satB * (E - e.satA)) E := by
    have h := (((hasDerivAt_id E).sub_const e.satA).const_mul e.satB).mul ((hasDerivAt_id E).sub_const e.satA)
    refine HasDerivAt.congr_deriv h ?_
    simp
    ring
  rcases lt_trichotomy E e.Efdthresh with h | h | h
  · rw [if_neg (not_lt.mpr h.le)]
    refine (hasDerivAt_const E (0:ℝ)).congr_of_eventuallyEq ?_
    filter_upwards [Iio_mem_nhds h] with x hx
    simp [Exdc1.SE, not_lt.mpr (le_of_lt (Set.mem_Iio.mp hx))]
  · rw [if_neg (by simp [h])]
    have hz : e.satB * (E - e.satA) * (E - e.satA) = 0 ∧ 2 * e.satB * (E - e.satA) = 0 := by
      rcases hs with hs | hs
      · rw [h, hs]; simp
      · rw [hs]; simp
    rw [hz.2] at hq
    rw [← hasDerivWithinAt_univ, ← Set.Iic_union_Ici (a := E)]
    refine HasDerivWithinAt.union ?_ ?_
    · refine (hasDerivAt_const E (0:ℝ)).hasDerivWithinAt.congr ?_ ?_
      · intro x hx
        have : x ≤ e.Efdthresh := h ▸ hx
        simp [Exdc1.SE, not_lt.mpr this]
      · simp [Exdc1.SE, h]
    · have hev : ∀ᶠ x in nhdsWithin E (Set.Ici E), e.SE x * x = e.satB * (x - e.satA) * (x - e.satA) := by
        have hx0 : ∀ᶠ x in nhdsWithin E (Set.Ici E), x > E → x ≠ 0 := by
          rcases lt_or_ge E 0 with hE | hE
          · have := nhdsWithin_le_nhds (s := Set.Ici E) (Iio_mem_nhds hE)
            filter_upwards [this] with x hx _
            exact ne_of_lt hx
          · filter_upwards with x hx
            exact ne_of_gt (lt_of_le_of_lt hE hx)
        filter_upwards [hx0, self_mem_nhdsWithin] with x hx hmem
        rcases eq_or_lt_of_le (Set.mem_Ici.mp hmem) with hxe | hxe
        · rw [← hxe, hz.1]
          simp [Exdc1.SE, h]
        · have hne := hx hxe
          have : x > e.Efdthresh := h ▸ hxe
          simp only [Exdc1.SE, if_pos this]
          field_simp
      refine hq.hasDerivWithinAt.congr_of_eventuallyEq hev ?_
      rw [hz.1]
      simp [Exdc1.SE, h]
  · rw [if_pos h]
    refine hq.congr_of_eventuallyEq ?_
    have hne := h0 h
    filter_upwards [Ioi_mem_nhds h, isOpen_ne.mem_nhds hne] with x hx hx0
    have hx' : x > e.Efdthresh := hx
    have hx0' : x ≠ 0 := hx0
    simp only [Exdc1.SE, if_pos hx']
    field_simp

variable {Y : ℝ → Ix → ℝ} {Z : ℝ → Ix → ℝ} {d : Ix → ℝ} {s : ℝ}

namespace Exdc1
variable (e : Exdc1)

theorem Vf_deriv (hY : ∀ ix, HasDerivAt (fun t => Y t ix) (d ix) 0) :
    HasDerivAt (fun t => e.Vf (Y t)) (d (.exc 4) + e.KF / e.TF * d (.exc 3)) 0 :=
  (hY (.exc 4)).add ((hY (.exc 3)).const_mul _)

theorem yLL_deriv (hY : ∀ ix, HasDerivAt (fun t => Y t ix) (d ix) 0) (hF : e.diff1 = true → e.KF / e.TF = 0) :
    HasDerivAt (fun t => e.yLL (Y t)) (d (.exc 1) + e.dyLL * d (.exc 0) + e.dyLL * d (.exc 4)) 0 := by
  cases h1 : e.diff1
  · simp only [yLL, dyLL, h1]
    simpa using hY (.exc 1)
  · have h := (hY (.exc 1)).add ((((hY (.exc 0)).const_sub e.Vref).sub (e.Vf_deriv hY)).const_mul (e.TC / e.TB))
    simp only [yLL, dyLL, h1]
    refine HasDerivAt.congr_deriv h ?_
    rw [hF h1]
    simp
    ring

theorem lin_rows (X : Ix → ℝ) (m : Mode) (i : ℕ) : lin (e.jac X m s) d (.net i) = 0 ∧ lin (e.jac X m s) d (.gen i) = 0
    ∧ lin (e.jac X m s) d (.gov i) = 0 := by
  cases m <;> simp only [jac, lin_append] <;> simp [lin_set, lin_nil, lin_ite]

/-- The conditions under which the entries of EXDC1 are derivatives with `RESIDUAL_EVAL`. -/
theorem resid_deriv (hY : ∀ ix, HasDerivAt (fun t => Y t ix) (d ix) 0)
    (hZ : ∀ k, HasDerivAt (fun t => Z t (.exc k)) (s * d (.exc k)) 0)
    (hV : Y 0 VD * Y 0 VD + Y 0 VQ * Y 0 VQ ≠ 0)
    (h1a : e.diff1 = true → e.TC = e.TB) (h1b : e.diff1 = false → e.KF / e.TF = 0)
    (h2 : e.VRatmin = false → e.VRatmax = false → e.diff1 = true → e.KF / e.TF = 0)
    (hs : e.Efdthresh = e.satA ∨ e.satB = 0) (h0 : Y 0 (.exc 3) > e.Efdthresh → Y 0 (.exc 3) ≠ 0)
    (P : Ix → ℝ) (k : ℕ) (hk : k < 5) :
    HasDerivAt (fun t => e.resid (Y t) .resid (Z t) P k) (lin (e.jac (Y 0) .resid s) d (.exc k)) 0 := by
  have hEc : HasDerivAt (fun t => Ec (Y t)) (Y 0 VD / Ec (Y 0) * d VD + Y 0 VQ / Ec (Y 0) * d VQ) 0 :=
    magnitude_deriv hY hV
  interval_cases k
  · cases hd : e.diff0
    · simp only [resid, jac, lin_append, hd]
      refine HasDerivAt.congr_deriv ((hY (.exc 0)).neg.add hEc) ?_
      simp [lin_set, lin_nil, lin_ite]
      all_goals ring
    · simp only [resid, jac, lin_append, hd]
      refine HasDerivAt.congr_deriv ((((hY (.exc 0)).neg.add hEc).div_const e.TR).sub (hZ 0)) ?_
      simp [lin_set, lin_nil, lin_ite]
      all_goals ring
  · cases hd : e.diff1
    · have hF := h1b hd
      simp only [resid, jac, lin_append, hd]
      refine HasDerivAt.congr_deriv ((((hY (.exc 1)).neg.add_const e.Vref).sub (hY (.exc 0))).sub (e.Vf_deriv hY)) ?_
      rw [hF]
      simp [lin_set, lin_nil, lin_ite]
      all_goals ring
    · have hT := h1a hd
      have hB : e.TC / e.TB = 1 := by
        have : e.TB ≠ 0 := by
          intro h
          simp [diff1, h] at hd
        rw [hT]; exact div_self this
      simp only [resid, jac, lin_append, hd]
      refine HasDerivAt.congr_deriv (((((hY (.exc 1)).neg.add ((((hY (.exc 0)).const_sub e.Vref).sub
        (e.Vf_deriv hY)).const_mul (1 - e.TC / e.TB))).div_const e.TB)).sub (hZ 1)) ?_
      rw [hB]
      simp [lin_set, lin_nil, lin_ite]
      all_goals ring
  · cases hmin : e.VRatmin
    · cases hmax : e.VRatmax
      · have hL := e.yLL_deriv hY (h2 hmin hmax)
        cases hd : e.diff2
        · simp only [resid, jac, lin_append, hd, hmin, hmax]
          refine HasDerivAt.congr_deriv ((hY (.exc 2)).neg.add (hL.const_mul e.KA)) ?_
          simp [lin_set, lin_nil, lin_ite]
          all_goals ring
        · simp only [resid, jac, lin_append, hd, hmin, hmax]
          refine HasDerivAt.congr_deriv ((((hY (.exc 2)).neg.add (hL.const_mul e.KA)).div_const e.TA).sub (hZ 2)) ?_
          simp [lin_set, lin_nil, lin_ite]
          all_goals ring
      · simp only [resid, jac, lin_append, hmin, hmax]
        refine HasDerivAt.congr_deriv ((hY (.exc 2)).sub_const e.VRmax) ?_
        simp [lin_set, lin_nil, lin_ite]
    · simp only [resid, jac, lin_append, hmin]
      refine HasDerivAt.congr_deriv ((hY (.exc 2)).sub_const e.VRmin) ?_
      simp [lin_set, lin_nil, lin_ite]
  · have hS : HasDerivAt (fun t => e.SE (Y t (.exc 3)) * Y t (.exc 3))
        ((if Y 0 (.exc 3) > e.Efdthresh then 2 * e.satB * (Y 0 (.exc 3) - e.satA) else 0) * d (.exc 3)) 0 :=
      HasDerivAt.comp (h₂ := fun E => e.SE E * E) (0:ℝ) (saturation_deriv e (Y 0 (.exc 3)) hs h0) (hY (.exc 3))
    have h := (((hY (.exc 2)).sub (hS.add ((hY (.exc 3)).const_mul e.KE))).div_const e.TE).sub (hZ 3)
    have e1 : (fun t => e.resid (Y t) .resid (Z t) P 3) = fun t => (Y t (.exc 2) - (e.SE (Y t (.exc 3)) * Y t (.exc 3)
        + e.KE * Y t (.exc 3))) / e.TE - Z t (.exc 3) := by
      funext t
      simp only [resid]
      ring
    rw [e1]
    refine HasDerivAt.congr_deriv h ?_
    simp only [jac, lin_append]
    generalize (if Y 0 (.exc 3) > e.Efdthresh then 2 * e.satB * (Y 0 (.exc 3) - e.satA) else 0) = q
    simp [lin_set, lin_nil, lin_ite]
    all_goals ring
  · have h := (((hY (.exc 4)).neg.sub ((hY (.exc 3)).const_mul (e.KF / e.TF))).div_const e.TF).sub (hZ 4)
    refine HasDerivAt.congr_deriv h ?_
    simp only [jac, lin_append]
    simp [lin_set, lin_nil, lin_ite]
    all_goals (simp only [div_eq_mul_inv, mul_inv]; ring)

theorem fault_deriv (hY : ∀ ix, HasDerivAt (fun t => Y t ix) (d ix) 0)
    (hV : e.diff0 = false → Y 0 VD * Y 0 VD + Y 0 VQ * Y 0 VQ ≠ 0)
    (h1b : e.diff1 = false → e.KF / e.TF = 0)
    (h2 : e.VRatmin = false → e.VRatmax = false → e.diff2 = false → e.diff1 = true → e.KF / e.TF = 0)
    (P : Ix → ℝ) (k : ℕ) (hk : k < 5) :
    HasDerivAt (fun t => e.resid (Y t) .fault (Z t) P k) (lin (e.jac (Y 0) .fault s) d (.exc k)) 0 := by
  interval_cases k
  · cases hd : e.diff0
    · have hEc : HasDerivAt (fun t => Ec (Y t)) (Y 0 VD / Ec (Y 0) * d VD + Y 0 VQ / Ec (Y 0) * d VQ) 0 :=
        magnitude_deriv hY (hV hd)
      simp only [resid, jac, lin_append, hd]
      refine HasDerivAt.congr_deriv ((hY (.exc 0)).neg.add hEc) ?_
      simp [lin_set, lin_nil, lin_ite]
      all_goals ring
    · simp only [resid, jac, lin_append, hd]
      refine HasDerivAt.congr_deriv ((hY (.exc 0)).sub_const _) ?_
      simp [lin_set, lin_nil, lin_ite]
  · cases hd : e.diff1
    · have hF := h1b hd
      simp only [resid, jac, lin_append, hd]
      refine HasDerivAt.congr_deriv ((((hY (.exc 1)).neg.add_const e.Vref).sub (hY (.exc 0))).sub (e.Vf_deriv hY)) ?_
      rw [hF]
      simp [lin_set, lin_nil, lin_ite]
      all_goals ring
    · simp only [resid, jac, lin_append, hd]
      refine HasDerivAt.congr_deriv ((hY (.exc 1)).sub_const _) ?_
      simp [lin_set, lin_nil, lin_ite]
  · cases hmin : e.VRatmin
    · cases hmax : e.VRatmax
      · cases hd : e.diff2
        · have hL := e.yLL_deriv hY (h2 hmin hmax hd)
          simp only [resid, jac, lin_append, hd, hmin, hmax]
          refine HasDerivAt.congr_deriv ((hY (.exc 2)).neg.add (hL.const_mul e.KA)) ?_
          simp [lin_set, lin_nil, lin_ite]
          all_goals ring
        · simp only [resid, jac, lin_append, hd, hmin, hmax]
          refine HasDerivAt.congr_deriv ((hY (.exc 2)).sub_const _) ?_
          simp [lin_set, lin_nil, lin_ite]
      · simp only [resid, jac, lin_append, hmin, hmax]
        refine HasDerivAt.congr_deriv ((hY (.exc 2)).sub_const e.VRmax) ?_
        simp [lin_set, lin_nil, lin_ite]
    · simp only [resid, jac, lin_append, hmin]
      refine HasDerivAt.congr_deriv ((hY (.exc 2)).sub_const e.VRmin) ?_
      simp [lin_set, lin_nil, lin_ite]
  · refine HasDerivAt.congr_deriv ((hY (.exc 3)).sub_const (P (.exc 3))) ?_
    simp only [jac, lin_append]
    simp [lin_set, lin_nil, lin_ite]
  · refine HasDerivAt.congr_deriv ((hY (.exc 4)).sub_const (P (.exc 4))) ?_
    simp only [jac, lin_append]
    simp [lin_set, lin_nil, lin_ite]

end Exdc1

namespace Esst1a
variable (e : Esst1a)

theorem Vi_deriv (hY : ∀ ix, HasDerivAt (fun t => Y t ix) (d ix) 0) (hF : e.free = true → e.Kf / e.Tf = 0) :
    HasDerivAt (fun t => e.Vi (Y t)) (if e.free then -d (.exc 0) - d (.exc 4) else 0) 0 := by
  cases hmax : e.Viatmax
  · cases hmin : e.Viatmin
    · have hf : e.free = true := by simp [free, hmax, hmin]
      have h := ((hY (.exc 0)).const_sub e.Vref).sub ((hY (.exc 4)).add ((hY (.exc 3)).const_mul (e.Kf / e.Tf)))
      simp only [Vi, hmax, hmin, hf]
      refine HasDerivAt.congr_deriv h ?_
      rw [hF hf]
      simp
    · simp only [Vi, hmax, hmin, free]
      simpa using hasDerivAt_const (0:ℝ) e.Vimin
  · simp only [Vi, hmax, free]
    simpa using hasDerivAt_const (0:ℝ) e.Vimax

theorem yLL1_deriv (hY : ∀ ix, HasDerivAt (fun t => Y t ix) (d ix) 0) (hF : e.free = true → e.Kf / e.Tf = 0) :
    HasDerivAt (fun t => e.yLL1 (Y t) (e.Vi (Y t))) (d (.exc 1) + e.dyLL1 * d (.exc 0) + e.dyLL1 * d (.exc 4)) 0 := by
  cases h1 : e.diff1
  · simp only [yLL1, dyLL1, h1]
    simpa using hY (.exc 1)
  · have h := (hY (.exc 1)).add ((e.Vi_deriv hY hF).const_mul (e.Tc / e.Tb))
    simp only [yLL1, dyLL1, h1]
    refine HasDerivAt.congr_deriv h ?_
    cases e.free <;> simp
    ring

theorem yLL2_deriv (hY : ∀ ix, HasDerivAt (fun t => Y t ix) (d ix) 0) (hF : e.free = true → e.Kf / e.Tf = 0) :
    HasDerivAt (fun t => e.yLL2 (Y t) (e.yLL1 (Y t) (e.Vi (Y t))))
      (d (.exc 2) + e.dyLL2_dxLL1 * d (.exc 1) + e.dyLL2 * d (.exc 0) + e.dyLL2 * d (.exc 4)) 0 := by
  cases h1 : e.diff2
  · simp only [yLL2, dyLL2, dyLL2_dxLL1, h1]
    simpa using hY (.exc 2)
  · have h := (hY (.exc 2)).add ((e.yLL1_deriv hY hF).const_mul (e.Tc1 / e.Tb1))
    simp only [yLL2, dyLL2, dyLL2_dxLL1, h1]
    refine HasDerivAt.congr_deriv h ?_
    simp
    ring

theorem lin_rows (X : Ix → ℝ) (m : Mode) (i : ℕ) : lin (e.jac X m s) d (.net i) = 0 ∧ lin (e.jac X m s) d (.gen i) = 0
    ∧ lin (e.jac X m s) d (.gov i) = 0 := by
  cases m <;> simp only [jac, lin_append, xLL2Row, vaRow] <;> cases e.free <;> simp [lin_set, lin_nil, lin_ite]

/-- The conditions under which the entries of ESST1A are derivatives with `RESIDUAL_EVAL`. -/
theorem resid_deriv (hY : ∀ ix, HasDerivAt (fun t => Y t ix) (d ix) 0)
    (hZ : ∀ k, HasDerivAt (fun t => Z t (.exc k)) (s * d (.exc k)) 0)
    (hV : Y 0 VD * Y 0 VD + Y 0 VQ * Y 0 VQ ≠ 0)
    (hF : e.free = true → e.Kf / e.Tf = 0) (h2 : e.diff2 = true → e.Tc1 = e.Tb1)
    (P : Ix → ℝ) (k : ℕ) (hk : k < 5) :
    HasDerivAt (fun t => e.resid (Y t) .resid (Z t) P k) (lin (e.jac (Y 0) .resid s) d (.exc k)) 0 := by
  have hEc : HasDerivAt (fun t => Ec (Y t)) (Y 0 VD / Ec (Y 0) * d VD + Y 0 VQ / Ec (Y 0) * d VQ) 0 :=
    magnitude_deriv hY hV
  have hVi := e.Vi_deriv hY hF
  have hL1 := e.yLL1_deriv hY hF
  have hL2 := e.yLL2_deriv hY hF
  interval_cases k
  · cases hd : e.diff0
    · simp only [resid, jac, lin_append, xLL2Row, vaRow, hd]
      refine HasDerivAt.congr_deriv ((hY (.exc 0)).neg.add hEc) ?_
      cases e.free <;> simp [lin_set, lin_nil, lin_ite]
      all_goals ring
    · simp only [resid, jac, lin_append, xLL2Row, vaRow, hd]
      refine HasDerivAt.congr_deriv ((((hY (.exc 0)).neg.add hEc).div_const e.Tr).sub (hZ 0)) ?_
      cases e.free <;> simp [lin_set, lin_nil, lin_ite]
      all_goals ring
  · cases hd : e.diff1
    · simp only [resid, jac, lin_append, xLL2Row, vaRow, hd]
      refine HasDerivAt.congr_deriv ((hY (.exc 1)).neg.add hVi) ?_
      cases e.free <;> simp [lin_set, lin_nil, lin_ite]
      all_goals ring
    · simp only [resid, jac, lin_append, xLL2Row, vaRow, hd]
      refine HasDerivAt.congr_deriv ((((hY (.exc 1)).neg.add (hVi.const_mul (1 - e.Tc / e.Tb))).div_const e.Tb).sub
        (hZ 1)) ?_
      cases e.free <;> simp [lin_set, lin_nil, lin_ite]
      all_goals ring
  · cases hd : e.diff2
    · simp only [resid, jac, lin_append, xLL2Row, vaRow, hd]
      refine HasDerivAt.congr_deriv ((hY (.exc 2)).neg.add hL1) ?_
      cases e.free <;> simp [lin_set, lin_nil, lin_ite]
      all_goals ring
    · have hB : e.Tc1 / e.Tb1 = 1 := by
        have : e.Tb1 ≠ 0 := by
          intro h
          simp [diff2, h] at hd
        rw [h2 hd]; exact div_self this
      simp only [resid, jac, lin_append, xLL2Row, vaRow, hd]
      refine HasDerivAt.congr_deriv ((((hY (.exc 2)).neg.add (hL1.const_mul (1 - e.Tc1 / e.Tb1))).div_const e.Tb1).sub
        (hZ 2)) ?_
      rw [hB]
      cases e.free <;> simp [lin_set, lin_nil, lin_ite]
      all_goals ring
  · cases hmin : e.Vaatmin
    · cases hmax : e.Vaatmax
      · cases hd : e.diff3
        · simp only [resid, jac, lin_append, xLL2Row, vaRow, hd, hmin, hmax]
          refine HasDerivAt.congr_deriv ((hY (.exc 3)).neg.add (hL2.const_mul e.Ka)) ?_
          cases e.free <;> simp [lin_set, lin_nil, lin_ite]
          all_goals ring
        · simp only [resid, jac, lin_append, xLL2Row, vaRow, hd, hmin, hmax]
          refine HasDerivAt.congr_deriv ((((hY (.exc 3)).neg.add (hL2.const_mul e.Ka)).div_const e.Ta).sub (hZ 3)) ?_
          cases e.free <;> simp [lin_set, lin_nil, lin_ite]
          all_goals ring
      · simp only [resid, jac, lin_append, xLL2Row, vaRow, hmin, hmax]
        refine HasDerivAt.congr_deriv ((hY (.exc 3)).sub_const e.Vamax) ?_
        cases e.free <;> simp [lin_set, lin_nil, lin_ite]
    · simp only [resid, jac, lin_append, xLL2Row, vaRow, hmin]
      refine HasDerivAt.congr_deriv ((hY (.exc 3)).sub_const e.Vamin) ?_
      cases e.free <;> simp [lin_set, lin_nil, lin_ite]
  · have h := (((hY (.exc 4)).neg.sub ((hY (.exc 3)).const_mul (e.Kf / e.Tf))).div_const e.Tf).sub (hZ 4)
    refine HasDerivAt.congr_deriv h ?_
    simp only [jac, lin_append, xLL2Row, vaRow]
    cases e.free <;> simp [lin_set, lin_nil, lin_ite]
    all_goals (simp only [div_eq_mul_inv, mul_inv]; ring)

theorem fault_deriv (hY : ∀ ix, HasDerivAt (fun t => Y t ix) (d ix) 0)
    (hV : e.diff0 = false → Y 0 VD * Y 0 VD + Y 0 VQ * Y 0 VQ ≠ 0)
    (hF : e.diff1 = false ∨ e.diff2 = false ∨ (e.Vaatmin = false ∧ e.Vaatmax = false ∧ e.diff3 = false) →
      e.free = true → e.Kf / e.Tf = 0)
    (P : Ix → ℝ) (k : ℕ) (hk : k < 5) :
    HasDerivAt (fun t => e.resid (Y t) .fault (Z t) P k) (lin (e.jac (Y 0) .fault s) d (.exc k)) 0 := by
  interval_cases k
  · cases hd : e.diff0
    · have hEc : HasDerivAt (fun t => Ec (Y t)) (Y 0 VD / Ec (Y 0) * d VD + Y 0 VQ / Ec (Y 0) * d VQ) 0 :=
        magnitude_deriv hY (hV hd)
      simp only [resid, jac, lin_append, xLL2Row, vaRow, hd]
      refine HasDerivAt.congr_deriv ((hY (.exc 0)).neg.add hEc) ?_
      cases e.free <;> simp [lin_set, lin_nil, lin_ite]
      all_goals ring
    · simp only [resid, jac, lin_append, xLL2Row, vaRow, hd]
      refine HasDerivAt.congr_deriv ((hY (.exc 0)).sub_const _) ?_
      cases e.free <;> simp [lin_set, lin_nil, lin_ite]
  · cases hd : e.diff1
    · simp only [resid, jac, lin_append, xLL2Row, vaRow, hd]
      refine HasDerivAt.congr_deriv ((hY (.exc 1)).neg.add (e.Vi_deriv hY (hF (by simp [hd])))) ?_
      cases e.free <;> simp [lin_set, lin_nil, lin_ite]
      all_goals ring
    · simp only [resid, jac, lin_append, xLL2Row, vaRow, hd]
      refine HasDerivAt.congr_deriv ((hY (.exc 1)).sub_const _) ?_
      cases e.free <;> simp [lin_set, lin_nil, lin_ite]
  · cases hd : e.diff2
    · simp only [resid, jac, lin_append, xLL2Row, vaRow, hd]
      refine HasDerivAt.congr_deriv ((hY (.exc 2)).neg.add (e.yLL1_deriv hY (hF (by simp [hd])))) ?_
      cases e.free <;> simp [lin_set, lin_nil, lin_ite]
      all_goals ring
    · simp only [resid, jac, lin_append, xLL2Row, vaRow, hd]
      refine HasDerivAt.congr_deriv ((hY (.exc 2)).sub_const _) ?_
      cases e.free <;> simp [lin_set, lin_nil, lin_ite]
  · cases hmin : e.Vaatmin
    · cases hmax : e.Vaatmax
      · cases hd : e.diff3
        · simp only [resid, jac, lin_append, xLL2Row, vaRow, hd, hmin, hmax]
          refine HasDerivAt.congr_deriv ((hY (.exc 3)).neg.add ((e.yLL2_deriv hY (hF (by simp [hd, hmin, hmax]))).const_mul e.Ka)) ?_
          cases e.free <;> simp [lin_set, lin_nil, lin_ite]
          all_goals ring
        · simp only [resid, jac, lin_append, xLL2Row, vaRow, hd, hmin, hmax]
          refine HasDerivAt.congr_deriv ((hY (.exc 3)).sub_const _) ?_
          cases e.free <;> simp [lin_set, lin_nil, lin_ite]
      · simp only [resid, jac, lin_append, xLL2Row, vaRow, hmin, hmax]
        refine HasDerivAt.congr_deriv ((hY (.exc 3)).sub_const e.Vamax) ?_
        cases e.free <;> simp [lin_set, lin_nil, lin_ite]
    · simp only [resid, jac, lin_append, xLL2Row, vaRow, hmin]
      refine HasDerivAt.congr_deriv ((hY (.exc 3)).sub_const e.Vamin) ?_
      cases e.free <;> simp [lin_set, lin_nil, lin_ite]
  · refine HasDerivAt.congr_deriv ((hY (.exc 4)).sub_const (P (.exc 4))) ?_
    simp only [jac, lin_append, xLL2Row, vaRow]
    cases e.free <;> simp [lin_set, lin_nil, lin_ite]

/-- Strictly within its limits the field voltage is `Va`. -/
theorem efd_deriv (hY : ∀ ix, HasDerivAt (fun t => Y t ix) (d ix) 0) (VT : ℝ) {I : ℝ → ℝ} (hI : ContinuousAt I 0)
    (hlo : VT * e.Vrmin < Y 0 (.exc 3)) (hhi : Y 0 (.exc 3) < VT * e.Vrmax - e.Kc * I 0) :
    HasDerivAt (fun t => e.efd (Y t) VT (I t)) (d (.exc 3)) 0 := by
  refine (hY (.exc 3)).congr_of_eventuallyEq ?_
  have c1 : ContinuousAt (fun t => Y t (.exc 3)) 0 := (hY (.exc 3)).continuousAt
  have c2 : ContinuousAt (fun t => VT * e.Vrmax - e.Kc * I t) 0 := continuousAt_const.sub (continuousAt_const.mul hI)
  filter_upwards [c1.eventually (lt_mem_nhds hlo), c1.eventually_lt c2 hhi] with t h1 h2
  simp [efd, max_eq_left h1.le, min_eq_left h2.le]

end Esst1a

namespace Wsieg1
variable (g : Wsieg1)

theorem lin_rows (loc : Ix) (m : Mode) (i : ℕ) : lin (g.jac loc m s) d (.net i) = 0 ∧ lin (g.jac loc m s) d (.gen i) = 0
    ∧ lin (g.jac loc m s) d (.exc i) = 0 := by
  cases m <;> simp only [jac, lin_append, lagFault, lagJac] <;> simp [lin_set, lin_nil, lin_ite]

theorem lag_deriv (T : ℝ) {x y z : ℝ → ℝ} {dx dy dz : ℝ} (hx : HasDerivAt x dx 0) (hy : HasDerivAt y dy 0)
    (hz : HasDerivAt z dz 0) :
    HasDerivAt (fun t => lagResid T (x t) (y t) (z t)) (if lag T then (dx - dy) / T - dz else dx - dy) 0 := by
  cases h : lag T
  · simp only [lagResid, h]
    exact hx.sub hy
  · simp only [lagResid, h]
    exact ((hx.sub hy).div_const T).sub hz

/-- The entries of WSIEG1 are derivatives if the location handed over is that of the machine's speed deviation. -/
theorem resid_deriv (hY : ∀ ix, HasDerivAt (fun t => Y t ix) (d ix) 0)
    (hZ : ∀ k, HasDerivAt (fun t => Z t (.gov k)) (s * d (.gov k)) 0) {w : ℝ → ℝ} {loc : Ix} {dw' : ℝ}
    (hw : HasDerivAt w dw' 0) (hK : g.K * dw' = g.K * d loc)
    (P : Ix → ℝ) (k : ℕ) (hk : k < 6) :
    HasDerivAt (fun t => g.resid (Y t) (w t) .resid (Z t) P k) (lin (g.jac loc .resid s) d (.gov k)) 0 := by
  interval_cases k
  · cases hd : g.diff0
    · simp only [resid, jac, lin_append, lagJac, hd]
      refine HasDerivAt.congr_deriv ((hY (.gov 0)).neg.add (hw.const_mul g.K)) ?_
      rw [hK]
      simp [lin_set, lin_nil, lin_ite]
    · simp only [resid, jac, lin_append, lagJac, hd]
      refine HasDerivAt.congr_deriv ((((hY (.gov 0)).neg.add (hw.const_mul ((1 - g.T2 / g.T1) * g.K))).div_const g.T1).sub
        (hZ 0)) ?_
      rw [mul_assoc, hK]
      simp [lin_set, lin_nil, lin_ite]
      all_goals ring
  · cases hmin : g.xatmin
    · cases hmax : g.xatmax
      · cases humin : g.uatmin
        · cases humax : g.uatmax
          · cases hd : g.diff0
            · simp only [resid, jac, lin_append, lagJac, hd, hmin, hmax, humin, humax, uFree, yLL]
              refine HasDerivAt.congr_deriv (((((hY (.gov 1)).const_sub g.Pref).sub (hY (.gov 0))).div_const g.T3).sub
                (hZ 1)) ?_
              simp [lin_set, lin_nil, lin_ite]
              all_goals ring
            · simp only [resid, jac, lin_append, lagJac, hd, hmin, hmax, humin, humax, uFree, yLL]
              refine HasDerivAt.congr_deriv (((((hY (.gov 1)).const_sub g.Pref).sub ((hY (.gov 0)).add
                (hw.const_mul (g.T2 / g.T1 * g.K)))).div_const g.T3).sub (hZ 1)) ?_
              rw [mul_assoc (g.T2 / g.T1), hK]
              simp [lin_set, lin_nil, lin_ite]
              all_goals ring
          · simp only [resid, jac, lin_append, lagJac, hmin, hmax, humin, humax]
            refine HasDerivAt.congr_deriv ((hZ 1).const_sub g.Uo) ?_
            simp [lin_set, lin_nil, lin_ite]
        · simp only [resid, jac, lin_append, lagJac, hmin, hmax, humin]
          refine HasDerivAt.congr_deriv ((hZ 1).const_sub g.Uc) ?_
          simp [lin_set, lin_nil, lin_ite]
      · simp only [resid, jac, lin_append, lagJac, hmin, hmax]
        refine HasDerivAt.congr_deriv ((hY (.gov 1)).sub_const g.Pmax) ?_
        simp [lin_set, lin_nil, lin_ite]
    · simp only [resid, jac, lin_append, lagJac, hmin]
      refine HasDerivAt.congr_deriv ((hY (.gov 1)).sub_const g.Pmin) ?_
      simp [lin_set, lin_nil, lin_ite]
  · refine HasDerivAt.congr_deriv (lag_deriv g.T4 (hY (.gov 1)) (hY (.gov 2)) (hZ 2)) ?_
    simp only [jac, lin_append, lagJac]
    simp [lin_set, lin_nil, lin_ite]
    all_goals ring
  · refine HasDerivAt.congr_deriv (lag_deriv g.T5 (hY (.gov 2)) (hY (.gov 3)) (hZ 3)) ?_
    simp only [jac, lin_append, lagJac]
    simp [lin_set, lin_nil, lin_ite]
    all_goals ring
  · refine HasDerivAt.congr_deriv (lag_deriv g.T6 (hY (.gov 3)) (hY (.gov 4)) (hZ 4)) ?_
    simp only [jac, lin_append, lagJac]
    simp [lin_set, lin_nil, lin_ite]
    all_goals ring
  · refine HasDerivAt.congr_deriv (lag_deriv g.T7 (hY (.gov 4)) (hY (.gov 5)) (hZ 5)) ?_
    simp only [jac, lin_append, lagJac]
    simp [lin_set, lin_nil, lin_ite]
    all_goals ring

theorem fault_deriv (hY : ∀ ix, HasDerivAt (fun t => Y t ix) (d ix) 0) {w : ℝ → ℝ} {loc : Ix} {dw' : ℝ}
    (hw : HasDerivAt w dw' 0) (hK : g.K * dw' = g.K * d loc) (P : Ix → ℝ) (k : ℕ) (hk : k < 6) :
    HasDerivAt (fun t => g.resid (Y t) (w t) .fault (Z t) P k) (lin (g.jac loc .fault s) d (.gov k)) 0 := by
  interval_cases k
  · cases hd : g.diff0
    · simp only [resid, jac, lin_append, lagFault, hd]
      refine HasDerivAt.congr_deriv ((hY (.gov 0)).neg.add (hw.const_mul g.K)) ?_
      rw [hK]
      simp [lin_set, lin_nil, lin_ite]
    · simp only [resid, jac, lin_append, lagFault, hd]
      refine HasDerivAt.congr_deriv ((hY (.gov 0)).sub_const _) ?_
      simp [lin_set, lin_nil, lin_ite]
  · refine HasDerivAt.congr_deriv ((hY (.gov 1)).sub_const (P (.gov 1))) ?_
    simp only [jac, lin_append, lagFault]
    simp [lin_set, lin_nil, lin_ite]
  · cases hd : lag g.T4
    · simp only [resid, jac, lin_append, lagFault, hd]
      refine HasDerivAt.congr_deriv ((hY (.gov 1)).sub (hY (.gov 2))) ?_
      simp [lin_set, lin_nil, lin_ite]
      all_goals ring
    · simp only [resid, jac, lin_append, lagFault, hd]
      refine HasDerivAt.congr_deriv ((hY (.gov 2)).sub_const _) ?_
      simp [lin_set, lin_nil, lin_ite]
  · cases hd : lag g.T5
    · simp only [resid, jac, lin_append, lagFault, hd]
      refine HasDerivAt.congr_deriv ((hY (.gov 2)).sub (hY (.gov 3))) ?_
      simp [lin_set, lin_nil, lin_ite]
      all_goals ring
    · simp only [resid, jac, lin_append, lagFault, hd]
      refine HasDerivAt.congr_deriv ((hY (.gov 3)).sub_const _) ?_
      simp [lin_set, lin_nil, lin_ite]
  · cases hd : lag g.T6
    · simp only [resid, jac, lin_append, lagFault, hd]
      refine HasDerivAt.congr_deriv ((hY (.gov 3)).sub (hY (.gov 4))) ?_
      simp [lin_set, lin_nil, lin_ite]
      all_goals ring
    · simp only [resid, jac, lin_append, lagFault, hd]
      refine HasDerivAt.congr_deriv ((hY (.gov 4)).sub_const _) ?_
      simp [lin_set, lin_nil, lin_ite]
  · cases hd : lag g.T7
    · simp only [resid, jac, lin_append, lagFault, hd]
      refine HasDerivAt.congr_deriv ((hY (.gov 4)).sub (hY (.gov 5))) ?_
      simp [lin_set, lin_nil, lin_ite]
      all_goals ring
    · simp only [resid, jac, lin_append, lagFault, hd]
      refine HasDerivAt.congr_deriv ((hY (.gov 5)).sub_const _) ?_
      simp [lin_set, lin_nil, lin_ite]

theorem pmech_deriv (hY : ∀ ix, HasDerivAt (fun t => Y t ix) (d ix) 0) :
    HasDerivAt (fun t => g.pmech (Y t)) (dsum g.dPmech d) 0 := by
  have h := ((((hY (.gov 2)).mul_const g.K1).add ((hY (.gov 3)).mul_const g.K3)).add ((hY (.gov 4)).mul_const g.K5)).add
    ((hY (.gov 5)).mul_const g.K7)
  refine HasDerivAt.congr_deriv h ?_
  simp [dsum, dPmech]
  ring

end Wsieg1
end GridPACK.Dae
