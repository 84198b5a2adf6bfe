import Verif.Lemmas.DaeWrong

/-! Properties of the matrices of the DAE form of the dynamic simulation (C187, C188). -/
namespace GridPACK.Dae

variable {ι : Type} [DecidableEq ι] [Fintype ι]

/-- C187: the matrix handed to the time integrator is `∂F/∂x + shift ∂F/∂ẋ`, the integrator's `F` being the residual:
for every network, state and shift, every row of a bus in service, provided the devices at that bus are at a state
where their equations are smooth and the exciters are of the covered kinds.  What is missing: exciters with rate feedback
or lead-lag blocks, limited field voltage, WSIEG1 on a classical machine, isolated buses (all violated below). -/
theorem C187_matrix_is_derivative_partial (N : Net ι) (hN : N.Simple) (shift : ℝ) (x xd xp : ι → ℕ → ℝ) (buf : ℕ → ℝ)
    (i : ι) (hi : (N.bus i).isolated = false)
    (hg : ∀ (k : ℕ) (g : Gen), (N.bus i).gens[k]? = some g → g.on = true → g.Smooth (N.stateOf x i g k) ∧ g.Covered)
    (r : ℕ) (hr : r < (N.bus i).nvar) : RowIsDerivative N .resid shift x xd xp buf i r := by
  refine N.row_is_derivative hN .resid shift x xd xp buf i hi ?_ r hr
  rintro ⟨g, n⟩ hgn
  obtain ⟨k, hk, hon, rfl⟩ := (place_iff _ _ _ _).mp hgn
  exact hg k g hk hon

/-- C188: the matrix used to solve for the voltages when a fault begins or ends is the derivative of the residual of that
problem, under the same kind of conditions. -/
theorem C188_fault_matrix_is_derivative_partial (N : Net ι) (hN : N.Simple) (shift : ℝ) (x xd xp : ι → ℕ → ℝ)
    (buf : ℕ → ℝ) (i : ι) (hi : (N.bus i).isolated = false)
    (hg : ∀ (k : ℕ) (g : Gen), (N.bus i).gens[k]? = some g → g.on = true → g.FaultCovered (N.stateOf x i g k))
    (r : ℕ) (hr : r < (N.bus i).nvar) : RowIsDerivative N .fault shift x xd xp buf i r := by
  refine N.row_is_derivative hN .fault shift x xd xp buf i hi ?_ r hr
  rintro ⟨g, n⟩ hgn
  obtain ⟨k, hk, hon, rfl⟩ := (place_iff _ _ _ _).mp hgn
  exact hg k g hk hon

omit [DecidableEq ι] [Fintype ι] in
private theorem pos_lt {N : Net ι} {i : ι} (hi : (N.bus i).isolated = false) {g : Gen} {k : ℕ}
    (hk : (N.bus i).gens[k]? = some g) (hon : g.on = true) {ix : Ix} (hv : g.Valid ix) (hn : ix.isNet = false) :
    g.pos ((N.bus i).start k) ix < (N.bus i).nvar := by
  have h := place_mem (mem_place_start hk hon)
  have := g.pos_range (n := (N.bus i).start k) hv hn
  simp only [Bus.nvar, hi] at *
  simp at *
  omega

private theorem excValid {g : Gen} {e : Exc} (he : g.exc = some e) {q : ℕ} (hq : q < 5) : g.Valid (.exc q) := by
  simp [Gen.Valid, Ix.Valid, Gen.nexc, he, hq]

/-- C187: with EXDC1, whenever it is not of the covered kind, some row of its bus is not the derivative: in every
network, at every state. -/
theorem C187_exdc1_violated (N : Net ι) (shift : ℝ) (x xd xp : ι → ℕ → ℝ) (buf : ℕ → ℝ)
    (i : ι) (hi : (N.bus i).isolated = false) (k : ℕ) (g : Gen) (hk : (N.bus i).gens[k]? = some g) (hon : g.on = true)
    (e : Exdc1) (he : g.exc = some (.exdc1 e)) (hTF : e.TF ≠ 0) (hKA : e.KA ≠ 0) (hc : ¬ e.Covered) :
    ∃ r, r < (N.bus i).nvar ∧ ¬ RowIsDerivative N .resid shift x xd xp buf i r := by
  have hv : ∀ {q : ℕ}, q < 5 → g.Valid (.exc q) := fun hq => excValid he hq
  have hm := mem_place_start hk hon
  by_cases hd : e.TB = 0 ∨ e.TC = 0
  · have hKF : e.KF ≠ 0 := fun h => hc (Or.inl ⟨hd, h⟩)
    have hd1 : e.diff1 = false := by simpa [Exdc1.diff1] using or_iff_not_imp_left.mp hd
    refine ⟨_, pos_lt hi hk hon (hv (q := 1) (by norm_num)) rfl, ?_⟩
    refine N.wrong_row .resid shift x xd xp buf i hi _ hm (.exc 1) (.exc 3) (hv (by norm_num)) rfl (hv (by norm_num))
      (-N.stateOf x i g k (.exc 1) + e.Vref - N.stateOf x i g k (.exc 0) - e.Vf (N.stateOf x i g k)) (-(e.KF / e.TF))
      ?_ ?_
    · refine Filter.Eventually.of_forall fun t Y Z P hY hZ hP => ?_
      simp only [Gen.resid, he, Exdc1.resid, hd1, Exdc1.Vf, hY _ (hv (q := 0) (by norm_num)),
        hY _ (hv (q := 1) (by norm_num)), hY _ (hv (q := 3) (by norm_num)), hY _ (hv (q := 4) (by norm_num)), Net.stateOf]
      simp
      ring
    · intro δ hδ
      rw [Gen.lin_jac_exc _ _ _ rfl]
      simp only [Gen.excJac, he, Exdc1.jac, lin_append, hd1]
      simp [lin_set, lin_nil, lin_ite, hδ _ (hv (q := 0) (by norm_num)), hδ _ (hv (q := 1) (by norm_num)),
        hδ _ (hv (q := 4) (by norm_num)), hδ _ (hv (q := 3) (by norm_num)), hδ _ (hv (q := 2) (by norm_num))]
      exact ⟨hKF, hTF⟩
  · have hd1 : e.diff1 = true := by simpa [Exdc1.diff1] using hd
    obtain ⟨hTB, hTC⟩ := not_or.mp hd
    by_cases hT : e.TC = e.TB
    · have hKF : e.KF ≠ 0 ∧ e.VRatmin = false ∧ e.VRatmax = false := by
        refine ⟨fun h => hc (Or.inr ⟨hTB, hT, Or.inl h⟩), ?_, ?_⟩
        · cases h : e.VRatmin
          · rfl
          · exact absurd (Or.inr ⟨hTB, hT, Or.inr (Or.inl h)⟩) hc
        · cases h : e.VRatmax
          · rfl
          · exact absurd (Or.inr ⟨hTB, hT, Or.inr (Or.inr h)⟩) hc
      obtain ⟨hKF, hmin, hmax⟩ := hKF
      refine ⟨_, pos_lt hi hk hon (hv (q := 2) (by norm_num)) rfl, ?_⟩
      by_cases hd2 : e.TA = 0
      · have hd2' : e.diff2 = false := by simpa [Exdc1.diff2] using hd2
        refine N.wrong_row .resid shift x xd xp buf i hi _ hm (.exc 2) (.exc 3) (hv (by norm_num)) rfl (hv (by norm_num))
          (-N.stateOf x i g k (.exc 2) + e.KA * e.yLL (N.stateOf x i g k)) (-(e.KA * (e.TC / e.TB) * (e.KF / e.TF)))
          ?_ ?_
        · refine Filter.Eventually.of_forall fun t Y Z P hY hZ hP => ?_
          simp only [Gen.resid, he, Exdc1.resid, hd1, hd2', hmin, hmax, Exdc1.yLL, Exdc1.Vf,
            hY _ (hv (q := 0) (by norm_num)),
            hY _ (hv (q := 1) (by norm_num)), hY _ (hv (q := 2) (by norm_num)), hY _ (hv (q := 3) (by norm_num)),
            hY _ (hv (q := 4) (by norm_num)), Net.stateOf]
          simp
          ring
        · intro δ hδ
          rw [Gen.lin_jac_exc _ _ _ rfl]
          simp only [Gen.excJac, he, Exdc1.jac, lin_append, hd1, hd2', hmin, hmax]
          simp [lin_set, lin_nil, lin_ite, hδ _ (hv (q := 0) (by norm_num)), hδ _ (hv (q := 1) (by norm_num)),
            hδ _ (hv (q := 4) (by norm_num)), hδ _ (hv (q := 3) (by norm_num)), hδ _ (hv (q := 2) (by norm_num))]
          simp [hKA, hTB, hTC, hKF, hTF]
      · have hd2' : e.diff2 = true := by simpa [Exdc1.diff2] using hd2
        refine N.wrong_row .resid shift x xd xp buf i hi _ hm (.exc 2) (.exc 3) (hv (by norm_num)) rfl (hv (by norm_num))
          ((-N.stateOf x i g k (.exc 2) + e.KA * e.yLL (N.stateOf x i g k)) / e.TA
            - g.pushed (N.volt x i) (xd i) ((N.bus i).start k) (.exc 2))
          (-(e.KA * (e.TC / e.TB) * (e.KF / e.TF) / e.TA)) ?_ ?_
        · refine Filter.Eventually.of_forall fun t Y Z P hY hZ hP => ?_
          simp only [Gen.resid, he, Exdc1.resid, hd1, hd2', hmin, hmax, Exdc1.yLL, Exdc1.Vf,
            hY _ (hv (q := 0) (by norm_num)),
            hY _ (hv (q := 1) (by norm_num)), hY _ (hv (q := 2) (by norm_num)), hY _ (hv (q := 3) (by norm_num)),
            hY _ (hv (q := 4) (by norm_num)), hZ _ (hv (q := 2) (by norm_num)) rfl, Net.stateOf]
          simp
          ring
        · intro δ hδ
          rw [Gen.lin_jac_exc _ _ _ rfl]
          simp only [Gen.excJac, he, Exdc1.jac, lin_append, hd1, hd2', hmin, hmax]
          simp [lin_set, lin_nil, lin_ite, hδ _ (hv (q := 0) (by norm_num)), hδ _ (hv (q := 1) (by norm_num)),
            hδ _ (hv (q := 4) (by norm_num)), hδ _ (hv (q := 3) (by norm_num)), hδ _ (hv (q := 2) (by norm_num))]
          simp [hKA, hTB, hTC, hKF, hTF, hd2]
    · refine ⟨_, pos_lt hi hk hon (hv (q := 1) (by norm_num)) rfl, ?_⟩
      refine N.wrong_row .resid shift x xd xp buf i hi _ hm (.exc 1) (.exc 4) (hv (by norm_num)) rfl (hv (by norm_num))
        ((-N.stateOf x i g k (.exc 1) + (1 - e.TC / e.TB) * (e.Vref - N.stateOf x i g k (.exc 0)
          - e.Vf (N.stateOf x i g k))) / e.TB - g.pushed (N.volt x i) (xd i) ((N.bus i).start k) (.exc 1))
        (-((1 - e.TC / e.TB) / e.TB)) ?_ ?_
      · refine Filter.Eventually.of_forall fun t Y Z P hY hZ hP => ?_
        simp only [Gen.resid, he, Exdc1.resid, hd1, Exdc1.Vf,
          hY _ (hv (q := 0) (by norm_num)),
          hY _ (hv (q := 1) (by norm_num)), hY _ (hv (q := 3) (by norm_num)),
          hY _ (hv (q := 4) (by norm_num)), hZ _ (hv (q := 1) (by norm_num)) rfl, Net.stateOf]
        simp
        ring
      · intro δ hδ
        rw [Gen.lin_jac_exc _ _ _ rfl]
        simp only [Gen.excJac, he, Exdc1.jac, lin_append, hd1]
        simp [lin_set, lin_nil, lin_ite, hδ _ (hv (q := 0) (by norm_num)), hδ _ (hv (q := 1) (by norm_num)),
          hδ _ (hv (q := 4) (by norm_num)), hδ _ (hv (q := 3) (by norm_num)), hδ _ (hv (q := 2) (by norm_num))]
        have h1 : (1 - e.TC / e.TB) / e.TB ≠ 0 := by
          refine div_ne_zero ?_ hTB
          rw [sub_ne_zero]
          intro h
          exact hT ((div_eq_one_iff_eq hTB).mp h.symm)
        intro h
        apply h1
        linarith

/-- C188: with EXDC1, whenever it is not of the kind covered at a fault, some row of its bus is not the derivative. -/
theorem C188_exdc1_violated (N : Net ι) (shift : ℝ) (x xd xp : ι → ℕ → ℝ) (buf : ℕ → ℝ)
    (i : ι) (hi : (N.bus i).isolated = false) (k : ℕ) (g : Gen) (hk : (N.bus i).gens[k]? = some g) (hon : g.on = true)
    (e : Exdc1) (he : g.exc = some (.exdc1 e)) (hTF : e.TF ≠ 0) (hKA : e.KA ≠ 0) (hc : ¬ e.FaultCovered) :
    ∃ r, r < (N.bus i).nvar ∧ ¬ RowIsDerivative N .fault shift x xd xp buf i r := by
  have v0 := excValid he (q := 0) (by norm_num)
  have v1 := excValid he (q := 1) (by norm_num)
  have v2 := excValid he (q := 2) (by norm_num)
  have v3 := excValid he (q := 3) (by norm_num)
  have v4 := excValid he (q := 4) (by norm_num)
  have hm := mem_place_start hk hon
  obtain ⟨hKF, hc⟩ := not_or.mp hc
  by_cases hd : e.TB = 0 ∨ e.TC = 0
  · have hd1 : e.diff1 = false := by simpa [Exdc1.diff1] using or_iff_not_imp_left.mp hd
    refine ⟨_, pos_lt hi hk hon v1 rfl, ?_⟩
    refine N.wrong_row .fault shift x xd xp buf i hi _ hm (.exc 1) (.exc 3) v1 rfl v3
      (-N.stateOf x i g k (.exc 1) + e.Vref - N.stateOf x i g k (.exc 0) - e.Vf (N.stateOf x i g k)) (-(e.KF / e.TF))
      ?_ ?_
    · refine Filter.Eventually.of_forall fun t Y Z P hY hZ hP => ?_
      simp only [Gen.resid, he, Exdc1.resid, hd1, Exdc1.Vf, hY _ v0, hY _ v1, hY _ v3, hY _ v4, Net.stateOf]
      simp
      ring
    · intro δ hδ
      rw [Gen.lin_jac_exc _ _ _ rfl]
      simp only [Gen.excJac, he, Exdc1.jac, lin_append, hd1]
      simp [lin_set, lin_nil, lin_ite, hδ _ v0, hδ _ v1, hδ _ v4]
      exact ⟨hKF, hTF⟩
  · have hd1 : e.diff1 = true := by simpa [Exdc1.diff1] using hd
    obtain ⟨hTB, hTC⟩ := not_or.mp hd
    have hx : e.TA = 0 ∧ e.VRatmin = false ∧ e.VRatmax = false := by
      refine ⟨?_, ?_, ?_⟩
      · by_contra h
        exact hc ⟨hTB, hTC, Or.inl h⟩
      · cases h : e.VRatmin
        · rfl
        · exact absurd ⟨hTB, hTC, Or.inr (Or.inl h)⟩ hc
      · cases h : e.VRatmax
        · rfl
        · exact absurd ⟨hTB, hTC, Or.inr (Or.inr h)⟩ hc
    obtain ⟨hTA, hmin, hmax⟩ := hx
    refine ⟨_, pos_lt hi hk hon v2 rfl, ?_⟩
    have hd2' : e.diff2 = false := by simpa [Exdc1.diff2] using hTA
    refine N.wrong_row .fault shift x xd xp buf i hi _ hm (.exc 2) (.exc 3) v2 rfl v3
      (-N.stateOf x i g k (.exc 2) + e.KA * e.yLL (N.stateOf x i g k)) (-(e.KA * (e.TC / e.TB) * (e.KF / e.TF)))
      ?_ ?_
    · refine Filter.Eventually.of_forall fun t Y Z P hY hZ hP => ?_
      simp only [Gen.resid, he, Exdc1.resid, hd1, hd2', hmin, hmax, Exdc1.yLL, Exdc1.Vf,
        hY _ v0, hY _ v1, hY _ v2, hY _ v3, hY _ v4, Net.stateOf]
      simp
      ring
    · intro δ hδ
      rw [Gen.lin_jac_exc _ _ _ rfl]
      simp only [Gen.excJac, he, Exdc1.jac, lin_append, hd1, hd2', hmin, hmax]
      simp [lin_set, lin_nil, lin_ite, hδ _ v0, hδ _ v1, hδ _ v4, hδ _ v2]
      simp [hKA, hTB, hTC, hKF, hTF]

private theorem Esst1a.diff1_false {e : Esst1a} (h : e.Tb = 0 ∨ e.Tc = 0) : e.diff1 = false := by
  simpa [Esst1a.diff1] using or_iff_not_imp_left.mp h

private theorem Esst1a.diff2_false {e : Esst1a} (h : e.Tb1 = 0 ∨ e.Tc1 = 0) : e.diff2 = false := by
  simpa [Esst1a.diff2] using or_iff_not_imp_left.mp h

private theorem one_sub_ne {a b : ℝ} (hb : b ≠ 0) (h : a ≠ b) : 1 - a / b ≠ 0 := by
  rw [sub_ne_zero]
  intro h'
  exact h ((div_eq_one_iff_eq hb).mp h'.symm)

/-- C187: with ESST1A, regulator output not at a limit, whenever it is not of the covered kind, some row of its bus is not
the derivative: in every network, at every state. -/
theorem C187_esst1a_violated (N : Net ι) (shift : ℝ) (x xd xp : ι → ℕ → ℝ) (buf : ℕ → ℝ)
    (i : ι) (hi : (N.bus i).isolated = false) (k : ℕ) (g : Gen) (hk : (N.bus i).gens[k]? = some g) (hon : g.on = true)
    (e : Esst1a) (VT : ℝ) (he : g.exc = some (.esst1a e VT)) (hTf : e.Tf ≠ 0) (hKa : e.Ka ≠ 0)
    (hlim : e.Vaatmin = false ∧ e.Vaatmax = false) (hc : ¬ e.Covered) :
    ∃ r, r < (N.bus i).nvar ∧ ¬ RowIsDerivative N .resid shift x xd xp buf i r := by
  have v0 := excValid he (q := 0) (by norm_num)
  have v1 := excValid he (q := 1) (by norm_num)
  have v2 := excValid he (q := 2) (by norm_num)
  have v3 := excValid he (q := 3) (by norm_num)
  have v4 := excValid he (q := 4) (by norm_num)
  have hm := mem_place_start hk hon
  set X := N.stateOf x i g k with hX
  set Xd := g.pushed (N.volt x i) (xd i) ((N.bus i).start k) with hXd
  by_cases hcb : e.Tb1 = 0 ∨ e.Tc1 = 0 ∨ e.Tc1 = e.Tb1
  · -- rate feedback
    have hKf : e.Kf ≠ 0 ∧ e.Viatmin = false ∧ e.Viatmax = false := by
      refine ⟨fun h => hc ⟨Or.inl h, hcb⟩, ?_, ?_⟩
      · cases h : e.Viatmin
        · rfl
        · exact absurd ⟨Or.inr (Or.inl h), hcb⟩ hc
      · cases h : e.Viatmax
        · rfl
        · exact absurd ⟨Or.inr (Or.inr h), hcb⟩ hc
    obtain ⟨hKf, hmin, hmax⟩ := hKf
    have hfree : e.free = true := by simp [Esst1a.free, hmin, hmax]
    by_cases hd : e.Tb = 0 ∨ e.Tc = 0
    · have hd1 := Esst1a.diff1_false hd
      refine ⟨_, pos_lt hi hk hon v1 rfl, ?_⟩
      refine N.wrong_row .resid shift x xd xp buf i hi _ hm (.exc 1) (.exc 3) v1 rfl v3
        (-X (.exc 1) + e.Vi X) (-(e.Kf / e.Tf)) ?_ ?_
      · refine Filter.Eventually.of_forall fun t Y Z P hY hZ hP => ?_
        simp only [Gen.resid, he, Esst1a.resid, hd1, Esst1a.Vi, Esst1a.ViFree, hmin, hmax, Esst1a.Vf, hY _ v0, hY _ v1,
          hY _ v3, hY _ v4, hX, Net.stateOf]
        simp
        ring
      · intro δ hδ
        rw [Gen.lin_jac_exc _ _ _ rfl]
        simp only [Gen.excJac, he, Esst1a.jac, lin_append, hd1, hfree, Esst1a.xLL2Row, Esst1a.vaRow]
        simp [lin_set, lin_nil, lin_ite, hδ _ v0, hδ _ v1, hδ _ v4]
        exact ⟨hKf, hTf⟩
    · have hd1 : e.diff1 = true := by simpa [Esst1a.diff1] using hd
      obtain ⟨hTb, hTc⟩ := not_or.mp hd
      by_cases hT : e.Tc = e.Tb
      · by_cases hdd : e.Tb1 = 0 ∨ e.Tc1 = 0
        · have hd2 := Esst1a.diff2_false hdd
          refine ⟨_, pos_lt hi hk hon v2 rfl, ?_⟩
          refine N.wrong_row .resid shift x xd xp buf i hi _ hm (.exc 2) (.exc 3) v2 rfl v3
            (-X (.exc 2) + e.yLL1 X (e.Vi X)) (-(e.Tc / e.Tb * (e.Kf / e.Tf))) ?_ ?_
          · refine Filter.Eventually.of_forall fun t Y Z P hY hZ hP => ?_
            simp only [Gen.resid, he, Esst1a.resid, hd1, hd2, Esst1a.yLL1, Esst1a.Vi, Esst1a.ViFree, hmin, hmax, Esst1a.Vf,
              hY _ v0, hY _ v1, hY _ v2, hY _ v3, hY _ v4, hX, Net.stateOf]
            simp
            ring
          · intro δ hδ
            rw [Gen.lin_jac_exc _ _ _ rfl]
            simp only [Gen.excJac, he, Esst1a.jac, lin_append, hd1, hd2, hfree, Esst1a.xLL2Row, Esst1a.vaRow]
            simp [lin_set, lin_nil, lin_ite, hδ _ v0, hδ _ v1, hδ _ v2, hδ _ v4]
            simp [hTb, hTc, hKf, hTf]
        · have hd2 : e.diff2 = true := by simpa [Esst1a.diff2] using hdd
          obtain ⟨hTb1, hTc1⟩ := not_or.mp hdd
          refine ⟨_, pos_lt hi hk hon v3 rfl, ?_⟩
          by_cases hTa : e.Ta = 0
          · have hd3 : e.diff3 = false := by simpa [Esst1a.diff3] using hTa
            refine N.wrong_row .resid shift x xd xp buf i hi _ hm (.exc 3) (.exc 3) v3 rfl v3
              (-X (.exc 3) + e.Ka * e.yLL2 X (e.yLL1 X (e.Vi X)))
              (-1 - e.Ka * (e.Tc1 / e.Tb1) * (e.Tc / e.Tb) * (e.Kf / e.Tf)) ?_ ?_
            · refine Filter.Eventually.of_forall fun t Y Z P hY hZ hP => ?_
              simp only [Gen.resid, he, Esst1a.resid, hd1, hd2, hd3, hlim.1, hlim.2, Esst1a.yLL2, Esst1a.yLL1, Esst1a.Vi,
                Esst1a.ViFree, hmin, hmax, Esst1a.Vf,
                hY _ v0, hY _ v1, hY _ v2, hY _ v3, hY _ v4, hX, Net.stateOf]
              simp
              ring
            · intro δ hδ
              rw [Gen.lin_jac_exc _ _ _ rfl]
              simp only [Gen.excJac, he, Esst1a.jac, lin_append, hd1, hd2, hd3, hlim.1, hlim.2, hfree, Esst1a.xLL2Row,
                Esst1a.vaRow]
              simp [lin_set, lin_nil, lin_ite, hδ _ v0, hδ _ v1, hδ _ v2, hδ _ v3, hδ _ v4]
              rw [eq_comm, sub_eq_self]
              simp [hTb, hTc, hKf, hTf, hTb1, hTc1, hKa]
          · have hd3 : e.diff3 = true := by simpa [Esst1a.diff3] using hTa
            refine N.wrong_row .resid shift x xd xp buf i hi _ hm (.exc 3) (.exc 3) v3 rfl v3
              ((-X (.exc 3) + e.Ka * e.yLL2 X (e.yLL1 X (e.Vi X))) / e.Ta - Xd (.exc 3))
              (-1 / e.Ta - shift - e.Ka * (e.Tc1 / e.Tb1) * (e.Tc / e.Tb) * (e.Kf / e.Tf) / e.Ta) ?_ ?_
            · refine Filter.Eventually.of_forall fun t Y Z P hY hZ hP => ?_
              simp only [Gen.resid, he, Esst1a.resid, hd1, hd2, hd3, hlim.1, hlim.2, Esst1a.yLL2, Esst1a.yLL1, Esst1a.Vi,
                Esst1a.ViFree, hmin, hmax, Esst1a.Vf,
                hY _ v0, hY _ v1, hY _ v2, hY _ v3, hY _ v4, hZ _ v3 rfl, hX, hXd, Net.stateOf]
              simp
              ring
            · intro δ hδ
              rw [Gen.lin_jac_exc _ _ _ rfl]
              simp only [Gen.excJac, he, Esst1a.jac, lin_append, hd1, hd2, hd3, hlim.1, hlim.2, hfree, Esst1a.xLL2Row,
                Esst1a.vaRow]
              simp [lin_set, lin_nil, lin_ite, hδ _ v0, hδ _ v1, hδ _ v2, hδ _ v3, hδ _ v4]
              rw [eq_comm, sub_eq_self]
              simp [hTb, hTc, hKf, hTf, hTb1, hTc1, hKa, hTa]
      · refine ⟨_, pos_lt hi hk hon v1 rfl, ?_⟩
        refine N.wrong_row .resid shift x xd xp buf i hi _ hm (.exc 1) (.exc 3) v1 rfl v3
          ((-X (.exc 1) + (1 - e.Tc / e.Tb) * e.Vi X) / e.Tb - Xd (.exc 1))
          (-((1 - e.Tc / e.Tb) * (e.Kf / e.Tf) / e.Tb)) ?_ ?_
        · refine Filter.Eventually.of_forall fun t Y Z P hY hZ hP => ?_
          simp only [Gen.resid, he, Esst1a.resid, hd1, Esst1a.Vi, Esst1a.ViFree, hmin, hmax, Esst1a.Vf, hY _ v0, hY _ v1,
            hY _ v3, hY _ v4, hZ _ v1 rfl, hX, hXd, Net.stateOf]
          simp
          ring
        · intro δ hδ
          rw [Gen.lin_jac_exc _ _ _ rfl]
          simp only [Gen.excJac, he, Esst1a.jac, lin_append, hd1, hfree, Esst1a.xLL2Row, Esst1a.vaRow]
          simp [lin_set, lin_nil, lin_ite, hδ _ v0, hδ _ v1, hδ _ v4]
          simp [hTb, hKf, hTf, one_sub_ne hTb hT]
  · -- the second lead-lag block
    obtain ⟨hTb1, hcb⟩ := not_or.mp hcb
    obtain ⟨hTc1, hT⟩ := not_or.mp hcb
    have hd2 : e.diff2 = true := by simp [Esst1a.diff2, hTb1, hTc1]
    refine ⟨_, pos_lt hi hk hon v2 rfl, ?_⟩
    refine N.wrong_row .resid shift x xd xp buf i hi _ hm (.exc 2) (.exc 2) v2 rfl v2
      ((-X (.exc 2) + (1 - e.Tc1 / e.Tb1) * e.yLL1 X (e.Vi X)) / e.Tb1 - Xd (.exc 2)) (-1 / e.Tb1 - shift) ?_ ?_
    · refine Filter.Eventually.of_forall fun t Y Z P hY hZ hP => ?_
      simp only [Gen.resid, he, Esst1a.resid, hd2, Esst1a.yLL1, Esst1a.Vi, Esst1a.ViFree, Esst1a.Vf,
        hY _ v0, hY _ v1, hY _ v2, hY _ v3, hY _ v4, hZ _ v2 rfl, hX, hXd, Net.stateOf]
      simp
      ring
    · intro δ hδ
      rw [Gen.lin_jac_exc _ _ _ rfl]
      simp only [Gen.excJac, he, Esst1a.jac, lin_append, hd2, Esst1a.xLL2Row, Esst1a.vaRow]
      cases e.free <;> simp [lin_set, lin_nil, lin_ite, hδ _ v0, hδ _ v1, hδ _ v2, hδ _ v3, hδ _ v4] <;>
        simp [hTb1, one_sub_ne hTb1 hT]

/-- C188: with ESST1A, whenever it is not of the kind covered at a fault, some row of its bus is not the derivative. -/
theorem C188_esst1a_violated (N : Net ι) (shift : ℝ) (x xd xp : ι → ℕ → ℝ) (buf : ℕ → ℝ)
    (i : ι) (hi : (N.bus i).isolated = false) (k : ℕ) (g : Gen) (hk : (N.bus i).gens[k]? = some g) (hon : g.on = true)
    (e : Esst1a) (VT : ℝ) (he : g.exc = some (.esst1a e VT)) (hTf : e.Tf ≠ 0) (hKa : e.Ka ≠ 0) (hc : ¬ e.FaultCovered) :
    ∃ r, r < (N.bus i).nvar ∧ ¬ RowIsDerivative N .fault shift x xd xp buf i r := by
  have v0 := excValid he (q := 0) (by norm_num)
  have v1 := excValid he (q := 1) (by norm_num)
  have v2 := excValid he (q := 2) (by norm_num)
  have v3 := excValid he (q := 3) (by norm_num)
  have v4 := excValid he (q := 4) (by norm_num)
  have hm := mem_place_start hk hon
  set X := N.stateOf x i g k with hX
  obtain ⟨hKf, hc⟩ := not_or.mp hc
  obtain ⟨hmin, hc⟩ := not_or.mp hc
  obtain ⟨hmax, hc⟩ := not_or.mp hc
  simp only [Bool.not_eq_true] at hmin hmax
  have hfree : e.free = true := by simp [Esst1a.free, hmin, hmax]
  by_cases hd : e.Tb = 0 ∨ e.Tc = 0
  · have hd1 := Esst1a.diff1_false hd
    refine ⟨_, pos_lt hi hk hon v1 rfl, ?_⟩
    refine N.wrong_row .fault shift x xd xp buf i hi _ hm (.exc 1) (.exc 3) v1 rfl v3
      (-X (.exc 1) + e.Vi X) (-(e.Kf / e.Tf)) ?_ ?_
    · refine Filter.Eventually.of_forall fun t Y Z P hY hZ hP => ?_
      simp only [Gen.resid, he, Esst1a.resid, hd1, Esst1a.Vi, Esst1a.ViFree, hmin, hmax, Esst1a.Vf, hY _ v0, hY _ v1,
        hY _ v3, hY _ v4, hX, Net.stateOf]
      simp
      ring
    · intro δ hδ
      rw [Gen.lin_jac_exc _ _ _ rfl]
      simp only [Gen.excJac, he, Esst1a.jac, lin_append, hd1, hfree, Esst1a.xLL2Row, Esst1a.vaRow]
      simp [lin_set, lin_nil, lin_ite, hδ _ v0, hδ _ v1, hδ _ v4]
      exact ⟨hKf, hTf⟩
  · have hd1 : e.diff1 = true := by simpa [Esst1a.diff1] using hd
    obtain ⟨hTb, hTc⟩ := not_or.mp hd
    by_cases hdd : e.Tb1 = 0 ∨ e.Tc1 = 0
    · have hd2 := Esst1a.diff2_false hdd
      refine ⟨_, pos_lt hi hk hon v2 rfl, ?_⟩
      refine N.wrong_row .fault shift x xd xp buf i hi _ hm (.exc 2) (.exc 3) v2 rfl v3
        (-X (.exc 2) + e.yLL1 X (e.Vi X)) (-(e.Tc / e.Tb * (e.Kf / e.Tf))) ?_ ?_
      · refine Filter.Eventually.of_forall fun t Y Z P hY hZ hP => ?_
        simp only [Gen.resid, he, Esst1a.resid, hd1, hd2, Esst1a.yLL1, Esst1a.Vi, Esst1a.ViFree, hmin, hmax, Esst1a.Vf,
          hY _ v0, hY _ v1, hY _ v2, hY _ v3, hY _ v4, hX, Net.stateOf]
        simp
        ring
      · intro δ hδ
        rw [Gen.lin_jac_exc _ _ _ rfl]
        simp only [Gen.excJac, he, Esst1a.jac, lin_append, hd1, hd2, hfree, Esst1a.xLL2Row, Esst1a.vaRow]
        simp [lin_set, lin_nil, lin_ite, hδ _ v0, hδ _ v1, hδ _ v2, hδ _ v4]
        simp [hTb, hTc, hKf, hTf]
    · have hd2 : e.diff2 = true := by simpa [Esst1a.diff2] using hdd
      obtain ⟨hTb1, hTc1⟩ := not_or.mp hdd
      have hx : e.Ta = 0 ∧ e.Vaatmin = false ∧ e.Vaatmax = false := by
        refine ⟨?_, ?_, ?_⟩
        · by_contra h
          exact hc ⟨hTb, hTc, hTb1, hTc1, Or.inl h⟩
        · cases h : e.Vaatmin
          · rfl
          · exact absurd ⟨hTb, hTc, hTb1, hTc1, Or.inr (Or.inl h)⟩ hc
        · cases h : e.Vaatmax
          · rfl
          · exact absurd ⟨hTb, hTc, hTb1, hTc1, Or.inr (Or.inr h)⟩ hc
      obtain ⟨hTa, hlim1, hlim2⟩ := hx
      have hd3 : e.diff3 = false := by simpa [Esst1a.diff3] using hTa
      refine ⟨_, pos_lt hi hk hon v3 rfl, ?_⟩
      refine N.wrong_row .fault shift x xd xp buf i hi _ hm (.exc 3) (.exc 3) v3 rfl v3
        (-X (.exc 3) + e.Ka * e.yLL2 X (e.yLL1 X (e.Vi X)))
        (-1 - e.Ka * (e.Tc1 / e.Tb1) * (e.Tc / e.Tb) * (e.Kf / e.Tf)) ?_ ?_
      · refine Filter.Eventually.of_forall fun t Y Z P hY hZ hP => ?_
        simp only [Gen.resid, he, Esst1a.resid, hd1, hd2, hd3, hlim1, hlim2, Esst1a.yLL2, Esst1a.yLL1, Esst1a.Vi,
          Esst1a.ViFree, hmin, hmax, Esst1a.Vf,
          hY _ v0, hY _ v1, hY _ v2, hY _ v3, hY _ v4, hX, Net.stateOf]
        simp
        ring
      · intro δ hδ
        rw [Gen.lin_jac_exc _ _ _ rfl]
        simp only [Gen.excJac, he, Esst1a.jac, lin_append, hd1, hd2, hd3, hlim1, hlim2, hfree, Esst1a.xLL2Row,
          Esst1a.vaRow]
        simp [lin_set, lin_nil, lin_ite, hδ _ v0, hδ _ v1, hδ _ v2, hδ _ v3, hδ _ v4]
        rw [eq_comm, sub_eq_self]
        simp [hTb, hTc, hKf, hTf, hTb1, hTc1, hKa]

private theorem govValid {g : Gen} {w : Wsieg1} (hw : g.gov = some w) {q : ℕ} (hq : q < 6) : g.Valid (.gov q) := by
  simp [Gen.Valid, Ix.Valid, Gen.ngov, hw, hq]

/-- C187: a governor WSIEG1 with a gain and a free gate on a classical machine has a row that is not the derivative: the
entries for the speed deviation are written to the column of the voltage. -/
theorem C187_wsieg1_violated (N : Net ι) (shift : ℝ) (x xd xp : ι → ℕ → ℝ) (buf : ℕ → ℝ)
    (i : ι) (hi : (N.bus i).isolated = false) (k : ℕ) (g : Gen) (hk : (N.bus i).gens[k]? = some g) (hon : g.on = true)
    (p : Cls) (hp : g.mach = .cls p) (w : Wsieg1) (hw : g.gov = some w) (hK : w.K ≠ 0) (hT3 : w.T3 ≠ 0)
    (hfree : w.uatmin = false ∧ w.uatmax = false ∧ w.xatmin = false ∧ w.xatmax = false) :
    ∃ r, r < (N.bus i).nvar ∧ ¬ RowIsDerivative N .resid shift x xd xp buf i r := by
  have v0 := govValid hw (q := 0) (by norm_num)
  have v1 := govValid hw (q := 1) (by norm_num)
  have v2 := govValid hw (q := 2) (by norm_num)
  have v3 := govValid hw (q := 3) (by norm_num)
  have v4 := govValid hw (q := 4) (by norm_num)
  have v5 := govValid hw (q := 5) (by norm_num)
  have vn : g.Valid (.net 0) := by simp [Gen.Valid, Ix.Valid]
  have hm := mem_place_start hk hon
  set X := N.stateOf x i g k with hX
  set Xd := g.pushed (N.volt x i) (xd i) ((N.bus i).start k) with hXd
  by_cases hd : w.T1 = 0 ∨ w.T2 = 0
  · have hd0 : w.diff0 = false := by simpa [Wsieg1.diff0] using or_iff_not_imp_left.mp hd
    refine ⟨_, pos_lt hi hk hon v0 rfl, ?_⟩
    refine N.wrong_row .resid shift x xd xp buf i hi _ hm (.gov 0) (.net 0) v0 rfl vn (-X (.gov 0)) 0 ?_ ?_
    · refine Filter.Eventually.of_forall fun t Y Z P hY hZ hP => ?_
      simp only [Gen.resid, hw, Wsieg1.resid, hd0, Gen.dw, hp, hY _ v0, hX, Net.stateOf]
      simp
    · intro δ hδ
      rw [Gen.lin_jac_gov _ _ _ rfl]
      simp only [Gen.govJac, hw, Wsieg1.jac, lin_append, hd0, Wsieg1.lagJac, Gen.dwLoc, hp]
      simp [lin_set, lin_nil, lin_ite, hδ _ v0, hδ _ vn]
      exact hK
  · have hd0 : w.diff0 = true := by simpa [Wsieg1.diff0] using hd
    obtain ⟨hT1, hT2⟩ := not_or.mp hd
    by_cases hT : w.T2 = w.T1
    · refine ⟨_, pos_lt hi hk hon v1 rfl, ?_⟩
      refine N.wrong_row .resid shift x xd xp buf i hi _ hm (.gov 1) (.net 0) v1 rfl vn (w.uFree X 0 - Xd (.gov 1)) 0 ?_ ?_
      · refine Filter.Eventually.of_forall fun t Y Z P hY hZ hP => ?_
        simp only [Gen.resid, hw, Wsieg1.resid, hfree.1, hfree.2.1, hfree.2.2.1, hfree.2.2.2, Gen.dw, hp, Wsieg1.uFree,
          Wsieg1.yLL, hd0, hY _ v0, hY _ v1, hZ _ v1 rfl, hX, hXd, Net.stateOf]
        simp
      · intro δ hδ
        rw [Gen.lin_jac_gov _ _ _ rfl]
        simp only [Gen.govJac, hw, Wsieg1.jac, lin_append, hd0, hfree.1, hfree.2.1, hfree.2.2.1, hfree.2.2.2, Wsieg1.lagJac,
          Gen.dwLoc, hp]
        simp [lin_set, lin_nil, lin_ite, hδ _ v0, hδ _ v1, hδ _ v2, hδ _ v3, hδ _ v4, hδ _ v5, hδ _ vn]
        simp [hT1, hT2, hK, hT3]
    · refine ⟨_, pos_lt hi hk hon v0 rfl, ?_⟩
      refine N.wrong_row .resid shift x xd xp buf i hi _ hm (.gov 0) (.net 0) v0 rfl vn
        (-X (.gov 0) / w.T1 - Xd (.gov 0)) 0 ?_ ?_
      · refine Filter.Eventually.of_forall fun t Y Z P hY hZ hP => ?_
        simp only [Gen.resid, hw, Wsieg1.resid, hd0, Gen.dw, hp, hY _ v0, hZ _ v0 rfl, hX, hXd, Net.stateOf]
        simp
      · intro δ hδ
        rw [Gen.lin_jac_gov _ _ _ rfl]
        simp only [Gen.govJac, hw, Wsieg1.jac, lin_append, hd0, Wsieg1.lagJac, Gen.dwLoc, hp]
        simp [lin_set, lin_nil, lin_ite, hδ _ v0, hδ _ vn]
        simp [hT1, hK, one_sub_ne hT1 hT]

/-- C188: the same at a fault, if the lead-lag block of the governor is left out. -/
theorem C188_wsieg1_violated (N : Net ι) (shift : ℝ) (x xd xp : ι → ℕ → ℝ) (buf : ℕ → ℝ)
    (i : ι) (hi : (N.bus i).isolated = false) (k : ℕ) (g : Gen) (hk : (N.bus i).gens[k]? = some g) (hon : g.on = true)
    (p : Cls) (hp : g.mach = .cls p) (w : Wsieg1) (hw : g.gov = some w) (hK : w.K ≠ 0) (hd : w.T1 = 0 ∨ w.T2 = 0) :
    ∃ r, r < (N.bus i).nvar ∧ ¬ RowIsDerivative N .fault shift x xd xp buf i r := by
  have v0 := govValid hw (q := 0) (by norm_num)
  have vn : g.Valid (.net 0) := by simp [Gen.Valid, Ix.Valid]
  have hm := mem_place_start hk hon
  have hd0 : w.diff0 = false := by simpa [Wsieg1.diff0] using or_iff_not_imp_left.mp hd
  refine ⟨_, pos_lt hi hk hon v0 rfl, ?_⟩
  refine N.wrong_row .fault shift x xd xp buf i hi _ hm (.gov 0) (.net 0) v0 rfl vn (-N.stateOf x i g k (.gov 0)) 0 ?_ ?_
  · refine Filter.Eventually.of_forall fun t Y Z P hY hZ hP => ?_
    simp only [Gen.resid, hw, Wsieg1.resid, hd0, Gen.dw, hp, hY _ v0, Net.stateOf]
    simp
  · intro δ hδ
    rw [Gen.lin_jac_gov _ _ _ rfl]
    simp only [Gen.govJac, hw, Wsieg1.jac, lin_append, hd0, Wsieg1.lagFault, Gen.dwLoc, hp]
    simp [lin_set, lin_nil, lin_ite, hδ _ v0, hδ _ vn]
    exact hK

/-- C188: at a fault the rows of the currents lack the derivative with respect to the rotor angle of a classical
machine. -/
theorem C188_gencls_violated (N : Net ι) (shift : ℝ) (x xd xp : ι → ℕ → ℝ) (buf : ℕ → ℝ)
    (i : ι) (hi : (N.bus i).isolated = false) (k : ℕ) (g : Gen) (hk : (N.bus i).gens[k]? = some g) (hon : g.on = true)
    (p : Cls) (hp : g.mach = .cls p) (hE : p.Ep ≠ 0) (hX : p.Xdp ≠ 0) :
    ¬ (RowIsDerivative N .fault shift x xd xp buf i 0 ∧ RowIsDerivative N .fault shift x xd xp buf i 1) := by
  rintro ⟨h0, h1⟩
  obtain ⟨c, hc, h⟩ := N.current_rows .fault shift x xd xp buf i hi _ (mem_place_start hk hon) 0
    (by simp only [hp, Mach.size]; norm_num)
  obtain ⟨a0, a1⟩ := h (fun k => if k = .gen 0 then 1 else 0) (fun k _ => rfl)
  have b0 := mul_left_cancel₀ hc (a0 h0)
  have b1 := mul_left_cancel₀ hc (a1 h1)
  rw [Gen.lin_jac_mach _ _ _ rfl, Gen.lin_jac_mach _ _ _ rfl] at b0 b1
  simp only [Gen.machJac, hp, Cls.jac] at b0 b1
  replace b0 := b0.symm
  replace b1 := b1.symm
  simp [lin_set, lin_plus, lin_nil, rowIGQ, rowIGD, VD, VQ, hE, hX] at b0 b1
  have := Real.sin_sq_add_cos_sq (g.pushed (N.volt x i) (x i) ((N.bus i).start k) (.gen 0))
  rw [b0, b1] at this
  norm_num at this

/-- C187, C188: the rows of an isolated bus are not derivatives. -/
theorem C187_isolated_violated (N : Net ι) (m : Mode) (shift : ℝ) (x xd xp : ι → ℕ → ℝ) (buf : ℕ → ℝ)
    (i : ι) (hi : (N.bus i).isolated = true) (r : ℕ) (hr : r < (N.bus i).nvar) :
    ¬ RowIsDerivative N m shift x xd xp buf i r := by
  intro h
  have h2 : (N.bus i).nvar = 2 := by simp [Bus.nvar, hi]
  have hd := h (fun j c => if j = i ∧ c = r then 1 else 0)
  have e1 : ∑ j, ∑ c ∈ Finset.range (N.bus j).nvar, N.J m shift x i j c r * (if j = i ∧ c = r then (1:ℝ) else 0) = 1 := by
    rw [Finset.sum_eq_single i]
    · rw [Finset.sum_eq_single r]
      · have : N.J m shift x i i r r = run [set 0 0 1, set 1 1 1] r r := by simp [Net.J, Net.diagWrites, hi]
        rw [this]
        rw [h2] at hr
        interval_cases r <;> simp [run, put, set]
      · intro c _ hc
        simp [hc]
      · intro hc
        exact absurd (Finset.mem_range.mpr hr) hc
    · intro j _ hj
      apply Finset.sum_eq_zero
      intro c _
      simp [hj]
    · simp
  rw [e1] at hd
  have e2 : ∀ t : ℝ, N.F m (fun j c => x j c + t * (if j = i ∧ c = r then 1 else 0))
      (fun j c => xd j c + t * (shift * (if j = i ∧ c = r then 1 else 0))) xp buf i r = N.F m x xd xp buf i r := by
    intro t
    simp [Net.F, hi, Net.volt]
  simp only [e2] at hd
  exact one_ne_zero (hd.unique (hasDerivAt_const _ _))

private theorem lin_mapSet_ne (l : List (Ix × ℝ)) (f : Ix × ℝ → ℝ) (d : Ix → ℝ) :
    lin (l.map (fun e => set e.1 (.gen 1) (f e))) d (.gen 2) = 0 := by
  induction l with
  | nil => simp [lin]
  | cons e l ih => rw [List.map_cons, lin_set, ih]; simp

/-- C187: with ESST1A on GENROU or GENSAL, field voltage strictly beyond a limit, the row of the machine's field equation is
not the derivative. -/
theorem C187_field_limit_violated (N : Net ι) (shift : ℝ) (x xd xp : ι → ℕ → ℝ) (buf : ℕ → ℝ)
    (i : ι) (hi : (N.bus i).isolated = false) (k : ℕ) (g : Gen) (hk : (N.bus i).gens[k]? = some g) (hon : g.on = true)
    (hp : (∃ p, g.mach = .rou p ∧ p.Tdop ≠ 0) ∨ (∃ p, g.mach = .sal p ∧ p.Tdop ≠ 0))
    (e : Esst1a) (VT : ℝ) (he : g.exc = some (.esst1a e VT))
    (hlim : N.stateOf x i g k (.exc 3) < VT * e.Vrmin ∨
      VT * e.Vrmax - e.Kc * g.fieldCurrent (N.stateOf x i g k) < N.stateOf x i g k (.exc 3)) :
    ¬ RowIsDerivative N .resid shift x xd xp buf i ((N.bus i).start k + 2) := by
  have w3 := excValid he (q := 3) (by norm_num)
  have hm := mem_place_start hk hon
  set X := N.stateOf x i g k with hX
  set Xd := g.pushed (N.volt x i) (xd i) ((N.bus i).start k) with hXd
  have hev : ∀ᶠ t in nhds (0:ℝ), ∀ Y : Ix → ℝ, Y (.exc 3) = X (.exc 3) + t →
      e.efd Y VT (g.fieldCurrent X) = e.efd X VT (g.fieldCurrent X) := by
    rcases hlim with h | h
    · filter_upwards [Iio_mem_nhds (show (0:ℝ) < VT * e.Vrmin - X (.exc 3) by linarith)] with t ht Y hY
      have ht' : t < VT * e.Vrmin - X (.exc 3) := ht
      simp only [Esst1a.efd, hY]
      rw [max_eq_right (by linarith), max_eq_right h.le]
    · filter_upwards [Ioi_mem_nhds (show VT * e.Vrmax - e.Kc * g.fieldCurrent X - X (.exc 3) < 0 by linarith)] with t ht Y hY
      have ht' : VT * e.Vrmax - e.Kc * g.fieldCurrent X - X (.exc 3) < t := ht
      simp only [Esst1a.efd, hY]
      rw [min_eq_right (le_max_of_le_left (by linarith)), min_eq_right (le_max_of_le_left h.le)]
  have vn0 : g.Valid (.net 0) := by simp [Gen.Valid, Ix.Valid]
  have vn1 : g.Valid (.net 1) := by simp [Gen.Valid, Ix.Valid]
  have w0 := excValid he (q := 0) (by norm_num)
  have w1 := excValid he (q := 1) (by norm_num)
  have w2 := excValid he (q := 2) (by norm_num)
  have w4 := excValid he (q := 4) (by norm_num)
  rcases hp with ⟨p, hp, hT⟩ | ⟨p, hp, hT⟩
  · have hv : ∀ {q : ℕ}, q < 6 → g.Valid (.gen q) := by
      intro q hq
      simp [Gen.Valid, Ix.Valid, hp, Mach.size, hq]
    have v0 := hv (q := 0) (by norm_num)
    have v1 := hv (q := 1) (by norm_num)
    have v2 := hv (q := 2) (by norm_num)
    have v3 := hv (q := 3) (by norm_num)
    have v4 := hv (q := 4) (by norm_num)
    have v5 := hv (q := 5) (by norm_num)
    refine N.wrong_row .resid shift x xd xp buf i hi _ hm (.gen 2) (.exc 3) v2 rfl w3
      ((e.efd X VT (g.fieldCurrent X) - g.fieldCurrent X) / p.Tdop - Xd (.gen 2)) 0 ?_ ?_
    · filter_upwards [hev] with t ht Y Z P hY hZ hP
      have hfc : g.fieldCurrent Y = g.fieldCurrent X := by
        simp only [Gen.fieldCurrent, hp, Rou.fieldCurrent, Rou.Id, Rou.Vd, Rou.Vq, Rou.Psidpp, Rou.Psiqpp, Rou.Vdterm,
          Rou.Vqterm, Rou.theta, hY _ v0, hY _ v1, hY _ v2, hY _ v3, hY _ v4, hY _ v5, hY _ vn0, hY _ vn1, hX, Net.stateOf]
        simp
      have hE := ht Y (by rw [hY _ w3]; simp [hX, Net.stateOf])
      have hfp : p.fieldCurrent Y = g.fieldCurrent Y := by simp [Gen.fieldCurrent, hp]
      simp only [Gen.resid, hp, Rou.resid, Gen.drive, he, hfp, hfc, hE, hZ _ v2 rfl, hXd]
      simp
    · intro δ hδ
      rw [Gen.lin_jac_mach _ _ _ rfl]
      simp only [Gen.machJac, hp, Rou.jac, Rou.jacRows, lin_append, Gen.drive, he, Esst1a.dEfd]
      rw [lin_mapSet_ne]
      simp [lin_set, lin_plus, lin_nil, lin_mapPlus0, hδ _ v0, hδ _ v1, hδ _ v2, hδ _ v3, hδ _ v4, hδ _ v5,
        hδ _ vn0, hδ _ vn1, hδ _ w0, hδ _ w1, hδ _ w2, hδ _ w3, hδ _ w4]
      exact hT
  · have hv : ∀ {q : ℕ}, q < 5 → g.Valid (.gen q) := by
      intro q hq
      simp [Gen.Valid, Ix.Valid, hp, Mach.size, hq]
    have v0 := hv (q := 0) (by norm_num)
    have v1 := hv (q := 1) (by norm_num)
    have v2 := hv (q := 2) (by norm_num)
    have v3 := hv (q := 3) (by norm_num)
    have v4 := hv (q := 4) (by norm_num)
    refine N.wrong_row .resid shift x xd xp buf i hi _ hm (.gen 2) (.exc 3) v2 rfl w3
      ((e.efd X VT (g.fieldCurrent X) - g.fieldCurrent X) / p.Tdop - Xd (.gen 2)) 0 ?_ ?_
    · filter_upwards [hev] with t ht Y Z P hY hZ hP
      have hfc : g.fieldCurrent Y = g.fieldCurrent X := by
        simp only [Gen.fieldCurrent, hp, Sal.fieldCurrent, Sal.Id, Sal.Vd, Sal.Vq, Sal.Psidpp, Sal.Vdterm,
          Sal.Vqterm, hY _ v0, hY _ v1, hY _ v2, hY _ v3, hY _ v4, hY _ vn0, hY _ vn1, hX, Net.stateOf]
        simp
      have hE := ht Y (by rw [hY _ w3]; simp [hX, Net.stateOf])
      have hfp : p.fieldCurrent Y = g.fieldCurrent Y := by simp [Gen.fieldCurrent, hp]
      simp only [Gen.resid, hp, Sal.resid, Gen.drive, he, hfp, hfc, hE, hZ _ v2 rfl, hXd]
      simp
    · intro δ hδ
      rw [Gen.lin_jac_mach _ _ _ rfl]
      simp only [Gen.machJac, hp, Sal.jac, Sal.jacRows, lin_append, Gen.drive, he, Esst1a.dEfd]
      rw [lin_mapSet_ne]
      simp [lin_set, lin_plus, lin_nil, lin_mapPlus0, hδ _ v0, hδ _ v1, hδ _ v2, hδ _ v3, hδ _ v4,
        hδ _ vn0, hδ _ vn1, hδ _ w0, hδ _ w1, hδ _ w2, hδ _ w3, hδ _ w4]
      exact hT

/-! ### Examples -/

/-- A network of two buses joined by a line, with the given generators at the first bus. -/
private noncomputable def exNet (gens : List Gen) : Net Bool where
  bus b := if b then ⟨false, 0, 0, 1, 0.5, 1, 0, []⟩ else ⟨false, 0, 0.1, 0, 0, 1, 0, gens⟩
  branches := [⟨false, true, [⟨true, 1, -5, -1, 5, -1, 5, 1, -5⟩]⟩]
  junk _ := (0, 0)
private noncomputable def exRou : Rou := ⟨5, 1, 0.01, 2, 1.5, 0.3, 0.2, 0.1, 0.4, 0.2, 6, 0.05, 0.1, 0.5, -4, 0.2⟩
private noncomputable def exSal : Sal := ⟨5, 1, 0.01, 2, 1.5, 0.3, 0.2, 0.1, 6, 0.05, 0.1, -4, 0.2⟩
private def exCls : Cls := ⟨0.3, 4, 1, 1.1, 1⟩
/-- EXDC1 with rate feedback `KF` and time constants `TC`, `TB`. -/
private noncomputable def exExdc (TB TC KF : ℝ) : Exdc1 :=
  ⟨0.02, 40, 0.1, TB, TC, 5, -5, 1, 0.5, KF, 1, 3, 0.1, 3, 1, false, false⟩
/-- ESST1A with rate feedback `Kf`. -/
private noncomputable def exEsst (Kf : ℝ) : Esst1a :=
  ⟨0.02, 1, -1, 1, 2, 0, 0, 200, 0.01, 5, -5, 6, -6, 0.1, Kf, 1, 1, false, false, false, false⟩
private noncomputable def exWsieg (T2 : ℝ) : Wsieg1 :=
  ⟨20, 0.5, T2, 0.1, 0.5, -0.5, 3, 0, 0.1, 0.2, 0.3, 0.4, 0.5, 0, 0.5, 0, 0, 0, 0, 0, 0, 1, false, false, false, false⟩
/-- GENROU with EXDC1 (no rate feedback) and governor, GENSAL with ESST1A (no rate feedback), both in service. -/
private noncomputable def exGens : List Gen :=
  [⟨true, .rou exRou, some (.exdc1 (exExdc 1 1 0)), some (exWsieg 0.2), 0, 0, 1, 0⟩,
   ⟨true, .sal exSal, some (.esst1a (exEsst 0) 1), none, 0, 0, 1, 0⟩]
/-- All variables are 1. -/
private def exX : Bool → ℕ → ℝ := fun _ _ => 1

private theorem exSimple (gens : List Gen) : (exNet gens).Simple := by
  constructor
  · intro br hbr
    simp [exNet] at hbr
    simp [hbr]
  · simp [exNet]

/-- The hypotheses of `C187_matrix_is_derivative_partial` hold at a bus with 2 + 17 + 10 variables. -/
example (shift : ℝ) (xd xp : Bool → ℕ → ℝ) (buf : ℕ → ℝ) : ((exNet exGens).bus false).nvar = 29 ∧
    ∀ r, r < 29 → RowIsDerivative (exNet exGens) .resid shift exX xd xp buf false r := by
  refine ⟨rfl, fun r hr => C187_matrix_is_derivative_partial _ (exSimple _) shift exX xd xp buf false rfl ?_ r hr⟩
  have hf : exSal.fieldCurrent (fun _ => (1:ℝ)) ≤ 20 := by
    have hc := Real.cos_le_one 1
    have hs := Real.sin_le_one 1
    have hc' := Real.neg_one_le_cos 1
    have hs' := Real.neg_one_le_sin 1
    norm_num [Sal.fieldCurrent, Sal.Id, Sal.Vd, Sal.Vq, Sal.Psidpp, Sal.Vdterm, Sal.Vqterm, exSal]
    linarith
  intro k g hk hon
  rcases k with _ | _ | k
  · have : g = ⟨true, .rou exRou, some (.exdc1 (exExdc 1 1 0)), some (exWsieg 0.2), 0, 0, 1, 0⟩ := by
      simpa [exNet, exGens] using hk.symm
    subst this
    refine ⟨⟨?_, ?_⟩, ?_⟩
    · norm_num [Net.stateOf, Gen.pushed, exX]
    · refine ⟨?_, Or.inl rfl, ?_⟩
      · norm_num [Net.stateOf, Gen.pushed, Net.volt, exNet, exX]
      · intro _
        norm_num [Net.stateOf, Gen.pushed, exX]
    · exact Or.inr (by norm_num [exExdc])
  · have : g = ⟨true, .sal exSal, some (.esst1a (exEsst 0) 1), none, 0, 0, 1, 0⟩ := by
      simpa [exNet, exGens] using hk.symm
    subst this
    have hst : (exNet exGens).stateOf exX false ⟨true, .sal exSal, some (.esst1a (exEsst 0) 1), none, 0, 0, 1, 0⟩ 1
        = fun _ => 1 := by
      funext ix
      rcases ix with (_ | k) | k | k | k <;> simp [Net.stateOf, Gen.pushed, Net.volt, exNet, exX]
    rw [zero_add, hst]
    refine ⟨⟨?_, ?_⟩, ?_⟩
    · norm_num
    · refine ⟨by norm_num, by norm_num [exEsst], ?_⟩
      simp only [Gen.fieldCurrent]
      norm_num [exEsst]
      linarith
    · exact ⟨Or.inl rfl, Or.inl rfl⟩
  · simp [exNet, exGens] at hk

/-- The same bus at a fault, where rate feedback is allowed with lead-lag blocks. -/
example (shift : ℝ) (xd xp : Bool → ℕ → ℝ) (buf : ℕ → ℝ) (r : ℕ) (hr : r < 19) :
    RowIsDerivative (exNet [⟨true, .rou exRou, some (.exdc1 (exExdc 2 1 0.1)), some (exWsieg 0.2), 0, 0, 1, 0⟩])
      .fault shift exX xd xp buf false r := by
  refine C188_fault_matrix_is_derivative_partial _ (exSimple _) shift exX xd xp buf false rfl ?_ r hr
  intro k g hk hon
  rcases k with _ | k
  · have : g = ⟨true, .rou exRou, some (.exdc1 (exExdc 2 1 0.1)), some (exWsieg 0.2), 0, 0, 1, 0⟩ := by
      simpa [exNet] using hk.symm
    subst this
    refine ⟨trivial, ?_, ?_⟩
    · norm_num [exExdc]
    · exact Or.inr (by norm_num [exExdc])
  · simp [exNet] at hk

/-- EXDC1 with rate feedback, as it is commonly given, in both matrices. -/
example (shift : ℝ) (x xd xp : Bool → ℕ → ℝ) (buf : ℕ → ℝ) :
    (∃ r, r < 13 ∧ ¬ RowIsDerivative (exNet [⟨true, .rou exRou, some (.exdc1 (exExdc 0 0 0.1)), none, 0, 0, 1, 0⟩])
      .resid shift x xd xp buf false r) ∧
    (∃ r, r < 13 ∧ ¬ RowIsDerivative (exNet [⟨true, .rou exRou, some (.exdc1 (exExdc 0 0 0.1)), none, 0, 0, 1, 0⟩])
      .fault shift x xd xp buf false r) :=
  ⟨C187_exdc1_violated (exNet [⟨true, .rou exRou, some (.exdc1 (exExdc 0 0 0.1)), none, 0, 0, 1, 0⟩]) shift x xd xp buf false rfl 0 _ rfl rfl (exExdc 0 0 0.1) rfl (by norm_num [exExdc])
    (by norm_num [exExdc]) (by norm_num [Exdc1.Covered, exExdc]),
   C188_exdc1_violated (exNet [⟨true, .rou exRou, some (.exdc1 (exExdc 0 0 0.1)), none, 0, 0, 1, 0⟩]) shift x xd xp buf false rfl 0 _ rfl rfl (exExdc 0 0 0.1) rfl (by norm_num [exExdc])
    (by norm_num [exExdc]) (by norm_num [Exdc1.FaultCovered, exExdc])⟩

/-- ESST1A with rate feedback, in both matrices. -/
example (shift : ℝ) (x xd xp : Bool → ℕ → ℝ) (buf : ℕ → ℝ) :
    (∃ r, r < 13 ∧ ¬ RowIsDerivative (exNet [⟨true, .rou exRou, some (.esst1a (exEsst 0.1) 1), none, 0, 0, 1, 0⟩])
      .resid shift x xd xp buf false r) ∧
    (∃ r, r < 13 ∧ ¬ RowIsDerivative (exNet [⟨true, .rou exRou, some (.esst1a (exEsst 0.1) 1), none, 0, 0, 1, 0⟩])
      .fault shift x xd xp buf false r) :=
  ⟨C187_esst1a_violated (exNet [⟨true, .rou exRou, some (.esst1a (exEsst 0.1) 1), none, 0, 0, 1, 0⟩]) shift x xd xp buf false rfl 0 _ rfl rfl (exEsst 0.1) 1 rfl (by norm_num [exEsst])
    (by norm_num [exEsst]) ⟨rfl, rfl⟩ (by norm_num [Esst1a.Covered, exEsst]),
   C188_esst1a_violated (exNet [⟨true, .rou exRou, some (.esst1a (exEsst 0.1) 1), none, 0, 0, 1, 0⟩]) shift x xd xp buf false rfl 0 _ rfl rfl (exEsst 0.1) 1 rfl (by norm_num [exEsst])
    (by norm_num [exEsst]) (by norm_num [Esst1a.FaultCovered, exEsst])⟩

/-- WSIEG1 on a classical machine, in both matrices; and the classical machine itself at a fault. -/
example (shift : ℝ) (x xd xp : Bool → ℕ → ℝ) (buf : ℕ → ℝ) :
    (∃ r, r < 10 ∧ ¬ RowIsDerivative (exNet [⟨true, .cls exCls, none, some (exWsieg 0), 0, 0, 1, 0⟩])
      .resid shift x xd xp buf false r) ∧
    (∃ r, r < 10 ∧ ¬ RowIsDerivative (exNet [⟨true, .cls exCls, none, some (exWsieg 0), 0, 0, 1, 0⟩])
      .fault shift x xd xp buf false r) ∧
    ¬ (RowIsDerivative (exNet [⟨true, .cls exCls, none, none, 0, 0, 1, 0⟩]) .fault shift x xd xp buf false 0 ∧
      RowIsDerivative (exNet [⟨true, .cls exCls, none, none, 0, 0, 1, 0⟩]) .fault shift x xd xp buf false 1) :=
  ⟨C187_wsieg1_violated (exNet [⟨true, .cls exCls, none, some (exWsieg 0), 0, 0, 1, 0⟩]) shift x xd xp buf false rfl 0 _ rfl rfl exCls rfl (exWsieg 0) rfl
    (by norm_num [exWsieg])
    (by norm_num [exWsieg]) ⟨rfl, rfl, rfl, rfl⟩,
   C188_wsieg1_violated (exNet [⟨true, .cls exCls, none, some (exWsieg 0), 0, 0, 1, 0⟩]) shift x xd xp buf false rfl 0 _ rfl rfl exCls rfl (exWsieg 0) rfl
    (by norm_num [exWsieg])
    (Or.inr rfl),
   C188_gencls_violated _ shift x xd xp buf false rfl 0 _ rfl rfl exCls rfl (by norm_num [exCls]) (by norm_num [exCls])⟩

/-- An isolated bus. -/
example (m : Mode) (shift : ℝ) (x xd xp : Unit → ℕ → ℝ) (buf : ℕ → ℝ) :
    let N : Net Unit := ⟨fun _ => ⟨true, 0, 0, 0, 0, 1, 0, []⟩, [], fun _ => (0, 0)⟩
    ¬ RowIsDerivative N m shift x xd xp buf () 1 :=
  C187_isolated_violated _ m shift x xd xp buf () rfl 1 (by simp [Bus.nvar])

/-- ESST1A at its lower limit. -/
example (shift : ℝ) (xd xp : Bool → ℕ → ℝ) (buf : ℕ → ℝ) :
    ¬ RowIsDerivative (exNet [⟨true, .rou exRou, some (.esst1a (exEsst 0) 1), none, 0, 0, 1, 0⟩])
      .resid shift (fun _ _ => -7) xd xp buf false 4 :=
  C187_field_limit_violated _ shift _ xd xp buf false rfl 0 _ rfl rfl (Or.inl ⟨exRou, rfl, by norm_num [exRou]⟩)
    (exEsst 0) 1 rfl (Or.inl (by norm_num [Net.stateOf, Gen.pushed, exEsst]))

end GridPACK.Dae
