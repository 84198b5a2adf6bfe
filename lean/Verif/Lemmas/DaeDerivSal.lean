import Verif.Lemmas.DaeDerivRou

/-! Derivatives of the equations of GENSAL. -/
namespace GridPACK.Dae
namespace Sal
variable {Y : ℝ → Ix → ℝ} {Z : ℝ → Ix → ℝ} {d : Ix → ℝ} {s : ℝ} (p : Sal)

/-- Change of `Id`. -/
noncomputable def DId (X d : Ix → ℝ) : ℝ :=
  p.dId_ddelta X * d (.gen 0) + p.dId_ddw X * d (.gen 1) + p.dId_dEqp X * d (.gen 2) + p.dId_dPsidp X * d (.gen 3)
  + p.dId_dPsiqpp X * d (.gen 4) + p.dId_dVD X * d VD + p.dId_dVQ X * d VQ

/-- Change of `Iq`. -/
noncomputable def DIq (X d : Ix → ℝ) : ℝ :=
  p.dIq_ddelta X * d (.gen 0) + p.dIq_ddw X * d (.gen 1) + p.dIq_dEqp X * d (.gen 2) + p.dIq_dPsidp X * d (.gen 3)
  + p.dIq_dPsiqpp X * d (.gen 4) + p.dIq_dVD X * d VD + p.dIq_dVQ X * d VQ

section
variable (hY : ∀ ix, HasDerivAt (fun t => Y t ix) (d ix) 0)
include hY

theorem Vdterm_deriv : HasDerivAt (fun t => Vdterm (Y t))
    (dVdterm_ddelta (Y 0) * d (.gen 0) + Real.sin (Y 0 (.gen 0)) * d VD + -Real.cos (Y 0 (.gen 0)) * d VQ) 0 := by
  have h := ((hY VD).mul (hY (.gen 0)).sin).sub ((hY VQ).mul (hY (.gen 0)).cos)
  refine HasDerivAt.congr_deriv h ?_
  unfold dVdterm_ddelta
  ring

theorem Vqterm_deriv : HasDerivAt (fun t => Vqterm (Y t))
    (dVqterm_ddelta (Y 0) * d (.gen 0) + Real.cos (Y 0 (.gen 0)) * d VD + Real.sin (Y 0 (.gen 0)) * d VQ) 0 := by
  have h := ((hY VD).mul (hY (.gen 0)).cos).add ((hY VQ).mul (hY (.gen 0)).sin)
  refine HasDerivAt.congr_deriv h ?_
  unfold dVqterm_ddelta
  ring

theorem Psidpp_deriv : HasDerivAt (fun t => p.Psidpp (Y t))
    (p.dPsidpp_dEqp * d (.gen 2) + p.dPsidpp_dPsidp * d (.gen 3)) 0 := by
  have h := (((hY (.gen 2)).mul_const (p.Xdpp - p.Xl)).div_const (p.Xdp - p.Xl)).add
    (((hY (.gen 3)).mul_const (p.Xdp - p.Xdpp)).div_const (p.Xdp - p.Xl))
  refine HasDerivAt.congr_deriv h ?_
  unfold dPsidpp_dEqp dPsidpp_dPsidp
  ring

theorem Vd_deriv : HasDerivAt (fun t => Vd (Y t)) (-d (.gen 4) * (1 + Y 0 (.gen 1)) + -Y 0 (.gen 4) * d (.gen 1)) 0 :=
  (hY (.gen 4)).neg.mul ((hY (.gen 1)).const_add 1)

theorem Vq_deriv : HasDerivAt (fun t => p.Vq (Y t))
    ((p.dPsidpp_dEqp * d (.gen 2) + p.dPsidpp_dPsidp * d (.gen 3)) * (1 + Y 0 (.gen 1)) + p.Psidpp (Y 0) * d (.gen 1)) 0 :=
  (p.Psidpp_deriv hY).mul ((hY (.gen 1)).const_add 1)

theorem Id_deriv : HasDerivAt (fun t => p.Id (Y t)) (p.DId (Y 0) d) 0 := by
  have h := (((Vd_deriv hY).sub (Vdterm_deriv hY)).mul_const p.G).sub
    (((p.Vq_deriv hY).sub (Vqterm_deriv hY)).mul_const p.B)
  refine HasDerivAt.congr_deriv h ?_
  simp only [DId, dId_ddelta, dId_ddw, dId_dEqp, dId_dPsidp, dId_dPsiqpp, dId_dVD, dId_dVQ]
  ring

theorem Iq_deriv : HasDerivAt (fun t => p.Iq (Y t)) (p.DIq (Y 0) d) 0 := by
  have h := (((Vd_deriv hY).sub (Vdterm_deriv hY)).mul_const p.B).add
    (((p.Vq_deriv hY).sub (Vqterm_deriv hY)).mul_const p.G)
  refine HasDerivAt.congr_deriv h ?_
  simp only [DIq, dIq_ddelta, dIq_ddw, dIq_dEqp, dIq_dPsidp, dIq_dPsiqpp, dIq_dVD, dIq_dVQ]
  ring

theorem Telec_deriv : HasDerivAt (fun t => p.Telec (Y t))
    (p.dTelec (Y 0) (p.dPsidpp_dEqp * d (.gen 2) + p.dPsidpp_dPsidp * d (.gen 3)) (d (.gen 4)) (p.DId (Y 0) d)
      (p.DIq (Y 0) d)) 0 := by
  have h := (((p.Psidpp_deriv hY).sub ((p.Id_deriv hY).mul_const p.Xdpp)).mul (p.Iq_deriv hY)).sub
    (((hY (.gen 4)).sub ((p.Iq_deriv hY).mul_const p.Xdpp)).mul (p.Id_deriv hY))
  refine HasDerivAt.congr_deriv h ?_
  simp only [dTelec, Psid, Psiq]
  simp
  ring

theorem fieldCurrent_deriv : HasDerivAt (fun t => p.fieldCurrent (Y t))
    (d (.gen 2) + p.dLadIfd (p.DId (Y 0) d) (d (.gen 2) - d (.gen 3))) 0 := by
  have h := ((hY (.gen 2)).mul_const (1 + 0)).add (((p.Id_deriv hY).add (((((hY (.gen 3)).neg.sub
    ((p.Id_deriv hY).const_mul (p.Xdp - p.Xl))).add (hY (.gen 2))).const_mul
    ((p.Xdp - p.Xdpp) / ((p.Xdp - p.Xl) * (p.Xdp - p.Xl)))))).const_mul (p.Xd - p.Xdp))
  refine HasDerivAt.congr_deriv h ?_
  simp only [dLadIfd]
  ring

end

theorem lin_jacRows_net (X : Ix → ℝ) (u : Drive) (i : ℕ) : lin (p.jacRows X u s) d (.net i) = 0 := by
  unfold jacRows
  simp only [lin_append, lin_set, lin_nil]
  rw [lin_mapSet u.dPmech (.gen 1) (fun x => 1 / (2 * p.H) * x / (1 + X (.gen 1)))
      (1 / (2 * p.H) / (1 + X (.gen 1))) (by intro x; ring),
    lin_mapSet u.dEfd (.gen 2) (fun x => x / p.Tdop) (1 / p.Tdop) (by intro x; ring)]
  cases u.hasExc <;> simp [lin_mapPlus0, lin_nil]

theorem igq_deriv (hY : ∀ ix, HasDerivAt (fun t => Y t ix) (d ix) 0) (u : Drive) (m : Mode) :
    HasDerivAt (fun t => p.igq (Y t)) (lin (p.jac (Y 0) u m s) d rowIGQ) 0 := by
  have h := ((p.Id_deriv hY).neg.mul (hY (.gen 0)).cos).add ((p.Iq_deriv hY).mul (hY (.gen 0)).sin)
  refine HasDerivAt.congr_deriv h ?_
  cases m
  · simp only [jac, lin_append, lin_jacRows_net, lin_set, lin_plus, lin_nil, DId, DIq]
    simp
    ring
  · simp only [jac, lin_append, lin_set, lin_plus, lin_nil, DId, DIq, List.range, List.range.loop, List.map_cons,
      List.map_nil]
    simp
    ring

theorem igd_deriv (hY : ∀ ix, HasDerivAt (fun t => Y t ix) (d ix) 0) (u : Drive) (m : Mode) :
    HasDerivAt (fun t => p.igd (Y t)) (lin (p.jac (Y 0) u m s) d rowIGD) 0 := by
  have h := ((p.Id_deriv hY).mul (hY (.gen 0)).sin).add ((p.Iq_deriv hY).mul (hY (.gen 0)).cos)
  refine HasDerivAt.congr_deriv h ?_
  cases m
  · simp only [jac, lin_append, lin_jacRows_net, lin_set, lin_plus, lin_nil, DId, DIq]
    simp
    ring
  · simp only [jac, lin_append, lin_set, lin_plus, lin_nil, DId, DIq, List.range, List.range.loop, List.map_cons,
      List.map_nil]
    simp
    ring

/-- The rows of `jac` and `jacRows` belonging to the machine are the same. -/
theorem lin_jac (X : Ix → ℝ) (u : Drive) (k : ℕ) : lin (p.jac X u .resid s) d (.gen k) = lin (p.jacRows X u s) d (.gen k) := by
  simp only [jac, lin_append, lin_set, lin_plus, lin_nil]
  simp

theorem resid_deriv {u : ℝ → Drive} (hY : ∀ ix, HasDerivAt (fun t => Y t ix) (d ix) 0)
    (hZ : ∀ k, HasDerivAt (fun t => Z t (.gen k)) (s * d (.gen k)) 0)
    (hE : HasDerivAt (fun t => (u t).Efd) (dsum (u 0).dEfd d) 0)
    (hP : HasDerivAt (fun t => (u t).Pmech) (dsum (u 0).dPmech d) 0)
    (hw : 1 + Y 0 (.gen 1) ≠ 0) (P : Ix → ℝ) (k : ℕ) (hk : k < 5) :
    HasDerivAt (fun t => p.resid (Y t) (u t) .resid (Z t) P k) (lin (p.jac (Y 0) (u 0) .resid s) d (.gen k)) 0 := by
  have zero : ∀ r, lin (if (u 0).hasExc then (List.range 5).map (fun i => plus (.gen i) (.gen 2) (0 / p.Tdop)) else []) d r
      = 0 := by
    intro r
    cases (u 0).hasExc <;> simp [lin_mapPlus0, lin_nil]
  rw [lin_jac]
  unfold jacRows
  simp only [lin_append]
  rw [zero, lin_mapSet (u 0).dPmech (.gen 1) (fun x => 1 / (2 * p.H) * x / (1 + Y 0 (.gen 1)))
      (1 / (2 * p.H) / (1 + Y 0 (.gen 1))) (by intro x; ring),
    lin_mapSet (u 0).dEfd (.gen 2) (fun x => x / p.Tdop) (1 / p.Tdop) (by intro x; ring)]
  simp only [lin_set, lin_nil]
  have hI := p.Id_deriv hY
  have hQ := p.Iq_deriv hY
  interval_cases k
  · have h := ((hY (.gen 1)).mul_const omegaS).sub (hZ 0)
    refine HasDerivAt.congr_deriv h ?_
    simp
    ring
  · have h := ((((hP.sub ((hY (.gen 1)).const_mul p.D)).div ((hY (.gen 1)).const_add 1) hw).sub
      (p.Telec_deriv hY)).const_mul (1 / (2 * p.H))).sub (hZ 1)
    refine HasDerivAt.congr_deriv h ?_
    simp [dTelec, DId, DIq]
    field_simp
    ring
  · have h := ((hE.sub (p.fieldCurrent_deriv hY)).div_const p.Tdop).sub (hZ 2)
    refine HasDerivAt.congr_deriv h ?_
    simp [dLadIfd, DId]
    ring
  · have h := ((((hY (.gen 3)).neg.sub (hI.const_mul (p.Xdp - p.Xl))).add (hY (.gen 2))).div_const p.Tdopp).sub (hZ 3)
    refine HasDerivAt.congr_deriv h ?_
    simp [DId]
    ring
  · have h := (((hY (.gen 4)).neg.sub (hQ.const_mul (p.Xq - p.Xdpp))).div_const p.Tqopp).sub (hZ 4)
    refine HasDerivAt.congr_deriv h ?_
    simp [DIq]
    ring

theorem fault_deriv (hY : ∀ ix, HasDerivAt (fun t => Y t ix) (d ix) 0) (u : ℝ → Drive) (P : Ix → ℝ) (k : ℕ)
    (hk : k < 5) :
    HasDerivAt (fun t => p.resid (Y t) (u t) .fault (Z t) P k) (lin (p.jac (Y 0) (u 0) .fault s) d (.gen k)) 0 := by
  have h := (hY (.gen k)).sub_const (P (.gen k))
  have e : (fun t => p.resid (Y t) (u t) .fault (Z t) P k) = fun t => Y t (.gen k) - P (.gen k) := by
    funext t
    simp [resid]
  rw [e]
  refine HasDerivAt.congr_deriv h ?_
  simp only [jac, lin_append, lin_set, lin_plus, lin_nil, List.range, List.range.loop, List.map_cons, List.map_nil]
  interval_cases k <;> simp

end Sal
end GridPACK.Dae
