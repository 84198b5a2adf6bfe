import Verif.Lemmas.DaeWrong
import Verif.Spec.DaeMachines
import Mathlib.Analysis.Calculus.Deriv.Mul
import Mathlib.Analysis.Real.Pi.Bounds

/-! C193: the swing equation in the DAE form of the dynamic simulation. -/
namespace GridPACK.Dae

variable {ι : Type} [DecidableEq ι]

/-- Torque times speed is the power through the air gap. -/
private theorem Rou.airgap (p : Rou) (X : Ix → ℝ) (hz : p.Ra * p.Ra + p.Xdpp * p.Xdpp ≠ 0)
    (hB : p.B = -p.Xdpp / (p.Ra * p.Ra + p.Xdpp * p.Xdpp)) (hG : p.G = p.Ra / (p.Ra * p.Ra + p.Xdpp * p.Xdpp)) :
    p.Telec X * (1 + X (.gen 1)) = X VD * p.igd X + X VQ * p.igq X + p.Ra * (p.igd X ^ 2 + p.igq X ^ 2) := by
  have hz' : p.Ra ^ 2 + p.Xdpp ^ 2 ≠ 0 := by simpa [sq] using hz
  have sc := Real.sin_sq_add_cos_sq (Rou.theta X)
  have h1 : p.Vd X - Rou.Vdterm X = p.Ra * p.Id X - p.Xdpp * p.Iq X := by
    simp only [Rou.Id, Rou.Iq, hB, hG]
    field_simp
    ring
  have h2 : p.Vq X - Rou.Vqterm X = p.Ra * p.Iq X + p.Xdpp * p.Id X := by
    simp only [Rou.Id, Rou.Iq, hB, hG]
    field_simp
    ring
  have h3 : p.Telec X * (1 + X (.gen 1)) = p.Vd X * p.Id X + p.Vq X * p.Iq X := by
    simp only [Rou.Telec, Rou.Vd, Rou.Vq]
    ring
  have h4 : X VD * p.igd X + X VQ * p.igq X = Rou.Vdterm X * p.Id X + Rou.Vqterm X * p.Iq X := by
    simp only [Rou.igd, Rou.igq, Rou.Vdterm, Rou.Vqterm]
    ring
  have h5 : p.igd X ^ 2 + p.igq X ^ 2 = p.Id X ^ 2 + p.Iq X ^ 2 := by
    simp only [Rou.igd, Rou.igq]
    linear_combination (p.Id X ^ 2 + p.Iq X ^ 2) * sc
  rw [h3, h4, h5]
  linear_combination p.Id X * h1 + p.Iq X * h2

private theorem Sal.airgap (p : Sal) (X : Ix → ℝ) (hz : p.Ra * p.Ra + p.Xdpp * p.Xdpp ≠ 0)
    (hB : p.B = -p.Xdpp / (p.Ra * p.Ra + p.Xdpp * p.Xdpp)) (hG : p.G = p.Ra / (p.Ra * p.Ra + p.Xdpp * p.Xdpp)) :
    p.Telec X * (1 + X (.gen 1)) = X VD * p.igd X + X VQ * p.igq X + p.Ra * (p.igd X ^ 2 + p.igq X ^ 2) := by
  have hz' : p.Ra ^ 2 + p.Xdpp ^ 2 ≠ 0 := by simpa [sq] using hz
  have sc := Real.sin_sq_add_cos_sq (X (.gen 0))
  have h1 : Sal.Vd X - Sal.Vdterm X = p.Ra * p.Id X - p.Xdpp * p.Iq X := by
    simp only [Sal.Id, Sal.Iq, hB, hG]
    field_simp
    ring
  have h2 : p.Vq X - Sal.Vqterm X = p.Ra * p.Iq X + p.Xdpp * p.Id X := by
    simp only [Sal.Id, Sal.Iq, hB, hG]
    field_simp
    ring
  have h3 : p.Telec X * (1 + X (.gen 1)) = Sal.Vd X * p.Id X + p.Vq X * p.Iq X := by
    simp only [Sal.Telec, Sal.Vd, Sal.Vq, Sal.Psid, Sal.Psiq]
    ring
  have h4 : X VD * p.igd X + X VQ * p.igq X = Sal.Vdterm X * p.Id X + Sal.Vqterm X * p.Iq X := by
    simp only [Sal.igd, Sal.igq, Sal.Vdterm, Sal.Vqterm]
    ring
  have h5 : p.igd X ^ 2 + p.igq X ^ 2 = p.Id X ^ 2 + p.Iq X ^ 2 := by
    simp only [Sal.igd, Sal.igq]
    linear_combination (p.Id X ^ 2 + p.Iq X ^ 2) * sc
  rw [h3, h4, h5]
  linear_combination p.Id X * h1 + p.Iq X * h2

/-- The equation of a device variable along a motion. -/
private theorem Net.Motion.eq {N : Net ι} {x xd : ℝ → ι → ℕ → ℝ} (h : N.Motion x xd) (t : ℝ)
    {i : ι} (hi : (N.bus i).isolated = false) {k : ℕ} {g : Gen} (hk : (N.bus i).gens[k]? = some g) (hon : g.on = true)
    (q : ℕ) (hq : q < g.mach.size) :
    g.resid .resid (N.stateOf (x t) i g k) (g.pushed (N.volt (x t) i) (xd t i) ((N.bus i).start k))
      (g.pushed (N.volt (x t) i) (fun _ => 0) ((N.bus i).start k)) (.gen q) = 0 := by
  have hm := mem_place_start hk hon
  have hv : g.Valid (.gen q) := by simpa [Gen.Valid, Ix.Valid] using hq
  have hpos := g.pos_range (n := (N.bus i).start k) hv rfl
  have hlt : g.pos ((N.bus i).start k) (.gen q) < (N.bus i).nvar := by
    have h := place_mem hm
    simp only [Bus.nvar, hi] at *
    simp at *
    omega
  have := h.2 t i _ hlt
  rwa [(N.F_eq .resid (x t) (xd t) (fun _ _ => 0) (fun _ => 0) i hi).1 _ hm (.gen q) hv rfl] at this

private theorem swing {g : Gen} {H D Ra : ℝ} {X Xd : ℝ → Ix → ℝ} (t : ℝ)
    (h0 : ∀ s, HasDerivAt (fun s => X s (.gen 0)) (Xd s (.gen 0)) s)
    (h1 : HasDerivAt (fun s => X s (.gen 1)) (Xd t (.gen 1)) t)
    (e0 : ∀ s, X s (.gen 1) * omegaS - Xd s (.gen 0) = 0)
    (e1 : 1 / (2 * H) * ((g.powerIn (X t) - D * X t (.gen 1)) / (1 + X t (.gen 1))
      - (g.powerOut (X t) + Ra * g.current2 (X t)) / (1 + X t (.gen 1))) - Xd t (.gen 1) = 0) :
    SwingAt g H D Ra X t := by
  have hd : deriv (fun s => X s (.gen 0)) = fun s => X s (.gen 1) * omegaS := by
    funext s
    rw [(h0 s).deriv]
    linarith [e0 s]
  unfold SwingAt
  rw [hd]
  refine (h1.mul_const omegaS).congr_deriv ?_
  have : Xd t (.gen 1) = 1 / (2 * H) * ((g.powerIn (X t) - D * X t (.gen 1)) / (1 + X t (.gen 1))
      - (g.powerOut (X t) + Ra * g.current2 (X t)) / (1 + X t (.gen 1))) := by linarith
  rw [this, omegaS]
  ring

/-- C193: along every motion of a network, a GENROU machine (with the admittance set by `load`) obeys the swing
equation. -/
theorem C193_genrou_partial (N : Net ι) (x xd : ℝ → ι → ℕ → ℝ) (h : N.Motion x xd) (i : ι) (hi : (N.bus i).isolated = false)
    (k : ℕ) (g : Gen) (hk : (N.bus i).gens[k]? = some g) (hon : g.on = true) (p : Rou) (hp : g.mach = .rou p)
    (hz : p.Ra * p.Ra + p.Xdpp * p.Xdpp ≠ 0)
    (hB : p.B = -p.Xdpp / (p.Ra * p.Ra + p.Xdpp * p.Xdpp)) (hG : p.G = p.Ra / (p.Ra * p.Ra + p.Xdpp * p.Xdpp))
    (t : ℝ) (hw : 1 + N.stateOf (x t) i g k (.gen 1) ≠ 0) :
    SwingAt g p.H p.D p.Ra (fun s => N.stateOf (x s) i g k) t := by
  refine swing (Xd := fun s => g.pushed (N.volt (x s) i) (xd s i) ((N.bus i).start k)) t ?_ ?_ ?_ ?_
  · intro s
    exact h.1 s i _
  · exact h.1 t i _
  · intro s
    have := h.eq s hi hk hon 0 (by simp [hp, Mach.size])
    simpa only [Gen.resid, hp, Rou.resid] using this
  · have := h.eq t hi hk hon 1 (by simp [hp, Mach.size])
    simp only [Gen.resid, hp, Rou.resid] at this
    have hT := Rou.airgap p (N.stateOf (x t) i g k) hz hB hG
    have hT' : p.Telec (N.stateOf (x t) i g k) = (g.powerOut (N.stateOf (x t) i g k)
        + p.Ra * g.current2 (N.stateOf (x t) i g k)) / (1 + N.stateOf (x t) i g k (.gen 1)) := by
      rw [eq_div_iff hw, hT]
      simp only [Gen.powerOut, Gen.current2, Gen.igd, Gen.igq, hp]
    rw [← hT']
    have hP : (g.drive (N.stateOf (x t) i g k)).Pmech = g.powerIn (N.stateOf (x t) i g k) := by
      simp only [Gen.drive, Gen.powerIn]
      cases g.gov <;> rfl
    rw [← hP]
    exact this

/-- C193: the same for GENSAL (with the admittance set by `init`). -/
theorem C193_gensal_partial (N : Net ι) (x xd : ℝ → ι → ℕ → ℝ) (h : N.Motion x xd) (i : ι) (hi : (N.bus i).isolated = false)
    (k : ℕ) (g : Gen) (hk : (N.bus i).gens[k]? = some g) (hon : g.on = true) (p : Sal) (hp : g.mach = .sal p)
    (hz : p.Ra * p.Ra + p.Xdpp * p.Xdpp ≠ 0)
    (hB : p.B = -p.Xdpp / (p.Ra * p.Ra + p.Xdpp * p.Xdpp)) (hG : p.G = p.Ra / (p.Ra * p.Ra + p.Xdpp * p.Xdpp))
    (t : ℝ) (hw : 1 + N.stateOf (x t) i g k (.gen 1) ≠ 0) :
    SwingAt g p.H p.D p.Ra (fun s => N.stateOf (x s) i g k) t := by
  refine swing (Xd := fun s => g.pushed (N.volt (x s) i) (xd s i) ((N.bus i).start k)) t ?_ ?_ ?_ ?_
  · intro s
    exact h.1 s i _
  · exact h.1 t i _
  · intro s
    have := h.eq s hi hk hon 0 (by simp [hp, Mach.size])
    simpa only [Gen.resid, hp, Sal.resid] using this
  · have := h.eq t hi hk hon 1 (by simp [hp, Mach.size])
    simp only [Gen.resid, hp, Sal.resid] at this
    have hT := Sal.airgap p (N.stateOf (x t) i g k) hz hB hG
    have hT' : p.Telec (N.stateOf (x t) i g k) = (g.powerOut (N.stateOf (x t) i g k)
        + p.Ra * g.current2 (N.stateOf (x t) i g k)) / (1 + N.stateOf (x t) i g k (.gen 1)) := by
      rw [eq_div_iff hw, hT]
      simp only [Gen.powerOut, Gen.current2, Gen.igd, Gen.igq, hp]
    rw [← hT']
    have hP : (g.drive (N.stateOf (x t) i g k)).Pmech = g.powerIn (N.stateOf (x t) i g k) := by
      simp only [Gen.drive, Gen.powerIn]
      cases g.gov <;> rfl
    rw [← hP]
    exact this

/-- C193: along every motion, the rotor angle of a classical machine is accelerated by less than a hundred-thousandth of
what the accelerating power demands (in whatever unit the speed deviation is understood); a governor is ignored. -/
theorem C193_gencls_violated (N : Net ι) (x xd : ℝ → ι → ℕ → ℝ) (h : N.Motion x xd) (i : ι)
    (hi : (N.bus i).isolated = false) (k : ℕ) (g : Gen) (hk : (N.bus i).gens[k]? = some g) (hon : g.on = true)
    (p : Cls) (hp : g.mach = .cls p) (hH : p.H ≠ 0) (hX : p.Xdp ≠ 0) (t : ℝ) (a : ℝ)
    (ha : a = (p.Pm - p.D * N.stateOf (x t) i g k (.gen 1) - g.powerOut (N.stateOf (x t) i g k)) / (2 * p.H))
    (h0 : a ≠ 0) :
    ∃ δ'', HasDerivAt (deriv (fun s => N.stateOf (x s) i g k (.gen 0))) δ'' t ∧
      |δ''| < |2 * Real.pi * 60 * a| / 100000 := by
  have e0 : ∀ s, N.stateOf (x s) i g k (.gen 1) / omegaS - xd s i ((N.bus i).start k + 0) = 0 := by
    intro s
    have := h.eq s hi hk hon 0 (by simp [hp, Mach.size])
    simp only [Gen.resid, hp, Cls.resid] at this
    exact this
  have hd : deriv (fun s => N.stateOf (x s) i g k (.gen 0)) = fun s => N.stateOf (x s) i g k (.gen 1) / omegaS := by
    funext s
    have : HasDerivAt (fun s => N.stateOf (x s) i g k (.gen 0)) (xd s i ((N.bus i).start k + 0)) s := h.1 s i _
    rw [this.deriv]
    linarith [e0 s]
  have h1 : HasDerivAt (fun s => N.stateOf (x s) i g k (.gen 1)) (xd t i ((N.bus i).start k + 1)) t := h.1 t i _
  have e1 : xd t i ((N.bus i).start k + 1) = a := by
    have := h.eq t hi hk hon 1 (by simp [hp, Mach.size])
    simp only [Gen.resid, hp, Cls.resid] at this
    change _ - xd t i ((N.bus i).start k + 1) = 0 at this
    have hP : g.powerOut (N.stateOf (x t) i g k)
        = N.stateOf (x t) i g k VD * p.Ep * Real.sin (N.stateOf (x t) i g k (.gen 0)) / p.Xdp
          - N.stateOf (x t) i g k VQ * p.Ep * Real.cos (N.stateOf (x t) i g k (.gen 0)) / p.Xdp := by
      simp only [Gen.powerOut, Gen.igd, Gen.igq, hp, Cls.igd, Cls.igq]
      field_simp
      ring
    rw [ha, hP]
    rw [sub_eq_zero] at this
    rw [← this]
    ring
  refine ⟨a / omegaS, ?_, ?_⟩
  · rw [hd, ← e1]
    exact h1.div_const _
  · have hpi := Real.pi_gt_three
    have hw : (360:ℝ) < omegaS := by unfold omegaS; linarith
    have hw0 : 0 < omegaS := by linarith
    have : 2 * Real.pi * 60 = omegaS := rfl
    rw [this, abs_div, abs_mul, abs_of_pos hw0, div_lt_div_iff₀ hw0 (by norm_num)]
    have ha0 : 0 < |a| := abs_pos.mpr h0
    nlinarith [mul_pos ha0 (show 0 < omegaS * omegaS - 100000 by nlinarith)]

/-! ### Concrete cases -/

/-- One bus with a load and one generator. -/
private noncomputable def exNet (g : Gen) : Net Unit := ⟨fun _ => ⟨false, 0, 0, 1, 0, 1, 0, [g]⟩, [], fun _ => (0, 0)⟩

private noncomputable def exRou : Rou := ⟨1, 1, 0, 2, 1, 1/2, 1/4, 0, 1/2, 1/4, 1, 1, 1, 1, -4, 0⟩
private noncomputable def exSal : Sal := ⟨1, 1, 0, 2, 1, 1/2, 1/4, 0, 1, 1, 1, -4, 0⟩
private noncomputable def exCls : Cls := ⟨1, 1/4, 0, 1, 1⟩

/-- A GENROU machine feeding the load in steady state. -/
example (t : ℝ) :
    let g : Gen := ⟨true, .rou exRou, none, none, 3, 2, 0, 0⟩
    let x : ℝ → Unit → ℕ → ℝ := fun _ _ r => [1, 1, Real.pi / 2, 0, 3/2, 1, 1, 1/2].getD r 0
    (exNet g).Motion x (fun _ _ _ => 0) ∧ SwingAt g 1 1 0 (fun s => (exNet g).stateOf (x s) () g 0) t := by
  intro g x
  have h : (exNet g).Motion x (fun _ _ _ => 0) := by
    refine ⟨fun t i r => hasDerivAt_const _ _, fun t i r hr => ?_⟩
    have hn : ((exNet g).bus i).nvar = 8 := rfl
    rw [hn] at hr
    interval_cases r <;>
    norm_num [Net.F, exNet, residLoop, pushAll, Gen.pushed, Net.volt, x, g, wrBlock, Gen.resid, Rou.resid, Mach.size,
      Gen.igd, Gen.igq, Rou.igd, Rou.igq, Rou.Id, Rou.Iq, Rou.theta, Rou.Vd, Rou.Vq, Rou.Vdterm, Rou.Vqterm, Rou.Psidpp,
      Rou.Psiqpp, Rou.tempd1, Rou.tempd2, Rou.tempq1, Rou.tempq2, exRou, Net.nbrs, Gen.drive, Rou.Telec, Rou.fieldCurrent,
      Gen.nexc, Gen.ngov]
  exact ⟨h, C193_genrou_partial (exNet g) x _ h () rfl 0 g rfl rfl exRou rfl (by norm_num [exRou]) (by norm_num [exRou])
    (by norm_num [exRou]) t (by simp [Net.stateOf, Gen.pushed, x, exNet, Bus.start])⟩

/-- A GENSAL machine feeding the load in steady state. -/
example (t : ℝ) :
    let g : Gen := ⟨true, .sal exSal, none, none, 3, 2, 0, 0⟩
    let x : ℝ → Unit → ℕ → ℝ := fun _ _ r => [1, 1, Real.pi / 2, 0, 3/2, 1, -3/4].getD r 0
    (exNet g).Motion x (fun _ _ _ => 0) ∧ SwingAt g 1 1 0 (fun s => (exNet g).stateOf (x s) () g 0) t := by
  intro g x
  have h : (exNet g).Motion x (fun _ _ _ => 0) := by
    refine ⟨fun t i r => hasDerivAt_const _ _, fun t i r hr => ?_⟩
    have hn : ((exNet g).bus i).nvar = 7 := rfl
    rw [hn] at hr
    interval_cases r <;>
    norm_num [Net.F, exNet, residLoop, pushAll, Gen.pushed, Net.volt, x, g, wrBlock, Gen.resid, Sal.resid, Mach.size,
      Gen.igd, Gen.igq, Sal.igd, Sal.igq, Sal.Id, Sal.Iq, Sal.Vd, Sal.Vq, Sal.Vdterm, Sal.Vqterm, Sal.Psidpp,
      Sal.Psid, Sal.Psiq, exSal, Net.nbrs, Gen.drive, Sal.Telec, Sal.fieldCurrent, Gen.nexc, Gen.ngov]
  exact ⟨h, C193_gensal_partial (exNet g) x _ h () rfl 0 g rfl rfl exSal rfl (by norm_num [exSal]) (by norm_num [exSal])
    (by norm_num [exSal]) t (by simp [Net.stateOf, Gen.pushed, x, exNet, Bus.start])⟩

/-- A classical machine with more mechanical power than the load takes: an accelerated motion. -/
example (t : ℝ) :
    let g : Gen := ⟨true, .cls exCls, none, none, 0, 0, 0, 0⟩
    ∃ x xd : ℝ → Unit → ℕ → ℝ, (exNet g).Motion x xd ∧ (∀ s, x s () 3 = s) ∧
    ∃ δ'', HasDerivAt (deriv (fun s => (exNet g).stateOf (x s) () g 0 (.gen 0))) δ'' t ∧
      |δ''| < |2 * Real.pi * 60 * 1| / 100000 := by
  intro g
  let δ : ℝ → ℝ := fun t => t ^ 2 / 2 / omegaS
  let x : ℝ → Unit → ℕ → ℝ := fun t _ r =>
    match r with
    | 0 => (Real.cos (δ t) + Real.sin (δ t)) / 2
    | 1 => (Real.sin (δ t) - Real.cos (δ t)) / 2
    | 2 => δ t
    | 3 => t
    | _ => 0
  let xd : ℝ → Unit → ℕ → ℝ := fun t _ r =>
    match r with
    | 0 => (-Real.sin (δ t) * (t / omegaS) + Real.cos (δ t) * (t / omegaS)) / 2
    | 1 => (Real.cos (δ t) * (t / omegaS) - -Real.sin (δ t) * (t / omegaS)) / 2
    | 2 => t / omegaS
    | 3 => 1
    | _ => 0
  have hδ : ∀ t, HasDerivAt δ (t / omegaS) t := by
    intro t
    have := (((hasDerivAt_id t).pow 2).div_const 2).div_const omegaS
    refine this.congr_deriv ?_
    simp
  have h : (exNet g).Motion x xd := by
    refine ⟨fun t i r => ?_, fun t i r hr => ?_⟩
    · match r with
      | 0 => exact ((hδ t).cos.add (hδ t).sin).div_const 2
      | 1 => exact ((hδ t).sin.sub (hδ t).cos).div_const 2
      | 2 => exact hδ t
      | 3 => exact hasDerivAt_id t
      | r + 4 => exact hasDerivAt_const _ _
    · have hn : ((exNet g).bus i).nvar = 4 := rfl
      rw [hn] at hr
      have sc := Real.sin_sq_add_cos_sq (δ t)
      interval_cases r
      · simp [Net.F, exNet, residLoop, pushAll, Gen.pushed, Net.volt, x, g, wrBlock, Mach.size,
          Gen.igd, Gen.igq, Cls.igd, Cls.igq, exCls, Net.nbrs]
        ring
      · simp [Net.F, exNet, residLoop, pushAll, Gen.pushed, Net.volt, x, g, wrBlock, Mach.size,
          Gen.igd, Gen.igq, Cls.igd, Cls.igq, exCls, Net.nbrs]
        ring
      · simp [Net.F, exNet, residLoop, pushAll, Gen.pushed, Net.volt, x, xd, g, wrBlock, Gen.resid, Cls.resid, Mach.size]
      · simp [Net.F, exNet, residLoop, pushAll, Gen.pushed, Net.volt, x, xd, g, wrBlock, Gen.resid, Cls.resid, Mach.size,
          exCls]
        linear_combination -sc
  refine ⟨x, xd, h, fun s => rfl, ?_⟩
  refine C193_gencls_violated (exNet g) x xd h () rfl 0 g rfl rfl exCls rfl (by norm_num [exCls]) (by norm_num [exCls]) t 1
    ?_ one_ne_zero
  have sc := Real.sin_sq_add_cos_sq (δ t)
  simp [Gen.powerOut, Gen.igd, Gen.igq, Cls.igd, Cls.igq, exCls, g, Net.stateOf, Gen.pushed, Net.volt, exNet, x, Bus.start]
  linear_combination sc

end GridPACK.Dae
