import Verif.Model.DaeBus
import Verif.Model.StateEst
import Mathlib.Tactic.IntervalCases

/-! C194, C195: bases of the devices and elements of the lines in the DAE form of the dynamic simulation. -/
namespace GridPACK.Dae

/-! ### C194: bases -/

/-- C194: a classical machine on a base `m` times that of the system delivers `m` times the current of the same machine
(same numbers in the record) on the base of the system and moves in the same way, if its mechanical power is `m` times
as large. -/
theorem C194_classical_partial (Xdp H D E P m : ℝ) (hm : m ≠ 0) (X Xd Y : Ix → ℝ) (md : Mode) :
    let q : Cls := { Cls.load Xdp H D m with Ep := E, Pm := m * P }
    let q1 : Cls := { Cls.load Xdp H D 1 with Ep := E, Pm := P }
    q.igd X = m * q1.igd X ∧ q.igq X = m * q1.igq X ∧ ∀ k, q.resid md X Xd Y k = q1.resid md X Xd Y k := by
  intro q q1
  refine ⟨?_, ?_, fun k => ?_⟩
  · simp only [Cls.igd, Cls.load, q, q1]
    rw [div_one, div_div_eq_mul_div]
    ring
  · simp only [Cls.igq, Cls.load, q, q1]
    rw [div_one, div_div_eq_mul_div]
    ring
  · cases md with
    | fault => rfl
    | resid =>
      match k with
      | 0 => rfl
      | k + 1 =>
        simp only [Cls.resid, Cls.load, q, q1, div_one, mul_one]
        congr 1
        have e : ∀ a : ℝ, a / (Xdp / m) = m * (a / Xdp) := by intro a; rw [div_div_eq_mul_div]; ring
        rw [e, e, show 2 * (H * m) = m * (2 * H) by ring, ← mul_div_mul_left _ (2 * H) hm]
        congr 1
        ring

private theorem scale_adm (R X m : ℝ) (hm : m ≠ 0) (hz : R * R + X * X ≠ 0) :
    (X / m) / ((R / m) * (R / m) + (X / m) * (X / m)) = m * (X / (R * R + X * X)) := by
  have hz' : R ^ 2 + X ^ 2 ≠ 0 := by simpa [sq] using hz
  field_simp

private theorem scale_adm' (X m : ℝ) (hm : m ≠ 0) (hX : X ≠ 0) :
    (X / m) / (0 * 0 + (X / m) * (X / m)) = m * (X / (0 * 0 + X * X)) := by
  field_simp
  simp

private theorem ratio_scale (a b m : ℝ) (hm : m ≠ 0) : (a / m) / (b / m) = a / b := by
  exact div_div_div_cancel_right₀ hm a b

private theorem prod_scale (a b x m : ℝ) (hm : m ≠ 0) : (a / m - b / m) * (m * x) = (a - b) * x := by
  field_simp

private theorem inv2_scale (a b c y m : ℝ) (hm : m ≠ 0) :
    (a / m - b / m) * (m * y + (a / m - c / m) / ((a / m - b / m) * (a / m - b / m)) * 0) = (a - b) * y := by
  rw [mul_zero, add_zero]
  exact prod_scale a b y m hm

/-- C194: the same for GENSAL. -/
theorem C194_gensal_partial (p : Sal) (m : ℝ) (hm : m ≠ 0) (hz : p.Ra * p.Ra + p.Xdpp * p.Xdpp ≠ 0) (X Xd Y : Ix → ℝ)
    (u : Drive) (md : Mode) :
    let q := (p.load m).admittance
    let q1 := (p.load 1).admittance
    q.igd X = m * q1.igd X ∧ q.igq X = m * q1.igq X ∧
    ∀ k, q.resid X { u with Pmech := m * u.Pmech } md Xd Y k = q1.resid X u md Xd Y k := by
  intro q q1
  have hq1 : q1 = p.admittance := by simp [q1, Sal.load]
  have dsub : ∀ a b : ℝ, a / m - b / m = (a - b) / m := fun a b => (sub_div a b m).symm
  have hPsi : q.Psidpp X = p.Psidpp X := by
    simp only [q, Sal.admittance, Sal.load, Sal.Psidpp, dsub]
    rw [← mul_div_assoc, ← mul_div_assoc, ratio_scale _ _ _ hm, ratio_scale _ _ _ hm]
  have hPsi1 : q1.Psidpp X = p.Psidpp X := by rw [hq1]; rfl
  have hG : q.G = m * q1.G := by
    rw [hq1]
    simp only [q, Sal.admittance, Sal.load]
    rw [show p.Ra / m * (p.Ra / m) + p.Xdpp / m * (p.Xdpp / m)
      = (p.Xdpp / m) * (p.Xdpp / m) + p.Ra / m * (p.Ra / m) by ring, scale_adm _ _ _ hm (by rwa [add_comm])]
    rw [add_comm (p.Xdpp * p.Xdpp)]
  have hB : q.B = m * q1.B := by
    rw [hq1]
    simp only [q, Sal.admittance, Sal.load]
    rw [neg_div, scale_adm _ _ _ hm hz, neg_div]
    ring
  have hId : q.Id X = m * q1.Id X := by
    simp only [Sal.Id, Sal.Vq, hPsi, hPsi1, hG, hB]
    ring
  have hIq : q.Iq X = m * q1.Iq X := by
    simp only [Sal.Iq, Sal.Vq, hPsi, hPsi1, hG, hB]
    ring
  have hT : q.Telec X = m * q1.Telec X := by
    simp only [Sal.Telec, Sal.Psid, Sal.Psiq, hPsi, hPsi1, hId, hIq]
    ring
  have hXl : q.Xdp - q.Xl = (q1.Xdp - q1.Xl) / m := by
    rw [hq1]
    exact dsub _ _
  have hXd : q.Xd - q.Xdp = (q1.Xd - q1.Xdp) / m := by
    rw [hq1]
    exact dsub _ _
  have hXpp : q.Xdp - q.Xdpp = (q1.Xdp - q1.Xdpp) / m := by
    rw [hq1]
    exact dsub _ _
  have hXq : q.Xq - q.Xdpp = (q1.Xq - q1.Xdpp) / m := by
    rw [hq1]
    exact dsub _ _
  have hc : ∀ a b : ℝ, a / m * (m * b) = a * b := fun a b => by field_simp
  have hf : q.fieldCurrent X = q1.fieldCurrent X := by
    simp only [Sal.fieldCurrent, hXl, hXd, hXpp, hId, hc]
    have h2 : ∀ a b : ℝ, a / m / (b / m * (b / m)) = m * (a / (b * b)) := by
      intro a b
      rcases eq_or_ne b 0 with rfl | hb
      · simp
      · field_simp
    rw [h2, show ∀ a b c : ℝ, m * a + m * b * c = m * (a + b * c) by intros; ring, hc]
  have hH : q.H = q1.H * m := by rw [hq1]; rfl
  have hD : q.D = q1.D * m := by rw [hq1]; rfl
  refine ⟨?_, ?_, fun k => ?_⟩
  · simp only [Sal.igd, hId, hIq]
    ring
  · simp only [Sal.igq, hId, hIq]
    ring
  · cases md with
    | fault => rfl
    | resid =>
      match k with
      | 0 => rfl
      | 1 =>
        simp only [Sal.resid, hT, hH, hD]
        congr 1
        rw [show m * u.Pmech - q1.D * m * X (.gen 1) = m * (u.Pmech - q1.D * X (.gen 1)) by ring, mul_div_assoc,
          ← mul_sub, show 2 * (q1.H * m) = m * (2 * q1.H) by ring, ← mul_assoc]
        congr 1
        rw [div_mul_eq_mul_div, one_mul, ← mul_one m, mul_assoc, mul_div_mul_left _ _ hm, one_mul]
      | 2 =>
        simp only [Sal.resid, hf]
        rfl
      | 3 =>
        simp only [Sal.resid, hXl, hId, hc]
        rfl
      | k + 4 =>
        simp only [Sal.resid, hXq, hIq, hc]
        rfl

/-- C194: the same for GENROU without armature resistance. -/
theorem C194_genrou_partial (p : Rou) (m : ℝ) (hm : m ≠ 0) (hR : p.Ra = 0) (hz : p.Xdpp ≠ 0) (X Xd Y : Ix → ℝ)
    (u : Drive) (md : Mode) :
    let q := p.load m
    let q1 := p.load 1
    q.igd X = m * q1.igd X ∧ q.igq X = m * q1.igq X ∧
    ∀ k, q.resid X { u with Pmech := m * u.Pmech } md Xd Y k = q1.resid X u md Xd Y k := by
  intro q q1
  have dsub : ∀ a b : ℝ, a / m - b / m = (a - b) / m := fun a b => (sub_div a b m).symm
  have f1 : ∀ a b c : ℝ, (a / m - b / m) / (c / m - b / m) = (a / 1 - b / 1) / (c / 1 - b / 1) := by
    intro a b c
    rw [dsub, dsub, ratio_scale _ _ _ hm]
    simp
  have f2 : ∀ a b c : ℝ, (a / m - c / m) / (a / m - b / m) = (a / 1 - c / 1) / (a / 1 - b / 1) := by
    intro a b c
    rw [dsub, dsub, ratio_scale _ _ _ hm]
    simp
  have ht1 : q.tempd1 = q1.tempd1 := f1 _ _ _
  have ht2 : q.tempd2 = q1.tempd2 := f2 _ _ _
  have ht3 : q.tempq1 = q1.tempq1 := f1 _ _ _
  have ht4 : q.tempq2 = q1.tempq2 := f2 _ _ _
  have hPd : q.Psidpp X = q1.Psidpp X := by simp only [Rou.Psidpp, ht1, ht2]
  have hPq : q.Psiqpp X = q1.Psiqpp X := by simp only [Rou.Psiqpp, ht3, ht4]
  have hVd : q.Vd X = q1.Vd X := by simp only [Rou.Vd, hPq]
  have hVq : q.Vq X = q1.Vq X := by simp only [Rou.Vq, hPd]
  have hG : q.G = m * q1.G := by simp [q, q1, Rou.load, hR]
  have hB : q.B = m * q1.B := by
    simp only [q, q1, Rou.load, hR, div_one]
    rw [neg_div, scale_adm' _ _ hm hz, neg_div]
    ring
  have hId : q.Id X = m * q1.Id X := by
    simp only [Rou.Id, hVd, hVq, hG, hB]
    ring
  have hIq : q.Iq X = m * q1.Iq X := by
    simp only [Rou.Iq, hVd, hVq, hG, hB]
    ring
  have hT : q.Telec X = m * q1.Telec X := by
    simp only [Rou.Telec, hPd, hPq, hId, hIq]
    ring
  have one : ∀ a b : ℝ, a / m - b / m = (a / 1 - b / 1) / m := by intro a b; rw [dsub]; simp
  have hXl : q.Xdp - q.Xl = (q1.Xdp - q1.Xl) / m := one _ _
  have hXd : q.Xd - q.Xdp = (q1.Xd - q1.Xdp) / m := one _ _
  have hXpp : q.Xdp - q.Xdpp = (q1.Xdp - q1.Xdpp) / m := one _ _
  have hXql : q.Xqp - q.Xl = (q1.Xqp - q1.Xl) / m := one _ _
  have hXqd : q.Xq - q.Xqp = (q1.Xq - q1.Xqp) / m := one _ _
  have hXqpp : q.Xqp - q.Xqpp = (q1.Xqp - q1.Xqpp) / m := one _ _
  have hc : ∀ a b : ℝ, a / m * (m * b) = a * b := fun a b => by field_simp
  have h2 : ∀ a b : ℝ, a / m / (b / m * (b / m)) = m * (a / (b * b)) := by
    intro a b
    rcases eq_or_ne b 0 with rfl | hb
    · simp
    · field_simp
  have hf : q.fieldCurrent X = q1.fieldCurrent X := by
    simp only [Rou.fieldCurrent, hXl, hXd, hXpp, hId, hc, h2]
    rw [show ∀ a b c : ℝ, m * a + m * b * c = m * (a + b * c) by intros; ring, hc]
  have hH : q.H = q1.H * m := by simp [q, q1, Rou.load]
  have hD : q.D = q1.D * m := by simp [q, q1, Rou.load]
  refine ⟨?_, ?_, fun k => ?_⟩
  · simp only [Rou.igd, hId, hIq]
    ring
  · simp only [Rou.igq, hId, hIq]
    ring
  · cases md with
    | fault => rfl
    | resid =>
      match k with
      | 0 => rfl
      | 1 =>
        simp only [Rou.resid, hT, hH, hD]
        congr 1
        rw [show m * u.Pmech - q1.D * m * X (.gen 1) = m * (u.Pmech - q1.D * X (.gen 1)) by ring, mul_div_assoc,
          ← mul_sub, show 2 * (q1.H * m) = m * (2 * q1.H) by ring, ← mul_assoc]
        congr 1
        rw [div_mul_eq_mul_div, one_mul, ← mul_one m, mul_assoc, mul_div_mul_left _ _ hm, one_mul]
      | 2 =>
        simp only [Rou.resid, hf]
        rfl
      | 3 =>
        simp only [Rou.resid, hXl, hId, hc]
        rfl
      | 4 =>
        simp only [Rou.resid, hXql, hIq, hc]
        rfl
      | k + 5 =>
        simp only [Rou.resid, hXql, hXqd, hXqpp, hIq, hc, h2]
        rw [show ∀ a b c : ℝ, m * a - m * b * c = m * (a - b * c) by intros; ring, hc]
        rfl

/-- C194: with armature resistance this fails for GENROU on every base other than that of the system: the resistance is not
converted. -/
theorem C194_genrou_resistance_violated (p : Rou) (m : ℝ) (hm : 0 < m) (hm1 : m ≠ 1) (hR : p.Ra ≠ 0) (hz : p.Xdpp ≠ 0) :
    ¬ ∀ X, (p.load m).igd X = m * (p.load 1).igd X := by
  intro h
  have hX := h (fun ix => match ix with
    | .net 1 => 1
    | .gen 0 => Real.pi / 2
    | _ => 0)
  simp [Rou.igd, Rou.Id, Rou.Iq, Rou.theta, Rou.Vd, Rou.Vq, Rou.Psiqpp, Rou.Psidpp, Rou.Vdterm, Rou.Vqterm, Rou.load] at hX
  have h1 : p.Ra ^ 2 + p.Xdpp ^ 2 ≠ 0 := by positivity
  have h1' : p.Ra * p.Ra + p.Xdpp * p.Xdpp ≠ 0 := by simpa [sq] using h1
  have h2' : p.Ra * p.Ra + p.Xdpp / m * (p.Xdpp / m) ≠ 0 := by
    have : 0 < p.Ra * p.Ra := mul_self_pos.mpr hR
    have := mul_self_nonneg (p.Xdpp / m)
    linarith
  have hm0 : m ≠ 0 := hm.ne'
  rw [div_eq_iff h2'] at hX
  have e : -(p.Xdpp / m) = m * (-p.Xdpp / (p.Ra * p.Ra + p.Xdpp * p.Xdpp)) * (p.Ra * p.Ra + p.Xdpp / m * (p.Xdpp / m)) := by
    rw [hX]
    try ring
  field_simp at e
  have e2 : p.Ra ^ 2 * (m ^ 2 - 1) = 0 := by
    linear_combination e
  rcases mul_eq_zero.mp e2 with h3 | h3
  · exact hR (by simpa using h3)
  · have : (m - 1) * (m + 1) = 0 := by linear_combination h3
    rcases mul_eq_zero.mp this with h4 | h4
    · exact hm1 (by linarith)
    · linarith

/-- A GENROU record with a resistance, on five times the base of the system. -/
example (p : Rou) (h : p.Ra = 0.01) (hx : p.Xdpp = 0.2) : ¬ ∀ X, (p.load 5).igd X = 5 * (p.load 1).igd X :=
  C194_genrou_resistance_violated p 5 (by norm_num) (by norm_num) (by norm_num [h]) (by norm_num [hx])

/-- A GENSAL record with a resistance: it delivers five times the current there. -/
example (p : Sal) (h : p.Ra = 0.01) (hx : p.Xdpp = 0.2) (X : Ix → ℝ) (u : Drive) :
    (p.load 5).admittance.igd X = 5 * (p.load 1).admittance.igd X :=
  (C194_gensal_partial p 5 (by norm_num) (by norm_num [h, hx]) X X X u .resid).1

/-- C194: the limits of the gate of WSIEG1 are those of the record times the base of the machine relative to that of the
system: a gate held at a limit of position is there, one held at a limit of speed moves at that speed. -/
theorem C194_wsieg1_limits_partial (w : Wsieg1) (m dw : ℝ) (X Xd P : Ix → ℝ)
    (hr : (w.load m).resid X dw .resid Xd P 1 = 0) :
    (w.xatmin = true → X (.gov 1) = w.Pmin * m) ∧
    (w.xatmin = false → w.xatmax = true → X (.gov 1) = w.Pmax * m) ∧
    (w.xatmin = false → w.xatmax = false → w.uatmin = true → Xd (.gov 1) = w.Uc * m) ∧
    (w.xatmin = false → w.xatmax = false → w.uatmin = false → w.uatmax = true → Xd (.gov 1) = w.Uo * m) := by
  refine ⟨fun h1 => ?_, fun h1 h2 => ?_, fun h1 h2 h3 => ?_, fun h1 h2 h3 h4 => ?_⟩ <;>
    simp [Wsieg1.resid, Wsieg1.load, *] at hr <;> linarith

/-- C194: a governor WSIEG1 in steady state changes the power by the same amount on the base of the system, however large the
base of its machine is: not in proportion to it, although its limits are. -/
theorem C194_wsieg1_violated (w : Wsieg1) (m dw : ℝ) (X P : Ix → ℝ) (hT3 : w.T3 ≠ 0)
    (hlim : w.uatmin = false ∧ w.uatmax = false ∧ w.xatmin = false ∧ w.xatmax = false)
    (hr : ∀ k, k < 6 → (w.load m).resid X dw .resid (fun _ => 0) P k = 0) :
    (w.load m).pmech X - (w.K1 + w.K3 + w.K5 + w.K7) * w.Pref = -((w.K1 + w.K3 + w.K5 + w.K7) * w.K * dw) ∧
    (m ≠ 1 → w.K ≠ 0 → dw ≠ 0 → w.K1 + w.K3 + w.K5 + w.K7 ≠ 0 →
      (w.load m).pmech X - (w.K1 + w.K3 + w.K5 + w.K7) * w.Pref ≠ m * -((w.K1 + w.K3 + w.K5 + w.K7) * w.K * dw)) := by
  obtain ⟨a1, a2, a3, a4⟩ := hlim
  have lag : ∀ T x y : ℝ, Wsieg1.lagResid T x y 0 = 0 → y = x := by
    intro T x y h
    unfold Wsieg1.lagResid Wsieg1.lag at h
    by_cases hT : T = 0
    · simp [hT] at h
      linarith
    · simp [hT] at h
      linarith
  have l2 := lag _ _ _ (hr 2 (by norm_num))
  have l3 := lag _ _ _ (hr 3 (by norm_num))
  have l4 := lag _ _ _ (hr 4 (by norm_num))
  have l5 := lag _ _ _ (hr 5 (by norm_num))
  have r0 := hr 0 (by norm_num)
  have r1 := hr 1 (by norm_num)
  have hx1 : X (.gov 1) = w.Pref - w.K * dw := by
    simp only [Wsieg1.resid, Wsieg1.load, a1, a2, a3, a4, Wsieg1.uFree, Wsieg1.yLL] at r0 r1
    by_cases hd : w.T1 = 0 ∨ w.T2 = 0
    · simp only [Wsieg1.diff0, hd] at r0 r1
      simp [hT3] at r0 r1
      linarith
    · have h1 : w.T1 ≠ 0 := fun h => hd (Or.inl h)
      simp only [Wsieg1.diff0, hd] at r0 r1
      simp [hT3, h1] at r0 r1
      have : X (.gov 0) = (1 - w.T2 / w.T1) * w.K * dw := by linarith
      rw [this] at r1
      have : w.Pref - X (.gov 1) - (w.K * dw) = 0 := by rw [← r1]; ring
      linarith
  have key : (w.load m).pmech X - (w.K1 + w.K3 + w.K5 + w.K7) * w.Pref = -((w.K1 + w.K3 + w.K5 + w.K7) * w.K * dw) := by
    simp only [Wsieg1.pmech, Wsieg1.load, l5, l4, l3, l2, hx1]
    ring
  refine ⟨key, fun hm hK hd hs h => ?_⟩
  rw [key] at h
  have : (m - 1) * ((w.K1 + w.K3 + w.K5 + w.K7) * w.K * dw) = 0 := by linear_combination h
  rcases mul_eq_zero.mp this with h1 | h1
  · exact hm (by linarith)
  · exact (mul_ne_zero (mul_ne_zero hs hK) hd) h1

/-- Such a governor. -/
example : ∃ (w : Wsieg1) (X : Ix → ℝ), w.T3 ≠ 0 ∧ w.K ≠ 0 ∧ w.K1 + w.K3 + w.K5 + w.K7 ≠ 0 ∧
    ∀ P k, k < 6 → (w.load 5).resid X 0.01 .resid (fun _ => 0) P k = 0 := by
  refine ⟨⟨20, 0.5, 0.2, 0.1, 0.5, -0.5, 3, 0, 0.1, 0.2, 0.3, 0, 0.5, 0, 0.5, 0, 0, 0, 0, 0, 0, 1, false, false, false, false⟩,
    fun ix => match ix with | .gov 0 => 0.12 | _ => 0.8, by norm_num, by norm_num, by norm_num, ?_⟩
  intro P k hk
  interval_cases k <;> norm_num [Wsieg1.resid, Wsieg1.load, Wsieg1.diff0, Wsieg1.uFree, Wsieg1.yLL, Wsieg1.lagResid, Wsieg1.lag]

/-! ### C195: lines -/

open Complex ComplexConjugate
open GridPACK.StateEst (LineData loadElem)

/-- The line that the DAE form keeps of a record. -/
noncomputable def ofRecord (d : LineData) : Line := Line.load (decide (d.status ≠ 0)) d.r d.x d.b d.tap d.shift

private theorem inv_z (r x : ℝ) (hz : r * r + x * x ≠ 0) : (1 : ℂ) / ⟨r, x⟩ = ⟨r / (r * r + x * x), -x / (r * r + x * x)⟩ := by
  have h : (⟨r, x⟩ : ℂ) ≠ 0 := by
    intro h
    have h1 := congrArg Complex.re h
    have h2 := congrArg Complex.im h
    simp at h1 h2
    rw [h1, h2] at hz
    simp at hz
  rw [div_eq_iff h]
  apply Complex.ext
  · simp
    field_simp
    rw [sub_neg_eq_add, div_self (by simpa [sq] using hz)]
  · simp
    field_simp
    simp

private theorem ratio_sq (t φ : ℝ) : ((t : ℂ) * ⟨Real.cos φ, Real.sin φ⟩) * conj ((t : ℂ) * ⟨Real.cos φ, Real.sin φ⟩) = ((t * t : ℝ) : ℂ) := by
  rw [Complex.mul_conj]
  congr 1
  simp [Complex.normSq_apply]
  have := Real.sin_sq_add_cos_sq φ
  linear_combination (t * t) * this

private theorem div_ratio (y : ℂ) (t φ : ℝ) (ht : t ≠ 0) :
    y / ((t : ℂ) * ⟨Real.cos φ, Real.sin φ⟩) = y * conj ((t : ℂ) * ⟨Real.cos φ, Real.sin φ⟩) / ((t * t : ℝ) : ℂ) := by
  have h : ((t * t : ℝ) : ℂ) ≠ 0 := by
    exact_mod_cast mul_ne_zero ht ht
  have h0 : ((t : ℂ) * ⟨Real.cos φ, Real.sin φ⟩) ≠ 0 := by
    intro h'
    rw [← ratio_sq t φ, h'] at h
    simp at h
  rw [div_eq_div_iff h0 h, ← ratio_sq t φ]
  ring

private theorem div_ratio' (y : ℂ) (t φ : ℝ) (ht : t ≠ 0) :
    y / conj ((t : ℂ) * ⟨Real.cos φ, Real.sin φ⟩) = y * ((t : ℂ) * ⟨Real.cos φ, Real.sin φ⟩) / ((t * t : ℝ) : ℂ) := by
  have h : ((t * t : ℝ) : ℂ) ≠ 0 := by
    exact_mod_cast mul_ne_zero ht ht
  have h0 : conj ((t : ℂ) * ⟨Real.cos φ, Real.sin φ⟩) ≠ 0 := by
    intro h'
    rw [← ratio_sq t φ, h'] at h
    simp at h
  rw [div_eq_div_iff h0 h, ← ratio_sq t φ]
  ring

/-- A record without the data that the DAE form does not read, and with an angle only if it has a ratio. -/
structure PlainRecord (d : LineData) : Prop where
  impedance : d.r * d.r + d.x * d.x ≠ 0
  unswitched : d.switched = false
  noShunt1 : d.g1 = 0 ∧ d.b1 = 0
  noShunt2 : d.g2 = 0 ∧ d.b2 = 0
  ratio : d.tap = 0 → d.shift = 0

private theorem one_line (d : LineData) (h : PlainRecord d) (f g : Line → ℝ) (y : YMatrix.Elem → ℂ)
    (hfg : (f = Line.Gff ∧ g = Line.Bff ∧
        y = fun e => -e.admittance - e.transformer .bus1 + e.shuntOf .bus1) ∨
      (f = Line.Gtt ∧ g = Line.Btt ∧ y = fun e => -e.admittance - e.transformer .bus2 + e.shuntOf .bus2) ∨
      (f = Line.Gft ∧ g = Line.Bft ∧ y = YMatrix.Elem.frwd) ∨ (f = Line.Gtf ∧ g = Line.Btf ∧ y = YMatrix.Elem.rvrs)) :
    (if (ofRecord d).status then (⟨f (ofRecord d), g (ofRecord d)⟩ : ℂ) else 0) = y (loadElem d) := by
  obtain ⟨hz, hs, ⟨h1, h2⟩, ⟨h3, h4⟩, ht⟩ := h
  have hi : (-1 : ℂ) / ⟨d.r, d.x⟩ = -⟨d.r / (d.r * d.r + d.x * d.x), -d.x / (d.r * d.r + d.x * d.x)⟩ := by
    rw [← inv_z _ _ hz, neg_div]
  have hang : d.shift * (Real.pi / 180) = d.shift * Real.pi / 180 := by ring
  have h0 : (⟨0, 0⟩ : ℂ) = 0 := rfl
  by_cases hst : d.status = 0
  · rcases hfg with ⟨rfl, rfl, rfl⟩ | ⟨rfl, rfl, rfl⟩ | ⟨rfl, rfl, rfl⟩ | ⟨rfl, rfl, rfl⟩ <;>
    simp [ofRecord, Line.load, loadElem, YMatrix.Elem.admittance, YMatrix.Elem.transformer, YMatrix.Elem.shuntOf,
      YMatrix.Elem.frwd, YMatrix.Elem.rvrs, hst]
  by_cases htap : d.tap = 0
  · have hsh := ht htap
    rcases hfg with ⟨rfl, rfl, rfl⟩ | ⟨rfl, rfl, rfl⟩ | ⟨rfl, rfl, rfl⟩ | ⟨rfl, rfl, rfl⟩ <;>
    simp [ofRecord, Line.load, loadElem, YMatrix.Elem.admittance, YMatrix.Elem.transformer, YMatrix.Elem.shuntOf,
      YMatrix.Elem.frwd, YMatrix.Elem.rvrs, YMatrix.Elem.z, hst, htap, hsh, hi, h1, h2, h3, h4, h0] <;>
    apply Complex.ext <;> simp
  · have hsq : (starRingEnd ℂ) ((d.tap : ℂ) * ⟨Real.cos (d.shift * Real.pi / 180), Real.sin (d.shift * Real.pi / 180)⟩) *
        ((d.tap : ℂ) * ⟨Real.cos (d.shift * Real.pi / 180), Real.sin (d.shift * Real.pi / 180)⟩)
        = ((d.tap * d.tap : ℝ) : ℂ) := by
      rw [mul_comm]
      exact ratio_sq _ _
    rcases hfg with ⟨rfl, rfl, rfl⟩ | ⟨rfl, rfl, rfl⟩ | ⟨rfl, rfl, rfl⟩ | ⟨rfl, rfl, rfl⟩
    · simp only [ofRecord, Line.load, loadElem, YMatrix.Elem.admittance, YMatrix.Elem.transformer, YMatrix.Elem.shuntOf,
        YMatrix.Elem.z, YMatrix.Elem.ratio, hs, hi, h1, h2, hsq]
      simp [hst, htap, h0]
      apply Complex.ext <;> simp [← Complex.ofReal_mul, Complex.div_ofReal_re, Complex.div_ofReal_im] <;> ring
    · simp only [ofRecord, Line.load, loadElem, YMatrix.Elem.admittance, YMatrix.Elem.transformer, YMatrix.Elem.shuntOf,
        YMatrix.Elem.z, YMatrix.Elem.ratio, hs, hi, h3, h4, hsq]
      simp [hst, htap, h0]
      apply Complex.ext <;> simp <;> ring
    · simp only [ofRecord, Line.load, loadElem, YMatrix.Elem.frwd, YMatrix.Elem.a, YMatrix.Elem.z, YMatrix.Elem.ratio, hs, hi,
        hang]
      simp only [hst, htap, ne_eq, not_false_eq_true, decide_true, if_true, if_false, Bool.false_eq_true]
      rw [div_ratio' _ _ _ htap]
      apply Complex.ext <;> simp only [Complex.div_ofReal_re, Complex.div_ofReal_im] <;> simp <;> ring
    · simp only [ofRecord, Line.load, loadElem, YMatrix.Elem.rvrs, YMatrix.Elem.a, YMatrix.Elem.z, YMatrix.Elem.ratio, hs, hi,
        hang]
      simp only [hst, htap, ne_eq, not_false_eq_true, decide_true, if_true, if_false, Bool.false_eq_true]
      rw [div_ratio _ _ _ htap]
      apply Complex.ext <;> simp only [Complex.div_ofReal_re, Complex.div_ofReal_im] <;> simp <;> ring

private theorem total_sum (ls : List Line) (f g : Line → ℝ) (a b : ℝ) :
    (⟨ls.foldl (fun s l => if l.status then s + f l else s) a, ls.foldl (fun s l => if l.status then s + g l else s) b⟩ : ℂ)
      = ⟨a, b⟩ + (ls.map (fun l => if l.status then (⟨f l, g l⟩ : ℂ) else 0)).sum := by
  induction ls generalizing a b with
  | nil => simp
  | cons l ls ih =>
    rw [List.foldl_cons, List.foldl_cons, ih, List.map_cons, List.sum_cons]
    cases l.status
    · simp
    · rw [← add_assoc]
      congr 1

private theorem sum_split {α : Type} (l : List α) (f g h : α → ℂ) :
    (l.map (fun e => -f e - g e + h e)).sum = -(l.map f).sum - (l.map g).sum + (l.map h).sum := by
  induction l with
  | nil => simp
  | cons a l ih =>
    simp only [List.map_cons, List.sum_cons, ih]
    ring

/-- C195: if every line of a branch is given by a plain record, the DAE form gives the branch the same two-port as the
admittance matrix of the power flow: what flows into the branch at either end, at any voltages, is what the entries of
that matrix give. -/
theorem C195_branch_partial {ι : Type} [DecidableEq ι] (N : Net ι) (x : ι → ℕ → ℝ) (fr to' : ι) (ds : List LineData)
    (hd : ∀ d ∈ ds, PlainRecord d) :
    let br : Branch ι := ⟨fr, to', ds.map ofRecord⟩
    let es := ds.map loadElem
    let V : ℂ := ⟨(N.volt x fr).1, (N.volt x fr).2⟩
    let W : ℂ := ⟨(N.volt x to').1, (N.volt x to').2⟩
    (let I := N.branchCurrent x fr br
     (⟨I.1, I.2⟩ : ℂ) = (-YMatrix.getAdmittance es - YMatrix.getTransformer es .bus1 + YMatrix.getShunt es .bus1) * V
      + (YMatrix.setYBus es).1 * W) ∧
    (fr ≠ to' → let I := N.branchCurrent x to' br
     (⟨I.1, I.2⟩ : ℂ) = (-YMatrix.getAdmittance es - YMatrix.getTransformer es .bus2 + YMatrix.getShunt es .bus2) * W
      + (YMatrix.setYBus es).2 * V) := by
  intro br es V W
  have key : ∀ (f g : Line → ℝ) (y : YMatrix.Elem → ℂ),
      ((f = Line.Gff ∧ g = Line.Bff ∧
        y = fun e => -e.admittance - e.transformer .bus1 + e.shuntOf .bus1) ∨
      (f = Line.Gtt ∧ g = Line.Btt ∧ y = fun e => -e.admittance - e.transformer .bus2 + e.shuntOf .bus2) ∨
      (f = Line.Gft ∧ g = Line.Bft ∧ y = YMatrix.Elem.frwd) ∨ (f = Line.Gtf ∧ g = Line.Btf ∧ y = YMatrix.Elem.rvrs)) →
      (⟨br.total f, br.total g⟩ : ℂ) = (es.map y).sum := by
    intro f g y h
    unfold Branch.total
    rw [total_sum, show (⟨0, 0⟩ : ℂ) = 0 from rfl, zero_add]
    simp only [br, es, List.map_map]
    congr 1
    apply List.map_congr_left
    intro d hdm
    exact one_line d (hd d hdm) f g y h
  have k1 := key _ _ _ (Or.inl ⟨rfl, rfl, rfl⟩)
  have k2 := key _ _ _ (Or.inr (Or.inl ⟨rfl, rfl, rfl⟩))
  have k3 := key _ _ _ (Or.inr (Or.inr (Or.inl ⟨rfl, rfl, rfl⟩)))
  have k4 := key _ _ _ (Or.inr (Or.inr (Or.inr ⟨rfl, rfl, rfl⟩)))
  rw [sum_split] at k1 k2
  refine ⟨?_, fun hne => ?_⟩
  · unfold YMatrix.getAdmittance YMatrix.getTransformer YMatrix.getShunt YMatrix.setYBus
    rw [← k1, ← k3]
    apply Complex.ext <;> simp [Net.branchCurrent, br, V, W] <;> ring
  · unfold YMatrix.getAdmittance YMatrix.getTransformer YMatrix.getShunt YMatrix.setYBus
    rw [← k2, ← k4]
    apply Complex.ext <;> simp [Net.branchCurrent, br, V, W, hne] <;> ring

/-- Two parallel lines, one of them a transformer with a phase shift. -/
example : ∀ d ∈ [(⟨['1'], 0.01, 0.1, 0, 0, 0.2, 0, 0, 0, 0, 1, false⟩ : LineData),
    ⟨['2'], 0, 0.05, 30, 0.95, 0.1, 0, 0, 0, 0, 1, false⟩], PlainRecord d := by
  intro d hd
  simp at hd
  rcases hd with rfl | rfl <;> constructor <;> norm_num

/-- C195: a shunt at the near end of a line in service is left out. -/
theorem C195_shunt_violated (d : LineData) (hst : d.status ≠ 0) (hz : d.r * d.r + d.x * d.x ≠ 0) (hs : d.switched = false)
    (hsh : d.g1 ≠ 0 ∨ d.b1 ≠ 0) :
    let e := loadElem d
    (⟨(ofRecord d).Gff, (ofRecord d).Bff⟩ : ℂ) ≠ -e.admittance - e.transformer .bus1 + e.shuntOf .bus1 := by
  intro e h
  by_cases ht : d.tap = 0
  · have hd : PlainRecord { d with g1 := 0, b1 := 0, g2 := 0, b2 := 0, shift := 0 } :=
      ⟨hz, hs, ⟨rfl, rfl⟩, ⟨rfl, rfl⟩, fun _ => rfl⟩
    have k := one_line _ hd _ _ _ (Or.inl ⟨rfl, rfl, rfl⟩)
    simp [ofRecord, Line.load, loadElem, YMatrix.Elem.admittance, YMatrix.Elem.transformer, YMatrix.Elem.shuntOf,
      hst, ht, YMatrix.Elem.z] at k
    simp [e, ofRecord, Line.load, loadElem, YMatrix.Elem.admittance, YMatrix.Elem.transformer, YMatrix.Elem.shuntOf,
      hst, ht, YMatrix.Elem.z] at h
    rw [k] at h
    have : (⟨d.g1, d.b1⟩ : ℂ) = 0 := by
      have h0 : (⟨0, 0⟩ : ℂ) = 0 := rfl
      rw [h0] at h
      linear_combination -h
    have h1 := congrArg Complex.re this
    have h2 := congrArg Complex.im this
    simp at h1 h2
    rcases hsh with h3 | h3
    · exact h3 h1
    · exact h3 h2
  · have hd : PlainRecord { d with g1 := 0, b1 := 0, g2 := 0, b2 := 0 } :=
      ⟨hz, hs, ⟨rfl, rfl⟩, ⟨rfl, rfl⟩, fun h => absurd h ht⟩
    have k := one_line _ hd _ _ _ (Or.inl ⟨rfl, rfl, rfl⟩)
    simp [ofRecord, Line.load, loadElem, YMatrix.Elem.admittance, YMatrix.Elem.transformer, YMatrix.Elem.shuntOf,
      hst, ht, hs, YMatrix.Elem.z, YMatrix.Elem.ratio] at k
    simp [e, ofRecord, Line.load, loadElem, YMatrix.Elem.admittance, YMatrix.Elem.transformer, YMatrix.Elem.shuntOf,
      hst, ht, hs, YMatrix.Elem.z, YMatrix.Elem.ratio] at h
    rw [k] at h
    have : (⟨d.g1, d.b1⟩ : ℂ) = 0 := by
      have h0 : (⟨0, 0⟩ : ℂ) = 0 := rfl
      rw [h0] at h
      linear_combination -h
    have h1 := congrArg Complex.re this
    have h2 := congrArg Complex.im this
    simp at h1 h2
    rcases hsh with h3 | h3
    · exact h3 h1
    · exact h3 h2

/-- C195: a phase shift without a ratio is applied here and not in the power flow. -/
theorem C195_shift_violated (d : LineData) (hst : d.status ≠ 0) (hz : d.r * d.r + d.x * d.x ≠ 0) (ht : d.tap = 0)
    (hφ : Real.cos (d.shift * Real.pi / 180) ≠ 1) :
    (⟨(ofRecord d).Gft, (ofRecord d).Bft⟩ : ℂ) ≠ (loadElem d).frwd := by
  intro h
  have hi := inv_z _ _ hz
  have hang : d.shift * (Real.pi / 180) = d.shift * Real.pi / 180 := by ring
  simp only [ofRecord, Line.load, loadElem, YMatrix.Elem.frwd, YMatrix.Elem.z, ht, hang] at h
  simp [hst, neg_div, hi] at h
  obtain ⟨h1, h2⟩ := Complex.ext_iff.mp h
  simp at h1 h2
  apply hφ
  set c := Real.cos (d.shift * Real.pi / 180)
  set s := Real.sin (d.shift * Real.pi / 180)
  have hz' : d.r ^ 2 + d.x ^ 2 ≠ 0 := by simpa [sq] using hz
  have e1 : d.r * c + d.x * s = d.r := by
    field_simp at h1
    linear_combination -h1
  have e2 : d.x * c - d.r * s = d.x := by
    field_simp at h2
    linear_combination h2
  have : (d.r ^ 2 + d.x ^ 2) * (c - 1) = 0 := by linear_combination d.r * e1 + d.x * e2
  rcases mul_eq_zero.mp this with h3 | h3
  · exact absurd h3 hz'
  · linarith

/-- C195: a transformer recorded from its other side is treated as if it were recorded from this one. -/
theorem C195_switched_violated (d : LineData) (hst : d.status ≠ 0) (hz : d.r * d.r + d.x * d.x ≠ 0) (hs : d.switched = true)
    (hg : d.g1 = 0 ∧ d.b1 = 0) (ht : d.tap ≠ 0) (ht1 : d.tap * d.tap ≠ 1) (hr : d.r ≠ 0) :
    let e := loadElem d
    (⟨(ofRecord d).Gff, (ofRecord d).Bff⟩ : ℂ) ≠ -e.admittance - e.transformer .bus1 + e.shuntOf .bus1 := by
  intro e h
  have hi := inv_z _ _ hz
  simp [e, ofRecord, Line.load, loadElem, YMatrix.Elem.admittance, YMatrix.Elem.transformer, YMatrix.Elem.shuntOf,
      hst, ht, hs, YMatrix.Elem.z, YMatrix.Elem.ratio, hg.1, hg.2, neg_div, hi] at h
  have h1 := congrArg Complex.re h
  simp at h1
  have hz' : d.r ^ 2 + d.x ^ 2 ≠ 0 := by simpa [sq] using hz
  rw [div_eq_iff (mul_ne_zero ht ht)] at h1
  have hd : d.r / (d.r * d.r + d.x * d.x) ≠ 0 := div_ne_zero hr hz
  apply ht1
  have : d.r / (d.r * d.r + d.x * d.x) * (d.tap * d.tap - 1) = 0 := by linear_combination -h1
  rcases mul_eq_zero.mp this with h3 | h3
  · exact absurd h3 hd
  · linarith

/-- A transformer recorded from its other side and a shunt at the end of a line. -/
example : ∃ d : LineData, d.status ≠ 0 ∧ d.r * d.r + d.x * d.x ≠ 0 ∧ d.switched = true ∧ (d.g1 = 0 ∧ d.b1 = 0) ∧ d.tap ≠ 0 ∧
    d.tap * d.tap ≠ 1 ∧ d.r ≠ 0 :=
  ⟨⟨['1'], 0.01, 0.1, 0, 0.95, 0.2, 0, 0, 0, 0, 1, true⟩, by norm_num⟩

example : ∃ d : LineData, d.status ≠ 0 ∧ d.r * d.r + d.x * d.x ≠ 0 ∧ d.tap = 0 ∧ Real.cos (d.shift * Real.pi / 180) ≠ 1 :=
  ⟨⟨['1'], 0.01, 0.1, 180, 0, 0.2, 0, 0, 0, 0, 1, false⟩, by norm_num, by norm_num, rfl, by norm_num⟩

end GridPACK.Dae
