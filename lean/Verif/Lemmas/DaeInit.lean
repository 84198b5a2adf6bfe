import Verif.Lemmas.DaeNet
import Verif.Spec.DaeInit

/-! Initial values of the DAE form of the dynamic simulation. -/
namespace GridPACK.Dae

/-- A point in polar coordinates. -/
theorem polar (a b : ℝ) : √(a ^ 2 + b ^ 2) * Real.cos (Complex.arg ⟨a, b⟩) = a ∧
    √(a ^ 2 + b ^ 2) * Real.sin (Complex.arg ⟨a, b⟩) = b := by
  have h : ‖(⟨a, b⟩ : ℂ)‖ = √(a ^ 2 + b ^ 2) := Complex.norm_eq_sqrt_sq_add_sq _
  rw [← h]
  exact ⟨Complex.norm_mul_cos_arg _, Complex.norm_mul_sin_arg _⟩

/-- The quarter component at the angle of a point is 0. -/
theorem quarter (a b : ℝ) : b * Real.cos (Complex.arg ⟨a, b⟩) - a * Real.sin (Complex.arg ⟨a, b⟩) = 0 := by
  obtain ⟨h1, h2⟩ := polar a b
  linear_combination (-Real.cos (Complex.arg ⟨a, b⟩)) * h2 + Real.sin (Complex.arg ⟨a, b⟩) * h1

/-- The current of a power at a voltage. -/
theorem current_sq (vD vQ : ℝ) : √(vD * vD + vQ * vQ) * √(vD * vD + vQ * vQ) = vD * vD + vQ * vQ :=
  Real.mul_self_sqrt (by nlinarith [mul_self_nonneg vD, mul_self_nonneg vQ])

/-- Real part of the current of `P + iQ` at the voltage `vD + i vQ`. -/
noncomputable def curD (P Q vD vQ : ℝ) : ℝ := (P * vD + Q * vQ) / (vD * vD + vQ * vQ)
/-- Imaginary part. -/
noncomputable def curQ (P Q vD vQ : ℝ) : ℝ := (P * vQ - Q * vD) / (vD * vD + vQ * vQ)

theorem cur_power {P Q vD vQ : ℝ} (h : vD * vD + vQ * vQ ≠ 0) :
    vD * curD P Q vD vQ + vQ * curQ P Q vD vQ = P := by
  unfold curD curQ
  have h' : vD ^ 2 + vQ ^ 2 ≠ 0 := by simpa [sq] using h
  field_simp
  ring

/-! ### Classical machine -/

theorem Cls.init_steady (p : Cls) (P Q vD vQ : ℝ) (hV : vD * vD + vQ * vQ ≠ 0) (hX : p.Xdp ≠ 0) (X Z R : Ix → ℝ)
    (h0 : X (.net 0) = vD) (h1 : X (.net 1) = vQ) (hx : ∀ k, k < 2 → X (.gen k) = (p.init P Q vD vQ).2 k)
    (hz : ∀ k, k < 2 → Z (.gen k) = 0) :
    (∀ k, k < 2 → (p.init P Q vD vQ).1.resid .resid X Z R k = 0) ∧
    (p.init P Q vD vQ).1.igd X = curD P Q vD vQ ∧ (p.init P Q vD vQ).1.igq X = curQ P Q vD vQ := by
  have e0 := hx 0 (by norm_num)
  have e1 := hx 1 (by norm_num)
  have z0 := hz 0 (by norm_num)
  have z1 := hz 1 (by norm_num)
  simp only [Cls.init, current_sq] at e0 e1
  have hD : (vD * P + vQ * Q) / (vD * vD + vQ * vQ) = curD P Q vD vQ := by unfold curD; ring
  have hQ : (vQ * P - vD * Q) / (vD * vD + vQ * vQ) = curQ P Q vD vQ := by unfold curQ; ring
  rw [hD, hQ] at e0
  obtain ⟨p1, p2⟩ := polar (vD - p.Xdp * curQ P Q vD vQ) (vQ + p.Xdp * curD P Q vD vQ)
  rw [← e0] at p1 p2
  refine ⟨?_, ?_, ?_⟩
  · intro k hk
    interval_cases k
    · simp [Cls.resid, e1, z0]
    · simp only [Cls.resid, Cls.init, current_sq, hD, hQ, h0, h1, e1, z1, mul_assoc, p1, p2]
      have := cur_power (P := P) (Q := Q) hV
      have : P - vD * (vQ + p.Xdp * curD P Q vD vQ) / p.Xdp + vQ * (vD - p.Xdp * curQ P Q vD vQ) / p.Xdp = 0 := by
        field_simp
        linear_combination (-p.Xdp) * this
      simp [this]
  · simp only [Cls.igd, Cls.init, current_sq, hD, hQ, h1, p2]
    field_simp
    ring
  · simp only [Cls.igq, Cls.init, current_sq, hD, hQ, h0, p1]
    field_simp
    ring

/-! ### GENROU -/

/-- The rotated current. -/
theorem dq_current {Ra Xpp B G Id Iq u w : ℝ} (hz : Ra * Ra + Xpp * Xpp ≠ 0) (hB : B = -Xpp / (Ra * Ra + Xpp * Xpp))
    (hG : G = Ra / (Ra * Ra + Xpp * Xpp)) (hu : u = Ra * Id - Xpp * Iq) (hw : w = Ra * Iq + Xpp * Id) :
    u * G - w * B = Id ∧ u * B + w * G = Iq := by
  subst hB hG hu hw
  have h' : Ra ^ 2 + Xpp ^ 2 ≠ 0 := by simpa [sq] using hz
  constructor <;> field_simp <;> ring

theorem Rou.init_steady (p : Rou) (P Q vD vQ : ℝ) (hz : p.Ra * p.Ra + p.Xdpp * p.Xdpp ≠ 0)
    (hB : p.B = -p.Xdpp / (p.Ra * p.Ra + p.Xdpp * p.Xdpp)) (hG : p.G = p.Ra / (p.Ra * p.Ra + p.Xdpp * p.Xdpp))
    (hV : vD * vD + vQ * vQ ≠ 0) (hd : p.Xdp ≠ p.Xl) (hq : p.Xqp ≠ p.Xl) (X Z R : Ix → ℝ)
    (h0 : X (.net 0) = vD) (h1 : X (.net 1) = vQ) (hx : ∀ k, k < 6 → X (.gen k) = (p.init P Q vD vQ).1 k)
    (hzz : ∀ k, k < 6 → Z (.gen k) = 0) (u : Drive) (hE : u.Efd = (p.init P Q vD vQ).2.1) (hP : u.Pmech = P) :
    (∀ k, k < 6 → k ≠ 1 → p.resid X u .resid Z R k = 0) ∧
    p.resid X u .resid Z R 1 = 1 / (2 * p.H) * (-(p.Ra * (curD P Q vD vQ ^ 2 + curQ P Q vD vQ ^ 2))) ∧
    p.igd X = curD P Q vD vQ ∧ p.igq X = curQ P Q vD vQ ∧ p.fieldCurrent X = (p.init P Q vD vQ).2.1 := by
  have e : ∀ k, k < 6 → X (.gen k) = (p.init P Q vD vQ).1 k := hx
  have z : ∀ k, k < 6 → Z (.gen k) = 0 := hzz
  have e0 := e 0 (by norm_num)
  have e1 := e 1 (by norm_num)
  have e2 := e 2 (by norm_num)
  have e3 := e 3 (by norm_num)
  have e4 := e 4 (by norm_num)
  have e5 := e 5 (by norm_num)
  have hdd : p.Xdp - p.Xl ≠ 0 := sub_ne_zero.mpr hd
  have hqq : p.Xqp - p.Xl ≠ 0 := sub_ne_zero.mpr hq
  have hD : (P * vD + Q * vQ) / (vD * vD + vQ * vQ) = curD P Q vD vQ := rfl
  have hQ : (P * vQ - Q * vD) / (vD * vD + vQ * vQ) = curQ P Q vD vQ := rfl
  simp only [Rou.init, current_sq, hD, hQ] at e0 e1 e2 e3 e4 e5 hE ⊢
  have hpow := cur_power (P := P) (Q := Q) hV
  generalize hId : curD P Q vD vQ = Ir at *
  generalize hIq : curQ P Q vD vQ = Ii at *
  generalize hδ : Complex.arg ⟨vD + Ir * p.Ra - Ii * p.Xq, vQ + Ir * p.Xq + Ii * p.Ra⟩ = δ at *
  have hquart := quarter (vD + Ir * p.Ra - Ii * p.Xq) (vQ + Ir * p.Xq + Ii * p.Ra)
  rw [hδ] at hquart
  have hcos : Real.cos (δ - Real.pi / 2) = Real.sin δ := by
    rw [Real.cos_sub_pi_div_two]
  have hsin : Real.sin (δ - Real.pi / 2) = -Real.cos δ := by
    rw [Real.sin_sub_pi_div_two]
  have hcs := Real.sin_sq_add_cos_sq δ
  have tc : Real.cos (Rou.theta X) = Real.sin δ := by rw [Rou.theta, e0, hcos]
  have ts : Real.sin (Rou.theta X) = -Real.cos δ := by rw [Rou.theta, e0, hsin]
  simp only [hcos, hsin] at e0 e1 e2 e3 e4 e5 hE ⊢
  generalize Real.sin δ = s at *
  generalize Real.cos δ = c at *
  obtain ⟨i1, i2⟩ := dq_current (Ra := p.Ra) (Xpp := p.Xdpp) (B := p.B) (G := p.G) (Id := Ir * s - Ii * c)
    (Iq := Ir * c + Ii * s)
    (u := (vD + p.Ra * Ir - p.Xdpp * Ii) * s + (vQ + p.Ra * Ii + p.Xdpp * Ir) * -c - (vD * s + vQ * -c))
    (w := (vD + p.Ra * Ir - p.Xdpp * Ii) * - -c + (vQ + p.Ra * Ii + p.Xdpp * Ir) * s - (vD * - -c + vQ * s))
    hz hB hG (by ring) (by ring)
  simp only [i1, i2] at e2 e3 e4 e5 hE ⊢
  have tVd : Rou.Vdterm X = vD * s - vQ * c := by simp only [Rou.Vdterm, tc, ts, VD, VQ, h0, h1]; ring
  have tVq : Rou.Vqterm X = vD * c + vQ * s := by simp only [Rou.Vqterm, tc, ts, VD, VQ, h0, h1]; ring
  have pd : p.Psidpp X = (vD + p.Ra * Ir - p.Xdpp * Ii) * c + (vQ + p.Ra * Ii + p.Xdpp * Ir) * s := by
    simp only [Rou.Psidpp, Rou.tempd1, Rou.tempd2, e2, e3]
    field_simp
    ring
  have pq : p.Psiqpp X = -((p.Xq - p.Xdpp) * (Ir * c + Ii * s)) := by
    simp only [Rou.Psiqpp, Rou.tempq1, Rou.tempq2, e4, e5]
    field_simp
    ring
  have pVd : p.Vd X = (vD + p.Ra * Ir - p.Xdpp * Ii) * s + (vQ + p.Ra * Ii + p.Xdpp * Ir) * -c := by
    simp only [Rou.Vd, pq, e1]
    linear_combination hquart
  have pVq : p.Vq X = (vD + p.Ra * Ir - p.Xdpp * Ii) * - -c + (vQ + p.Ra * Ii + p.Xdpp * Ir) * s := by
    simp only [Rou.Vq, pd, e1]
    ring
  have pId : p.Id X = Ir * s - Ii * c := by
    rw [← i1, Rou.Id, pVd, pVq, tVd, tVq]
    ring
  have pIq : p.Iq X = Ir * c + Ii * s := by
    rw [← i2, Rou.Iq, pVd, pVq, tVd, tVq]
    ring
  have pT : p.Telec X = P + p.Ra * (Ir ^ 2 + Ii ^ 2) := by
    have : p.Telec X = p.Vq X * p.Iq X + p.Vd X * p.Id X := by
      simp only [Rou.Telec, Rou.Vq, Rou.Vd, e1]
      ring
    rw [this, pVd, pVq, pId, pIq]
    linear_combination (Ir ^ 2 * p.Ra + Ii ^ 2 * p.Ra + vD * Ir + vQ * Ii) * hcs + hpow
  have pF : p.fieldCurrent X = (vD + p.Ra * Ir - p.Xdpp * Ii) * - -c + (vQ + p.Ra * Ii + p.Xdpp * Ir) * s
      - (p.Xdpp - p.Xl) * (Ir * s - Ii * c) + (p.Xdp - p.Xl) * (Ir * s - Ii * c)
      + (p.Xd - p.Xdp) * (Ir * s - Ii * c) := by
    simp only [Rou.fieldCurrent, e2, e3, pId]
    field_simp
    ring
  refine ⟨?_, ?_, ?_, ?_, pF⟩
  · intro k hk h
    interval_cases k
    · simp [Rou.resid, e1, z 0]
    · exact absurd rfl h
    · simp only [Rou.resid, hE, pF, z 2 (by norm_num)]
      ring
    · simp only [Rou.resid, e2, e3, pId, z 3 (by norm_num)]
      ring
    · simp only [Rou.resid, e4, e5, pIq, z 4 (by norm_num)]
      ring
    · simp only [Rou.resid, e4, e5, pIq, z 5 (by norm_num)]
      ring
  · simp only [Rou.resid, hP, pT, e1, z 1 (by norm_num)]
    ring
  · simp only [Rou.igd, pId, pIq, tc, ts]
    linear_combination Ir * hcs
  · simp only [Rou.igq, pId, pIq, tc, ts]
    linear_combination Ii * hcs

/-! ### GENSAL -/

theorem Sal.init_steady (p : Sal) (P Q vD vQ : ℝ) (hz : p.Ra * p.Ra + p.Xdpp * p.Xdpp ≠ 0)
    (hB : p.B = -p.Xdpp / (p.Ra * p.Ra + p.Xdpp * p.Xdpp)) (hG : p.G = p.Ra / (p.Ra * p.Ra + p.Xdpp * p.Xdpp))
    (hd : p.Xdp ≠ p.Xl) (X Z R : Ix → ℝ)
    (h0 : X (.net 0) = vD) (h1 : X (.net 1) = vQ) (hx : ∀ k, k < 5 → X (.gen k) = (p.init P Q vD vQ).1 k)
    (hzz : ∀ k, k < 5 → Z (.gen k) = 0) (u : Drive) (hE : u.Efd = (p.init P Q vD vQ).2.1)
    (hP : u.Pmech = (p.init P Q vD vQ).2.2) :
    (∀ k, k < 5 → p.resid X u .resid Z R k = 0) ∧
    p.igd X = curD P Q vD vQ ∧ p.igq X = curQ P Q vD vQ ∧ p.fieldCurrent X = (p.init P Q vD vQ).2.1 := by
  have e : ∀ k, k < 5 → X (.gen k) = (p.init P Q vD vQ).1 k := hx
  have z : ∀ k, k < 5 → Z (.gen k) = 0 := hzz
  have e0 := e 0 (by norm_num)
  have e1 := e 1 (by norm_num)
  have e2 := e 2 (by norm_num)
  have e3 := e 3 (by norm_num)
  have e4 := e 4 (by norm_num)
  have hdd : p.Xdp - p.Xl ≠ 0 := sub_ne_zero.mpr hd
  have hD : (P * vD + Q * vQ) / (vD * vD + vQ * vQ) = curD P Q vD vQ := rfl
  have hQ : (P * vQ - Q * vD) / (vD * vD + vQ * vQ) = curQ P Q vD vQ := rfl
  simp only [Sal.init, current_sq, hD, hQ] at e0 e1 e2 e3 e4 hE hP ⊢
  generalize hId : curD P Q vD vQ = Ir at *
  generalize hIq : curQ P Q vD vQ = Ii at *
  generalize hδ : Complex.arg ⟨vD + Ir * p.Ra - Ii * p.Xq, vQ + Ir * p.Xq + Ii * p.Ra⟩ = δ at *
  have hquart := quarter (vD + Ir * p.Ra - Ii * p.Xq) (vQ + Ir * p.Xq + Ii * p.Ra)
  rw [hδ] at hquart
  have hcs := Real.sin_sq_add_cos_sq δ
  have tc : Real.cos (X (.gen 0)) = Real.cos δ := by rw [e0]
  have ts : Real.sin (X (.gen 0)) = Real.sin δ := by rw [e0]
  generalize Real.sin δ = s at *
  generalize Real.cos δ = c at *
  obtain ⟨i1, i2⟩ := dq_current (Ra := p.Ra) (Xpp := p.Xdpp) (B := p.B) (G := p.G) (Id := Ir * s - Ii * c)
    (Iq := Ir * c + Ii * s)
    (u := (vD + p.Ra * Ir - p.Xdpp * Ii) * s - (vQ + p.Ra * Ii + p.Xdpp * Ir) * c - (vD * s - vQ * c))
    (w := (vD + p.Ra * Ir - p.Xdpp * Ii) * c + (vQ + p.Ra * Ii + p.Xdpp * Ir) * s - (vD * c + vQ * s))
    hz hB hG (by ring) (by ring)
  simp only [i1, i2] at e2 e3 e4 hE hP ⊢
  have tVd : Sal.Vdterm X = vD * s - vQ * c := by simp only [Sal.Vdterm, tc, ts, VD, VQ, h0, h1]
  have tVq : Sal.Vqterm X = vD * c + vQ * s := by simp only [Sal.Vqterm, tc, ts, VD, VQ, h0, h1]
  have pd : p.Psidpp X = (vD + p.Ra * Ir - p.Xdpp * Ii) * c + (vQ + p.Ra * Ii + p.Xdpp * Ir) * s := by
    simp only [Sal.Psidpp, e2, e3]
    field_simp
    ring
  have pVd : Sal.Vd X = (vD + p.Ra * Ir - p.Xdpp * Ii) * s - (vQ + p.Ra * Ii + p.Xdpp * Ir) * c := by
    simp only [Sal.Vd, e1, e4]
    linear_combination hquart
  have pVq : p.Vq X = (vD + p.Ra * Ir - p.Xdpp * Ii) * c + (vQ + p.Ra * Ii + p.Xdpp * Ir) * s := by
    simp only [Sal.Vq, pd, e1]
    ring
  have pId : p.Id X = Ir * s - Ii * c := by
    rw [← i1, Sal.Id, pVd, pVq, tVd, tVq]
  have pIq : p.Iq X = Ir * c + Ii * s := by
    rw [← i2, Sal.Iq, pVd, pVq, tVd, tVq]
  have pF : p.fieldCurrent X = ((vD + p.Ra * Ir - p.Xdpp * Ii) * c + (vQ + p.Ra * Ii + p.Xdpp * Ir) * s
      - (Ir * s - Ii * c) * (p.Xdpp - p.Xl) + (Ir * s - Ii * c) * (p.Xdp - p.Xl)) * (1 + 0)
      + (Ir * s - Ii * c) * (p.Xd - p.Xdp) := by
    simp only [Sal.fieldCurrent, e2, e3, pId]
    field_simp
    ring
  refine ⟨?_, ?_, ?_, pF⟩
  · intro k hk
    interval_cases k
    · simp [Sal.resid, e1, z 0]
    · simp only [Sal.resid, hP, Sal.Telec, Sal.Psid, Sal.Psiq, pd, pId, pIq, e1, e4, z 1 (by norm_num)]
      ring
    · simp only [Sal.resid, hE, pF, z 2 (by norm_num)]
      ring
    · simp only [Sal.resid, e2, e3, pId, z 3 (by norm_num)]
      ring
    · simp only [Sal.resid, e4, pIq, z 4 (by norm_num)]
      ring
  · simp only [Sal.igd, pId, pIq, tc, ts]
    linear_combination Ir * hcs
  · simp only [Sal.igq, pId, pIq, tc, ts]
    linear_combination Ii * hcs

/-! ### Controls -/

theorem Exdc1.init_steady (e : Exdc1) (E vD vQ : ℝ) (hKA : e.KA ≠ 0) (hmin : e.VRatmin = false) (hmax : e.VRatmax = false)
    (X Z R : Ix → ℝ) (h0 : X (.net 0) = vD) (h1 : X (.net 1) = vQ)
    (hx : ∀ k, k < 5 → X (.exc k) = (e.init E vD vQ).2 k) (hz : ∀ k, k < 5 → Z (.exc k) = 0) (k : ℕ) (hk : k < 5) :
    (e.init E vD vQ).1.resid X .resid Z R k = 0 := by
  have e0 := hx 0 (by norm_num)
  have e1 := hx 1 (by norm_num)
  have e2 := hx 2 (by norm_num)
  have e3 := hx 3 (by norm_num)
  have e4 := hx 4 (by norm_num)
  have z0 := hz 0 (by norm_num)
  have z1 := hz 1 (by norm_num)
  have z2 := hz 2 (by norm_num)
  have z3 := hz 3 (by norm_num)
  have z4 := hz 4 (by norm_num)
  simp only [Exdc1.init] at e0 e1 e2 e3 e4
  have hEc : Exdc1.Ec X = X (.exc 0) := by simp only [Exdc1.Ec, VD, VQ, h0, h1, e0]
  have hVf : (e.init E vD vQ).1.Vf X = 0 := by
    simp only [Exdc1.Vf, Exdc1.init, e3, e4]
    ring
  have hd1 : (e.init E vD vQ).1.diff1 = e.diff1 := rfl
  have hy : (e.init E vD vQ).1.yLL X = (e.SE E + e.KE) * E / e.KA := by
    simp only [Exdc1.yLL, hVf, hd1]
    simp only [Exdc1.init, e0, e1]
    split <;> ring
  interval_cases k
  · simp only [Exdc1.resid, hEc, z0]
    split <;> ring
  · simp only [Exdc1.resid, hVf, hd1, z1]
    simp only [Exdc1.init, e0, e1]
    split <;> ring
  · have : (e.init E vD vQ).1.KA * (e.SE E + e.KE) * E / e.KA = (e.SE E + e.KE) * E := by
      simp only [Exdc1.init]
      field_simp
    simp only [Exdc1.resid, hy, z2]
    simp only [Exdc1.init, hmin, hmax, e2, Bool.false_eq_true, if_false]
    split <;> field_simp <;> ring
  · have hs : (e.init E vD vQ).1.SE = e.SE := rfl
    simp only [Exdc1.resid, hs, z3, e2, e3]
    simp only [Exdc1.init]
    ring
  · simp only [Exdc1.resid, z4, e3, e4]
    simp only [Exdc1.init]
    ring

theorem Esst1a.init_steady (e : Esst1a) (E vD vQ : ℝ) (hKA : e.Ka ≠ 0) (h1m : e.Viatmin = false) (h1x : e.Viatmax = false)
    (h2m : e.Vaatmin = false) (h2x : e.Vaatmax = false)
    (X Z R : Ix → ℝ) (h0 : X (.net 0) = vD) (h1 : X (.net 1) = vQ)
    (hx : ∀ k, k < 5 → X (.exc k) = (e.init E vD vQ).2 k) (hz : ∀ k, k < 5 → Z (.exc k) = 0) (k : ℕ) (hk : k < 5) :
    (e.init E vD vQ).1.resid X .resid Z R k = 0 := by
  have e0 := hx 0 (by norm_num)
  have e1 := hx 1 (by norm_num)
  have e2 := hx 2 (by norm_num)
  have e3 := hx 3 (by norm_num)
  have e4 := hx 4 (by norm_num)
  have z0 := hz 0 (by norm_num)
  have z1 := hz 1 (by norm_num)
  have z2 := hz 2 (by norm_num)
  have z3 := hz 3 (by norm_num)
  have z4 := hz 4 (by norm_num)
  simp only [Esst1a.init] at e0 e1 e2 e3 e4
  have hEc : Esst1a.Ec X = X (.exc 0) := by simp only [Esst1a.Ec, VD, VQ, h0, h1, e0]
  have hVf : (e.init E vD vQ).1.Vf X = 0 := by
    simp only [Esst1a.Vf, Esst1a.init, e3, e4]
    ring
  have hVi : (e.init E vD vQ).1.Vi X = E / e.Ka := by
    simp only [Esst1a.Vi, Esst1a.ViFree, hVf]
    simp only [Esst1a.init, h1m, h1x, e0, Bool.false_eq_true, if_false]
    ring
  have hd1 : (e.init E vD vQ).1.diff1 = e.diff1 := rfl
  have hd2 : (e.init E vD vQ).1.diff2 = e.diff2 := rfl
  have hy1 : (e.init E vD vQ).1.yLL1 X (E / e.Ka) = E / e.Ka := by
    simp only [Esst1a.yLL1, hd1]
    simp only [Esst1a.init, e1]
    split <;> ring
  have hy2 : (e.init E vD vQ).1.yLL2 X (E / e.Ka) = E / e.Ka := by
    simp only [Esst1a.yLL2, hd2]
    simp only [Esst1a.init, e2]
    split <;> ring
  interval_cases k
  · simp only [Esst1a.resid, hEc, z0]
    split <;> ring
  · simp only [Esst1a.resid, hVi, hd1, z1]
    simp only [Esst1a.init, e1]
    split <;> ring
  · simp only [Esst1a.resid, hVi, hy1, hd2, z2]
    simp only [Esst1a.init, e2]
    split <;> ring
  · simp only [Esst1a.resid, hVi, hy1, hy2, z3]
    simp only [Esst1a.init, h2m, h2x, e3, Bool.false_eq_true, if_false]
    split <;> field_simp <;> ring
  · simp only [Esst1a.resid, z4, e3, e4]
    simp only [Esst1a.init]
    ring

theorem Wsieg1.init_steady (w : Wsieg1) (P : ℝ) (h1 : w.uatmin = false) (h2 : w.uatmax = false) (h3 : w.xatmin = false)
    (h4 : w.xatmax = false) (X Z R : Ix → ℝ) (hx : ∀ k, k < 6 → X (.gov k) = (w.init P 0).2 k)
    (hz : ∀ k, k < 6 → Z (.gov k) = 0) :
    (∀ k, k < 6 → (w.init P 0).1.resid X 0 .resid Z R k = 0) ∧
    (0 < w.K1 + w.K3 + w.K5 + w.K7 → (w.init P 0).1.pmech X = P) := by
  have e0 := hx 0 (by norm_num)
  have e1 := hx 1 (by norm_num)
  have e2 := hx 2 (by norm_num)
  have e3 := hx 3 (by norm_num)
  have e4 := hx 4 (by norm_num)
  have e5 := hx 5 (by norm_num)
  simp only [Wsieg1.init, mul_zero, zero_mul, ite_self] at e0 e1 e2 e3 e4 e5
  have hy : (w.init P 0).1.yLL X 0 = 0 := by
    simp [Wsieg1.yLL, e0]
  refine ⟨?_, ?_⟩
  · intro k hk
    have zk := hz k hk
    interval_cases k
    · simp only [Wsieg1.resid, e0, zk]
      split <;> ring
    · simp only [Wsieg1.resid, Wsieg1.uFree, hy, zk, e1]
      simp [Wsieg1.init, h1, h2, h3, h4]
    · simp only [Wsieg1.resid, Wsieg1.lagResid, zk, e1, e2]
      split <;> ring
    · simp only [Wsieg1.resid, Wsieg1.lagResid, zk, e3, e2]
      split <;> ring
    · simp only [Wsieg1.resid, Wsieg1.lagResid, zk, e3, e4]
      split <;> ring
    · simp only [Wsieg1.resid, Wsieg1.lagResid, zk, e5, e4]
      split <;> ring
  · intro h
    simp only [Wsieg1.pmech, e2, e3, e4, e5, Wsieg1.pgv, if_pos h]
    simp only [Wsieg1.init]
    have : w.K1 + w.K3 + w.K5 + w.K7 ≠ 0 := h.ne'
    field_simp

/-! ### Generators -/

/-- What `init` of machine and controls writes, by name. -/
noncomputable def Gen.start (g : Gen) (j : Junk) (v : ℝ × ℝ) : Ix → ℝ
  | .net 0 => v.1
  | .net _ => v.2
  | .gen k => (g.init j v).2.1 k
  | .exc k => (g.init j v).2.2.1 k
  | .gov k => (g.init j v).2.2.2 k

theorem Gen.init_shape (g : Gen) (j : Junk) (v : ℝ × ℝ) : (g.init j v).1.on = g.on ∧
    (g.init j v).1.mach.size = g.mach.size ∧ (g.init j v).1.nexc = g.nexc ∧ (g.init j v).1.ngov = g.ngov ∧
    (g.init j v).1.exc.isSome = g.exc.isSome ∧ (g.init j v).1.gov.isSome = g.gov.isSome := by
  unfold Gen.init Gen.nexc Gen.ngov
  refine ⟨rfl, ?_, ?_, ?_, ?_, ?_⟩
  · cases g.mach <;> rfl
  · cases h : g.exc with
    | none => rfl
    | some e => cases e <;> rfl
  · cases g.gov <;> rfl
  · cases h : g.exc with
    | none => rfl
    | some e => cases e <;> rfl
  · cases g.gov <;> rfl

theorem Gen.init_size (g : Gen) (j : Junk) (v : ℝ × ℝ) : (g.init j v).1.size = g.size := by
  obtain ⟨_, h1, h2, h3, _⟩ := g.init_shape j v
  unfold Gen.size
  rw [h1, h2, h3]

/-- The generators after `init`. -/
noncomputable def started (j : Junk) (v : ℝ × ℝ) (g : Gen) : Gen := if g.on then (g.init j v).1 else g

theorem initLoop_gens (j : Junk) (v : ℝ × ℝ) (gens : List Gen) (buf : ℕ → ℝ) (p : ℕ) :
    (initLoop j v gens buf p).1 = gens.map (started j v) := by
  induction gens generalizing buf p with
  | nil => rfl
  | cons g gs ih =>
    simp only [initLoop, List.map_cons, started]
    split <;> simp [ih]

theorem initLoop_none (j : Junk) (v : ℝ × ℝ) (gens : List Gen) (h : gens.filter (·.on) = []) (buf : ℕ → ℝ) (p : ℕ) :
    (initLoop j v gens buf p).2 = buf ∧ place gens p = ([], p) := by
  induction gens generalizing buf p with
  | nil => exact ⟨rfl, rfl⟩
  | cons g gs ih =>
    have hg : g.on = false := by
      by_contra hc
      simp [hc] at h
    have h' : gs.filter (·.on) = [] := by simpa [hg] using h
    simp only [initLoop, place, hg, Bool.false_eq_true, if_false]
    exact ih h' buf p

theorem initLoop_one (j : Junk) (v : ℝ × ℝ) (gens : List Gen) (g : Gen) (h : gens.filter (·.on) = [g]) (buf : ℕ → ℝ) (p : ℕ) :
    (initLoop j v gens buf p).2 = genBlock g (g.start j v) buf p ∧ place gens p = ([(g, p)], p + g.size) := by
  induction gens generalizing buf p with
  | nil => simp at h
  | cons a gs ih =>
    by_cases ha : a.on = true
    · have h' : a = g ∧ gs.filter (·.on) = [] := by simpa [ha] using h
      obtain ⟨rfl, h'⟩ := h'
      simp only [initLoop, place, ha, if_true]
      refine ⟨?_, ?_⟩
      · rw [(initLoop_none j v gs h' _ _).1]
        unfold genBlock Gen.start Gen.nexc
        cases a.exc <;> cases a.gov <;> simp
      · rw [(initLoop_none j v gs h' buf _).2]
    · have h' : gs.filter (·.on) = [g] := by simpa [ha] using h
      simp only [initLoop, place, ha, if_false]
      exact ih h' buf p

theorem place_started (j : Junk) (v : ℝ × ℝ) (gens : List Gen) (p : ℕ) :
    place (gens.map (started j v)) p = ((place gens p).1.map (fun gn => ((gn.1.init j v).1, gn.2)), (place gens p).2) := by
  induction gens generalizing p with
  | nil => rfl
  | cons g gs ih =>
    by_cases hg : g.on = true
    · have h1 : (g.init j v).1.on = true := by rw [(g.init_shape j v).1]; exact hg
      simp [place, started, hg, h1, ih, Gen.init_size]
    · simp [place, started, hg, ih]

/-- A generator that can start is steady. -/
theorem Gen.init_steady (g : Gen) (j : Junk) (v : ℝ × ℝ) (hV : v.1 * v.1 + v.2 * v.2 ≠ 0) (hs : g.Startable v)
    (X Z R : Ix → ℝ) (hx0 : X (.net 0) = v.1) (hx1 : X (.net 1) = v.2)
    (hx : ∀ ix, g.Valid ix → ix.isNet = false → X ix = g.start j v ix)
    (hz : ∀ ix, g.Valid ix → ix.isNet = false → Z ix = 0) :
    (∀ ix, g.Valid ix → ix.isNet = false → (g.init j v).1.resid .resid X Z R ix = 0) ∧
    (g.init j v).1.igd X = curD g.pg g.qg v.1 v.2 ∧ (g.init j v).1.igq X = curQ g.pg g.qg v.1 v.2 := by
  obtain ⟨hm, he, hw, hf⟩ := hs
  have xg : ∀ k, k < g.mach.size → X (.gen k) = (g.init j v).2.1 k := fun k hk => hx (.gen k) hk rfl
  have zg : ∀ k, k < g.mach.size → Z (.gen k) = 0 := fun k hk => hz (.gen k) hk rfl
  have xe : ∀ k, k < g.nexc → X (.exc k) = (g.init j v).2.2.1 k := fun k hk => hx (.exc k) hk rfl
  have ze : ∀ k, k < g.nexc → Z (.exc k) = 0 := fun k hk => hz (.exc k) hk rfl
  have xw : ∀ k, k < g.ngov → X (.gov k) = (g.init j v).2.2.2 k := fun k hk => hx (.gov k) hk rfl
  have zw : ∀ k, k < g.ngov → Z (.gov k) = 0 := fun k hk => hz (.gov k) hk rfl
  -- exciter
  have hexc : ∀ k, k < g.nexc → (g.init j v).1.resid .resid X Z R (.exc k) = 0 := by
    intro k hk
    cases hE : g.exc with
    | none => simp [Gen.nexc, hE] at hk
    | some e =>
      have hk5 : k < 5 := by simpa [Gen.nexc, hE] using hk
      have h5 : ∀ k, k < 5 → k < g.nexc := fun k hk => by simpa [Gen.nexc, hE] using hk
      cases e with
      | exdc1 e =>
        obtain ⟨s1, s2, s3⟩ := he _ hE
        simp only [Gen.resid, Gen.init, hE]
        apply Exdc1.init_steady e _ v.1 v.2 s1 s2 s3 X Z R hx0 hx1 _ (fun k hk => ze k (h5 k hk)) k hk5
        intro k hk
        rw [xe k (h5 k hk)]
        simp only [Gen.init, hE]
      | esst1a e VT =>
        obtain ⟨s1, s2, s3, s4, s5⟩ := he _ hE
        simp only [Gen.resid, Gen.init, hE]
        apply Esst1a.init_steady e _ v.1 v.2 s1 s2 s3 s4 s5 X Z R hx0 hx1 _ (fun k hk => ze k (h5 k hk)) k hk5
        intro k hk
        rw [xe k (h5 k hk)]
        simp only [Gen.init, hE]
  -- governor
  have hdw : (g.init j v).1.dw X = 0 := by
    unfold Gen.dw
    cases hM : g.mach with
    | cls p => simp [Gen.init, hM]
    | rou p =>
      have := xg 1 (by simp [hM, Mach.size])
      simp only [Gen.init, hM, Rou.init] at this ⊢
      exact this
    | sal p =>
      have := xg 1 (by simp [hM, Mach.size])
      simp only [Gen.init, hM, Sal.init] at this ⊢
      exact this
  have hgov : ∀ k, k < g.ngov → (g.init j v).1.resid .resid X Z R (.gov k) = 0 := by
    intro k hk
    cases hW : g.gov with
    | none => simp [Gen.ngov, hW] at hk
    | some w =>
      have hk6 : k < 6 := by simpa [Gen.ngov, hW] using hk
      have h6 : ∀ k, k < 6 → k < g.ngov := fun k hk => by simpa [Gen.ngov, hW] using hk
      obtain ⟨s1, s2, s3, s4, s5⟩ := hw _ hW
      simp only [Gen.resid, hdw]
      simp only [Gen.init, hW]
      apply (Wsieg1.init_steady w _ s1 s2 s3 s4 X Z R _ (fun k hk => zw k (h6 k hk))).1 k hk6
      intro k hk
      rw [xw k (h6 k hk)]
      simp only [Gen.init, hW]
  -- what the machine obtains
  have hefd : ∀ E, (g.init j v).1.Efd = E → (∀ e VT, g.exc = some (.esst1a e VT) →
      √(v.1 * v.1 + v.2 * v.2) * e.Vrmin ≤ E ∧ E ≤ √(v.1 * v.1 + v.2 * v.2) * e.Vrmax - e.Kc * (g.init j v).1.fieldCurrent X) →
      ((g.init j v).1.drive X).Efd = E := by
    intro E hE hl
    subst hE
    cases hX : g.exc with
    | none => simp [Gen.drive, Gen.init, hX]
    | some e =>
      cases e with
      | exdc1 e =>
        have := xe 3 (by simp [Gen.nexc, hX])
        simp only [Gen.init, hX, Exdc1.init] at this
        simp only [Gen.drive, Exdc1.efd]
        simp only [Gen.init, hX]
        exact this
      | esst1a e VT =>
        have := xe 3 (by simp [Gen.nexc, hX])
        simp only [Gen.init, hX, Esst1a.init] at this
        obtain ⟨l1, l2⟩ := hl e VT hX
        have hex : (g.init j v).1.exc = some (.esst1a (e.init (g.init j v).1.Efd v.1 v.2).1 (√(v.1 * v.1 + v.2 * v.2))) := by
          simp only [Gen.init, hX]
        simp only [Gen.drive, hex, Esst1a.efd]
        have h3 : X (.exc 3) = (g.init j v).1.Efd := this
        rw [h3]
        simp only [Esst1a.init]
        rw [max_eq_left l1, min_eq_left l2]
  have hpm : ∀ P, (g.init j v).1.Pmech = P → ((g.init j v).1.drive X).Pmech = P := by
    intro P hP
    subst hP
    cases hW : g.gov with
    | none => simp [Gen.drive, Gen.init, hW]
    | some w =>
      have h6 : ∀ k, k < 6 → k < g.ngov := fun k hk => by simpa [Gen.ngov, hW] using hk
      obtain ⟨s1, s2, s3, s4, s5⟩ := hw _ hW
      have hgv : (g.init j v).1.gov = some (w.init (g.init j v).1.Pmech 0).1 := by simp only [Gen.init, hW]
      simp only [Gen.drive, hgv]
      apply (Wsieg1.init_steady w _ s1 s2 s3 s4 X Z R _ (fun k hk => zw k (h6 k hk))).2 s5
      intro k hk
      rw [xw k (h6 k hk)]
      simp only [Gen.init, hW]
  -- machine
  have hmach : (∀ k, k < g.mach.size → (g.init j v).1.resid .resid X Z R (.gen k) = 0) ∧
      (g.init j v).1.igd X = curD g.pg g.qg v.1 v.2 ∧ (g.init j v).1.igq X = curQ g.pg g.qg v.1 v.2 := by
    cases hM : g.mach with
    | cls p =>
      rw [hM] at hm xg zg
      obtain ⟨a, b, c⟩ := Cls.init_steady p g.pg g.qg v.1 v.2 hV hm X Z R hx0 hx1 (by
        intro k hk
        rw [xg k hk]
        simp only [Gen.init, hM]) zg
      have hi : (g.init j v).1.mach = .cls (p.init g.pg g.qg v.1 v.2).1 := by simp only [Gen.init, hM]
      simp only [Gen.resid, Gen.igd, Gen.igq, hi]
      exact ⟨a, b, c⟩
    | rou p =>
      rw [hM] at hm xg zg
      obtain ⟨m1, m2, m3, m4, m5, m6⟩ := hm
      have hz : p.Ra * p.Ra + p.Xdpp * p.Xdpp ≠ 0 := by simp [m1, m2]
      have hi : (g.init j v).1.mach = .rou p := by simp only [Gen.init, hM]
      have key := fun u hE hP => Rou.init_steady p g.pg g.qg v.1 v.2 hz m5 m6 hV m3 m4 X Z R hx0 hx1 (by
        intro k hk
        rw [xg k hk]
        simp only [Gen.init, hM]) zg u hE hP
      have hfc := (key ⟨_, _, false, [], []⟩ rfl rfl).2.2.2.2
      have hE := hefd (p.init g.pg g.qg v.1 v.2).2.1 (by simp only [Gen.init, hM]) (by
        intro e VT hX
        simp only [Gen.FieldInReach, Gen.startField, hM, hX] at hf
        simp only [Gen.fieldCurrent, hi, hfc]
        exact hf)
      have hP := hpm g.pg (by simp only [Gen.init, hM, Rou.init])
      obtain ⟨a, b, c, d, _⟩ := key _ hE hP
      simp only [Gen.resid, Gen.igd, Gen.igq, hi]
      refine ⟨?_, c, d⟩
      intro k hk
      by_cases h1 : k = 1
      · subst h1
        rw [b, m1]
        simp
      · exact a k hk h1
    | sal p =>
      rw [hM] at hm xg zg
      obtain ⟨m1, m2⟩ := hm
      have hz : p.admittance.Ra * p.admittance.Ra + p.admittance.Xdpp * p.admittance.Xdpp ≠ 0 := by
        show p.Ra * p.Ra + p.Xdpp * p.Xdpp ≠ 0
        rcases m1 with h | h
        · nlinarith [mul_self_pos.mpr h, mul_self_nonneg p.Xdpp]
        · nlinarith [mul_self_pos.mpr h, mul_self_nonneg p.Ra]
      have hi : (g.init j v).1.mach = .sal p.admittance := by simp only [Gen.init, hM]
      have key := fun u hE hP => Sal.init_steady p.admittance g.pg g.qg v.1 v.2 hz rfl rfl m2 X Z R hx0 hx1 (by
        intro k hk
        rw [xg k hk]
        simp only [Gen.init, hM]) zg u hE hP
      have hfc := (key ⟨_, _, false, [], []⟩ rfl rfl).2.2.2
      have hE := hefd (p.admittance.init g.pg g.qg v.1 v.2).2.1 (by simp only [Gen.init, hM]) (by
        intro e VT hX
        simp only [Gen.FieldInReach, Gen.startField, hM, hX] at hf
        simp only [Gen.fieldCurrent, hi, hfc]
        exact hf)
      have hP := hpm (p.admittance.init g.pg g.qg v.1 v.2).2.2 (by simp only [Gen.init, hM])
      obtain ⟨a, b, c, _⟩ := key _ hE hP
      simp only [Gen.resid, Gen.igd, Gen.igq, hi]
      exact ⟨a, b, c⟩
  refine ⟨?_, hmach.2⟩
  intro ix hv hn
  cases ix with
  | net k => cases hn
  | gen k => exact hmach.1 k hv
  | exc k => exact hexc k hv
  | gov k => exact hgov k hv

end GridPACK.Dae
