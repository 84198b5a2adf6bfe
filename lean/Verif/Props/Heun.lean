import Verif.Model.DsStep
import Verif.Props.FlatStart
import Mathlib.Tactic.FieldSimp
import Mathlib.Tactic.Ring
import Mathlib.Tactic.LinearCombination
import Mathlib.Data.Fin.VecNotation
import Mathlib.Algebra.Module.Basic

/-! Property C165: a time step of a machine is a step of Heun's rule for the differential equations of the textbook.
-/
namespace GridPACK.DsStep
open GridPACK.Machines

/-! ### Specification -/

/-- A step of Heun's rule: the mean of the slope at the start and the slope at the end of an Euler step.  `f` and `g`
are the right-hand sides with the inputs (voltage, field voltage, mechanical power) of the two stages. -/
noncomputable def heun {n : ℕ} (dt : ℝ) (f g : (Fin n → ℝ) → Fin n → ℝ) (x : Fin n → ℝ) : Fin n → ℝ :=
  x + (dt / 2) • (f x + g (x + dt • f x))

/-- The swing equation of a machine with constant voltage `E` behind the reactance `X`, at the terminal voltage `v`:
rotor angle and speed. -/
noncomputable def swing (E X H D Pm : ℝ) (v : ℂ) (x : Fin 2 → ℝ) : Fin 2 → ℝ :=
  ![2 * Real.pi * 60 * (x 1 - 1),
    ((Pm - D * (x 1 - 1)) / x 1 - E * ‖v‖ * Real.sin (x 0 - v.arg) / X) / (2 * H)]

/-- The internal voltage that belongs to the state of a classical machine. -/
def Consistent (c : Classical) : Prop := c.e0 = c.eqprime * Complex.exp (c.ang0 * Complex.I)

/-! ### Classical model -/

theorem exp_mk (a : ℝ) : Complex.exp (a * Complex.I) = ⟨Real.cos a, Real.sin a⟩ := by
  apply Complex.ext
  · exact Complex.exp_ofReal_mul_I_re a
  · exact Complex.exp_ofReal_mul_I_im a

theorem classical_power (c : Classical) (a : ℝ) (e : ℂ) (he : e = c.eqprime * Complex.exp (a * Complex.I)) :
    (e * c.curr e).re = c.eqprime * ‖c.volt‖ * Real.sin (a - c.volt.arg) / c.dtr := by
  have h1 : e = ⟨c.eqprime * Real.cos a, c.eqprime * Real.sin a⟩ := by
    rw [he, exp_mk]; apply Complex.ext <;> simp
  have h2 : c.curr e = (starRingEnd ℂ) (e - c.volt) * (Complex.I / (c.dtr : ℂ)) := by
    rw [Classical.curr, map_div₀, map_mul, Complex.conj_I, Complex.conj_ofReal]
    by_cases hx : (c.dtr : ℂ) = 0
    · simp [hx]
    · field_simp; ring_nf; simp
  have h3 : Complex.I / (c.dtr : ℂ) = ⟨0, 1 / c.dtr⟩ := by
    apply Complex.ext
    · rw [Complex.div_ofReal_re]; simp
    · rw [Complex.div_ofReal_im]; simp
  rw [h2, h3, h1, Real.sin_sub]
  have hr := Complex.norm_mul_cos_arg c.volt
  have hi := Complex.norm_mul_sin_arg c.volt
  simp only [Complex.mul_re, Complex.mul_im, map_sub, Complex.sub_re, Complex.sub_im, Complex.conj_re, Complex.conj_im]
  rw [← hr, ← hi]
  ring

/-- The right-hand side with the parameters of a machine. -/
noncomputable def swingOf (c : Classical) : ℂ → (Fin 2 → ℝ) → Fin 2 → ℝ := swing c.eqprime c.dtr c.h c.d0 c.pmech

theorem classical_predictor (c : Classical) (dt : ℝ) (flag : Bool) (h : Consistent (c.advance flag)) :
    ∃ a1 s1 p1 p2 p3, a1 = (c.advance flag).ang0 + dt * swingOf c c.volt ![(c.advance flag).ang0, (c.advance flag).spd0] 0 ∧
    s1 = (c.advance flag).spd0 + dt * swingOf c c.volt ![(c.advance flag).ang0, (c.advance flag).spd0] 1 ∧
    c.predictor dt flag = { c.advance flag with
      pelect := p1, genP := p2, genQ := p3,
      dang0 := swingOf c c.volt ![(c.advance flag).ang0, (c.advance flag).spd0] 0,
      dspd0 := swingOf c c.volt ![(c.advance flag).ang0, (c.advance flag).spd0] 1,
      ang1 := a1, spd1 := s1, e1 := c.eqprime * Complex.exp (a1 * Complex.I) } := by
  set a := c.advance flag with ha
  have hpar : a.eqprime = c.eqprime ∧ a.dtr = c.dtr ∧ a.h = c.h ∧ a.d0 = c.d0 ∧ a.pmech = c.pmech ∧ a.volt = c.volt := by
    rw [ha, Classical.advance]; split_ifs <;> simp
  obtain ⟨p1, p2, p3, p4, p5, p6⟩ := hpar
  have e1 : (a.spd0 - 1) * (2 * Real.pi * 60) = swingOf c c.volt ![a.ang0, a.spd0] 0 := by
    simp [swingOf, swing]; ring
  have e2 : ((a.pmech - a.d0 * (a.spd0 - 1)) / a.spd0 - (a.e0 * a.curr a.e0).re) / (2 * a.h)
      = swingOf c c.volt ![a.ang0, a.spd0] 1 := by
    rw [classical_power a a.ang0 a.e0 h]
    simp [swingOf, swing, p1, p2, p3, p4, p5, p6]
  refine ⟨_, _, (a.e0 * a.curr a.e0).re, (a.volt * a.curr a.e0).re, (a.volt * a.curr a.e0).im, rfl, rfl, ?_⟩
  simp only [Classical.predictor, ← ha, e1, e2]
  simp only [mul_comm dt, p1, mul_comm (c.eqprime : ℂ)]

theorem classical_corrector (c : Classical) (dt : ℝ) (h : c.e1 = c.eqprime * Complex.exp (c.ang1 * Complex.I)) :
    (c.corrector dt).ang1 = c.ang0 + dt / 2 * (c.dang0 + swingOf c c.volt ![c.ang1, c.spd1] 0) ∧
    (c.corrector dt).spd1 = c.spd0 + dt / 2 * (c.dspd0 + swingOf c c.volt ![c.ang1, c.spd1] 1) ∧
    (c.corrector dt).e1 = c.eqprime * Complex.exp ((c.corrector dt).ang1 * Complex.I) ∧
    (c.corrector dt).eqprime = c.eqprime := by
  have e2 := classical_power c c.ang1 c.e1 h
  refine ⟨?_, ?_, ?_, rfl⟩
  · simp [Classical.corrector, swingOf, swing]; ring
  · simp only [Classical.corrector, e2]; simp [swingOf, swing]; ring
  · simp only [Classical.corrector]; ring

/-- **C165** (classical model) The step of a classical machine, given the terminal voltages of the two network
solutions, is a step of Heun's rule for the swing equation, and its internal voltage stays the constant magnitude at
the rotor angle. -/
theorem C165_classical_heun (c : Classical) (u : ℝ) (v1 v2 : ℂ) (dt : ℝ) (flag : Bool) (h : Consistent (c.advance flag)) :
    ∃ c', cycle v1 v2 dt flag (.classical c u) = .classical c' u ∧
      ![c'.ang1, c'.spd1] = heun dt (swing c.eqprime c.dtr c.h c.d0 c.pmech v1) (swing c.eqprime c.dtr c.h c.d0 c.pmech v2)
        ![(c.advance flag).ang0, (c.advance flag).spd0] ∧
      Consistent (c'.advance false) ∧ c'.advance false = { c' with ang0 := c'.ang1, spd0 := c'.spd1, e0 := c'.e1 } := by
  set c1 := (c.predCur flag).setVoltage v1 with hc1
  have hv : c1.volt = v1 := rfl
  have ha : (c1.advance flag).ang0 = (c.advance flag).ang0 ∧ (c1.advance flag).spd0 = (c.advance flag).spd0 ∧
      (c1.advance flag).e0 = (c.advance flag).e0 ∧ (c1.advance flag).eqprime = (c.advance flag).eqprime ∧
      swingOf c1 = swingOf c ∧ (c1.advance flag).dtr = c.dtr ∧ (c1.advance flag).h = c.h ∧ (c1.advance flag).d0 = c.d0 ∧
      (c1.advance flag).pmech = c.pmech ∧ c1.eqprime = c.eqprime ∧ (c1.advance flag).eqprime = c.eqprime := by
    cases flag <;> refine ⟨rfl, rfl, rfl, rfl, rfl, rfl, rfl, rfl, rfl, rfl, rfl⟩
  obtain ⟨a1, a2, a3, a4, a5, a6, a7, a8, a9, a10, a11⟩ := ha
  obtain ⟨x1, s1, p1, p2, p3, hx, hs, hp⟩ := classical_predictor c1 dt flag (by rw [Consistent, a1, a3, a4]; exact h)
  set c3 := ((c1.predictor dt flag).corrCur).setVoltage v2 with hc3
  have hcor := classical_corrector c3 dt (by rw [hc3, hp]; simp [Classical.corrCur, Classical.setVoltage, a10, a11])
  have hsw : swingOf c3 = swingOf c := by
    rw [hc3, hp]; simp [swingOf, Classical.corrCur, Classical.setVoltage, a6, a7, a8, a9, a11]
  have b : c3.ang0 = (c.advance flag).ang0 ∧ c3.spd0 = (c.advance flag).spd0 ∧ c3.ang1 = x1 ∧ c3.spd1 = s1 ∧ c3.volt = v2 ∧
      c3.dang0 = swingOf c v1 ![(c.advance flag).ang0, (c.advance flag).spd0] 0 ∧
      c3.dspd0 = swingOf c v1 ![(c.advance flag).ang0, (c.advance flag).spd0] 1 := by
    rw [hc3, hp]; simp [Classical.corrCur, Classical.setVoltage, a1, a2, a5, hv]
  obtain ⟨b1, b2, b3, b4, b5, b6, b7⟩ := b
  rw [hsw, b1, b2, b3, b4, b5, b6, b7] at hcor
  rw [a1, a2, a5, hv] at hx hs
  obtain ⟨q1, q2, q3, q4⟩ := hcor
  refine ⟨c3.corrector dt, rfl, ?_, ?_, rfl⟩
  · have hvec : ![x1, s1] = ![(c.advance flag).ang0, (c.advance flag).spd0]
        + dt • swingOf c v1 ![(c.advance flag).ang0, (c.advance flag).spd0] := by
      funext i; fin_cases i
      · simpa using hx
      · simpa using hs
    change _ = heun dt (swingOf c v1) (swingOf c v2) _
    rw [heun, ← hvec, q1, q2]
    funext i; fin_cases i <;> simp <;> ring
  · change (c3.corrector dt).e1 = _
    rw [q3, ← q4]; rfl

/-- The machine that `init` returns is consistent. -/
theorem C165_classical_start (c : Classical) (mag ang : ℝ) : Consistent ((c.init mag ang).advance true) := by
  simp only [Consistent, Classical.advance, Classical.init, if_true]
  exact (Complex.norm_mul_exp_arg_mul_I _).symm

/-- A machine with `E = 1`, `X = 1/2`, `H = 3` and the power 1, at rest at the angle 0 of its terminal voltage: it
starts to accelerate with 1/6 and turns by `10 π dt²`. -/
example (c : Classical) (dt : ℝ) (h1 : c.eqprime = 1) (h2 : c.dtr = 1 / 2) (h3 : c.h = 3) (h4 : c.d0 = 0) (h5 : c.pmech = 1)
    (h6 : c.ang0 = 0) (h7 : c.spd0 = 1) (h8 : c.e0 = 1) (u : ℝ) :
    ∃ c', cycle 1 1 dt true (.classical c u) = .classical c' u ∧ c'.ang1 = 10 * Real.pi * dt ^ 2 := by
  obtain ⟨c', hc, hx, _⟩ := C165_classical_heun c u 1 1 dt true (by simp [Consistent, Classical.advance, h1, h6, h8])
  refine ⟨c', hc, ?_⟩
  have := congrFun hx 0
  simp [heun, swing, Classical.advance, h1, h2, h3, h4, h5, h6, h7] at this
  rw [this]; ring

/-! ### Detailed models -/

/-- Stator current in the frame of the rotor (d + i q): subtransient voltage less terminal voltage, over
`Ra + i X''`. -/
noncomputable def stator (Ra X : ℝ) (e v : ℂ) (δ : ℝ) : ℂ :=
  (e - v * Complex.exp (-(δ - Real.pi / 2 : ℝ) * Complex.I)) / (Ra + X * Complex.I)

/-- The round rotor machine (GENROU) with the inputs field voltage, mechanical power and terminal voltage: rotor
angle, speed deviation, `E'q`, `ψ'd`, `ψ'q`, `E'd`. -/
noncomputable def roundRotor (p : GenrouPar) (Efd Pm : ℝ) (v : ℂ) (x : Fin 6 → ℝ) : Fin 6 → ℝ :=
  let ψd := ((p.Xdpp - p.Xl) * x 2 + (p.Xdp - p.Xdpp) * x 3) / (p.Xdp - p.Xl)
  let ψq := -((p.Xdpp - p.Xl) * x 5 + (p.Xqp - p.Xdpp) * x 4) / (p.Xqp - p.Xl)
  let I := stator p.Ra p.Xdpp ⟨-ψq, ψd⟩ v (x 0)
  let kd := x 2 - x 3 - (p.Xdp - p.Xl) * I.re
  let kq := x 5 - x 4 + (p.Xqp - p.Xl) * I.im
  ![2 * Real.pi * 60 * x 1,
    ((Pm - p.D * x 1) / (1 + x 1) - (ψd * I.im - ψq * I.re)) / (2 * p.H),
    (Efd - (1 + p.sat (x 2)) * x 2 - (p.Xd - p.Xdp) * (I.re + (p.Xdp - p.Xdpp) / (p.Xdp - p.Xl) ^ 2 * kd)) / p.Tdop,
    kd / p.Tdopp,
    kq / p.Tqopp,
    (-x 5 + (p.Xq - p.Xqp) * (I.im - (p.Xqp - p.Xdpp) / (p.Xqp - p.Xl) ^ 2 * kq)) / p.Tqop]

/-- The salient pole machine (GENSAL): rotor angle, speed deviation, `E'q`, `ψ'd`, `ψ''q`. -/
noncomputable def salientPole (p : GensalPar) (Efd Pm : ℝ) (v : ℂ) (x : Fin 5 → ℝ) : Fin 5 → ℝ :=
  let ψd := ((p.Xdpp - p.Xl) * x 2 + (p.Xdp - p.Xdpp) * x 3) / (p.Xdp - p.Xl)
  let I := stator p.Ra p.Xdpp ⟨-x 4, ψd⟩ v (x 0)
  let kd := x 2 - x 3 - (p.Xdp - p.Xl) * I.re
  ![2 * Real.pi * 60 * x 1,
    ((Pm - p.D * x 1) / (1 + x 1) - (ψd * I.im - x 4 * I.re)) / (2 * p.H),
    (Efd - (1 + p.sat (x 2)) * x 2 - (p.Xd - p.Xdp) * (I.re + (p.Xdp - p.Xdpp) / (p.Xdp - p.Xl) ^ 2 * kd)) / p.Tdop,
    kd / p.Tdopp,
    (-x 4 - (p.Xq - p.Xdpp) * I.im) / p.Tqopp]

/-- The variables of GENROU. -/
def X6.vec (x : X6) : Fin 6 → ℝ := ![x.δ, x.w, x.eqp, x.psid, x.psiq, x.ed]

/-- The variables of GENSAL. -/
def X5.vec (x : X5) : Fin 5 → ℝ := ![x.δ, x.w, x.eqp, x.psid, x.psiq]

theorem terminal_eq (Vd Vq Ra X δ : ℝ) (v : ℂ) :
    terminal Vd Vq (Ra / (Ra * Ra + X * X)) (-X / (Ra * Ra + X * X)) δ ‖v‖ v.arg =
      ((stator Ra X ⟨Vd, Vq⟩ v δ).re, (stator Ra X ⟨Vd, Vq⟩ v δ).im) := by
  have h1 : Complex.exp (-(δ - Real.pi / 2 : ℝ) * Complex.I) = ⟨Real.sin δ, Real.cos δ⟩ := by
    have : (-(δ - Real.pi / 2 : ℝ) : ℂ) = ((Real.pi / 2 - δ : ℝ) : ℂ) := by push_cast; ring
    rw [this, exp_mk, Real.cos_pi_div_two_sub, Real.sin_pi_div_two_sub]
  have h2 : (1 : ℂ) / (Ra + X * Complex.I) = ⟨Ra / (Ra * Ra + X * X), -X / (Ra * Ra + X * X)⟩ := by
    have h : (Ra + X * Complex.I : ℂ) = ⟨Ra, X⟩ := by apply Complex.ext <;> simp
    rw [h, one_div]
    apply Complex.ext
    · rw [Complex.inv_re, Complex.normSq_mk]
    · rw [Complex.inv_im, Complex.normSq_mk]
  have h3 : ∀ z : ℂ, z / (Ra + X * Complex.I) = z * ⟨Ra / (Ra * Ra + X * X), -X / (Ra * Ra + X * X)⟩ := by
    intro z; rw [← h2, mul_one_div]
  rw [stator, h1, h3]
  have hr := Complex.norm_mul_cos_arg v
  have hi := Complex.norm_mul_sin_arg v
  simp only [terminal, Complex.mul_re, Complex.mul_im, Complex.sub_re, Complex.sub_im, hr, hi]

theorem genrou_deriv (p : GenrouPar) (x : X6) (Efd Pm : ℝ) (v : ℂ) (i : ℝ × ℝ)
    (hi : i = terminal (-p.psiqpp x) (p.psidpp x) (p.Ra / (p.Ra * p.Ra + p.Xdpp * p.Xdpp))
      (-p.Xdpp / (p.Ra * p.Ra + p.Xdpp * p.Xdpp)) x.δ ‖v‖ v.arg) :
    X6.vec (p.deriv x i.1 i.2 Efd Pm) = roundRotor p Efd Pm v (X6.vec x) := by
  rw [terminal_eq] at hi
  have hq : p.psiqpp x = -((p.Xdpp - p.Xl) * x.ed + (p.Xqp - p.Xdpp) * x.psiq) / (p.Xqp - p.Xl) := by
    rw [GenrouPar.psiqpp]; ring
  have hd : p.psidpp x = ((p.Xdpp - p.Xl) * x.eqp + (p.Xdp - p.Xdpp) * x.psid) / (p.Xdp - p.Xl) := by
    rw [GenrouPar.psidpp]; ring
  have e0 : X6.vec x 0 = x.δ := rfl
  have e1 : X6.vec x 1 = x.w := rfl
  have e2 : X6.vec x 2 = x.eqp := rfl
  have e3 : X6.vec x 3 = x.psid := rfl
  have e4 : X6.vec x 4 = x.psiq := rfl
  have e5 : X6.vec x 5 = x.ed := rfl
  simp only [roundRotor, e0, e1, e2, e3, e4, e5, ← hq, ← hd]
  have i1 : (stator p.Ra p.Xdpp ⟨-p.psiqpp x, p.psidpp x⟩ v x.δ).re = i.1 := by rw [hi]
  have i2 : (stator p.Ra p.Xdpp ⟨-p.psiqpp x, p.psidpp x⟩ v x.δ).im = i.2 := by rw [hi]
  rw [i1, i2]
  funext k
  fin_cases k <;> simp [X6.vec, GenrouPar.deriv, GenrouPar.lad] <;> ring

theorem X6_add_vec (x d : X6) (t : ℝ) : X6.vec (x.add d t) = X6.vec x + t • X6.vec d := by
  funext k; fin_cases k <;> simp [X6.vec, X6.add] <;> ring

theorem X6_mean_vec (d d' : X6) : X6.vec (d.mean d') = (1 / 2 : ℝ) • (X6.vec d + X6.vec d') := by
  funext k; fin_cases k <;> simp [X6.vec, X6.mean] <;> ring

/-- **C165** (GENROU) The step of a round rotor machine in service, given the terminal voltages of the two network
solutions, is a step of Heun's rule for the equations of the machine; the field voltage and the mechanical power are
those of its controllers before and after their predictor. -/
theorem C165_genrou_heun (m : Genrou) (hs : m.status = true) (ht : m.tripped = false) (v1 v2 : ℂ) (dt : ℝ) (flag : Bool) :
    ∃ m', cycle v1 v2 dt flag (.genrou m) = .genrou m' ∧
      X6.vec m'.x = heun dt (roundRotor m.par m.exc.efd m.gov.pmech v1)
        (roundRotor m.par (m.exc.call ‖v1‖ dt .predictor).efd (m.gov.call m.x.w dt .predictor).pmech v2) (X6.vec m.x) := by
  refine ⟨_, rfl, ?_⟩
  simp only [Genrou.corrector, Genrou.setVoltage, Genrou.corrCur, Genrou.predictor, Genrou.predCur, hs, ht, if_true,
    Bool.false_eq_true, if_false]
  rw [X6_add_vec, X6_mean_vec, genrou_deriv (v := v1) (hi := rfl), genrou_deriv (v := v2) (hi := rfl), X6_add_vec,
    genrou_deriv (v := v1) (hi := rfl), heun, smul_smul]
  congr 2
  ring

theorem stator_zero (Ra X : ℝ) : stator Ra X ⟨0, 1⟩ 1 0 = 0 := by
  have h1 : Complex.exp (-(0 - Real.pi / 2 : ℝ) * Complex.I) = ⟨0, 1⟩ := by
    have : (-(0 - Real.pi / 2 : ℝ) : ℂ) = ((Real.pi / 2 : ℝ) : ℂ) := by push_cast; ring
    rw [this, exp_mk, Real.cos_pi_div_two, Real.sin_pi_div_two]
  rw [stator, h1]
  simp

/-- A machine in phase with its terminal voltage, without current, under the mechanical power 1, with `H = 5`. -/
example (dt : ℝ) : ∃ m', cycle 1 1 dt true (.genrou { sampleGenrou with x := ⟨0, 0, 1, 1, 0, 0⟩, gov := .none 1 }) = .genrou m' ∧
    m'.x.δ = 6 * Real.pi * dt ^ 2 := by
  obtain ⟨m', hm, hx⟩ := C165_genrou_heun { sampleGenrou with x := ⟨0, 0, 1, 1, 0, 0⟩, gov := .none 1 } rfl rfl 1 1 dt true
  refine ⟨m', hm, ?_⟩
  have h := congrFun hx 0
  have hst := stator_zero 0 0.2
  have e2 : (![0, 0, 1, 1, 0, 0] : Fin 6 → ℝ) 2 = 1 := rfl
  have e3 : (![0, 0, 1, 1, 0, 0] : Fin 6 → ℝ) 3 = 1 := rfl
  have e4 : (![0, 0, 1, 1, 0, 0] : Fin 6 → ℝ) 4 = 0 := rfl
  have e5 : (![0, 0, 1, 1, 0, 0] : Fin 6 → ℝ) 5 = 0 := rfl
  norm_num [heun, roundRotor, X6.vec, sampleGenrou, Gov.call, Gov.pmech, e2, e3, e4, e5] at h hst
  rw [h, hst]
  simp
  ring

theorem gensal_deriv (p : GensalPar) (x : X5) (Efd Pm : ℝ) (v : ℂ) (i : ℝ × ℝ)
    (hi : i = terminal (-x.psiq) (p.psidpp x) (p.Ra / (p.Ra * p.Ra + p.Xdpp * p.Xdpp))
      (-p.Xdpp / (p.Ra * p.Ra + p.Xdpp * p.Xdpp)) x.δ ‖v‖ v.arg) :
    X5.vec (p.deriv x i.1 i.2 Efd Pm) = salientPole p Efd Pm v (X5.vec x) := by
  rw [terminal_eq] at hi
  have hd : p.psidpp x = ((p.Xdpp - p.Xl) * x.eqp + (p.Xdp - p.Xdpp) * x.psid) / (p.Xdp - p.Xl) := by
    rw [GensalPar.psidpp]; ring
  have e0 : X5.vec x 0 = x.δ := rfl
  have e1 : X5.vec x 1 = x.w := rfl
  have e2 : X5.vec x 2 = x.eqp := rfl
  have e3 : X5.vec x 3 = x.psid := rfl
  have e4 : X5.vec x 4 = x.psiq := rfl
  simp only [salientPole, e0, e1, e2, e3, e4, ← hd]
  have i1 : (stator p.Ra p.Xdpp ⟨-x.psiq, p.psidpp x⟩ v x.δ).re = i.1 := by rw [hi]
  have i2 : (stator p.Ra p.Xdpp ⟨-x.psiq, p.psidpp x⟩ v x.δ).im = i.2 := by rw [hi]
  rw [i1, i2]
  funext k
  fin_cases k <;> simp [X5.vec, GensalPar.deriv, GensalPar.lad] <;> ring

theorem X5_add_vec (x d : X5) (t : ℝ) : X5.vec (x.add d t) = X5.vec x + t • X5.vec d := by
  funext k; fin_cases k <;> simp [X5.vec, X5.add] <;> ring

theorem X5_mean_vec (d d' : X5) : X5.vec (d.mean d') = (1 / 2 : ℝ) • (X5.vec d + X5.vec d') := by
  funext k; fin_cases k <;> simp [X5.vec, X5.mean] <;> ring

/-- **C165** (GENSAL) The step of a salient pole machine in service is a step of Heun's rule for the equations of the
machine, from the state with which the step starts. -/
theorem C165_gensal_heun (m : Gensal) (hs : m.status = true) (ht : m.tripped = false) (v1 v2 : ℂ) (dt : ℝ) (flag : Bool) :
    ∃ m', cycle v1 v2 dt flag (.gensal m) = .gensal m' ∧
      X5.vec m'.x1 = heun dt (salientPole m.par m.exc.efd m.gov.pmech v1)
        (salientPole m.par (m.exc.call ‖v1‖ dt .predictor).efd
          (m.gov.call (m.advance flag).x0.w dt .predictor).pmech v2) (X5.vec (m.advance flag).x0) := by
  refine ⟨_, rfl, ?_⟩
  cases flag <;>
  · simp only [Gensal.corrector, Gensal.setVoltage, Gensal.corrCur, Gensal.predictor, Gensal.predCur, Gensal.advance, hs, ht,
      if_true, Bool.false_eq_true, if_false]
    rw [X5_add_vec, X5_mean_vec, gensal_deriv (v := v1) (hi := rfl), gensal_deriv (v := v2) (hi := rfl), X5_add_vec,
      gensal_deriv (v := v1) (hi := rfl), heun, smul_smul]
    congr 2
    ring

example (dt : ℝ) : ∃ m', cycle 1 1 dt true (.gensal { sampleGensal with x0 := ⟨0, 0, 1, 1, 0⟩, gov := .none 1 }) = .gensal m' ∧
    m'.x1.δ = 6 * Real.pi * dt ^ 2 := by
  obtain ⟨m', hm, hx⟩ := C165_gensal_heun { sampleGensal with x0 := ⟨0, 0, 1, 1, 0⟩, gov := .none 1 } rfl rfl 1 1 dt true
  refine ⟨m', hm, ?_⟩
  have h := congrFun hx 0
  have hst := stator_zero 0 0.2
  have e2 : (![0, 0, 1, 1, 0] : Fin 5 → ℝ) 2 = 1 := rfl
  have e3 : (![0, 0, 1, 1, 0] : Fin 5 → ℝ) 3 = 1 := rfl
  have e4 : (![0, 0, 1, 1, 0] : Fin 5 → ℝ) 4 = 0 := rfl
  norm_num [heun, salientPole, X5.vec, sampleGensal, Gov.call, Gov.pmech, Gensal.advance, e2, e3, e4] at h hst
  rw [h, hst]
  simp
  ring

end GridPACK.DsStep
