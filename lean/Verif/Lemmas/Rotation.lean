import Verif.Lemmas.Machines
import Verif.Model.DsStep
import Mathlib.Analysis.SpecialFunctions.Complex.Arg

/-! Rotation of all angles of the dynamic simulation by the same angle. -/
namespace GridPACK.DsStep
open GridPACK.Machines

/-- Multiplication by `turn τ` is the rotation by `τ`. -/
noncomputable def turn (τ : ℝ) : ℂ := ⟨Real.cos τ, Real.sin τ⟩

theorem turn_eq (τ : ℝ) : turn τ = Complex.exp (τ * Complex.I) := by
  apply Complex.ext
  · rw [Complex.exp_ofReal_mul_I_re]; rfl
  · rw [Complex.exp_ofReal_mul_I_im]; rfl

theorem norm_turn (τ : ℝ) : ‖turn τ‖ = 1 := by rw [turn_eq, Complex.norm_exp_ofReal_mul_I]

theorem turn_ne_zero (τ : ℝ) : turn τ ≠ 0 := by rw [turn_eq]; exact Complex.exp_ne_zero _

theorem turn_inj {a b : ℝ} (h : turn a = turn b) : ∃ k : ℤ, a = b + 2 * Real.pi * k := by
  have h1 : Real.cos a = Real.cos b := (Complex.ext_iff.mp h).1
  have h2 : Real.sin a = Real.sin b := (Complex.ext_iff.mp h).2
  obtain ⟨k, hk⟩ := Real.Angle.angle_eq_iff_two_pi_dvd_sub.mp (Real.Angle.cos_sin_inj h1 h2)
  exact ⟨k, by linarith⟩

theorem arg_turn {z : ℂ} (hz : z ≠ 0) (θ : ℝ) : ∃ τ, Complex.arg (turn θ * z) = Complex.arg z + τ ∧ turn τ = turn θ := by
  have h := Complex.arg_mul_coe_angle (turn_ne_zero θ) hz
  have ht : ((Complex.arg (turn θ) : ℝ) : Real.Angle) = (θ : Real.Angle) := by
    have := Complex.arg_cos_add_sin_mul_I_coe_angle (θ : Real.Angle)
    rw [Real.Angle.cos_coe, Real.Angle.sin_coe] at this
    have e : turn θ = (Real.cos θ : ℂ) + (Real.sin θ : ℂ) * Complex.I := (Complex.re_add_im (turn θ)).symm
    rw [e, this]
  rw [ht] at h
  have h' : ((Complex.arg (turn θ * z) : ℝ) : Real.Angle) = ((θ + Complex.arg z : ℝ) : Real.Angle) := by
    rw [h]; rfl
  obtain ⟨k, hk⟩ := Real.Angle.angle_eq_iff_two_pi_dvd_sub.mp h'
  refine ⟨θ + k * (2 * Real.pi), by linarith, ?_⟩
  apply Complex.ext
  · exact Real.cos_add_int_mul_two_pi θ k
  · exact Real.sin_add_int_mul_two_pi θ k

theorem phasor_re {mag a a' τ : ℝ} (h : phasor mag a' = turn τ * phasor mag a) :
    mag * Real.cos a' = Real.cos τ * (mag * Real.cos a) - Real.sin τ * (mag * Real.sin a) ∧
    mag * Real.sin a' = Real.cos τ * (mag * Real.sin a) + Real.sin τ * (mag * Real.cos a) := by
  refine ⟨congrArg Complex.re h, congrArg Complex.im h⟩

theorem phasor_arg (v : ℂ) : phasor ‖v‖ v.arg = v := by
  apply Complex.ext
  · exact Complex.norm_mul_cos_arg v
  · exact Complex.norm_mul_sin_arg v

theorem phasor_set (τ : ℝ) (v : ℂ) : phasor ‖turn τ * v‖ (turn τ * v).arg = turn τ * phasor ‖v‖ v.arg := by
  rw [phasor_arg, phasor_arg]

theorem terminal_turn {mag a a' τ : ℝ} (h : phasor mag a' = turn τ * phasor mag a) (Vd Vq G B δ : ℝ) :
    terminal Vd Vq G B (δ + τ) mag a' = terminal Vd Vq G B δ mag a := by
  obtain ⟨h1, h2⟩ := phasor_re h
  have cs := Real.cos_sq_add_sin_sq τ
  have e1 : mag * Real.cos a' * Real.sin (δ + τ) - mag * Real.sin a' * Real.cos (δ + τ) =
      mag * Real.cos a * Real.sin δ - mag * Real.sin a * Real.cos δ := by
    rw [h1, h2, Real.sin_add, Real.cos_add]
    linear_combination (mag * Real.cos a * Real.sin δ - mag * Real.sin a * Real.cos δ) * cs
  have e2 : mag * Real.cos a' * Real.cos (δ + τ) + mag * Real.sin a' * Real.sin (δ + τ) =
      mag * Real.cos a * Real.cos δ + mag * Real.sin a * Real.sin δ := by
    rw [h1, h2, Real.sin_add, Real.cos_add]
    linear_combination (mag * Real.cos a * Real.cos δ + mag * Real.sin a * Real.sin δ) * cs
  simp only [terminal, e1, e2]

theorem norton_turn (Vd Vq G B δ k τ : ℝ) :
    nortonCurrent Vd Vq G B (δ + τ) k = turn τ * nortonCurrent Vd Vq G B δ k := by
  apply Complex.ext <;> simp only [nortonCurrent, turn, Complex.mul_re, Complex.mul_im, Real.sin_add, Real.cos_add] <;> ring

theorem power_turn {mag a a' τ : ℝ} (h : phasor mag a' = turn τ * phasor mag a) (Id Iq δ : ℝ) :
    mag * Real.cos a' * (Id * Real.sin (δ + τ) + Iq * Real.cos (δ + τ)) +
        mag * Real.sin a' * (-Id * Real.cos (δ + τ) + Iq * Real.sin (δ + τ)) =
      mag * Real.cos a * (Id * Real.sin δ + Iq * Real.cos δ) +
        mag * Real.sin a * (-Id * Real.cos δ + Iq * Real.sin δ) ∧
    mag * Real.sin a' * (Id * Real.sin (δ + τ) + Iq * Real.cos (δ + τ)) -
        mag * Real.cos a' * (-Id * Real.cos (δ + τ) + Iq * Real.sin (δ + τ)) =
      mag * Real.sin a * (Id * Real.sin δ + Iq * Real.cos δ) -
        mag * Real.cos a * (-Id * Real.cos δ + Iq * Real.sin δ) := by
  obtain ⟨h1, h2⟩ := phasor_re h
  have cs := Real.cos_sq_add_sin_sq τ
  rw [h1, h2, Real.sin_add, Real.cos_add]
  constructor
  all_goals try dsimp only
  · linear_combination (mag * Real.cos a * (Id * Real.sin δ + Iq * Real.cos δ) +
        mag * Real.sin a * (-Id * Real.cos δ + Iq * Real.sin δ)) * cs
  · linear_combination (mag * Real.sin a * (Id * Real.sin δ + Iq * Real.cos δ) -
        mag * Real.cos a * (-Id * Real.cos δ + Iq * Real.sin δ)) * cs

/-! ### GENROU -/

/-- The rotor angle is advanced by `τ`. -/
def shift6 (τ : ℝ) (x : X6) : X6 := { x with δ := x.δ + τ }

/-- `m'` is `m` rotated by `τ`; `r`: the values that `predictor` sets are related too. -/
structure RouRot (τ : ℝ) (r : Prop) (m m' : Genrou) : Prop where
  par : m'.par = m.par
  status : m.status = true ∧ m'.status = true
  tripped : m.tripped = false ∧ m'.tripped = false
  mag : m'.presentMag = m.presentMag
  volt : phasor m.presentMag m'.presentAng = turn τ * phasor m.presentMag m.presentAng
  x : m'.x = shift6 τ m.x
  x1 : r → m'.x1 = shift6 τ m.x1
  dx : r → m'.dx = m.dx
  Id : m'.Id = m.Id
  Iq : m'.Iq = m.Iq
  G : m'.G = m.G
  B : m'.B = m.B
  genP : m'.genP = m.genP
  genQ : m'.genQ = m.genQ
  exc : m'.exc = m.exc
  gov : m'.gov = m.gov
  cur : m'.INorton = turn τ * m.INorton

theorem RouRot.predCur {τ : ℝ} {r : Prop} {m m' : Genrou} (h : RouRot τ r m m') : RouRot τ r m.predCur m'.predCur := by
  have hp := power_turn h.volt m.Id m.Iq m.x.δ
  refine ⟨h.par, h.status, h.tripped, h.mag, h.volt, h.x, h.x1, h.dx, h.Id, h.Iq, ?_, ?_, ?_, ?_, h.exc, h.gov, ?_⟩
  · simp only [Genrou.predCur, h.par]
  · simp only [Genrou.predCur, h.par]
  · simp only [Genrou.predCur, h.mag, h.Id, h.Iq, h.x, shift6]; exact hp.1
  · simp only [Genrou.predCur, h.mag, h.Id, h.Iq, h.x, shift6]; exact hp.2
  · simp only [Genrou.predCur, inject, h.status.1, h.status.2, h.tripped.1, h.tripped.2, if_true, Bool.false_eq_true,
      if_false, h.par, h.x]
    exact norton_turn ..

theorem RouRot.corrCur {τ : ℝ} {r : Prop} (hr : r) {m m' : Genrou} (h : RouRot τ r m m') :
    RouRot τ r m.corrCur m'.corrCur := by
  refine ⟨h.par, h.status, h.tripped, h.mag, h.volt, h.x, h.x1, h.dx, h.Id, h.Iq, ?_, ?_, h.genP, h.genQ, h.exc, h.gov,
    ?_⟩
  · simp only [Genrou.corrCur, h.par]
  · simp only [Genrou.corrCur, h.par]
  · simp only [Genrou.corrCur, inject, h.status.1, h.status.2, h.tripped.1, h.tripped.2, if_true, Bool.false_eq_true,
      if_false, h.par, h.x1 hr]
    exact norton_turn ..

theorem RouRot.setVoltage {τ : ℝ} {r : Prop} {m m' : Genrou} (h : RouRot τ r m m') (v : ℂ) :
    RouRot τ r (m.setVoltage v) (m'.setVoltage (turn τ * v)) := by
  have hn : ‖turn τ * v‖ = ‖v‖ := by rw [norm_mul, norm_turn, one_mul]
  refine ⟨h.par, h.status, h.tripped, hn, ?_, h.x, h.x1, h.dx, h.Id, h.Iq, h.G, h.B, h.genP, h.genQ, h.exc, h.gov, h.cur⟩
  show phasor ‖v‖ (turn τ * v).arg = turn τ * phasor ‖v‖ v.arg
  rw [← phasor_set, hn]

/-- Closes the goals for the fields that are not changed. -/
macro "rot_close " h:ident : tactic => `(tactic| (
  constructor
  all_goals try dsimp only
  all_goals try first
    | exact RouRot.par $h | exact RouRot.status $h | exact RouRot.tripped $h | exact RouRot.mag $h
    | exact RouRot.volt $h | exact RouRot.x $h | exact RouRot.x1 $h | exact RouRot.dx $h | exact RouRot.G $h
    | exact RouRot.B $h | exact RouRot.genP $h | exact RouRot.genQ $h | exact RouRot.cur $h
    | exact RouRot.exc $h | exact RouRot.gov $h
    | rfl | exact fun _ => rfl | exact ⟨rfl, rfl⟩
    | rw [RouRot.mag $h] | (rw [RouRot.mag $h]; rfl) | (rw [RouRot.x $h]; rfl) | (rw [RouRot.x1 $h trivial]; rfl)
    | exact norton_turn ..))

theorem RouRot.predictor {τ : ℝ} {r : Prop} {m m' : Genrou} (h : RouRot τ r m m') (dt : ℝ) :
    RouRot τ True (m.predictor dt) (m'.predictor dt) := by
  have ht := terminal_turn h.volt (-m.par.psiqpp m.x) (m.par.psidpp m.x) m.G m.B m.x.δ
  have hi : terminal (-m'.par.psiqpp m'.x) (m'.par.psidpp m'.x) m'.G m'.B m'.x.δ m'.presentMag m'.presentAng =
      terminal (-m.par.psiqpp m.x) (m.par.psidpp m.x) m.G m.B m.x.δ m.presentMag m.presentAng := by
    rw [h.par, h.x, h.G, h.B, h.mag]; exact ht
  have hd : ∀ a b c d, m'.par.deriv m'.x a b c d = m.par.deriv m.x a b c d := by intros; rw [h.par, h.x]; rfl
  have s1 := h.status.1
  have s2 := h.status.2
  have t1 := h.tripped.1
  have t2 := h.tripped.2
  simp only [Genrou.predictor, s1, s2, t1, t2, if_true, Bool.false_eq_true, if_false, hi, hd, h.exc, h.gov]
  rot_close h
  intro _
  show m'.x.add _ dt = _
  rw [h.x]
  simp only [X6.add, shift6, X6.mk.injEq, and_true]
  ring

theorem RouRot.corrector {τ : ℝ} {m m' : Genrou} (h : RouRot τ True m m') (dt : ℝ) :
    RouRot τ True (m.corrector dt) (m'.corrector dt) := by
  have hx1 := h.x1 trivial
  have hdx := h.dx trivial
  have ht := terminal_turn h.volt (-m.par.psiqpp m.x1) (m.par.psidpp m.x1) m.G m.B m.x1.δ
  have hi : terminal (-m'.par.psiqpp m'.x1) (m'.par.psidpp m'.x1) m'.G m'.B m'.x1.δ m'.presentMag m'.presentAng =
      terminal (-m.par.psiqpp m.x1) (m.par.psidpp m.x1) m.G m.B m.x1.δ m.presentMag m.presentAng := by
    rw [h.par, hx1, h.G, h.B, h.mag]; exact ht
  have s1 := h.status.1
  have s2 := h.status.2
  have t1 := h.tripped.1
  have t2 := h.tripped.2
  simp only [Genrou.corrector, s1, s2, t1, t2, if_true, Bool.false_eq_true, if_false, hi, h.exc, h.gov]
  rot_close h
  show m'.x.add (m'.dx.mean (m'.par.deriv _ _ _ _ _)) dt = _
  rw [h.x, hdx, h.par, hx1]
  simp only [X6.add, X6.mean, shift6, GenrouPar.deriv, GenrouPar.lad, GenrouPar.psidpp, GenrouPar.psiqpp, X6.mk.injEq,
    and_true]
  ring

/-! ### GENSAL -/

/-- The rotor angle is advanced by `τ`. -/
def shift5 (τ : ℝ) (x : X5) : X5 := { x with δ := x.δ + τ }

/-- As `RouRot`. -/
structure SalRot (τ : ℝ) (r : Prop) (m m' : Gensal) : Prop where
  par : m'.par = m.par
  status : m.status = true ∧ m'.status = true
  tripped : m.tripped = false ∧ m'.tripped = false
  mag : m'.presentMag = m.presentMag
  volt : phasor m.presentMag m'.presentAng = turn τ * phasor m.presentMag m.presentAng
  x0 : m'.x0 = shift5 τ m.x0
  x1 : r → m'.x1 = shift5 τ m.x1
  dx0 : r → m'.dx0 = m.dx0
  genP : m'.genP = m.genP
  genQ : m'.genQ = m.genQ
  exc : m'.exc = m.exc
  gov : m'.gov = m.gov
  cur : m'.INorton = turn τ * m.INorton

theorem SalRot.advance {τ : ℝ} {r : Prop} {m m' : Gensal} (h : SalRot τ r m m') (f : Bool) (hf : f = false → r) :
    SalRot τ r (m.advance f) (m'.advance f) := by
  cases f
  · exact ⟨h.par, h.status, h.tripped, h.mag, h.volt, h.x1 (hf rfl), h.x1, h.dx0, h.genP, h.genQ, h.exc, h.gov, h.cur⟩
  · exact h

/-- Closes the goals for the fields that are not changed. -/
macro "rot_close' " h:ident : tactic => `(tactic| (
  constructor
  all_goals try dsimp only
  all_goals try first
    | exact SalRot.par $h | exact SalRot.status $h | exact SalRot.tripped $h | exact SalRot.mag $h
    | exact SalRot.volt $h | exact SalRot.x0 $h | exact SalRot.x1 $h | exact SalRot.dx0 $h
    | exact SalRot.genP $h | exact SalRot.genQ $h | exact SalRot.cur $h
    | exact SalRot.exc $h | exact SalRot.gov $h
    | rfl | exact fun _ => rfl | exact ⟨rfl, rfl⟩
    | (rw [SalRot.mag $h]; rfl) | (rw [SalRot.x0 $h]; rfl) | (rw [SalRot.x1 $h trivial]; rfl)
    | exact norton_turn ..))

theorem SalRot.predCur {τ : ℝ} {r : Prop} {m m' : Gensal} (h0 : SalRot τ r m m') (f : Bool) (hf : f = false → r) :
    SalRot τ r (m.predCur f) (m'.predCur f) := by
  have h := h0.advance f hf
  unfold Gensal.predCur
  generalize m.advance f = m at h ⊢
  generalize m'.advance f = m' at h ⊢
  have ht := terminal_turn h.volt (-m.x0.psiq) (m.par.psidpp m.x0)
    (m.par.Ra / (m.par.Ra * m.par.Ra + m.par.Xdpp * m.par.Xdpp))
    (-m.par.Xdpp / (m.par.Ra * m.par.Ra + m.par.Xdpp * m.par.Xdpp)) m.x0.δ
  have hq : (shift5 τ m.x0).psiq = m.x0.psiq := rfl
  have hpd : m.par.psidpp (shift5 τ m.x0) = m.par.psidpp m.x0 := rfl
  have hδ : (shift5 τ m.x0).δ = m.x0.δ + τ := rfl
  simp only [inject, h.status.1, h.status.2, h.tripped.1, h.tripped.2, if_true, Bool.false_eq_true, if_false, h.par,
    h.x0, h.mag, hq, hpd, hδ, ht]
  rot_close' h
  · exact (power_turn h.volt _ _ m.x0.δ).1
  · exact (power_turn h.volt _ _ m.x0.δ).2

theorem SalRot.corrCur {τ : ℝ} {r : Prop} (hr : r) {m m' : Gensal} (h : SalRot τ r m m') :
    SalRot τ r m.corrCur m'.corrCur := by
  refine ⟨h.par, h.status, h.tripped, h.mag, h.volt, h.x0, h.x1, h.dx0, h.genP, h.genQ, h.exc, h.gov, ?_⟩
  simp only [Gensal.corrCur, inject, h.status.1, h.status.2, h.tripped.1, h.tripped.2, if_true, Bool.false_eq_true,
    if_false, h.par, h.x1 hr]
  exact norton_turn ..

theorem SalRot.setVoltage {τ : ℝ} {r : Prop} {m m' : Gensal} (h : SalRot τ r m m') (v : ℂ) :
    SalRot τ r (m.setVoltage v) (m'.setVoltage (turn τ * v)) := by
  have hn : ‖turn τ * v‖ = ‖v‖ := by rw [norm_mul, norm_turn, one_mul]
  refine ⟨h.par, h.status, h.tripped, hn, ?_, h.x0, h.x1, h.dx0, h.genP, h.genQ, h.exc, h.gov, h.cur⟩
  show phasor ‖v‖ (turn τ * v).arg = turn τ * phasor ‖v‖ v.arg
  rw [← phasor_set, hn]

theorem SalRot.predictor {τ : ℝ} {r : Prop} {m m' : Gensal} (h0 : SalRot τ r m m') (dt : ℝ) (f : Bool)
    (hf : f = false → r) : SalRot τ True (m.predictor dt f) (m'.predictor dt f) := by
  have h := h0.advance f hf
  have s1 := h0.status.1
  have s2 := h0.status.2
  simp only [Gensal.predictor, s1, s2, if_true]
  generalize m.advance f = m at h ⊢
  generalize m'.advance f = m' at h ⊢
  have ht := terminal_turn h.volt (-m.x0.psiq) (m.par.psidpp m.x0)
    (m.par.Ra / (m.par.Ra * m.par.Ra + m.par.Xdpp * m.par.Xdpp))
    (-m.par.Xdpp / (m.par.Ra * m.par.Ra + m.par.Xdpp * m.par.Xdpp)) m.x0.δ
  have hq : (shift5 τ m.x0).psiq = m.x0.psiq := rfl
  have hpd : m.par.psidpp (shift5 τ m.x0) = m.par.psidpp m.x0 := rfl
  have hδ : (shift5 τ m.x0).δ = m.x0.δ + τ := rfl
  simp only [h.tripped.1, h.tripped.2, Bool.false_eq_true, if_false, h.par, h.x0, h.mag, hq, hpd, hδ, ht, h.exc, h.gov]
  rot_close' h
  intro _
  simp only [X5.add, shift5, GensalPar.deriv, GensalPar.lad, GensalPar.psidpp, X5.mk.injEq, and_true]
  ring

theorem SalRot.corrector {τ : ℝ} {m m' : Gensal} (h : SalRot τ True m m') (dt : ℝ) :
    SalRot τ True (m.corrector dt) (m'.corrector dt) := by
  have s1 := h.status.1
  have s2 := h.status.2
  have hx1 := h.x1 trivial
  have hdx := h.dx0 trivial
  have ht := terminal_turn h.volt (-m.x1.psiq) (m.par.psidpp m.x1)
    (m.par.Ra / (m.par.Ra * m.par.Ra + m.par.Xdpp * m.par.Xdpp))
    (-m.par.Xdpp / (m.par.Ra * m.par.Ra + m.par.Xdpp * m.par.Xdpp)) m.x1.δ
  have hq : (shift5 τ m.x1).psiq = m.x1.psiq := rfl
  have hpd : m.par.psidpp (shift5 τ m.x1) = m.par.psidpp m.x1 := rfl
  have hδ : (shift5 τ m.x1).δ = m.x1.δ + τ := rfl
  simp only [Gensal.corrector, s1, s2, if_true, h.tripped.1, h.tripped.2, Bool.false_eq_true, if_false, h.par, h.x0, hx1,
    hdx, h.mag, hq, hpd, hδ, ht, h.exc, h.gov]
  rot_close' h
  intro _
  simp only [X5.add, X5.mean, shift5, GensalPar.deriv, GensalPar.lad, GensalPar.psidpp, X5.mk.injEq, and_true]
  ring

/-! ### Classical model -/

/-- As `RouRot`. -/
structure ClassRot (τ : ℝ) (r : Prop) (c c' : Classical) : Prop where
  par : c'.dtr = c.dtr ∧ c'.mva = c.mva ∧ c'.sbase = c.sbase ∧ c'.h = c.h ∧ c'.d0 = c.d0 ∧ c'.pmech = c.pmech ∧
    c'.eqprime = c.eqprime
  volt : c'.volt = turn τ * c.volt
  e0 : c'.e0 = turn τ * c.e0
  ang0 : c'.ang0 = c.ang0 + τ
  spd0 : c'.spd0 = c.spd0
  rest : r → c'.e1 = turn τ * c.e1 ∧ c'.ang1 = c.ang1 + τ ∧ c'.spd1 = c.spd1 ∧ c'.dang0 = c.dang0 ∧ c'.dspd0 = c.dspd0
  power : r → c'.genP = c.genP ∧ c'.genQ = c.genQ
  cur : c'.INorton = turn τ * c.INorton

theorem ClassRot.advance {τ : ℝ} {r : Prop} {c c' : Classical} (h : ClassRot τ r c c') (f : Bool) (hf : f = false → r) :
    ClassRot τ r (c.advance f) (c'.advance f) := by
  cases f
  · obtain ⟨k1, k2, k3, -⟩ := h.rest (hf rfl)
    exact ⟨h.par, h.volt, k1, k2, k3, h.rest, h.power, h.cur⟩
  · exact h

theorem ClassRot.predCur {τ : ℝ} {r : Prop} {c c' : Classical} (h0 : ClassRot τ r c c') (f : Bool)
    (hf : f = false → r) : ClassRot τ r (c.predCur f) (c'.predCur f) := by
  have h := h0.advance f hf
  unfold Classical.predCur
  generalize c.advance f = c at h ⊢
  generalize c'.advance f = c' at h ⊢
  obtain ⟨p1, p2, p3, p4⟩ := h.par
  refine ⟨h.par, h.volt, h.e0, h.ang0, h.spd0, h.rest, h.power, ?_⟩
  simp only [p1, p2, p3, h.e0]
  ring

theorem ClassRot.corrCur {τ : ℝ} {r : Prop} (hr : r) {c c' : Classical} (h : ClassRot τ r c c') :
    ClassRot τ r c.corrCur c'.corrCur := by
  obtain ⟨p1, p2, p3, p4⟩ := h.par
  refine ⟨h.par, h.volt, h.e0, h.ang0, h.spd0, h.rest, h.power, ?_⟩
  simp only [Classical.corrCur, p1, p2, p3, (h.rest hr).1]
  ring

theorem ClassRot.setVoltage {τ : ℝ} {r : Prop} {c c' : Classical} (h : ClassRot τ r c c') (v : ℂ) :
    ClassRot τ r (c.setVoltage v) (c'.setVoltage (turn τ * v)) :=
  ⟨h.par, rfl, h.e0, h.ang0, h.spd0, h.rest, h.power, h.cur⟩

theorem turn_conj (τ : ℝ) (z w : ℂ) : turn τ * z * (starRingEnd ℂ) (turn τ * w) = z * (starRingEnd ℂ) w := by
  have h : turn τ * (starRingEnd ℂ) (turn τ) = 1 := by
    rw [Complex.mul_conj, Complex.normSq_eq_norm_sq, norm_turn]; norm_num
  rw [map_mul]
  linear_combination (z * (starRingEnd ℂ) w) * h

theorem curr_turn {τ : ℝ} {c c' : Classical} (hx : c'.dtr = c.dtr) (hv : c'.volt = turn τ * c.volt) (e z : ℂ) :
    turn τ * z * c'.curr (turn τ * e) = z * c.curr e := by
  have : (turn τ * e - c'.volt) / (Complex.I * c'.dtr) = turn τ * ((e - c.volt) / (Complex.I * c.dtr)) := by
    rw [hv, hx]; ring
  rw [Classical.curr, this, turn_conj]
  rfl

theorem exp_turn (a τ : ℝ) : Complex.exp (((a + τ : ℝ) : ℂ) * Complex.I) = turn τ * Complex.exp (a * Complex.I) := by
  rw [turn_eq, ← Complex.exp_add]
  congr 1
  push_cast
  ring

theorem ClassRot.predictor {τ : ℝ} {r : Prop} {c c' : Classical} (h0 : ClassRot τ r c c') (dt : ℝ) (f : Bool)
    (hf : f = false → r) : ClassRot τ True (c.predictor dt f) (c'.predictor dt f) := by
  have h := h0.advance f hf
  unfold Classical.predictor
  generalize c.advance f = c at h ⊢
  generalize c'.advance f = c' at h ⊢
  obtain ⟨p1, p2, p3, p4, p5, p6, p7⟩ := h.par
  have k1 : c'.e0 * c'.curr c'.e0 = c.e0 * c.curr c.e0 := by rw [h.e0]; exact curr_turn p1 h.volt _ _
  have k2 : c'.volt * c'.curr c'.e0 = c.volt * c.curr c.e0 := by
    rw [h.e0]; conv_lhs => rw [h.volt]
    exact curr_turn p1 h.volt _ _
  simp only [k1, k2, h.spd0, p4, p5, p6, p7, h.ang0]
  have ea : c.ang0 + τ + (c.spd0 - 1) * (2 * Real.pi * 60) * dt =
      c.ang0 + (c.spd0 - 1) * (2 * Real.pi * 60) * dt + τ := by ring
  refine ⟨⟨p1, p2, p3, rfl, rfl, rfl, rfl⟩, h.volt, h.e0, rfl, rfl, fun _ => ⟨?_, ea, rfl, rfl, rfl⟩,
    fun _ => ⟨rfl, rfl⟩, h.cur⟩
  dsimp only
  rw [ea, exp_turn, mul_assoc]

theorem ClassRot.corrector {τ : ℝ} {c c' : Classical} (h : ClassRot τ True c c') (dt : ℝ) :
    ClassRot τ True (c.corrector dt) (c'.corrector dt) := by
  obtain ⟨p1, p2, p3, p4, p5, p6, p7⟩ := h.par
  obtain ⟨r1, r2, r3, r4, r5⟩ := h.rest trivial
  have k1 : c'.e1 * c'.curr c'.e1 = c.e1 * c.curr c.e1 := by rw [r1]; exact curr_turn p1 h.volt _ _
  have k2 : c'.volt * c'.curr c'.e1 = c.volt * c.curr c.e1 := by
    rw [r1]; conv_lhs => rw [h.volt]
    exact curr_turn p1 h.volt _ _
  simp only [Classical.corrector, k1, k2, h.spd0, p4, p5, p6, p7, h.ang0, r3, r4, r5]
  have ea : c.ang0 + τ + (c.dang0 + (c.spd1 - 1) * (2 * Real.pi * 60)) / 2 * dt =
      c.ang0 + (c.dang0 + (c.spd1 - 1) * (2 * Real.pi * 60)) / 2 * dt + τ := by ring
  refine ⟨⟨p1, p2, p3, rfl, rfl, rfl, rfl⟩, h.volt, h.e0, rfl, rfl, fun _ => ⟨?_, ea, rfl, rfl, rfl⟩,
    fun _ => ⟨rfl, rfl⟩, (mul_zero _).symm⟩
  dsimp only
  rw [ea, exp_turn, mul_assoc]


end GridPACK.DsStep
