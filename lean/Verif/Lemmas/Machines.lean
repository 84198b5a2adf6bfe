import Verif.Model.Machines
import Verif.Lemmas.CblockRest
import Mathlib.Tactic.FieldSimp
import Mathlib.Tactic.LinearCombination
import Mathlib.Tactic.Ring

/-! Machines at rest: the values after `init` are an equilibrium. -/
namespace GridPACK.Machines
open GridPACK.Cblock

/-- The phasor of magnitude `mag` and angle `ang`. -/
noncomputable def phasor (mag ang : ℝ) : ℂ := ⟨mag * Real.cos ang, mag * Real.sin ang⟩

theorem phasor_eq (mag ang : ℝ) : phasor mag ang = mag * Complex.exp (Complex.I * ang) := by
  apply Complex.ext
  · rw [mul_comm Complex.I, Complex.re_ofReal_mul, Complex.exp_ofReal_mul_I_re]; rfl
  · rw [mul_comm Complex.I, Complex.im_ofReal_mul, Complex.exp_ofReal_mul_I_im]; rfl

theorem norm_phasor {mag : ℝ} (h : 0 < mag) (ang : ℝ) : ‖phasor mag ang‖ = mag := by
  rw [phasor_eq, mul_comm Complex.I, norm_mul, Complex.norm_exp_ofReal_mul_I, mul_one, Complex.norm_real,
    Real.norm_of_nonneg h.le]

theorem phasor_ne_zero {mag : ℝ} (h : 0 < mag) (ang : ℝ) : phasor mag ang ≠ 0 := by
  intro h0
  have := norm_phasor h ang
  rw [h0, norm_zero] at this
  exact h.ne this

/-- The components of `z` in the direction of its own argument. -/
theorem arg_align (z : ℂ) : z.re * Real.sin z.arg = z.im * Real.cos z.arg := by
  have h1 := Complex.norm_mul_cos_arg z
  have h2 := Complex.norm_mul_sin_arg z
  rw [← h1, ← h2]; ring

/-- An exciter that reports `E` now and after every later call with terminal voltage `V`. -/
def ExcFlat (e : Exc) (V E : ℝ) : Prop :=
  e.efd = E ∧ ∀ dts, ∀ v ∈ trace Exc.call Exc.efd e (constant V dts), v = E

/-- A governor that reports `P` now and after every later call at synchronous speed. -/
def GovFlat (g : Gov) (P : ℝ) : Prop :=
  g.pmech = P ∧ ∀ dts, ∀ v ∈ trace Gov.call Gov.pmech g (constant 0 dts), v = P

theorem ExcFlat.step {e : Exc} {V E : ℝ} (h : ExcFlat e V E) (dt : ℝ) :
    (e.call V dt .predictor).efd = E ∧ ExcFlat ((e.call V dt .predictor).call V dt .corrector) V E := by
  obtain ⟨_, h2⟩ := h
  have h3 := h2 [dt]
  simp only [constant, List.map_cons, List.map_nil, trace, List.mem_cons, List.not_mem_nil, or_false,
    forall_eq_or_imp, forall_eq] at h3
  refine ⟨h3.1, h3.2, fun dts v hv => h2 (dt :: dts) v ?_⟩
  simp only [constant, List.map_cons, trace, List.mem_cons]
  exact Or.inr (Or.inr hv)

theorem GovFlat.step {g : Gov} {P : ℝ} (h : GovFlat g P) (dt : ℝ) :
    (g.call 0 dt .predictor).pmech = P ∧ GovFlat ((g.call 0 dt .predictor).call 0 dt .corrector) P := by
  obtain ⟨_, h2⟩ := h
  have h3 := h2 [dt]
  simp only [constant, List.map_cons, List.map_nil, trace, List.mem_cons, List.not_mem_nil, or_false,
    forall_eq_or_imp, forall_eq] at h3
  refine ⟨h3.1, h3.2, fun dts v hv => h2 (dt :: dts) v ?_⟩
  simp only [constant, List.map_cons, trace, List.mem_cons]
  exact Or.inr (Or.inr hv)

theorem excFlat_none (E V : ℝ) : ExcFlat (.none E) V E := by
  refine ⟨rfl, fun dts => ?_⟩
  induction dts with
  | nil => simp [constant, trace]
  | cons d ds ih => simpa [constant, trace, Exc.call, Exc.efd] using ih

theorem govFlat_none (P : ℝ) : GovFlat (.none P) P := by
  refine ⟨rfl, fun dts => ?_⟩
  induction dts with
  | nil => simp [constant, trace]
  | cons d ds ih => simpa [constant, trace, Gov.call, Gov.pmech] using ih

/-! ### Terminal current and Norton current -/

/-- Where the internal voltage exceeds the terminal voltage by the drop of the current `(Id, Iq)` at the
impedance `Ra + i X`, the terminal current is `(Id, Iq)`. -/
theorem terminal_eq {Vd Vq Ra X δ mag ang Id Iq : ℝ} (hz : Ra * Ra + X * X ≠ 0)
    (hd : Vd = mag * Real.cos ang * Real.sin δ - mag * Real.sin ang * Real.cos δ + Ra * Id - X * Iq)
    (hq : Vq = mag * Real.cos ang * Real.cos δ + mag * Real.sin ang * Real.sin δ + Ra * Iq + X * Id) :
    terminal Vd Vq (Ra / (Ra * Ra + X * X)) (-X / (Ra * Ra + X * X)) δ mag ang = (Id, Iq) := by
  have hz' : Ra ^ 2 + X ^ 2 ≠ 0 := by rw [sq, sq]; exact hz
  simp only [terminal]
  rw [hd, hq]
  refine Prod.ext ?_ ?_
  · show _ = Id
    field_simp
    ring
  · show _ = Iq
    field_simp
    ring

/-- The Norton current less the current into the Norton admittance is the terminal current. -/
theorem norton_eq {Vd Vq Ra X δ k Id Iq : ℝ} {V : ℂ} (hz : Ra * Ra + X * X ≠ 0)
    (hd : Vd = V.re * Real.sin δ - V.im * Real.cos δ + Ra * Id - X * Iq)
    (hq : Vq = V.re * Real.cos δ + V.im * Real.sin δ + Ra * Iq + X * Id) :
    nortonCurrent Vd Vq (Ra / (Ra * Ra + X * X)) (-X / (Ra * Ra + X * X)) δ k
      - ⟨Ra / (Ra * Ra + X * X) * k, -X / (Ra * Ra + X * X) * k⟩ * V =
    ⟨(Id * Real.sin δ + Iq * Real.cos δ) * k, (-Id * Real.cos δ + Iq * Real.sin δ) * k⟩ := by
  have hz' : Ra ^ 2 + X ^ 2 ≠ 0 := by rw [sq, sq]; exact hz
  have hcs := Real.sin_sq_add_cos_sq δ
  have h1 : Vd * (Ra / (Ra * Ra + X * X)) - Vq * (-X / (Ra * Ra + X * X)) =
      Id + (V.re * Real.sin δ - V.im * Real.cos δ) * (Ra / (Ra * Ra + X * X))
        - (V.re * Real.cos δ + V.im * Real.sin δ) * (-X / (Ra * Ra + X * X)) := by
    rw [hd, hq]; field_simp; ring
  have h2 : Vd * (-X / (Ra * Ra + X * X)) + Vq * (Ra / (Ra * Ra + X * X)) =
      Iq + (V.re * Real.sin δ - V.im * Real.cos δ) * (-X / (Ra * Ra + X * X))
        + (V.re * Real.cos δ + V.im * Real.sin δ) * (Ra / (Ra * Ra + X * X)) := by
    rw [hd, hq]; field_simp; ring
  simp only [nortonCurrent]
  rw [h1, h2]
  generalize Ra / (Ra * Ra + X * X) = G
  generalize -X / (Ra * Ra + X * X) = B
  apply Complex.ext
  · simp only [Complex.sub_re, Complex.mul_re]
    linear_combination (V.re * G - V.im * B) * k * hcs
  · simp only [Complex.sub_im, Complex.mul_im]
    linear_combination (V.im * G + V.re * B) * k * hcs

/-- Current of the complex power `P + iQ` at the voltage `V`. -/
theorem current_eq (V : ℂ) (P Q : ℝ) :
    (starRingEnd ℂ) ((⟨P, Q⟩ : ℂ) / V) =
      ⟨(P * V.re + Q * V.im) / (‖V‖ * ‖V‖), (P * V.im - Q * V.re) / (‖V‖ * ‖V‖)⟩ := by
  have hn : Complex.normSq V = ‖V‖ * ‖V‖ := by rw [Complex.normSq_eq_norm_sq, sq]
  apply Complex.ext
  · simp only [Complex.conj_re, Complex.div_re, hn]; ring
  · simp only [Complex.conj_im, Complex.div_im, hn]; ring

/-- Components in the network frame from those in the machine frame. -/
theorem unrotate (a b δ : ℝ) :
    (a * Real.sin δ - b * Real.cos δ) * Real.sin δ + (a * Real.cos δ + b * Real.sin δ) * Real.cos δ = a ∧
    -(a * Real.sin δ - b * Real.cos δ) * Real.cos δ + (a * Real.cos δ + b * Real.sin δ) * Real.sin δ = b := by
  have hcs := Real.sin_sq_add_cos_sq δ
  constructor
  · linear_combination a * hcs
  · linear_combination b * hcs

/-- Voltage, Norton current and reported values of a generator that stays at rest, as invariants of the calls
in a time step: `A f` before the predictor's current injection with the flag `f`, `B f` after it, `C dt` after
the predictor, `D dt` after the corrector's current injection. -/
structure Flatness (V N : ℂ) (W : List ℝ) where
  A : Bool → Gen → Prop
  B : Bool → Gen → Prop
  C : ℝ → Gen → Prop
  D : ℝ → Gen → Prop
  predCur : ∀ {f g}, A f g → B f (g.predCur f) ∧ (g.predCur f).inorton = N
  predCur' : ∀ {f g}, B f g → B f (g.predCur f) ∧ (g.predCur f).inorton = N
  volt : ∀ {f g}, B f g → B f (g.setVoltage V)
  voltIn : ∀ {f g}, B f g → (g.setVoltage V).inorton = g.inorton
  predictor : ∀ {f g} dt, B f g → C dt (g.predictor dt f)
  corrCur : ∀ {dt g}, C dt g → D dt g.corrCur ∧ g.corrCur.inorton = N
  corrCur' : ∀ {dt g}, D dt g → D dt g.corrCur ∧ g.corrCur.inorton = N
  volt' : ∀ {dt g}, D dt g → D dt (g.setVoltage V)
  corrector : ∀ {dt g}, D dt g → A false (g.corrector dt) ∧ (g.corrector dt).watch true = W

/-! ### GENROU -/

/-- Equilibrium of GENROU at the voltage `V`. -/
structure RouEq (p : GenrouPar) (V : ℂ) (x : X6) (Id Iq E Pm : ℝ) : Prop where
  w : x.w = 0
  deriv : p.deriv x Id Iq E Pm = ⟨0, 0, 0, 0, 0, 0⟩
  hd : -p.psiqpp x = V.re * Real.sin x.δ - V.im * Real.cos x.δ + p.Ra * Id - p.Xdpp * Iq
  hq : p.psidpp x = V.re * Real.cos x.δ + V.im * Real.sin x.δ + p.Ra * Iq + p.Xdpp * Id

/-- What a GENROU machine at rest has in common between all calls. -/
structure RouBase (p : GenrouPar) (V : ℂ) (x : X6) (Id Iq : ℝ) (m : Genrou) : Prop where
  par : m.par = p
  status : m.status = true
  tripped : m.tripped = false
  mag : m.presentMag = ‖V‖
  re : m.presentMag * Real.cos m.presentAng = V.re
  im : m.presentMag * Real.sin m.presentAng = V.im
  x : m.x = x
  Id : m.Id = Id
  Iq : m.Iq = Iq

theorem RouBase.setVoltage {p V x Id Iq m} (h : RouBase p V x Id Iq m) :
    RouBase p V x Id Iq (m.setVoltage V) :=
  ⟨h.par, h.status, h.tripped, rfl, Complex.norm_mul_cos_arg V, Complex.norm_mul_sin_arg V, h.x, h.Id, h.Iq⟩

/-- Admittance on the machine base as stored by the current injections. -/
def RouGB (p : GenrouPar) (m : Genrou) : Prop :=
  m.G = p.Ra / (p.Ra * p.Ra + p.Xdpp * p.Xdpp) ∧ m.B = -p.Xdpp / (p.Ra * p.Ra + p.Xdpp * p.Xdpp)

/-- Norton current of GENROU in the state `x`. -/
noncomputable def rouNorton (p : GenrouPar) (x : X6) : ℂ :=
  nortonCurrent (-p.psiqpp x) (p.psidpp x) (p.Ra / (p.Ra * p.Ra + p.Xdpp * p.Xdpp))
    (-p.Xdpp / (p.Ra * p.Ra + p.Xdpp * p.Xdpp)) x.δ (p.MBase / p.sbase)

/-- Values reported by a GENROU machine at rest. -/
noncomputable def rouWatch (p : GenrouPar) (V : ℂ) (x : X6) (Id Iq : ℝ) : List ℝ :=
  let Ir := Id * Real.sin x.δ + Iq * Real.cos x.δ
  let Ii := -Id * Real.cos x.δ + Iq * Real.sin x.δ
  [x.δ, x.w + 1, (V.re * Ir + V.im * Ii) * p.MBase / p.sbase, (V.im * Ir - V.re * Ii) * p.MBase / p.sbase]

theorem X6.add_zero (x : X6) (t : ℝ) : x.add ⟨0, 0, 0, 0, 0, 0⟩ t = x := by
  cases x; simp [X6.add]

theorem X6.mean_zero : X6.mean ⟨0, 0, 0, 0, 0, 0⟩ ⟨0, 0, 0, 0, 0, 0⟩ = ⟨0, 0, 0, 0, 0, 0⟩ := by
  simp [X6.mean]

theorem rou_terminal {p V x Id Iq E Pm} (he : RouEq p V x Id Iq E Pm)
    (hz : p.Ra * p.Ra + p.Xdpp * p.Xdpp ≠ 0) {mag ang : ℝ} (h1 : mag * Real.cos ang = V.re)
    (h2 : mag * Real.sin ang = V.im) :
    terminal (-p.psiqpp x) (p.psidpp x) (p.Ra / (p.Ra * p.Ra + p.Xdpp * p.Xdpp))
      (-p.Xdpp / (p.Ra * p.Ra + p.Xdpp * p.Xdpp)) x.δ mag ang = (Id, Iq) :=
  terminal_eq hz (by rw [h1, h2]; exact he.hd) (by rw [h1, h2]; exact he.hq)

/-- Power stored by the predictor's current injection at rest. -/
def RouPQ (V : ℂ) (x : X6) (Id Iq : ℝ) (m : Genrou) : Prop :=
  m.genP = V.re * (Id * Real.sin x.δ + Iq * Real.cos x.δ) + V.im * (-Id * Real.cos x.δ + Iq * Real.sin x.δ) ∧
  m.genQ = V.im * (Id * Real.sin x.δ + Iq * Real.cos x.δ) - V.re * (-Id * Real.cos x.δ + Iq * Real.sin x.δ)

/-- GENROU stays at rest. -/
noncomputable def rouFlat (p : GenrouPar) (V : ℂ) (x : X6) (Id Iq E Pm : ℝ) (he : RouEq p V x Id Iq E Pm)
    (hz : p.Ra * p.Ra + p.Xdpp * p.Xdpp ≠ 0) : Flatness V (rouNorton p x) (rouWatch p V x Id Iq) where
  A _ g := ∃ m, g = .genrou m ∧ RouBase p V x Id Iq m ∧ ExcFlat m.exc ‖V‖ E ∧ GovFlat m.gov Pm
  B _ g := ∃ m, g = .genrou m ∧ RouBase p V x Id Iq m ∧ ExcFlat m.exc ‖V‖ E ∧ GovFlat m.gov Pm ∧
    RouGB p m ∧ RouPQ V x Id Iq m
  C dt g := ∃ m, g = .genrou m ∧ RouBase p V x Id Iq m ∧ m.x1 = x ∧ m.dx = ⟨0, 0, 0, 0, 0, 0⟩ ∧
    (m.exc.efd = E ∧ ExcFlat (m.exc.call ‖V‖ dt .corrector) ‖V‖ E) ∧
    (m.gov.pmech = Pm ∧ GovFlat (m.gov.call 0 dt .corrector) Pm) ∧ RouPQ V x Id Iq m
  D dt g := ∃ m, g = .genrou m ∧ RouBase p V x Id Iq m ∧ m.x1 = x ∧ m.dx = ⟨0, 0, 0, 0, 0, 0⟩ ∧
    (m.exc.efd = E ∧ ExcFlat (m.exc.call ‖V‖ dt .corrector) ‖V‖ E) ∧
    (m.gov.pmech = Pm ∧ GovFlat (m.gov.call 0 dt .corrector) Pm) ∧ RouPQ V x Id Iq m ∧ RouGB p m
  predCur := by
    rintro f g ⟨m, rfl, h, hE, hP⟩
    refine ⟨⟨m.predCur, rfl, ⟨h.par, h.status, h.tripped, h.mag, h.re, h.im, h.x, h.Id, h.Iq⟩, hE, hP,
      ⟨?_, ?_⟩, ?_, ?_⟩, ?_⟩
    · simp only [Genrou.predCur, h.par]
    · simp only [Genrou.predCur, h.par]
    · simp only [Genrou.predCur, h.re, h.im, h.x, h.Id, h.Iq]
    · simp only [Genrou.predCur, h.re, h.im, h.x, h.Id, h.Iq]
    · simp only [Gen.predCur, Gen.inorton, Genrou.predCur, inject, h.status, h.tripped, h.par, h.x, rouNorton]
      simp
  predCur' := by
    rintro f g ⟨m, rfl, h, hE, hP, -, -⟩
    refine ⟨⟨m.predCur, rfl, ⟨h.par, h.status, h.tripped, h.mag, h.re, h.im, h.x, h.Id, h.Iq⟩, hE, hP,
      ⟨?_, ?_⟩, ?_, ?_⟩, ?_⟩
    · simp only [Genrou.predCur, h.par]
    · simp only [Genrou.predCur, h.par]
    · simp only [Genrou.predCur, h.re, h.im, h.x, h.Id, h.Iq]
    · simp only [Genrou.predCur, h.re, h.im, h.x, h.Id, h.Iq]
    · simp only [Gen.predCur, Gen.inorton, Genrou.predCur, inject, h.status, h.tripped, h.par, h.x, rouNorton]
      simp
  volt := by
    rintro f g ⟨m, rfl, h, hE, hP, hG, hQ⟩
    exact ⟨m.setVoltage V, rfl, h.setVoltage, hE, hP, hG, hQ⟩
  voltIn := by
    rintro f g ⟨m, rfl, h, hE, hP, hG, hQ⟩
    rfl
  predictor := by
    rintro f g dt ⟨m, rfl, h, hE, hP, ⟨hG, hB⟩, hQ⟩
    have ht := rou_terminal he hz h.re h.im
    rw [h.mag] at ht
    have em : m.predictor dt = { m with
        Efd := E, Pmech := Pm, Vterm := ‖V‖, Id := Id, Iq := Iq, LadIfd := p.lad x Id,
        dx := ⟨0, 0, 0, 0, 0, 0⟩, x1 := x, exc := m.exc.call ‖V‖ dt .predictor,
        gov := m.gov.call 0 dt .predictor } := by
      simp only [Genrou.predictor, h.status, h.tripped, h.par, h.x, hG, hB, ht, hE.1, hP.1, he.deriv,
        X6.add_zero, he.w, h.mag, if_true]
      simp
    obtain ⟨e1, e2⟩ := hE.step dt
    obtain ⟨g1, g2⟩ := hP.step dt
    refine ⟨m.predictor dt, rfl, ?_, ?_⟩
    · rw [em]; exact ⟨h.par, h.status, h.tripped, h.mag, h.re, h.im, h.x, rfl, rfl⟩
    · rw [em]; exact ⟨rfl, rfl, ⟨e1, e2⟩, ⟨g1, g2⟩, hQ⟩
  corrCur := by
    rintro dt g ⟨m, rfl, h, h1, hdx, hE, hP, hQ⟩
    refine ⟨⟨m.corrCur, rfl, ⟨h.par, h.status, h.tripped, h.mag, h.re, h.im, h.x, h.Id, h.Iq⟩, h1, hdx, hE, hP,
      hQ, ?_, ?_⟩, ?_⟩
    · simp only [Genrou.corrCur, h.par]
    · simp only [Genrou.corrCur, h.par]
    · simp only [Gen.corrCur, Gen.inorton, Genrou.corrCur, inject, h.status, h.tripped, h.par, h1, rouNorton]
      simp
  corrCur' := by
    rintro dt g ⟨m, rfl, h, h1, hdx, hE, hP, hQ, -⟩
    refine ⟨⟨m.corrCur, rfl, ⟨h.par, h.status, h.tripped, h.mag, h.re, h.im, h.x, h.Id, h.Iq⟩, h1, hdx, hE, hP,
      hQ, ?_, ?_⟩, ?_⟩
    · simp only [Genrou.corrCur, h.par]
    · simp only [Genrou.corrCur, h.par]
    · simp only [Gen.corrCur, Gen.inorton, Genrou.corrCur, inject, h.status, h.tripped, h.par, h1, rouNorton]
      simp
  volt' := by
    rintro dt g ⟨m, rfl, h, h1, hdx, hE, hP, hQ, hG⟩
    exact ⟨m.setVoltage V, rfl, h.setVoltage, h1, hdx, hE, hP, hQ, hG⟩
  corrector := by
    rintro dt g ⟨m, rfl, h, h1, hdx, hE, hP, hQ, ⟨hG, hB⟩⟩
    have ht := rou_terminal he hz h.re h.im
    rw [h.mag] at ht
    have em : m.corrector dt = { m with
        Efd := E, Pmech := Pm, Vterm := ‖V‖, Id := Id, Iq := Iq, LadIfd := p.lad x Id,
        dx1 := ⟨0, 0, 0, 0, 0, 0⟩, x := x, exc := m.exc.call ‖V‖ dt .corrector,
        gov := m.gov.call 0 dt .corrector } := by
      simp only [Genrou.corrector, h.status, h.tripped, h.par, h.x, h1, hdx, hG, hB, ht, hE.1, hP.1, he.deriv,
        X6.mean_zero, X6.add_zero, he.w, h.mag, if_true]
      simp
    refine ⟨⟨m.corrector dt, rfl, ?_, ?_⟩, ?_⟩
    · rw [em]; exact ⟨h.par, h.status, h.tripped, h.mag, h.re, h.im, rfl, rfl, rfl⟩
    · rw [em]; exact ⟨hE.2, hP.2⟩
    · show (m.corrector dt).watch true = _
      rw [em]
      simp only [Genrou.watch, rouWatch, if_true, h1, hQ.1, hQ.2, h.par]

theorem genrou_init_eq (m : Genrou) {mag ang : ℝ}
    (hd : m.par.Xdp ≠ m.par.Xl) (hq : m.par.Xqp ≠ m.par.Xl) :
    RouEq m.par (phasor mag ang) (m.init mag ang).x (m.init mag ang).Id (m.init mag ang).Iq (m.init mag ang).Efd
      (m.init mag ang).Pmech := by
  have hd' : m.par.Xdp - m.par.Xl ≠ 0 := sub_ne_zero.mpr hd
  have hq' : m.par.Xqp - m.par.Xl ≠ 0 := sub_ne_zero.mpr hq
  simp only [Genrou.init, rotate, Real.cos_pi_div_two_sub, Real.sin_pi_div_two_sub, phasor]
  generalize hIr : (m.par.pg / m.par.MBase * (mag * Real.cos ang) + m.par.qg / m.par.MBase * (mag * Real.sin ang)) /
    (mag * mag) = Ir
  generalize hIi : (m.par.pg / m.par.MBase * (mag * Real.sin ang) - m.par.qg / m.par.MBase * (mag * Real.cos ang)) /
    (mag * mag) = Ii
  generalize hVr : mag * Real.cos ang = Vr
  generalize hVi : mag * Real.sin ang = Vi
  have ha := arg_align ⟨Vr + Ir * m.par.Ra - Ii * m.par.Xq, Vi + Ir * m.par.Xq + Ii * m.par.Ra⟩
  generalize Complex.arg ⟨Vr + Ir * m.par.Ra - Ii * m.par.Xq, Vi + Ir * m.par.Xq + Ii * m.par.Ra⟩ = δ at ha ⊢
  simp only at ha
  have hpq : ∀ ed Iq : ℝ, -m.par.psiqpp ⟨δ, 0, 0, 0, ed + (m.par.Xqp - m.par.Xl) * Iq, ed⟩ =
      ed + (m.par.Xqp - m.par.Xdpp) * Iq := by
    intro ed Iq; simp only [GenrouPar.psiqpp]; field_simp; ring
  have hpd : ∀ e Id : ℝ, m.par.psidpp ⟨δ, 0, e, e - (m.par.Xdp - m.par.Xl) * Id, 0, 0⟩ =
      e - (m.par.Xdp - m.par.Xdpp) * Id := by
    intro e Id; simp only [GenrouPar.psidpp]; field_simp; ring
  have hpq' : ∀ w e s ed Iq : ℝ, m.par.psiqpp ⟨δ, w, e, s, ed + (m.par.Xqp - m.par.Xl) * Iq, ed⟩ =
      -(ed + (m.par.Xqp - m.par.Xdpp) * Iq) := by
    intro w e s ed Iq; rw [← hpq, neg_neg]; rfl
  have hpd' : ∀ w e s ed Id : ℝ, m.par.psidpp ⟨δ, w, e, e - (m.par.Xdp - m.par.Xl) * Id, s, ed⟩ =
      e - (m.par.Xdp - m.par.Xdpp) * Id := by
    intro w e s ed Id; rw [← hpd]; rfl
  refine ⟨rfl, ?_, ?_, ?_⟩
  · simp only [GenrouPar.deriv, GenrouPar.lad, hpq', hpd']
    refine X6.ext ?_ ?_ ?_ ?_ ?_ ?_
    · simp
    · simp only; ring
    · simp only; ring
    · simp only; ring
    · simp only; ring
    · simp only
      rw [div_eq_zero_iff]; left
      linear_combination -ha
  · simp only [hpq']
    linear_combination (0 : ℝ) * ha
  · simp only [hpd']
    ring

/-- Current in the network frame on the system base, from the power on the machine base. -/
theorem scaled_current {mag MB : ℝ} (ang sb pg qg δ : ℝ) (hm : mag ≠ 0) (hb : MB ≠ 0) :
    ∀ Ir Ii, (pg / MB * (mag * Real.cos ang) + qg / MB * (mag * Real.sin ang)) / (mag * mag) = Ir →
      (pg / MB * (mag * Real.sin ang) - qg / MB * (mag * Real.cos ang)) / (mag * mag) = Ii →
    (⟨((Ir * Real.sin δ - Ii * Real.cos δ) * Real.sin δ + (Ir * Real.cos δ + Ii * Real.sin δ) * Real.cos δ) * (MB / sb),
      (-(Ir * Real.sin δ - Ii * Real.cos δ) * Real.cos δ + (Ir * Real.cos δ + Ii * Real.sin δ) * Real.sin δ) * (MB / sb)⟩ : ℂ) =
    ⟨(pg / sb * (mag * Real.cos ang) + qg / sb * (mag * Real.sin ang)) / (mag * mag),
      (pg / sb * (mag * Real.sin ang) - qg / sb * (mag * Real.cos ang)) / (mag * mag)⟩ := by
  intro Ir Ii h1 h2
  have hu := unrotate Ir Ii δ
  rw [hu.1, hu.2, ← h1, ← h2]
  by_cases hs : sb = 0
  · simp [hs]
  · apply Complex.ext
    · simp only; field_simp
    · simp only; field_simp

/-- Power on the system base. -/
theorem scaled_power {mag MB : ℝ} (ang sb pg qg δ : ℝ) (hm : mag ≠ 0) (hb : MB ≠ 0) :
    ∀ Ir Ii, (pg / MB * (mag * Real.cos ang) + qg / MB * (mag * Real.sin ang)) / (mag * mag) = Ir →
      (pg / MB * (mag * Real.sin ang) - qg / MB * (mag * Real.cos ang)) / (mag * mag) = Ii →
    (mag * Real.cos ang * ((Ir * Real.sin δ - Ii * Real.cos δ) * Real.sin δ + (Ir * Real.cos δ + Ii * Real.sin δ) * Real.cos δ) +
      mag * Real.sin ang * (-(Ir * Real.sin δ - Ii * Real.cos δ) * Real.cos δ + (Ir * Real.cos δ + Ii * Real.sin δ) * Real.sin δ))
        * MB / sb = pg / sb ∧
    (mag * Real.sin ang * ((Ir * Real.sin δ - Ii * Real.cos δ) * Real.sin δ + (Ir * Real.cos δ + Ii * Real.sin δ) * Real.cos δ) -
      mag * Real.cos ang * (-(Ir * Real.sin δ - Ii * Real.cos δ) * Real.cos δ + (Ir * Real.cos δ + Ii * Real.sin δ) * Real.sin δ))
        * MB / sb = qg / sb := by
  intro Ir Ii h1 h2
  have hcs := Real.sin_sq_add_cos_sq ang
  have hu := unrotate Ir Ii δ
  rw [hu.1, hu.2]
  have p1 : (mag * Real.cos ang * Ir + mag * Real.sin ang * Ii) * MB = pg * (Real.sin ang ^ 2 + Real.cos ang ^ 2) := by
    rw [← h1, ← h2]; field_simp; ring
  have p2 : (mag * Real.sin ang * Ir - mag * Real.cos ang * Ii) * MB = qg * (Real.sin ang ^ 2 + Real.cos ang ^ 2) := by
    rw [← h1, ← h2]; field_simp; ring
  rw [p1, p2, hcs, mul_one, mul_one]
  exact ⟨rfl, rfl⟩

/-- Current and admittance of GENROU after `init` are those of the power flow. -/
theorem genrou_init_norton (m : Genrou) {mag ang : ℝ} (hmag : 0 < mag)
    (hd : m.par.Xdp ≠ m.par.Xl) (hq : m.par.Xqp ≠ m.par.Xl)
    (hz : m.par.Ra * m.par.Ra + m.par.Xdpp * m.par.Xdpp ≠ 0) (hb : m.par.MBase ≠ 0) :
    rouNorton m.par (m.init mag ang).x - m.par.norton * phasor mag ang =
      (starRingEnd ℂ) ((⟨m.par.pg / m.par.sbase, m.par.qg / m.par.sbase⟩ : ℂ) / phasor mag ang) := by
  have he := genrou_init_eq m (mag := mag) (ang := ang) hd hq
  rw [rouNorton, GenrouPar.norton, norton_eq hz he.hd he.hq, current_eq, norm_phasor hmag]
  simp only [Genrou.init, rotate, Real.cos_pi_div_two_sub, Real.sin_pi_div_two_sub, phasor]
  exact scaled_current ang m.par.sbase m.par.pg m.par.qg _ hmag.ne' hb _ _ rfl rfl

/-- Values reported by GENROU at rest. -/
theorem genrou_init_watch (m : Genrou) {mag ang : ℝ} (hmag : 0 < mag) (hb : m.par.MBase ≠ 0) :
    rouWatch m.par (phasor mag ang) (m.init mag ang).x (m.init mag ang).Id (m.init mag ang).Iq =
      [(m.init mag ang).x.δ, 1, m.par.pg / m.par.sbase, m.par.qg / m.par.sbase] := by
  simp only [rouWatch, Genrou.init, rotate, Real.cos_pi_div_two_sub, Real.sin_pi_div_two_sub, phasor]
  obtain ⟨h1, h2⟩ := scaled_power ang m.par.sbase m.par.pg m.par.qg (Complex.arg _) hmag.ne' hb _ _ rfl rfl
  rw [h1, h2, zero_add]

/-! ### GENSAL -/

/-- Equilibrium of GENSAL at the voltage `V`. -/
structure SalEq (p : GensalPar) (V : ℂ) (x : X5) (Id Iq E Pm : ℝ) : Prop where
  w : x.w = 0
  deriv : p.deriv x Id Iq E Pm = ⟨0, 0, 0, 0, 0⟩
  hd : -x.psiq = V.re * Real.sin x.δ - V.im * Real.cos x.δ + p.Ra * Id - p.Xdpp * Iq
  hq : p.psidpp x = V.re * Real.cos x.δ + V.im * Real.sin x.δ + p.Ra * Iq + p.Xdpp * Id

/-- What a GENSAL machine at rest has in common between all calls. -/
structure SalBase (p : GensalPar) (V : ℂ) (m : Gensal) : Prop where
  par : m.par = p
  status : m.status = true
  tripped : m.tripped = false
  mag : m.presentMag = ‖V‖
  re : ‖V‖ * Real.cos m.presentAng = V.re
  im : ‖V‖ * Real.sin m.presentAng = V.im

theorem SalBase.setVoltage {p V m} (h : SalBase p V m) : SalBase p V (m.setVoltage V) :=
  ⟨h.par, h.status, h.tripped, rfl, Complex.norm_mul_cos_arg V, Complex.norm_mul_sin_arg V⟩

/-- Norton current of GENSAL in the state `x`. -/
noncomputable def salNorton (p : GensalPar) (x : X5) : ℂ :=
  nortonCurrent (-x.psiq) (p.psidpp x) (p.Ra / (p.Ra * p.Ra + p.Xdpp * p.Xdpp))
    (-p.Xdpp / (p.Ra * p.Ra + p.Xdpp * p.Xdpp)) x.δ (p.MBase / p.sbase)

/-- Values reported by a GENSAL machine at rest. -/
noncomputable def salWatch (p : GensalPar) (V : ℂ) (x : X5) (Id Iq : ℝ) : List ℝ :=
  let Ir := Id * Real.sin x.δ + Iq * Real.cos x.δ
  let Ii := -Id * Real.cos x.δ + Iq * Real.sin x.δ
  [x.δ, x.w + 1, (V.re * Ir + V.im * Ii) * p.MBase / p.sbase, (V.im * Ir - V.re * Ii) * p.MBase / p.sbase]

theorem X5.add_zero (x : X5) (t : ℝ) : x.add ⟨0, 0, 0, 0, 0⟩ t = x := by
  cases x; simp [X5.add]

theorem X5.mean_zero : X5.mean ⟨0, 0, 0, 0, 0⟩ ⟨0, 0, 0, 0, 0⟩ = ⟨0, 0, 0, 0, 0⟩ := by
  simp [X5.mean]

theorem sal_terminal {p V x Id Iq E Pm} (he : SalEq p V x Id Iq E Pm)
    (hz : p.Ra * p.Ra + p.Xdpp * p.Xdpp ≠ 0) {mag ang : ℝ} (h1 : mag * Real.cos ang = V.re)
    (h2 : mag * Real.sin ang = V.im) :
    terminal (-x.psiq) (p.psidpp x) (p.Ra / (p.Ra * p.Ra + p.Xdpp * p.Xdpp))
      (-p.Xdpp / (p.Ra * p.Ra + p.Xdpp * p.Xdpp)) x.δ mag ang = (Id, Iq) :=
  terminal_eq hz (by rw [h1, h2]; exact he.hd) (by rw [h1, h2]; exact he.hq)

/-- Power stored by the predictor's current injection at rest. -/
def SalPQ (V : ℂ) (x : X5) (Id Iq : ℝ) (m : Gensal) : Prop :=
  m.genP = V.re * (Id * Real.sin x.δ + Iq * Real.cos x.δ) + V.im * (-Id * Real.cos x.δ + Iq * Real.sin x.δ) ∧
  m.genQ = V.im * (Id * Real.sin x.δ + Iq * Real.cos x.δ) - V.re * (-Id * Real.cos x.δ + Iq * Real.sin x.δ)

theorem sal_predCur {p V x Id Iq E Pm} (he : SalEq p V x Id Iq E Pm)
    (hz : p.Ra * p.Ra + p.Xdpp * p.Xdpp ≠ 0) {m : Gensal} {f : Bool} (h : SalBase p V m)
    (h0 : f = true → m.x0 = x) (h1 : f = false → m.x1 = x) :
    SalBase p V (m.predCur f) ∧ (m.predCur f).x0 = x ∧ (m.predCur f).x1 = m.x1 ∧ SalPQ V x Id Iq (m.predCur f) ∧
      (m.predCur f).INorton = salNorton p x ∧ (m.predCur f).exc = m.exc ∧ (m.predCur f).gov = m.gov := by
  have ha : (m.advance f).x0 = x ∧ (m.advance f).x1 = m.x1 ∧ SalBase p V (m.advance f) ∧
      (m.advance f).exc = m.exc ∧ (m.advance f).gov = m.gov := by
    cases f
    · exact ⟨h1 rfl, rfl, ⟨h.par, h.status, h.tripped, h.mag, h.re, h.im⟩, rfl, rfl⟩
    · exact ⟨h0 rfl, rfl, h, rfl, rfl⟩
  have ht := sal_terminal he hz h.re h.im
  have hang : (m.advance f).presentAng = m.presentAng := by cases f <;> rfl
  obtain ⟨a0, a1, ab, ae, ag⟩ := ha
  refine ⟨⟨?_, ?_, ?_, ?_, ?_, ?_⟩, ?_, ?_, ⟨?_, ?_⟩, ?_, ?_, ?_⟩
  · simp only [Gensal.predCur, ab.par]
  · simp only [Gensal.predCur, ab.status]
  · simp only [Gensal.predCur, ab.tripped]
  · simp only [Gensal.predCur, ab.mag]
  · simp only [Gensal.predCur, ab.re]
  · simp only [Gensal.predCur, ab.im]
  · simp only [Gensal.predCur, a0]
  · simp only [Gensal.predCur, a1]
  · simp only [Gensal.predCur, a0, ab.par, ab.mag, hang, ht, h.re, h.im]
  · simp only [Gensal.predCur, a0, ab.par, ab.mag, hang, ht, h.re, h.im]
  · simp only [Gensal.predCur, a0, ab.par, ab.mag, ab.status, ab.tripped, inject, salNorton]
    simp
  · simp only [Gensal.predCur, ae]
  · simp only [Gensal.predCur, ag]

/-- GENSAL stays at rest. -/
noncomputable def salFlat (p : GensalPar) (V : ℂ) (x : X5) (Id Iq E Pm : ℝ) (he : SalEq p V x Id Iq E Pm)
    (hz : p.Ra * p.Ra + p.Xdpp * p.Xdpp ≠ 0) : Flatness V (salNorton p x) (salWatch p V x Id Iq) where
  A f g := ∃ m, g = .gensal m ∧ SalBase p V m ∧ (f = true → m.x0 = x) ∧ (f = false → m.x1 = x) ∧
    ExcFlat m.exc ‖V‖ E ∧ GovFlat m.gov Pm
  B f g := ∃ m, g = .gensal m ∧ SalBase p V m ∧ m.x0 = x ∧ (f = false → m.x1 = x) ∧
    ExcFlat m.exc ‖V‖ E ∧ GovFlat m.gov Pm ∧ SalPQ V x Id Iq m
  C dt g := ∃ m, g = .gensal m ∧ SalBase p V m ∧ m.x0 = x ∧ m.x1 = x ∧ m.dx0 = ⟨0, 0, 0, 0, 0⟩ ∧
    (m.exc.efd = E ∧ ExcFlat (m.exc.call ‖V‖ dt .corrector) ‖V‖ E) ∧
    (m.gov.pmech = Pm ∧ GovFlat (m.gov.call 0 dt .corrector) Pm) ∧ SalPQ V x Id Iq m
  D dt g := ∃ m, g = .gensal m ∧ SalBase p V m ∧ m.x0 = x ∧ m.x1 = x ∧ m.dx0 = ⟨0, 0, 0, 0, 0⟩ ∧
    (m.exc.efd = E ∧ ExcFlat (m.exc.call ‖V‖ dt .corrector) ‖V‖ E) ∧
    (m.gov.pmech = Pm ∧ GovFlat (m.gov.call 0 dt .corrector) Pm) ∧ SalPQ V x Id Iq m
  predCur := by
    rintro f g ⟨m, rfl, h, h0, h1, hE, hP⟩
    obtain ⟨q1, q2, q3, q4, q5, q6, q7⟩ := sal_predCur he hz h h0 h1
    exact ⟨⟨m.predCur f, rfl, q1, q2, fun hf => q3.trans (h1 hf), q6 ▸ hE, q7 ▸ hP, q4⟩, q5⟩
  predCur' := by
    rintro f g ⟨m, rfl, h, h0, h1, hE, hP, -⟩
    obtain ⟨q1, q2, q3, q4, q5, q6, q7⟩ := sal_predCur he hz h (fun _ => h0) h1
    exact ⟨⟨m.predCur f, rfl, q1, q2, fun hf => q3.trans (h1 hf), q6 ▸ hE, q7 ▸ hP, q4⟩, q5⟩
  volt := by
    rintro f g ⟨m, rfl, h, h0, h1, hE, hP, hQ⟩
    exact ⟨m.setVoltage V, rfl, h.setVoltage, h0, h1, hE, hP, hQ⟩
  voltIn := by
    rintro f g ⟨m, rfl, -⟩
    rfl
  predictor := by
    rintro f g dt ⟨m, rfl, h, h0, h1, hE, hP, hQ⟩
    have ht := sal_terminal he hz h.re h.im
    have ha : m.advance f = m := by
      cases f
      · have : m.x0 = m.x1 := h0.trans (h1 rfl).symm
        show { m with x0 := m.x1 } = m
        cases m; simp only at this; subst this; rfl
      · rfl
    have em : m.predictor dt f = { m with
        Efd := E, Pmech := Pm, B := -p.Xdpp / (p.Ra * p.Ra + p.Xdpp * p.Xdpp),
        G := p.Ra / (p.Ra * p.Ra + p.Xdpp * p.Xdpp), Vterm := ‖V‖, Id := Id, Iq := Iq, LadIfd := p.lad x Id,
        dx0 := ⟨0, 0, 0, 0, 0⟩, x1 := x, exc := m.exc.call ‖V‖ dt .predictor,
        gov := m.gov.call 0 dt .predictor } := by
      simp only [Gensal.predictor, ha, h.status, h.tripped, h.par, h0, ht, hE.1, hP.1, he.deriv,
        X5.add_zero, he.w, h.mag, if_true]
      simp
    obtain ⟨e1, e2⟩ := hE.step dt
    obtain ⟨g1, g2⟩ := hP.step dt
    refine ⟨m.predictor dt f, rfl, ?_, ?_⟩
    · rw [em]; exact ⟨h.par, h.status, h.tripped, h.mag, h.re, h.im⟩
    · rw [em]; exact ⟨h0, rfl, rfl, ⟨e1, e2⟩, ⟨g1, g2⟩, hQ⟩
  corrCur := by
    rintro dt g ⟨m, rfl, h, h0, h1, hdx, hE, hP, hQ⟩
    refine ⟨⟨m.corrCur, rfl, ⟨h.par, h.status, h.tripped, h.mag, h.re, h.im⟩, h0, h1, hdx, hE, hP, hQ⟩, ?_⟩
    simp only [Gen.corrCur, Gen.inorton, Gensal.corrCur, inject, h.status, h.tripped, h.par, h1, salNorton]
    simp
  corrCur' := by
    rintro dt g ⟨m, rfl, h, h0, h1, hdx, hE, hP, hQ⟩
    refine ⟨⟨m.corrCur, rfl, ⟨h.par, h.status, h.tripped, h.mag, h.re, h.im⟩, h0, h1, hdx, hE, hP, hQ⟩, ?_⟩
    simp only [Gen.corrCur, Gen.inorton, Gensal.corrCur, inject, h.status, h.tripped, h.par, h1, salNorton]
    simp
  volt' := by
    rintro dt g ⟨m, rfl, h, h0, h1, hdx, hE, hP, hQ⟩
    exact ⟨m.setVoltage V, rfl, h.setVoltage, h0, h1, hdx, hE, hP, hQ⟩
  corrector := by
    rintro dt g ⟨m, rfl, h, h0, h1, hdx, hE, hP, hQ⟩
    have ht := sal_terminal he hz h.re h.im
    have em : m.corrector dt = { m with
        Efd := E, Pmech := Pm, B := -p.Xdpp / (p.Ra * p.Ra + p.Xdpp * p.Xdpp),
        G := p.Ra / (p.Ra * p.Ra + p.Xdpp * p.Xdpp), Vterm := ‖V‖, Id := Id, Iq := Iq, LadIfd := p.lad x Id,
        dx1 := ⟨0, 0, 0, 0, 0⟩, x1 := x, exc := m.exc.call ‖V‖ dt .corrector,
        gov := m.gov.call 0 dt .corrector } := by
      simp only [Gensal.corrector, h.status, h.tripped, h.par, h0, h1, hdx, ht, hE.1, hP.1, he.deriv,
        X5.mean_zero, X5.add_zero, he.w, h.mag, if_true]
      simp
    refine ⟨⟨m.corrector dt, rfl, ?_, ?_⟩, ?_⟩
    · rw [em]; exact ⟨h.par, h.status, h.tripped, h.mag, h.re, h.im⟩
    · rw [em]; exact ⟨fun hf => by simp at hf, fun _ => rfl, hE.2, hP.2⟩
    · show (m.corrector dt).watch true = _
      rw [em]
      simp only [Gensal.watch, salWatch, if_true, hQ.1, hQ.2, h.par]

theorem gensal_init_eq (m : Gensal) {mag ang : ℝ} (hd : m.par.Xdp ≠ m.par.Xl) :
    SalEq m.par (phasor mag ang) (m.init mag ang).x0 (m.init mag ang).Id (m.init mag ang).Iq (m.init mag ang).Efd
      (m.init mag ang).Pmech := by
  have hd' : m.par.Xdp - m.par.Xl ≠ 0 := sub_ne_zero.mpr hd
  simp only [Gensal.init, phasor]
  generalize hIr : (m.par.pg / m.par.MBase * (mag * Real.cos ang) + m.par.qg / m.par.MBase * (mag * Real.sin ang)) /
    (mag * mag) = Ir
  generalize hIi : (m.par.pg / m.par.MBase * (mag * Real.sin ang) - m.par.qg / m.par.MBase * (mag * Real.cos ang)) /
    (mag * mag) = Ii
  generalize hVr : mag * Real.cos ang = Vr
  generalize hVi : mag * Real.sin ang = Vi
  have ha := arg_align ⟨Vr + Ir * m.par.Ra - Ii * m.par.Xq, Vi + Ir * m.par.Xq + Ii * m.par.Ra⟩
  generalize Complex.arg ⟨Vr + Ir * m.par.Ra - Ii * m.par.Xq, Vi + Ir * m.par.Xq + Ii * m.par.Ra⟩ = δ at ha ⊢
  simp only at ha
  have hpd' : ∀ w s q Id : ℝ, m.par.psidpp ⟨δ, w, s + Id * (m.par.Xdp - m.par.Xl), s, q⟩ =
      s + Id * (m.par.Xdpp - m.par.Xl) := by
    intro w s q Id; simp only [GensalPar.psidpp]; field_simp; ring
  refine ⟨rfl, ?_, ?_, ?_⟩
  · simp only [GensalPar.deriv, GensalPar.lad, hpd']
    refine X5.ext ?_ ?_ ?_ ?_ ?_
    · simp
    · simp only; ring
    · simp only; ring
    · simp only; ring
    · simp only; ring
  · simp only
    linear_combination -ha
  · simp only [hpd']
    ring

/-- The Norton admittance of GENSAL on the system base. -/
theorem gensal_norton_eq (p : GensalPar) (hb : p.MBase ≠ 0) (hs : p.sbase ≠ 0)
    (hz : p.Ra * p.Ra + p.Xdpp * p.Xdpp ≠ 0) :
    p.norton = ⟨p.Ra / (p.Ra * p.Ra + p.Xdpp * p.Xdpp) * (p.MBase / p.sbase),
      -p.Xdpp / (p.Ra * p.Ra + p.Xdpp * p.Xdpp) * (p.MBase / p.sbase)⟩ := by
  have hz' : p.Ra ^ 2 + p.Xdpp ^ 2 ≠ 0 := by rw [sq, sq]; exact hz
  have e : p.Ra * p.sbase / p.MBase * (p.Ra * p.sbase / p.MBase) + p.Xdpp * p.sbase / p.MBase * (p.Xdpp * p.sbase / p.MBase)
      = (p.Ra * p.Ra + p.Xdpp * p.Xdpp) * (p.sbase / p.MBase) ^ 2 := by ring
  apply Complex.ext
  · simp only [GensalPar.norton]; rw [e]; field_simp
  · simp only [GensalPar.norton]; rw [e]; field_simp

/-- Current and admittance of GENSAL after `init` are those of the power flow. -/
theorem gensal_init_norton (m : Gensal) {mag ang : ℝ} (hmag : 0 < mag) (hd : m.par.Xdp ≠ m.par.Xl)
    (hz : m.par.Ra * m.par.Ra + m.par.Xdpp * m.par.Xdpp ≠ 0) (hb : m.par.MBase ≠ 0) (hs : m.par.sbase ≠ 0) :
    salNorton m.par (m.init mag ang).x0 - m.par.norton * phasor mag ang =
      (starRingEnd ℂ) ((⟨m.par.pg / m.par.sbase, m.par.qg / m.par.sbase⟩ : ℂ) / phasor mag ang) := by
  have he := gensal_init_eq m (mag := mag) (ang := ang) hd
  rw [salNorton, gensal_norton_eq _ hb hs hz, norton_eq hz he.hd he.hq, current_eq, norm_phasor hmag]
  simp only [Gensal.init, phasor]
  exact scaled_current ang m.par.sbase m.par.pg m.par.qg _ hmag.ne' hb _ _ rfl rfl

/-- Values reported by GENSAL at rest. -/
theorem gensal_init_watch (m : Gensal) {mag ang : ℝ} (hmag : 0 < mag) (hb : m.par.MBase ≠ 0) :
    salWatch m.par (phasor mag ang) (m.init mag ang).x0 (m.init mag ang).Id (m.init mag ang).Iq =
      [(m.init mag ang).x0.δ, 1, m.par.pg / m.par.sbase, m.par.qg / m.par.sbase] := by
  simp only [salWatch, Gensal.init, phasor]
  obtain ⟨h1, h2⟩ := scaled_power ang m.par.sbase m.par.pg m.par.qg (Complex.arg _) hmag.ne' hb _ _ rfl rfl
  rw [h1, h2, zero_add]

/-! ### Classical model -/

/-- Equilibrium of the classical model at the voltage `V` with the internal voltage `e` and the terminal
current `i`. -/
structure ClassEq (V e i : ℂ) (c : Classical) : Prop where
  dtr : c.dtr ≠ 0
  volt : e = V + Complex.I * c.dtr * i
  mech : c.pmech = (V * (starRingEnd ℂ) i).re
  pol : Complex.exp (e.arg * Complex.I) * c.eqprime = e

/-- What a classical generator at rest has in common between all calls. -/
structure ClassBase (V e i : ℂ) (dtr k1 k2 : ℝ) (c : Classical) : Prop where
  eq : ClassEq V e i c
  volt : c.volt = V
  par : c.dtr = dtr
  mva : c.mva = k1
  sbase : c.sbase = k2

theorem ClassBase.curr {V e i dtr k1 k2 c} (h : ClassBase V e i dtr k1 k2 c) :
    c.curr e = (starRingEnd ℂ) i ∧ (e * (starRingEnd ℂ) i).re = c.pmech := by
  have hd : (c.dtr : ℂ) ≠ 0 := by exact_mod_cast h.eq.dtr
  constructor
  · rw [Classical.curr, h.volt]
    congr 1
    rw [h.eq.volt]
    field_simp [Complex.I_ne_zero]
    ring
  · rw [h.eq.mech, h.eq.volt, add_mul, Complex.add_re, mul_assoc (Complex.I * _), Complex.mul_conj,
      mul_assoc Complex.I, ← Complex.ofReal_mul]
    simp

/-- Norton current of the classical model with internal voltage `e`. -/
noncomputable def classNorton (e : ℂ) (dtr k1 k2 : ℝ) : ℂ := e / (dtr * Complex.I) * k1 / k2

/-- Values reported by a classical generator at rest. -/
noncomputable def classWatch (V e i : ℂ) (k1 k2 : ℝ) : List ℝ :=
  [e.arg, 1, (V * (starRingEnd ℂ) i).re * k1 / k2, (V * (starRingEnd ℂ) i).im * k1 / k2]

/-- The state variables of the predictor step are those at rest. -/
def ClassX0 (e : ℂ) (c : Classical) : Prop := c.ang0 = e.arg ∧ c.spd0 = 1 ∧ c.e0 = e

/-- The state variables of the corrector step are those at rest. -/
def ClassX1 (e : ℂ) (c : Classical) : Prop := c.ang1 = e.arg ∧ c.spd1 = 1 ∧ c.e1 = e

theorem class_advance {V e i dtr k1 k2 c} {f : Bool} (h : ClassBase V e i dtr k1 k2 c)
    (h0 : f = true → ClassX0 e c) (h1 : f = false → ClassX1 e c) :
    ClassBase V e i dtr k1 k2 (c.advance f) ∧ ClassX0 e (c.advance f) ∧
      (f = false → ClassX1 e (c.advance f)) := by
  cases f
  · refine ⟨⟨⟨h.eq.dtr, h.eq.volt, h.eq.mech, h.eq.pol⟩, h.volt, h.par, h.mva, h.sbase⟩, h1 rfl, fun _ => h1 rfl⟩
  · exact ⟨h, h0 rfl, fun hf => by simp at hf⟩

/-- The classical model stays at rest. -/
noncomputable def classFlat (V e i : ℂ) (dtr k1 k2 : ℝ) :
    Flatness V (classNorton e dtr k1 k2) (classWatch V e i k1 k2) where
  A f g := ∃ c u, g = .classical c u ∧ ClassBase V e i dtr k1 k2 c ∧ (f = true → ClassX0 e c) ∧
    (f = false → ClassX1 e c)
  B f g := ∃ c u, g = .classical c u ∧ ClassBase V e i dtr k1 k2 c ∧ ClassX0 e c ∧ (f = false → ClassX1 e c)
  C _ g := ∃ c u, g = .classical c u ∧ ClassBase V e i dtr k1 k2 c ∧ ClassX0 e c ∧ ClassX1 e c ∧
    c.dang0 = 0 ∧ c.dspd0 = 0
  D _ g := ∃ c u, g = .classical c u ∧ ClassBase V e i dtr k1 k2 c ∧ ClassX0 e c ∧ ClassX1 e c ∧
    c.dang0 = 0 ∧ c.dspd0 = 0
  predCur := by
    rintro f g ⟨c, u, rfl, h, h0, h1⟩
    obtain ⟨q1, q2, q3⟩ := class_advance h h0 h1
    refine ⟨⟨c.predCur f, u, rfl, ⟨⟨q1.eq.dtr, q1.eq.volt, q1.eq.mech, q1.eq.pol⟩, q1.volt, q1.par, q1.mva, q1.sbase⟩,
      q2, q3⟩, ?_⟩
    simp only [Gen.predCur, Gen.inorton, Classical.predCur, q2.2.2, q1.par, q1.mva, q1.sbase, classNorton]
  predCur' := by
    rintro f g ⟨c, u, rfl, h, h0, h1⟩
    obtain ⟨q1, q2, q3⟩ := class_advance h (fun _ => h0) h1
    refine ⟨⟨c.predCur f, u, rfl, ⟨⟨q1.eq.dtr, q1.eq.volt, q1.eq.mech, q1.eq.pol⟩, q1.volt, q1.par, q1.mva, q1.sbase⟩,
      q2, q3⟩, ?_⟩
    simp only [Gen.predCur, Gen.inorton, Classical.predCur, q2.2.2, q1.par, q1.mva, q1.sbase, classNorton]
  volt := by
    rintro f g ⟨c, u, rfl, h, h0, h1⟩
    exact ⟨c.setVoltage V, u, rfl, ⟨⟨h.eq.dtr, h.eq.volt, h.eq.mech, h.eq.pol⟩, rfl, h.par, h.mva, h.sbase⟩, h0, h1⟩
  voltIn := by
    rintro f g ⟨c, u, rfl, -⟩
    rfl
  predictor := by
    rintro f g dt ⟨c, u, rfl, h, h0, h1⟩
    obtain ⟨q1, q2, q3⟩ := class_advance h (fun _ => h0) h1
    obtain ⟨a, b⟩ := q1.curr
    obtain ⟨r1, r2, r3⟩ := q2
    have hang : (c.predictor dt f).ang1 = e.arg := by simp [Classical.predictor, r1, r2]
    refine ⟨c.predictor dt f, u, rfl,
      ⟨⟨q1.eq.dtr, q1.eq.volt, q1.eq.mech, q1.eq.pol⟩, q1.volt, q1.par, q1.mva, q1.sbase⟩,
      ⟨r1, r2, r3⟩, ⟨hang, ?_, ?_⟩, ?_, ?_⟩
    · simp [Classical.predictor, r2, r3, a, b]
    · simp only [Classical.predictor, r1, r2, sub_self, zero_mul, add_zero]
      exact q1.eq.pol
    · simp [Classical.predictor, r2]
    · simp [Classical.predictor, r2, r3, a, b]
  corrCur := by
    rintro dt g ⟨c, u, rfl, h, h0, h1, hd⟩
    refine ⟨⟨c.corrCur, u, rfl, ⟨⟨h.eq.dtr, h.eq.volt, h.eq.mech, h.eq.pol⟩, h.volt, h.par, h.mva, h.sbase⟩,
      h0, h1, hd⟩, ?_⟩
    simp only [Gen.corrCur, Gen.inorton, Classical.corrCur, h1.2.2, h.par, h.mva, h.sbase, classNorton]
  corrCur' := by
    rintro dt g ⟨c, u, rfl, h, h0, h1, hd⟩
    refine ⟨⟨c.corrCur, u, rfl, ⟨⟨h.eq.dtr, h.eq.volt, h.eq.mech, h.eq.pol⟩, h.volt, h.par, h.mva, h.sbase⟩,
      h0, h1, hd⟩, ?_⟩
    simp only [Gen.corrCur, Gen.inorton, Classical.corrCur, h1.2.2, h.par, h.mva, h.sbase, classNorton]
  volt' := by
    rintro dt g ⟨c, u, rfl, h, h0, h1, hd⟩
    exact ⟨c.setVoltage V, u, rfl, ⟨⟨h.eq.dtr, h.eq.volt, h.eq.mech, h.eq.pol⟩, rfl, h.par, h.mva, h.sbase⟩, h0, h1,
      hd⟩
  corrector := by
    rintro dt g ⟨c, u, rfl, h, h0, ⟨r1, r2, r3⟩, d1, d2⟩
    obtain ⟨a, b⟩ := h.curr
    have hang : (c.corrector dt).ang1 = e.arg := by simp [Classical.corrector, h0.1, r2, d1]
    have hspd : (c.corrector dt).spd1 = 1 := by simp [Classical.corrector, h0.2.1, r2, r3, d2, a, b]
    refine ⟨⟨c.corrector dt, u, rfl,
      ⟨⟨h.eq.dtr, h.eq.volt, h.eq.mech, h.eq.pol⟩, h.volt, h.par, h.mva, h.sbase⟩,
      fun hf => by simp at hf, fun _ => ⟨hang, hspd, ?_⟩⟩, ?_⟩
    · simp only [Classical.corrector, h0.1, r2, d1, sub_self, zero_mul, add_zero, zero_div]
      exact h.eq.pol
    · show (c.corrector dt).watch true = _
      simp only [Classical.watch, if_true, hang, hspd, classWatch]
      simp only [Classical.corrector, r3, a, h.volt, h.mva, h.sbase]

/-- The current computed by the classical model's `init`. -/
noncomputable def classCurr (c : Classical) (mag ang : ℝ) : ℂ :=
  (starRingEnd ℂ) ((⟨c.pg * c.sbase / c.mva, c.qg * c.sbase / c.mva⟩ : ℂ) / phasor mag ang)

theorem classCurr_eq (c : Classical) {mag : ℝ} (hm : mag ≠ 0) (ang : ℝ) :
    (Real.sqrt (c.pg * c.sbase / c.mva * (c.pg * c.sbase / c.mva) + c.qg * c.sbase / c.mva * (c.qg * c.sbase / c.mva)) / mag : ℝ)
      * Complex.exp (Complex.I * (ang - Complex.arg ⟨c.pg * c.sbase / c.mva, c.qg * c.sbase / c.mva⟩ : ℝ)) =
    classCurr c mag ang := by
  have hm' : (mag : ℂ) ≠ 0 := by exact_mod_cast hm
  have hn : ∀ p q : ℝ, Real.sqrt (p * p + q * q) = ‖(⟨p, q⟩ : ℂ)‖ := by
    intro p q; rw [Complex.norm_eq_sqrt_sq_add_sq]; simp [sq]
  rw [hn, classCurr, phasor_eq]
  generalize (⟨c.pg * c.sbase / c.mva, c.qg * c.sbase / c.mva⟩ : ℂ) = S
  have hS := Complex.norm_mul_exp_arg_mul_I S
  conv_rhs => rw [← hS]
  rw [map_div₀, map_mul, map_mul, ← Complex.exp_conj, ← Complex.exp_conj, map_mul, map_mul, Complex.conj_ofReal,
    Complex.conj_ofReal, Complex.conj_ofReal, Complex.conj_I, Complex.conj_ofReal]
  have : Complex.exp (Complex.I * (ang - S.arg : ℝ)) = Complex.exp (S.arg * -Complex.I) / Complex.exp (-Complex.I * ang) := by
    rw [← Complex.exp_sub]; congr 1; push_cast; ring
  rw [this]
  have h2 := Complex.exp_ne_zero (-Complex.I * ang)
  push_cast
  field_simp

theorem class_init_base (c : Classical) {mag ang : ℝ} (hmag : 0 < mag) (hp : 0 ≤ c.pg * c.sbase / c.mva)
    (hx : c.dtr ≠ 0) :
    ClassBase (phasor mag ang) (phasor mag ang + Complex.I * c.dtr * classCurr c mag ang) (classCurr c mag ang)
      c.dtr c.mva c.sbase (c.init mag ang) ∧
    ClassX0 (phasor mag ang + Complex.I * c.dtr * classCurr c mag ang) (c.init mag ang) := by
  have h1 := classCurr_eq c hmag.ne' ang
  have hV := phasor_ne_zero hmag ang
  refine ⟨⟨⟨hx, rfl, ?_, ?_⟩, ?_, rfl, rfl, rfl⟩, ?_, rfl, ?_⟩
  · simp only [Classical.init, classCurr, Complex.conj_conj, mul_div_cancel₀ _ hV]
    exact abs_of_nonneg hp
  · simp only [Classical.init, h1, ← phasor_eq]
    rw [mul_comm]; exact Complex.norm_mul_exp_arg_mul_I _
  · simp only [Classical.init, ← phasor_eq]
  · simp only [Classical.init, h1, ← phasor_eq]
  · simp only [Classical.init, h1, ← phasor_eq]

/-- Current and admittance of the classical model after `init` are those of the power flow. -/
theorem class_init_norton (c : Classical) (u : ℝ) {mag ang : ℝ} 
    (hx : c.dtr ≠ 0) (hr : c.r = 0) (hdstr : c.dstr = 0) (hb : c.mva ≠ 0) (hs : c.sbase ≠ 0) :
    classNorton (phasor mag ang + Complex.I * c.dtr * classCurr c mag ang) c.dtr c.mva c.sbase
      - c.norton u * phasor mag ang = (starRingEnd ℂ) ((⟨c.pg, c.qg⟩ : ℂ) / phasor mag ang) := by
  have hx' : (c.dtr : ℂ) ≠ 0 := by exact_mod_cast hx
  have hb' : (c.mva : ℂ) ≠ 0 := by exact_mod_cast hb
  have hs' : (c.sbase : ℂ) ≠ 0 := by exact_mod_cast hs
  have hn : c.norton u = 1 / (Complex.I * c.dtr) * c.mva / c.sbase := by
    have : (⟨c.r * c.sbase / c.mva, if c.dstr = 0 then c.dtr * c.sbase / c.mva else u⟩ : ℂ) =
        Complex.I * c.dtr * c.sbase / c.mva := by
      rw [if_pos hdstr, hr]
      have : (⟨0 * c.sbase / c.mva, c.dtr * c.sbase / c.mva⟩ : ℂ) = Complex.I * ((c.dtr * c.sbase / c.mva : ℝ) : ℂ) := by
        apply Complex.ext <;> simp
      rw [this]; push_cast; ring
    rw [Classical.norton, this]
    field_simp [Complex.I_ne_zero]
  have hc : classCurr c mag ang = (starRingEnd ℂ) ((⟨c.pg, c.qg⟩ : ℂ) / phasor mag ang) * c.sbase / c.mva := by
    have : (⟨c.pg * c.sbase / c.mva, c.qg * c.sbase / c.mva⟩ : ℂ) = (⟨c.pg, c.qg⟩ : ℂ) * ((c.sbase / c.mva : ℝ) : ℂ) := by
      apply Complex.ext
      · simp [mul_div_assoc]
      · simp [mul_div_assoc]
    rw [classCurr, this, mul_div_right_comm, map_mul, Complex.conj_ofReal]
    push_cast; ring
  rw [classNorton, hn, hc]
  field_simp [Complex.I_ne_zero]
  ring

/-- Values reported by the classical model at rest. -/
theorem class_init_watch (c : Classical) {mag ang : ℝ} (hmag : 0 < mag) (hb : c.mva ≠ 0) (hs : c.sbase ≠ 0) :
    classWatch (phasor mag ang) (phasor mag ang + Complex.I * c.dtr * classCurr c mag ang) (classCurr c mag ang)
      c.mva c.sbase = [(phasor mag ang + Complex.I * c.dtr * classCurr c mag ang).arg, 1, c.pg, c.qg] := by
  have hV := phasor_ne_zero hmag ang
  have hc : phasor mag ang * (starRingEnd ℂ) (classCurr c mag ang) = ⟨c.pg * c.sbase / c.mva, c.qg * c.sbase / c.mva⟩ := by
    rw [classCurr, Complex.conj_conj, mul_div_cancel₀ _ hV]
  rw [classWatch, hc]
  simp only
  field_simp

end GridPACK.Machines
