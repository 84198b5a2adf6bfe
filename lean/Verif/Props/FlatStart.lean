import Verif.Lemmas.Machines
import Verif.Model.DsStep
import Verif.Props.DsEvents
import Verif.Props.Exciters
import Verif.Props.Governors
import Mathlib.LinearAlgebra.FiniteDimensional.Basic
import Mathlib.LinearAlgebra.Matrix.ToLin

/-! C148–C151: a dynamic simulation without disturbance stays at the power flow solution. -/
namespace GridPACK.DsStep
open GridPACK.Machines

variable {ι : Type*}

/-! ### One generator at the voltage of the power flow -/

theorem hold_flat {V N : ℂ} {W : List ℝ} (F : Flatness V N W) {g : Gen} {f : Bool} (h : F.A f g)
    (dt : ℝ) (k l : ℕ) : F.A false (hold V dt f k l g) ∧ (hold V dt f k l g).watch true = W := by
  have h1 : ∀ k, F.B f ((fun g : Gen => (g.setVoltage V).predCur f)^[k] (g.predCur f)) := by
    intro k
    induction k with
    | zero => exact (F.predCur h).1
    | succ k ih => rw [Function.iterate_succ_apply']; exact (F.predCur' (F.volt ih)).1
  have h2 := F.predictor dt (F.volt (h1 k))
  have h3 : ∀ l, ∀ g, F.C dt g → F.D dt ((fun g : Gen => (g.setVoltage V).corrCur)^[l] g.corrCur) := by
    intro l g hg
    induction l with
    | zero => exact (F.corrCur hg).1
    | succ l ih => rw [Function.iterate_succ_apply']; exact (F.corrCur' (F.volt' ih)).1
  exact F.corrector (F.volt' (h3 l _ h2))

theorem holds_flat {V N : ℂ} {W : List ℝ} (F : Flatness V N W) : ∀ (steps : List (ℝ × ℕ × ℕ)) {g : Gen} {f : Bool},
    F.A f g → steps ≠ [] → (holds V g steps f).watch true = W := by
  intro steps
  induction steps with
  | nil => intro g f _ h; exact absurd rfl h
  | cons s ss ih =>
    intro g f h _
    obtain ⟨h1, h2⟩ := hold_flat F h s.1 s.2.1 s.2.2
    cases ss with
    | nil => exact h2
    | cons s' ss' => exact ih h1 (by simp)

/-- A classical generator as the program needs it: no resistance, `dstr` 0, transient reactance not 0,
active power not negative. -/
structure ClassicalOk (c : Classical) (pg qg : ℝ) : Prop where
  p : c.pg = pg
  q : c.qg = qg
  pos : 0 ≤ pg
  sbase : c.sbase = 100
  mva : 0 < c.mva
  x : c.dtr ≠ 0
  r : c.r = 0
  dstr : c.dstr = 0

/-- A GENROU machine in service whose controllers hold the values they start with. -/
structure GenrouOk (m : Genrou) (mag ang pg qg : ℝ) : Prop where
  p : m.par.pg / m.par.sbase = pg
  q : m.par.qg / m.par.sbase = qg
  base : m.par.MBase ≠ 0
  sbase : m.par.sbase ≠ 0
  xd : m.par.Xdp ≠ m.par.Xl
  xq : m.par.Xqp ≠ m.par.Xl
  z : m.par.Ra * m.par.Ra + m.par.Xdpp * m.par.Xdpp ≠ 0
  status : m.status = true
  tripped : m.tripped = false
  exc : ExcFlat (m.exc.start mag (m.init mag ang).Efd) mag (m.init mag ang).Efd
  gov : GovFlat (m.gov.start (m.init mag ang).Pmech 0) (m.init mag ang).Pmech

/-- A GENSAL machine in service whose controllers hold the values they start with. -/
structure GensalOk (m : Gensal) (mag ang pg qg : ℝ) : Prop where
  p : m.par.pg / m.par.sbase = pg
  q : m.par.qg / m.par.sbase = qg
  base : m.par.MBase ≠ 0
  sbase : m.par.sbase ≠ 0
  xd : m.par.Xdp ≠ m.par.Xl
  z : m.par.Ra * m.par.Ra + m.par.Xdpp * m.par.Xdpp ≠ 0
  status : m.status = true
  tripped : m.tripped = false
  exc : ExcFlat (m.exc.start mag (m.init mag ang).Efd) mag (m.init mag ang).Efd
  gov : GovFlat (m.gov.start (m.init mag ang).Pmech 0) (m.init mag ang).Pmech

/-- Current that gives the power `pg + i qg` at the voltage `V`. -/
noncomputable def currentFor (V : ℂ) (pg qg : ℝ) : ℂ := (starRingEnd ℂ) ((⟨pg, qg⟩ : ℂ) / V)

theorem classical_flat {c : Classical} (u : ℝ) {mag ang pg qg : ℝ} (hmag : 0 < mag) (h : ClassicalOk c pg qg) :
    ∃ N, ∃ F : Flatness (phasor mag ang) N
        [(phasor mag ang + Complex.I * c.dtr * (currentFor (phasor mag ang) pg qg * (100 / c.mva : ℝ))).arg, 1, pg, qg],
      F.A true (Gen.classical (c.init mag ang) u) ∧ N - c.norton u * phasor mag ang = currentFor (phasor mag ang) pg qg := by
  have hs : c.sbase ≠ 0 := by rw [h.sbase]; norm_num
  have hi : classCurr c mag ang = currentFor (phasor mag ang) pg qg * (100 / c.mva : ℝ) := by
    have e : (⟨c.pg * c.sbase / c.mva, c.qg * c.sbase / c.mva⟩ : ℂ) = (⟨pg, qg⟩ : ℂ) * (100 / c.mva : ℝ) := by
      apply Complex.ext
      · simp [h.p, h.sbase, mul_div_assoc]
      · simp [h.q, h.sbase, mul_div_assoc]
    rw [classCurr, e, mul_div_right_comm, map_mul, Complex.conj_ofReal, currentFor]
  have hp : 0 ≤ c.pg * c.sbase / c.mva := by
    rw [h.p, h.sbase]; exact div_nonneg (mul_nonneg h.pos (by norm_num)) h.mva.le
  obtain ⟨b1, b2⟩ := class_init_base c (ang := ang) hmag hp h.x
  have hw := class_init_watch c (ang := ang) hmag h.mva.ne' hs
  have hn := class_init_norton c u (mag := mag) (ang := ang) h.x h.r h.dstr h.mva.ne' hs
  rw [h.p, h.q] at hw hn
  refine ⟨classNorton (phasor mag ang + Complex.I * c.dtr * classCurr c mag ang) c.dtr c.mva c.sbase, ?_⟩
  rw [← hi, ← hw]
  exact ⟨classFlat _ _ _ c.dtr c.mva c.sbase, ⟨_, u, rfl, b1, fun _ => b2, fun hf => by simp at hf⟩, hn⟩

theorem genrou_flat {m : Genrou} {mag ang pg qg : ℝ} (hmag : 0 < mag) (h : GenrouOk m mag ang pg qg) :
    ∃ N, ∃ F : Flatness (phasor mag ang) N [(m.init mag ang).x.δ, 1, pg, qg],
      F.A true (Gen.genrou (m.init mag ang)) ∧ N - m.par.norton * phasor mag ang = currentFor (phasor mag ang) pg qg := by
  have he := genrou_init_eq m (mag := mag) (ang := ang) h.xd h.xq
  have hw := genrou_init_watch m (ang := ang) hmag h.base
  have hn := genrou_init_norton m (ang := ang) hmag h.xd h.xq h.z h.base
  rw [h.p, h.q] at hw hn
  refine ⟨rouNorton m.par (m.init mag ang).x, ?_⟩
  rw [← hw]
  refine ⟨rouFlat m.par (phasor mag ang) _ _ _ _ _ he h.z, ?_, hn⟩
  have hE := h.exc
  have hG := h.gov
  have hnm := norm_phasor hmag ang
  refine ⟨m.init mag ang, rfl, ⟨rfl, h.status, h.tripped, hnm.symm, rfl, rfl, rfl, rfl, rfl⟩, ?_, hG⟩
  rw [hnm]; exact hE

theorem gensal_flat {m : Gensal} {mag ang pg qg : ℝ} (hmag : 0 < mag) (h : GensalOk m mag ang pg qg) :
    ∃ N, ∃ F : Flatness (phasor mag ang) N [(m.init mag ang).x0.δ, 1, pg, qg],
      F.A true (Gen.gensal (m.init mag ang)) ∧ N - m.par.norton * phasor mag ang = currentFor (phasor mag ang) pg qg := by
  have he := gensal_init_eq m (mag := mag) (ang := ang) h.xd
  have hw := gensal_init_watch m (ang := ang) hmag h.base
  have hn := gensal_init_norton m (ang := ang) hmag h.xd h.z h.base h.sbase
  rw [h.p, h.q] at hw hn
  refine ⟨salNorton m.par (m.init mag ang).x0, ?_⟩
  rw [← hw]
  refine ⟨salFlat m.par (phasor mag ang) _ _ _ _ _ he h.z, ?_, hn⟩
  have hE := h.exc
  have hnm := norm_phasor hmag ang
  refine ⟨m.init mag ang, rfl, ⟨rfl, h.status, h.tripped, hnm.symm, ?_, ?_⟩, fun _ => rfl, fun hf => by simp at hf,
    ?_, h.gov⟩
  · rw [hnm]; rfl
  · rw [hnm]; rfl
  · rw [hnm]; exact hE

/-- **C148** A classical generator without resistance that does not take up active power, held at the voltage of
the power flow, reports after every time step the angle of `V + jX'I`, synchronous speed and the power of the power
flow on the system base. -/
theorem C148_classical_rest_partial {c : Classical} (u : ℝ) {mag ang pg qg : ℝ} (hmag : 0 < mag)
    (h : ClassicalOk c pg qg) (steps : List (ℝ × ℕ × ℕ)) (hne : steps ≠ []) :
    (holds (phasor mag ang) ((Gen.classical c u).init mag ang) steps true).watch true =
      [(phasor mag ang + Complex.I * c.dtr * (currentFor (phasor mag ang) pg qg * (100 / c.mva : ℝ))).arg, 1, pg, qg] := by
  obtain ⟨N, F, hA, -⟩ := classical_flat u (ang := ang) hmag h
  exact holds_flat F steps hA hne

/-- The rotor angle both machines compute. -/
theorem rotor_angle {mag sb MB : ℝ} (hmag : 0 < mag) (hs : sb ≠ 0) (hb : MB ≠ 0) (ang p q Ra Xq : ℝ) :
    Complex.arg ⟨mag * Real.cos ang + (p / MB * (mag * Real.cos ang) + q / MB * (mag * Real.sin ang)) / (mag * mag) * Ra
        - (p / MB * (mag * Real.sin ang) - q / MB * (mag * Real.cos ang)) / (mag * mag) * Xq,
      mag * Real.sin ang + (p / MB * (mag * Real.cos ang) + q / MB * (mag * Real.sin ang)) / (mag * mag) * Xq
        + (p / MB * (mag * Real.sin ang) - q / MB * (mag * Real.cos ang)) / (mag * mag) * Ra⟩ =
    (phasor mag ang + ⟨Ra, Xq⟩ * (currentFor (phasor mag ang) (p / sb) (q / sb) * (sb / MB : ℝ))).arg := by
  have e : currentFor (phasor mag ang) (p / sb) (q / sb) * (sb / MB : ℝ) =
      ⟨(p / MB * (mag * Real.cos ang) + q / MB * (mag * Real.sin ang)) / (mag * mag),
       (p / MB * (mag * Real.sin ang) - q / MB * (mag * Real.cos ang)) / (mag * mag)⟩ := by
    rw [currentFor, current_eq, norm_phasor hmag]
    have hm := hmag.ne'
    apply Complex.ext
    · simp only [phasor, Complex.re_mul_ofReal]; field_simp
    · simp only [phasor, Complex.im_mul_ofReal]; field_simp
  rw [e]
  congr 1
  apply Complex.ext
  · simp only [phasor, Complex.add_re, Complex.mul_re]; ring
  · simp only [phasor, Complex.add_im, Complex.mul_im]; ring

/-- **C149** A GENROU machine held at the voltage of the power flow reports after every time step the angle of
`V + (Ra + jXq) I`, synchronous speed and the power of the power flow on the system base. -/
theorem C149_genrou_rest {m : Genrou} {mag ang pg qg : ℝ} (hmag : 0 < mag) (h : GenrouOk m mag ang pg qg)
    (steps : List (ℝ × ℕ × ℕ)) (hne : steps ≠ []) :
    (holds (phasor mag ang) ((Gen.genrou m).init mag ang) steps true).watch true =
      [(phasor mag ang + ⟨m.par.Ra, m.par.Xq⟩ *
          (currentFor (phasor mag ang) pg qg * (m.par.sbase / m.par.MBase : ℝ))).arg, 1, pg, qg] := by
  obtain ⟨N, F, hA, -⟩ := genrou_flat hmag h
  rw [show (Gen.genrou m).init mag ang = Gen.genrou (m.init mag ang) from rfl, holds_flat F steps hA hne,
    show (m.init mag ang).x.δ = _ from rotor_angle hmag h.sbase h.base ang m.par.pg m.par.qg m.par.Ra m.par.Xq,
    h.p, h.q]

/-- **C150** A GENSAL machine held at the voltage of the power flow reports after every time step the angle of
`V + (Ra + jXq) I`, synchronous speed and the power of the power flow on the system base. -/
theorem C150_gensal_rest {m : Gensal} {mag ang pg qg : ℝ} (hmag : 0 < mag) (h : GensalOk m mag ang pg qg)
    (steps : List (ℝ × ℕ × ℕ)) (hne : steps ≠ []) :
    (holds (phasor mag ang) ((Gen.gensal m).init mag ang) steps true).watch true =
      [(phasor mag ang + ⟨m.par.Ra, m.par.Xq⟩ *
          (currentFor (phasor mag ang) pg qg * (m.par.sbase / m.par.MBase : ℝ))).arg, 1, pg, qg] := by
  obtain ⟨N, F, hA, -⟩ := gensal_flat hmag h
  rw [show (Gen.gensal m).init mag ang = Gen.gensal (m.init mag ang) from rfl, holds_flat F steps hA hne,
    show (m.init mag ang).x0.δ = _ from rotor_angle hmag h.sbase h.base ang m.par.pg m.par.qg m.par.Ra m.par.Xq,
    h.p, h.q]

/-- SEXS as used by a machine, in terms of C119. -/
theorem excFlat_sexs {g : Exciters.Sexs} {V E : ℝ}
    (h : ∀ dts, ∀ v ∈ Cblock.trace Exciters.sexsCall Exciters.Sexs.Efd (Exciters.sexsStart g V g.Vs E)
      (Cblock.constant (V, g.Vs) dts), v = E) : ExcFlat ((Exc.sexs g).start V E) V E := by
  have key : ∀ (dts : List ℝ) (g : Exciters.Sexs),
      Cblock.trace Exc.call Exc.efd (.sexs g) (Cblock.constant V dts) =
        Cblock.trace Exciters.sexsCall Exciters.Sexs.Efd g (Cblock.constant (V, g.Vs) dts) := by
    intro dts
    induction dts with
    | nil => intro g; rfl
    | cons d ds ih =>
      intro g
      have := ih (Exciters.sexsCall (Exciters.sexsCall g (V, g.Vs) d .predictor) (V, g.Vs) d .corrector)
      simp only [Cblock.constant, List.map_cons, Cblock.trace]
      exact congrArg (fun l => _ :: _ :: l) this
  refine ⟨rfl, fun dts v hv => ?_⟩
  rw [Exc.start, key] at hv
  exact h dts v hv

/-- TGOV1 as used by a machine, in terms of C112. -/
theorem govFlat_tgov1 {g : Governors.Tgov} {P : ℝ}
    (h : ∀ dts, ∀ v ∈ Cblock.trace Governors.tgovCall Governors.Tgov.Pmech (Governors.tgovStart g P 0)
      (Cblock.constant 0 dts), v = P) : GovFlat ((Gov.tgov1 g).start P 0) P := by
  have key : ∀ (dts : List ℝ) (g : Governors.Tgov),
      Cblock.trace Gov.call Gov.pmech (.tgov1 g) (Cblock.constant 0 dts) =
        Cblock.trace Governors.tgovCall Governors.Tgov.Pmech g (Cblock.constant 0 dts) := by
    intro dts
    induction dts with
    | nil => intro g; rfl
    | cons d ds ih =>
      intro g
      have := ih (Governors.tgovCall (Governors.tgovCall g 0 d .predictor) 0 d .corrector)
      simp only [Cblock.constant, List.map_cons, Cblock.trace]
      exact congrArg (fun l => _ :: _ :: l) this
  refine ⟨rfl, fun dts v hv => ?_⟩
  rw [Gov.start, key] at hv
  exact h dts v hv

/-- **C149** for a GENROU machine with the exciter SEXS and the governor TGOV1: the conditions on the controllers
hold if the field voltage and the mechanical power at the start lie within the controllers' limits.  Partial: the
built-in bounds of C112 and C119 appear as hypotheses. -/
theorem C149_genrou_controlled_partial {m : Genrou} {mag ang pg qg : ℝ} (hmag : 0 < mag)
    (hp : m.par.pg / m.par.sbase = pg) (hq : m.par.qg / m.par.sbase = qg) (hb : m.par.MBase ≠ 0)
    (hs : m.par.sbase ≠ 0) (hxd : m.par.Xdp ≠ m.par.Xl) (hxq : m.par.Xqp ≠ m.par.Xl)
    (hz : m.par.Ra * m.par.Ra + m.par.Xdpp * m.par.Xdpp ≠ 0) (hst : m.status = true) (htr : m.tripped = false)
    (e0 e : Exciters.Sexs) (r TB K EMAX EMIN TE : ℝ) (he : m.exc = .sexs e)
    (hload : e0.load ⟨some r, some TB, some K, some EMAX, some EMIN, some TE⟩ = some e)
    (hTB : TB ≠ 0) (hK : K ≠ 0) (hlim : EMIN ≤ (m.init mag ang).Efd ∧ (m.init mag ang).Efd ≤ EMAX)
    (hlim0 : |TE| < 1 / 10 ^ 6 → EMIN ≤ (m.init mag ang).Efd / K ∧ (m.init mag ang).Efd / K ≤ EMAX)
    (hTB' : |TB| ≤ 10 ^ 10) (hTE' : |TE| ≤ 10 ^ 10) (hE : |(m.init mag ang).Efd| ≤ 1000)
    (hu : |(m.init mag ang).Efd / K| ≤ 1000) (hx : |(1 - r) * ((m.init mag ang).Efd / K)| ≤ 1000)
    (g0 g : Governors.Tgov) (R T1 Vmax Vmin T2 T3 Dt : ℝ) (hg : m.gov = .tgov1 g)
    (hgload : g0.load ⟨some R, some T1, some Vmax, some Vmin, some T2, some T3, some Dt⟩ = some g)
    (hR : R ≠ 0) (h1 : T1 ≠ 0) (h3 : T3 ≠ 0) (h1' : |T1| ≤ 10 ^ 10) (h3' : |T3| ≤ 10 ^ 10)
    (hglim : Vmin ≤ (m.init mag ang).Pmech ∧ (m.init mag ang).Pmech ≤ Vmax)
    (hgb : |(m.init mag ang).Pmech| ≤ 1000) (hgb' : |(1 - T2 / T3) * (m.init mag ang).Pmech| ≤ 1000)
    (steps : List (ℝ × ℕ × ℕ)) (hne : steps ≠ []) :
    (holds (phasor mag ang) ((Gen.genrou m).init mag ang) steps true).watch true =
      [(phasor mag ang + ⟨m.par.Ra, m.par.Xq⟩ *
          (currentFor (phasor mag ang) pg qg * (m.par.sbase / m.par.MBase : ℝ))).arg, 1, pg, qg] := by
  refine C149_genrou_rest hmag ⟨hp, hq, hb, hs, hxd, hxq, hz, hst, htr, ?_, ?_⟩ steps hne
  · rw [he]
    obtain ⟨e', h, ht⟩ := Exciters.C119_sexs_partial e0 r TB K EMAX EMIN TE mag e.Vs (m.init mag ang).Efd hTB hK hlim
      hlim0 hTB' hTE' hE hu hx
    rw [hload, Option.some.injEq] at h
    subst h
    exact excFlat_sexs ht
  · rw [hg]
    obtain ⟨g', h, ht⟩ := Governors.C112_tgov1_partial g0 R T1 Vmax Vmin T2 T3 Dt (m.init mag ang).Pmech 0 hR h1 h3
      h1' h3' (by simpa using hglim) (by simpa using hgb) (by simpa using hgb')
    rw [hgload, Option.some.injEq] at h
    subst h
    exact govFlat_tgov1 ht

/-- **C148** fails for a generator with resistance: the current of the model and the admittance in the network
matrix do not belong together, and the machine does not feed the current of the power flow into the network. -/
theorem C148_resistance_violated {c : Classical} (u : ℝ) {mag ang : ℝ} (hmag : 0 < mag) (hs : c.sbase = 100)
    (hb : 0 < c.mva) (hx : c.dtr ≠ 0) (hr : c.r ≠ 0) (hd : c.dstr = 0) :
    ((Gen.classical c u).init mag ang |>.predCur true).inorton - (Gen.classical c u).norton * phasor mag ang ≠
      currentFor (phasor mag ang) c.pg c.qg := by
  have hV := phasor_ne_zero hmag ang
  have hs' : c.sbase ≠ 0 := by rw [hs]; norm_num
  obtain ⟨c0, hc0⟩ : ∃ c0 : Classical, c0 = { c with r := 0 } := ⟨_, rfl⟩
  have h0 := class_init_norton c0 u (mag := mag) (ang := ang) (by rw [hc0]; exact hx) (by rw [hc0]) (by rw [hc0]; exact hd)
    (by rw [hc0]; exact hb.ne') (by rw [hc0]; exact hs')
  have hI := classCurr_eq c hmag.ne' ang
  have eN : ((Gen.classical c u).init mag ang |>.predCur true).inorton =
      classNorton (phasor mag ang + Complex.I * c.dtr * classCurr c mag ang) c.dtr c.mva c.sbase := by
    simp only [Gen.init, Gen.predCur, Gen.inorton, Classical.predCur, Classical.advance, Classical.init, if_true, hI,
      ← phasor_eq, classNorton]
  have e0 : classNorton (phasor mag ang + Complex.I * c.dtr * classCurr c mag ang) c.dtr c.mva c.sbase -
      c0.norton u * phasor mag ang = currentFor (phasor mag ang) c.pg c.qg := by
    rw [hc0] at h0 ⊢; exact h0
  rw [eN]
  intro h
  have hn : c.norton u = c0.norton u := by
    have := h.trans e0.symm
    exact mul_right_cancel₀ hV (sub_right_inj.mp this)
  rw [hc0] at hn
  simp only [Classical.norton, if_pos hd] at hn
  have hz : (⟨c.r * c.sbase / c.mva, c.dtr * c.sbase / c.mva⟩ : ℂ) = ⟨0 * c.sbase / c.mva, c.dtr * c.sbase / c.mva⟩ := by
    have := congrArg (fun z : ℂ => 1 / z) hn
    simpa using this
  have := congrArg Complex.re hz
  simp [hr, hs', hb.ne'] at this

/-- **C148** fails for a generator with a subtransient reactance (`dstr` not 0): the admittance entered into the
network matrix is that of an uninitialised variable. -/
theorem C148_subtransient_violated {c : Classical} (hd : c.dstr ≠ 0) (u u' : ℝ) (hu : u ≠ u') :
    (Gen.classical c u).norton ≠ (Gen.classical c u').norton := by
  intro h
  simp only [Gen.norton, Classical.norton, if_neg hd] at h
  have hz := congrArg (fun z : ℂ => 1 / z) h
  have := congrArg Complex.im (by simpa using hz : (⟨c.r * c.sbase / c.mva, u⟩ : ℂ) = ⟨c.r * c.sbase / c.mva, u'⟩)
  exact hu this

/-- A classical generator of 100 MVA that produces 100 MW. -/
noncomputable def sampleClassical : Classical :=
  ⟨100, 1, 0, 100, 0, 0, 1, 5, 0, 0, 0, 0, 0, 0, 0, 0, 0, 0, 0, 0, 0, 0, 0, 0, 0, 0⟩

theorem sampleClassical_ok : ClassicalOk sampleClassical 1 0 := by
  constructor <;> norm_num [sampleClassical]

/-- The sample generator at the voltage 1 keeps the angle of `1 + j`. -/
example (steps : List (ℝ × ℕ × ℕ)) (hne : steps ≠ []) :
    (holds 1 ((Gen.classical sampleClassical 0).init 1 0) steps true).watch true = [(1 + Complex.I).arg, 1, 1, 0] := by
  have h := C148_classical_rest_partial 0 (mag := 1) (ang := 0) one_pos sampleClassical_ok steps hne
  have hp : phasor 1 0 = 1 := by apply Complex.ext <;> simp [phasor]
  have hc : currentFor 1 1 0 = 1 := by apply Complex.ext <;> simp [currentFor, Complex.div_re, Complex.div_im]
  rw [hp, hc] at h
  rw [h]
  norm_num [sampleClassical]

/-- A GENROU machine of 100 MVA that produces 80 MW, 20 Mvar. -/
noncomputable def sampleGenrou : Genrou where
  par := ⟨100, 80, 20, 100, 5, 0, 0, 1.8, 1.7, 0.3, 0.2, 0.15, 6, 0.05, 0.05, 0.1, 0.4, 0.5, 0.5, true⟩
  presentMag := 0
  presentAng := 0
  Vterm := 0
  x := .off
  x1 := .off
  dx := .off
  dx1 := .off
  Id := 0
  Iq := 0
  Ir := 0
  Ii := 0
  genP := 0
  genQ := 0
  B := 0
  G := 0
  Efd := 0
  LadIfd := 0
  Pmech := 0
  Ya := 0
  INorton := 0
  status := true
  tripped := false
  exc := .none 0
  gov := .none 0

theorem sampleGenrou_ok (mag ang : ℝ) : GenrouOk sampleGenrou mag ang 0.8 0.2 := by
  refine ⟨?_, ?_, ?_, ?_, ?_, ?_, ?_, rfl, rfl, excFlat_none _ _, govFlat_none _⟩ <;> norm_num [sampleGenrou]

/-- The machine above without load and without saturation, with an exciter and a governor. -/
noncomputable def idleGenrou (e : Exciters.Sexs) (g : Governors.Tgov) : Genrou :=
  { sampleGenrou with
    par := { sampleGenrou.par with pg := 0, qg := 0, enableSat := false }, exc := .sexs e, gov := .tgov1 g }

theorem idleGenrou_init (e : Exciters.Sexs) (g : Governors.Tgov) :
    ((idleGenrou e g).init 1 0).Efd = 1 ∧ ((idleGenrou e g).init 1 0).Pmech = 0 := by
  have h1 : Complex.arg ⟨1, 0⟩ = 0 := Complex.arg_one
  constructor <;> simp [idleGenrou, sampleGenrou, Genrou.init, rotate, GenrouPar.sat, h1]

/-- A machine without load, with SEXS and TGOV1, stays at rest. -/
example (e0 : Exciters.Sexs) (g0 : Governors.Tgov) (steps : List (ℝ × ℕ × ℕ)) (hne : steps ≠ []) :
    ∃ e g, (holds (phasor 1 0) ((Gen.genrou (idleGenrou e g)).init 1 0) steps true).watch true = [0, 1, 0, 0] := by
  obtain ⟨e, he, -⟩ := Exciters.C119_sexs_partial e0 0.1 10 100 5 (-5) 0.1 1 0 1 (by norm_num) (by norm_num)
    (by norm_num) (by norm_num) (by norm_num) (by norm_num) (by norm_num) (by norm_num) (by norm_num)
  obtain ⟨g, hg, -⟩ := Governors.C112_tgov1_partial g0 0.05 0.5 1 0 3 10 0 0 0 (by norm_num) (by norm_num)
    (by norm_num) (by norm_num) (by norm_num) (by norm_num) (by norm_num) (by norm_num)
  refine ⟨e, g, ?_⟩
  obtain ⟨hE, hP⟩ := idleGenrou_init e g
  have h := C149_genrou_controlled_partial (m := idleGenrou e g) (mag := 1) (ang := 0) (pg := 0) (qg := 0) one_pos
    (by simp [idleGenrou]) (by simp [idleGenrou]) (by norm_num [idleGenrou, sampleGenrou])
    (by norm_num [idleGenrou, sampleGenrou]) (by norm_num [idleGenrou, sampleGenrou])
    (by norm_num [idleGenrou, sampleGenrou]) (by norm_num [idleGenrou, sampleGenrou]) rfl rfl e0 e 0.1 10 100 5 (-5) 0.1
    rfl he (by norm_num) (by norm_num) (by rw [hE]; norm_num) (by rw [hE]; norm_num) (by norm_num) (by norm_num)
    (by rw [hE]; norm_num) (by rw [hE]; norm_num) (by rw [hE]; norm_num) g0 g 0.05 0.5 1 0 3 10 0 rfl hg (by norm_num)
    (by norm_num) (by norm_num) (by norm_num) (by norm_num) (by rw [hP]; norm_num) (by rw [hP]; norm_num)
    (by rw [hP]; norm_num) steps hne
  rw [h]
  have hp : phasor 1 0 = 1 := by apply Complex.ext <;> simp [phasor]
  have hc : currentFor 1 0 0 = 0 := by
    have : (⟨0, 0⟩ : ℂ) = 0 := rfl
    simp [currentFor, this]
  rw [hp, hc]
  simp

/-- A GENSAL machine of 100 MVA that produces 80 MW, 20 Mvar. -/
noncomputable def sampleGensal : Gensal where
  par := ⟨100, 80, 20, 100, 5, 0, 0, 1.2, 0.7, 0.3, 0.2, 0.15, 6, 0.05, 0.05, 0.1, 0.4⟩
  presentMag := 0
  presentAng := 0
  Vterm := 0
  x0 := .off
  x1 := .off
  dx0 := .off
  dx1 := .off
  Id := 0
  Iq := 0
  Ir := 0
  Ii := 0
  genP := 0
  genQ := 0
  B := 0
  G := 0
  Efd := 0
  LadIfd := 0
  Pmech := 0
  Ya := 0
  INorton := 0
  status := true
  tripped := false
  exc := .none 0
  gov := .none 0

theorem sampleGensal_ok (mag ang : ℝ) : GensalOk sampleGensal mag ang 0.8 0.2 := by
  refine ⟨?_, ?_, ?_, ?_, ?_, ?_, rfl, rfl, excFlat_none _ _, govFlat_none _⟩ <;> norm_num [sampleGensal]

/-! ### The whole system -/

/-- What `setup` needs of a generator: no negative active power, and the conditions above if it has a model. -/
def Proper (mag ang : ℝ) : Gen → ℝ × ℝ → Prop
  | .base, s => 0 ≤ s.1
  | .classical c _, s => ClassicalOk c s.1 s.2
  | .genrou m, s => 0 ≤ s.1 ∧ GenrouOk m mag ang s.1 s.2
  | .gensal m, s => 0 ≤ s.1 ∧ GensalOk m mag ang s.1 s.2

/-- Power of a generator that the dynamic simulation represents by a model; a generator without model is part of
`noModel`. -/
def powerOf : Gen → ℝ × ℝ → ℝ × ℝ
  | .base, _ => (0, 0)
  | _, s => s

/-- A generator without model does nothing. -/
def baseFlat (V : ℂ) : Flatness V 0 [] where
  A _ g := g = .base
  B _ g := g = .base
  C _ g := g = .base
  D _ g := g = .base
  predCur := by rintro f g rfl; exact ⟨rfl, rfl⟩
  predCur' := by rintro f g rfl; exact ⟨rfl, rfl⟩
  volt := by rintro f g rfl; rfl
  voltIn := by rintro f g rfl; rfl
  predictor := by rintro f g dt rfl; rfl
  corrCur := by rintro dt g rfl; exact ⟨rfl, rfl⟩
  corrCur' := by rintro dt g rfl; exact ⟨rfl, rfl⟩
  volt' := by rintro dt g rfl; rfl
  corrector := by rintro dt g rfl; exact ⟨rfl, rfl⟩

theorem proper_flat {mag ang : ℝ} (hmag : 0 < mag) {g : Gen} {s : ℝ × ℝ} (h : Proper mag ang g s) :
    ∃ N δ W, ∃ F : Flatness (phasor mag ang) N W, F.A true (g.init mag ang) ∧
      N - g.norton * phasor mag ang = currentFor (phasor mag ang) (powerOf g s).1 (powerOf g s).2 ∧
      ∀ g, F.A false g → g.watch true = W → g = .base ∨ g.watch true = [δ, 1, s.1, s.2] := by
  cases g with
  | base =>
    refine ⟨0, 0, [], baseFlat _, rfl, ?_, fun g hg _ => Or.inl hg⟩
    rw [currentFor, current_eq]
    apply Complex.ext <;> simp [powerOf, Gen.norton]
  | classical c u =>
    obtain ⟨N, F, h1, h2⟩ := classical_flat u (ang := ang) hmag h; exact ⟨N, _, _, F, h1, h2, fun g _ hg => Or.inr hg⟩
  | genrou m => obtain ⟨N, F, h1, h2⟩ := genrou_flat hmag h.2; exact ⟨N, _, _, F, h1, h2, fun g _ hg => Or.inr hg⟩
  | gensal m => obtain ⟨N, F, h1, h2⟩ := gensal_flat hmag h.2; exact ⟨N, _, _, F, h1, h2, fun g _ hg => Or.inr hg⟩

/-- A generator at rest together with its status and power. -/
structure Pack (V : ℂ) where
  st : Bool
  N : ℂ
  δ : ℝ
  pq : ℝ × ℝ
  W : List ℝ
  F : Flatness V N W
  ok : ∀ g, F.A false g → g.watch true = W → g = .base ∨ g.watch true = [δ, 1, pq.1, pq.2]

/-- The generator of a pack has the pack's status, and `P` if it is in service. -/
def Rel {V : ℂ} (P : Pack V → Gen → Prop) (g : Bool × Gen) (p : Pack V) : Prop :=
  g.1 = p.st ∧ (p.st = true → P p g.2)

theorem each_rel {V : ℂ} {P Q : Pack V → Gen → Prop} {f : Gen → Gen} (hf : ∀ p g, P p g → Q p (f g)) {b : Bus}
    {ps : List (Pack V)} (h : List.Forall₂ (Rel P) b.gens ps) : List.Forall₂ (Rel Q) (b.each f).gens ps := by
  simp only [Bus.each, List.forall₂_map_left_iff]
  refine h.imp ?_
  rintro ⟨st, g⟩ p ⟨h1, h2⟩
  cases st
  · exact ⟨h1, fun hp => by rw [hp] at h1; simp at h1⟩
  · exact ⟨h1, fun hp => hf _ _ (h2 hp)⟩

/-- Sum of the Norton currents of the generators in service. -/
def total {V : ℂ} (ps : List (Pack V)) : ℂ := (ps.map (fun p => if p.st then p.N else 0)).sum

theorem current_total {V : ℂ} {P : Pack V → Gen → Prop} (hP : ∀ p g, P p g → g.inorton = p.N) {b : Bus}
    {ps : List (Pack V)} (h : List.Forall₂ (Rel P) b.gens ps) : b.current = total ps := by
  have key : ∀ (l : List (Bool × Gen)) (ps : List (Pack V)) (a : ℂ), List.Forall₂ (Rel P) l ps →
      l.foldl (fun s g => if g.1 then s + g.2.inorton else s) a = a + total ps := by
    intro l ps a h
    induction h generalizing a with
    | nil => simp [total]
    | @cons g p l ps hgp _ ih =>
      rw [List.foldl_cons, ih]
      obtain ⟨h1, h2⟩ := hgp
      cases hst : p.st
      · rw [hst] at h1; simp [total, h1, hst]
      · rw [hst] at h1
        simp only [total, h1, hst, List.map_cons, List.sum_cons, if_true, hP _ _ (h2 hst)]
        ring
  have := key b.gens ps 0 h
  rw [zero_add] at this
  exact this

section
variable [Fintype ι] {V : ι → ℂ} {ps : (i : ι) → List (Pack (V i))}

theorem iterate_keeps (o : Opts ι) (corr : Bool) (Inv : State ι → Prop)
    (hstep : ∀ s, Inv s → Inv ((s.setVolt o).getCurrent corr)) :
    ∀ k s, Inv s → Inv (State.iterate o corr k s) := by
  intro k
  induction k with
  | zero => intro s h; exact h
  | succ k ih =>
    intro s h
    simp only [State.iterate]
    split
    · exact hstep s h
    · exact ih _ (hstep s h)

/-- Phase of the whole system. -/
structure Phase (P : ∀ {v : ℂ}, Pack v → Gen → Prop) (ps : (i : ι) → List (Pack (V i))) (n last : ℕ)
    (s : State ι) : Prop where
  gens : ∀ i, List.Forall₂ (Rel (P (v := V i))) (s.bus i).gens (ps i)
  n : s.n = n
  last : s.last = last

theorem solve_pred {o : Opts ι} (hsolve : o.solve (fun i => total (ps i)) = V) {f : Bool} {n last : ℕ} {s : State ι}
    (hf : f = (if n ≠ 0 ∧ last ≠ n then false else true))
    (h : Phase (V := V) (fun p g => p.F.B f g ∧ g.inorton = p.N) ps n last s) (hi : s.inj = fun i => total (ps i)) :
    Phase (V := V) (fun p g => p.F.B f g) ps n last (s.solveNetwork o false) := by
  have hvolt : ∀ s : State ι, Phase (V := V) (fun p g => p.F.B f g ∧ g.inorton = p.N) ps n last s →
      s.inj = (fun i => total (ps i)) →
      Phase (V := V) (fun p g => p.F.B f g ∧ g.inorton = p.N) ps n last (s.setVolt o) := by
    intro s h hi
    refine ⟨fun i => ?_, h.n, h.last⟩
    have : o.solve s.inj i = V i := by rw [hi, hsolve]
    simp only [State.setVolt, this]
    exact each_rel (fun p g hg => ⟨p.F.volt hg.1, (p.F.voltIn hg.1).trans hg.2⟩) (h.gens i)
  have hcur : ∀ s : State ι, Phase (V := V) (fun p g => p.F.B f g ∧ g.inorton = p.N) ps n last s →
      Phase (V := V) (fun p g => p.F.B f g ∧ g.inorton = p.N) ps n last (s.getCurrent false) ∧
      (s.getCurrent false).inj = (fun i => total (ps i)) := by
    intro s h
    have hfl : s.flag = f := by rw [State.flag, h.n, h.last, hf]
    have hg : ∀ i, List.Forall₂ (Rel (fun p g => p.F.B f g ∧ g.inorton = p.N)) ((s.getCurrent false).bus i).gens (ps i) := by
      intro i
      simp only [State.getCurrent, hfl]
      exact each_rel (fun p g hg => p.F.predCur' hg.1) (h.gens i)
    exact ⟨⟨hg, h.n, h.last⟩, funext fun i => current_total (fun p g h => h.2) (hg i)⟩
  have hfin : ∀ s : State ι, Phase (V := V) (fun p g => p.F.B f g ∧ g.inorton = p.N) ps n last s →
      Phase (V := V) (fun p g => p.F.B f g) ps n last s := fun s h =>
    ⟨fun i => (h.gens i).imp fun g p hg => ⟨hg.1, fun hp => (hg.2 hp).1⟩, h.n, h.last⟩
  unfold State.solveNetwork
  split
  · refine hfin _ (iterate_keeps o false (fun s => Phase (V := V) (fun p g => p.F.B f g ∧ g.inorton = p.N) ps n last s ∧
      s.inj = fun i => total (ps i)) (fun s hs => hcur _ (hvolt s hs.1 hs.2)) _ s ⟨h, hi⟩).1
  · exact hfin _ (hvolt s h hi)

theorem solve_corr {o : Opts ι} (hsolve : o.solve (fun i => total (ps i)) = V) {dt : ℝ} {n last : ℕ} {s : State ι}
    (h : Phase (V := V) (fun p g => p.F.D dt g ∧ g.inorton = p.N) ps n last s) (hi : s.inj = fun i => total (ps i)) :
    Phase (V := V) (fun p g => p.F.D dt g) ps n last (s.solveNetwork o true) ∧
      ∀ i, ((s.solveNetwork o true).bus i).volt = V i := by
  have hvolt : ∀ s : State ι, Phase (V := V) (fun p g => p.F.D dt g ∧ g.inorton = p.N) ps n last s →
      s.inj = (fun i => total (ps i)) →
      Phase (V := V) (fun p g => p.F.D dt g) ps n last (s.setVolt o) ∧ ∀ i, ((s.setVolt o).bus i).volt = V i := by
    intro s h hi
    have e : ∀ i, o.solve s.inj i = V i := fun i => by rw [hi, hsolve]
    refine ⟨⟨fun i => ?_, h.n, h.last⟩, fun i => e i⟩
    simp only [State.setVolt, e]
    exact each_rel (fun p g hg => p.F.volt' hg.1) (h.gens i)
  have hcur : ∀ s : State ι, Phase (V := V) (fun p g => p.F.D dt g) ps n last s →
      Phase (V := V) (fun p g => p.F.D dt g ∧ g.inorton = p.N) ps n last (s.getCurrent true) ∧
      (s.getCurrent true).inj = (fun i => total (ps i)) := by
    intro s h
    have hg : ∀ i, List.Forall₂ (Rel (fun p g => p.F.D dt g ∧ g.inorton = p.N)) ((s.getCurrent true).bus i).gens (ps i) := by
      intro i
      simp only [State.getCurrent]
      exact each_rel (fun p g hg => p.F.corrCur' hg) (h.gens i)
    exact ⟨⟨hg, h.n, h.last⟩, funext fun i => current_total (fun p g h => h.2) (hg i)⟩
  have hfin : ∀ s : State ι, Phase (V := V) (fun p g => p.F.D dt g ∧ g.inorton = p.N) ps n last s →
      Phase (V := V) (fun p g => p.F.D dt g) ps n last s := fun s h =>
    ⟨fun i => (h.gens i).imp fun g p hg => ⟨hg.1, fun hp => (hg.2 hp).1⟩, h.n, h.last⟩
  have hone : ∀ s : State ι, Phase (V := V) (fun p g => p.F.D dt g ∧ g.inorton = p.N) ps n last s →
      s.inj = (fun i => total (ps i)) →
      (Phase (V := V) (fun p g => p.F.D dt g ∧ g.inorton = p.N) ps n last ((s.setVolt o).getCurrent true) ∧
        ((s.setVolt o).getCurrent true).inj = fun i => total (ps i)) ∧
        ∀ i, (((s.setVolt o).getCurrent true).bus i).volt = V i := by
    intro s h hi
    obtain ⟨a, b⟩ := hvolt s h hi
    exact ⟨hcur _ a, b⟩
  unfold State.solveNetwork
  split
  · obtain ⟨⟨a, b⟩, c⟩ := hone s h hi
    simp only [State.iterate]
    split
    · exact ⟨hfin _ a, c⟩
    · have := iterate_keeps o true (fun s => (Phase (V := V) (fun p g => p.F.D dt g ∧ g.inorton = p.N) ps n last s ∧
        s.inj = fun i => total (ps i)) ∧ ∀ i, (s.bus i).volt = V i) (fun s hs => hone s hs.1.1 hs.1.2) o.maxIts _
        ⟨⟨a, b⟩, c⟩
      exact ⟨hfin _ this.1.1, this.2⟩
  · exact hvolt s h hi

theorem step_flat {o : Opts ι} (hsolve : o.solve (fun i => total (ps i)) = V) {f : Bool} {n last : ℕ} {s : State ι}
    (hf : f = (if n ≠ 0 ∧ last ≠ n then false else true))
    (h : Phase (V := V) (fun p g => p.F.A f g) ps n last s) (dt : ℝ) :
    Phase (V := V) (fun p g => p.F.A false g ∧ g.watch true = p.W) ps (n + 1) n (s.step o dt) ∧
      ∀ i, ((s.step o dt).bus i).volt = V i := by
  have hfl : s.flag = f := by rw [State.flag, h.n, h.last, hf]
  have h1 : Phase (V := V) (fun p g => p.F.B f g ∧ g.inorton = p.N) ps n last (s.getCurrent false) := by
    refine ⟨fun i => ?_, h.n, h.last⟩
    simp only [State.getCurrent, hfl]
    exact each_rel (fun p g hg => p.F.predCur hg) (h.gens i)
  have i1 : (s.getCurrent false).inj = fun i => total (ps i) := funext fun i => current_total (fun p g h => h.2) (h1.gens i)
  have h2 := solve_pred hsolve hf h1 i1
  obtain ⟨s2, hs2⟩ : ∃ s2, s2 = (s.getCurrent false).solveNetwork o false := ⟨_, rfl⟩
  rw [← hs2] at h2
  have h3 : Phase (V := V) (fun p g => p.F.D dt g ∧ g.inorton = p.N) ps n last
      (State.getCurrent { s2 with bus := fun i => (s2.bus i).each (fun g => g.predictor dt f) } true) := by
    refine ⟨fun i => ?_, h2.n, h2.last⟩
    have hc : List.Forall₂ (Rel (fun (p : Pack (V i)) g => p.F.C dt g)) ((s2.bus i).each (fun g => g.predictor dt f)).gens (ps i) :=
      each_rel (fun p g hg => p.F.predictor dt hg) (h2.gens i)
    simp only [State.getCurrent]
    exact each_rel (fun p g hg => p.F.corrCur hg) hc
  have i3 : (State.getCurrent { s2 with bus := fun i => (s2.bus i).each (fun g => g.predictor dt f) } true).inj =
      fun i => total (ps i) := funext fun i => current_total (fun p g h => h.2) (h3.gens i)
  obtain ⟨h4, v4⟩ := solve_corr hsolve h3 i3
  obtain ⟨s4, hs4⟩ : ∃ s4, s4 = (State.getCurrent { s2 with bus := fun i => (s2.bus i).each (fun g => g.predictor dt f) } true).solveNetwork o true := ⟨_, rfl⟩
  rw [← hs4] at h4 v4
  have es : s.step o dt = { s4 with bus := fun i => (s4.bus i).each (fun g => g.corrector dt), last := s4.n, n := s4.n + 1 } := by
    simp only [State.step, hfl]; rw [hs4, hs2]
  rw [es]
  refine ⟨⟨fun i => ?_, by simp [h4.n], h4.n⟩, fun i => v4 i⟩
  exact each_rel (fun p g hg => p.F.corrector hg) (h4.gens i)

end

/-- A generator out of service. -/
def idle (V : ℂ) (pq : ℝ × ℝ) : Pack V where
  st := false
  N := 0
  δ := 0
  pq := pq
  W := []
  ok := fun g h _ => h.elim
  F := { A := fun _ _ => False, B := fun _ _ => False, C := fun _ _ => False, D := fun _ _ => False,
         predCur := fun h => h.elim, predCur' := fun h => h.elim, volt := fun h => h.elim, voltIn := fun h => h.elim,
         predictor := fun _ h => h.elim, corrCur := fun h => h.elim, corrCur' := fun h => h.elim,
         volt' := fun h => h.elim, corrector := fun h => h.elim }

theorem packs_exist {mag : ℝ} (hmag : 0 < mag) (ang : ℝ) {gens : List (Bool × Gen)} {pq : List (ℝ × ℝ)}
    (h : List.Forall₂ (fun g s => g.1 = true → Proper mag ang g.2 s) gens pq) :
    ∃ ps : List (Pack (phasor mag ang)),
      List.Forall₂ (Rel (fun p g => p.F.A true (g.init mag ang))) gens ps ∧ ps.map Pack.pq = pq ∧
      total ps = ((gens.zip pq).map (fun g => if g.1.1 then g.1.2.norton * phasor mag ang +
        currentFor (phasor mag ang) (powerOf g.1.2 g.2).1 (powerOf g.1.2 g.2).2 else 0)).sum := by
  induction h with
  | nil => exact ⟨[], .nil, rfl, rfl⟩
  | @cons g s l m hg _ ih =>
    obtain ⟨ps, h1, h2, h3⟩ := ih
    obtain ⟨st, g⟩ := g
    cases st
    · refine ⟨idle _ s :: ps, .cons ⟨rfl, fun h => by simp [idle] at h⟩ h1, by simp [h2, idle], ?_⟩
      simp only [total, List.map_cons, List.sum_cons, List.zip_cons_cons] at h3 ⊢
      rw [h3]; simp [idle]
    · obtain ⟨N, δ, W, F, hA, hN, hok⟩ := proper_flat hmag (hg rfl)
      refine ⟨⟨true, N, δ, s, W, F, hok⟩ :: ps, .cons ⟨rfl, fun _ => hA⟩ h1, by simp [h2], ?_⟩
      simp only [total, List.map_cons, List.sum_cons, List.zip_cons_cons] at h3 ⊢
      rw [h3]; simp only [if_true, ← hN]; ring

/-- The power `p + iq` as an admittance at the voltage of magnitude `v`. -/
theorem admittance_eq {mag : ℝ} (hmag : 0 < mag) (ang p q : ℝ) :
    (⟨p, -q⟩ : ℂ) / (mag * mag : ℝ) * phasor mag ang = currentFor (phasor mag ang) p q := by
  rw [currentFor, current_eq, norm_phasor hmag]
  have hm := hmag.ne'
  apply Complex.ext
  · simp only [phasor, Complex.mul_re, Complex.div_ofReal_re, Complex.div_ofReal_im]; ring
  · simp only [phasor, Complex.mul_im, Complex.div_ofReal_re, Complex.div_ofReal_im]; ring

theorem admittance_sum {mag : ℝ} (hmag : 0 < mag) (ang : ℝ) (l : List (ℝ × ℝ)) :
    ((l.map (fun g => (⟨g.1, -g.2⟩ : ℂ) / (mag * mag : ℝ))).sum : ℂ) * phasor mag ang =
      (starRingEnd ℂ) ((l.map (fun g => (⟨g.1, g.2⟩ : ℂ))).sum / phasor mag ang) := by
  induction l with
  | nil => simp
  | cons g l ih =>
    rw [List.map_cons, List.sum_cons, List.map_cons, List.sum_cons, add_mul, add_div, map_add, ih, admittance_eq hmag]
    rfl

/-- Power injected into the network at a bus according to the power flow: generators in service, negative
generation, generators without model, less the load. -/
noncomputable def BusData.injection (d : BusData) : ℂ :=
  ((d.gens.zip d.pq).map (fun g => if g.1.1 then (⟨(powerOf g.1.2 g.2).1, (powerOf g.1.2 g.2).2⟩ : ℂ) else 0)).sum +
    (d.neg.map (fun g => (⟨g.1, g.2⟩ : ℂ))).sum + (d.noModel.map (fun g => (⟨g.1, g.2⟩ : ℂ))).sum - ⟨d.pl, d.ql⟩

theorem proper_nonneg {mag ang : ℝ} {g : Gen} {s : ℝ × ℝ} (h : Proper mag ang g s) : 0 ≤ s.1 := by
  cases g with
  | base => exact h
  | classical c u => exact (show ClassicalOk c s.1 s.2 from h).pos
  | genrou m => exact h.1
  | gensal m => exact h.1

theorem row_flat [Fintype ι] (net : Matrix ι ι ℂ) (d : ι → BusData) (hmag : ∀ i, 0 < (d i).mag)
    (hnet : ∀ i, net i i = (d i).y)
    (hgens : ∀ i, List.Forall₂ (fun g s => g.1 = true → Proper (d i).mag (d i).ang g.2 s) (d i).gens (d i).pq)
    (hpf : ∀ i, phasor (d i).mag (d i).ang *
      (starRingEnd ℂ) (∑ j, net i j * phasor (d j).mag (d j).ang) = (d i).injection) (i : ι) :
    (matrix net d).mulVec (fun j => phasor (d j).mag (d j).ang) i =
      (((d i).gens.zip (d i).pq).map (fun g => if g.1.1 then g.1.2.norton * phasor (d i).mag (d i).ang +
        currentFor (phasor (d i).mag (d i).ang) (powerOf g.1.2 g.2).1 (powerOf g.1.2 g.2).2 else 0)).sum := by
  classical
  have hV := phasor_ne_zero (hmag i) (d i).ang
  obtain ⟨A, hA⟩ : ∃ A, A = (d i).setup.assemble.2 := ⟨_, rfl⟩
  have e1 : (matrix net d).mulVec (fun j => phasor (d j).mag (d j).ang) i =
      (∑ j, net i j * phasor (d j).mag (d j).ang) + (A - (d i).y) * phasor (d i).mag (d i).ang := by
    have : ∀ j, matrix net d i j * phasor (d j).mag (d j).ang =
        net i j * phasor (d j).mag (d j).ang + if i = j then (A - (d i).y) * phasor (d i).mag (d i).ang else 0 := by
      intro j
      simp only [matrix]
      by_cases hij : i = j
      · subst hij; simp only [if_pos, ← hA, ← hnet i]; ring
      · simp only [if_neg hij, add_zero]
    simp only [Matrix.mulVec, dotProduct]
    rw [Finset.sum_congr rfl (fun j _ => this j), Finset.sum_add_distrib, Finset.sum_ite_eq]
    simp
  have e2 : (∑ j, net i j * phasor (d j).mag (d j).ang) =
      (starRingEnd ℂ) ((d i).injection / phasor (d i).mag (d i).ang) := by
    rw [← hpf i, mul_div_cancel_left₀ _ hV, Complex.conj_conj]
  have e3 := (DsEvents.C111_diagonal (d i).setup).2
  rw [← hA] at e3
  have hfil : ((d i).setup.gens.filter (fun g => g.1 && decide (g.2.1 < 0))) = [] := by
    rw [List.filter_eq_nil_iff]
    intro g hg
    simp only [BusData.setup, List.mem_map] at hg
    obtain ⟨⟨⟨st, gen⟩, s⟩, hz, rfl⟩ := hg
    cases st
    · simp
    · have := (List.forall₂_iff_zip.mp (hgens i)).2 hz rfl
      simp [proper_nonneg this]
  rw [hfil] at e3
  simp only [BusData.setup, List.map_nil, List.sum_nil, sub_zero, add_zero] at e3
  have e4 : ∀ l : List ((Bool × Gen) × ℝ × ℝ),
      (l.map (fun g => if g.1.1 then g.1.2.norton * phasor (d i).mag (d i).ang +
        currentFor (phasor (d i).mag (d i).ang) (powerOf g.1.2 g.2).1 (powerOf g.1.2 g.2).2 else 0)).sum =
      (((l.map (fun g => (g.1.1, g.2.1, g.2.2, g.1.2.norton))).filter (·.1)).map (fun g => g.2.2.2)).sum
        * phasor (d i).mag (d i).ang +
      (starRingEnd ℂ) ((l.map (fun g => if g.1.1 then (⟨(powerOf g.1.2 g.2).1, (powerOf g.1.2 g.2).2⟩ : ℂ) else 0)).sum / phasor (d i).mag (d i).ang) := by
    intro l
    induction l with
    | nil => simp
    | cons g l ih =>
      obtain ⟨⟨st, g⟩, s⟩ := g
      cases st
      · simpa using ih
      · rw [List.map_cons, List.sum_cons, ih]
        simp only [List.map_cons, List.sum_cons, if_true, List.filter_cons, add_div, map_add, currentFor]
        ring
  rw [e1, e2, e3, e4, BusData.injection, sub_div, map_sub, add_div, add_div, map_add, map_add,
    ← admittance_sum (hmag i), ← admittance_sum (hmag i)]
  have e5 := admittance_eq (hmag i) (d i).ang (d i).pl (d i).ql
  rw [currentFor] at e5
  rw [← e5]
  ring

/-- **C151** A dynamic simulation without events, started from a power flow solution, stays there: if the voltages
satisfy the power flow equations with the network matrix, the loads, and the powers of the generators, then after any
number of time steps of any size every bus has the voltage of the power flow and every generator in service with a model
reports the same rotor angle, synchronous speed and the power of the power flow, with or without network iterations. -/
theorem C151_flat_run_partial [Fintype ι] (net : Matrix ι ι ℂ) (d : ι → BusData) (o : Opts ι)
    (hsolve : ∀ I, (matrix net d).mulVec (o.solve I) = I)
    (hmag : ∀ i, 0 < (d i).mag) (hnet : ∀ i, net i i = (d i).y)
    (hgens : ∀ i, List.Forall₂ (fun g s => g.1 = true → Proper (d i).mag (d i).ang g.2 s) (d i).gens (d i).pq)
    (hpf : ∀ i, phasor (d i).mag (d i).ang *
      (starRingEnd ℂ) (∑ j, net i j * phasor (d j).mag (d j).ang) = (d i).injection) :
    ∃ δ : ι → ℕ → ℝ, ∀ dts, dts ≠ [] → ∀ i,
      ((run o d dts).bus i).volt = phasor (d i).mag (d i).ang ∧
      ((run o d dts).bus i).gens.map Prod.fst = (d i).gens.map Prod.fst ∧
      ∀ k g s, ((run o d dts).bus i).gens[k]? = some (true, g) → (d i).pq[k]? = some s →
        g = .base ∨ g.watch true = [δ i k, 1, s.1, s.2] := by
  classical
  choose ps hps hpq htot using fun i => packs_exist (hmag i) (d i).ang (hgens i)
  have hrow : (matrix net d).mulVec (fun j => phasor (d j).mag (d j).ang) = fun i => total (ps i) := by
    funext i; rw [row_flat net d hmag hnet hgens hpf i, htot i]
  have hsurj : Function.Surjective (matrix net d).mulVecLin := fun I => ⟨o.solve I, hsolve I⟩
  have hinj := LinearMap.injective_iff_surjective.mpr hsurj
  have hV : o.solve (fun i => total (ps i)) = fun j => phasor (d j).mag (d j).ang :=
    hinj (by simp only [Matrix.mulVecLin_apply]; rw [hsolve, hrow])
  have h0 : Phase (V := fun j => phasor (d j).mag (d j).ang) (fun p g => p.F.A true g) ps 0 0 (start d) := by
    refine ⟨fun i => ?_, rfl, rfl⟩
    exact each_rel (b := ⟨(d i).gens, 0⟩) (f := fun g => g.init (d i).mag (d i).ang) (fun p g hg => hg) (hps i)
  have key : ∀ dts : List ℝ, dts ≠ [] → ∃ n, Phase (V := fun j => phasor (d j).mag (d j).ang)
      (fun p g => p.F.A false g ∧ g.watch true = p.W) ps (n + 1) n (run o d dts) ∧
      ∀ i, ((run o d dts).bus i).volt = phasor (d i).mag (d i).ang := by
    intro dts
    induction dts using List.reverseRecOn with
    | nil => intro h; exact absurd rfl h
    | append_singleton l dt ih =>
      intro _
      have er : run o d (l ++ [dt]) = (run o d l).step o dt := by simp [run]
      rw [er]
      by_cases hl : l = []
      · subst hl
        exact ⟨0, step_flat hV (by simp) h0 dt⟩
      · obtain ⟨n, h1, h2⟩ := ih hl
        have h1' : Phase (V := fun j => phasor (d j).mag (d j).ang) (fun p g => p.F.A false g) ps (n + 1) n (run o d l) :=
          ⟨fun i => (h1.gens i).imp fun g p hg => ⟨hg.1, fun hp => (hg.2 hp).1⟩, h1.n, h1.last⟩
        exact ⟨n + 1, step_flat hV (by simp) h1' dt⟩
  refine ⟨fun i k => (((ps i)[k]?).map Pack.δ).getD 0, fun dts hne i => ?_⟩
  obtain ⟨n, h1, h2⟩ := key dts hne
  have hst : ∀ (l : List (Bool × Gen)) (ps : List (Pack (phasor (d i).mag (d i).ang)))
      (P : Pack (phasor (d i).mag (d i).ang) → Gen → Prop), List.Forall₂ (Rel P) l ps → l.map Prod.fst = ps.map Pack.st := by
    intro l ps P h
    induction h with
    | nil => rfl
    | cons h _ ih => simp [h.1, ih]
  refine ⟨h2 i, ?_, fun k g s hk hs => ?_⟩
  · rw [hst _ _ _ (h1.gens i), hst _ _ _ (hps i)]
  · obtain ⟨hlen, hz⟩ := List.forall₂_iff_get.mp (h1.gens i)
    obtain ⟨hlt, hg⟩ := List.getElem?_eq_some_iff.mp hk
    have hlt' : k < (ps i).length := hlen ▸ hlt
    have hr := hz k hlt hlt'
    have hpk : (ps i)[k]? = some ((ps i)[k]) := List.getElem?_eq_getElem hlt'
    have hs' : ((ps i)[k]).pq = s := by
      have := congrArg (·[k]?) (hpq i)
      simp only [List.getElem?_map, hpk, Option.map_some, hs, Option.some.injEq] at this
      exact this
    simp only [hpk, Option.map_some, Option.getD_some]
    simp only [List.get_eq_getElem, hg] at hr
    obtain ⟨a, b⟩ := hr.2 hr.1.symm
    have := ((ps i)[k]).ok _ a b
    rw [hs'] at this
    exact this

/-- A single bus where the sample generator feeds a load of 100 MW. -/
noncomputable def sampleBus : BusData := ⟨1, 0, [(true, .classical sampleClassical 0)], [(1, 0)], 0, 1, 0, [], []⟩

/-- The hypotheses of C151 hold for it. -/
example (o : Opts Unit) (ho : o.solve = fun I _ => I () / (1 - Complex.I)) :
    ∃ δ : Unit → ℕ → ℝ, ∀ dts, dts ≠ [] → ∀ i, ((run o (fun _ => sampleBus) dts).bus i).volt = 1 ∧
      ∀ g, ((run o (fun _ => sampleBus) dts).bus i).gens[0]? = some (true, g) → g = .base ∨ g.watch true = [δ i 0, 1, 1, 0] := by
  have hp : phasor 1 0 = 1 := by apply Complex.ext <;> simp [phasor]
  have hm : (matrix (fun _ _ => 0) (fun _ : Unit => sampleBus)) () () = 1 - Complex.I := by
    have hn : sampleClassical.norton 0 = -Complex.I := by
      have : (⟨0 * 100 / 100, 1 * 100 / 100⟩ : ℂ) = Complex.I := by apply Complex.ext <;> norm_num
      simp only [Classical.norton, sampleClassical, if_true]
      rw [this, one_div, Complex.inv_I]
    simp only [matrix, if_true]
    rw [(DsEvents.C111_diagonal _).2]
    simp only [BusData.setup, sampleBus, Gen.norton, hn, List.zip_cons_cons, List.zip_nil_right, List.map_cons,
      List.map_nil, List.sum_nil, List.filter_cons, List.filter_nil]
    apply Complex.ext <;> norm_num
  have h1I : (1 - Complex.I : ℂ) ≠ 0 := by
    intro h; have := congrArg Complex.re h; simp at this
  obtain ⟨δ, h⟩ := C151_flat_run_partial (ι := Unit) (fun _ _ => 0) (fun _ => sampleBus) o
    (by
      intro I
      funext i
      simp only [Matrix.mulVec, dotProduct, Finset.univ_unique, Finset.sum_singleton]
      rw [show (i : Unit) = () from rfl, show (default : Unit) = () from rfl, hm, ho]
      field_simp)
    (fun _ => by norm_num [sampleBus]) (fun _ => rfl)
    (fun _ => .cons (fun _ => sampleClassical_ok) .nil)
    (fun _ => by
      simp only [BusData.injection, sampleBus, powerOf, hp]
      apply Complex.ext <;> simp)
  refine ⟨δ, fun dts hd i => ?_⟩
  obtain ⟨a, b, c⟩ := h dts hd i
  exact ⟨a.trans hp, fun g hg => c 0 g (1, 0) hg rfl⟩

end GridPACK.DsStep
