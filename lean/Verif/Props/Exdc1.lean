import Verif.Props.Exciters
import Mathlib.Tactic.FieldSimp
import Mathlib.Tactic.Ring

/-! Property C119 (flat start) for EXDC1 and IEEET1, C121 (lead time of EXDC1), C122 (saturation). -/
namespace GridPACK.Exciters
open GridPACK.Cblock

/-- What `load` of EXDC1 leaves behind. -/
structure Exdc1Loaded (g0 g : Exdc1) (TR KA TA TB TC Vrmax Vrmin KE TE KF TF1 E1 SE1 E2 SE2 : Real) : Prop where
  hKA : g.KA = KA
  hKE : g.KE = KE
  zTR : g.zeroTR = isSmall TR
  zTA : g.zeroTA = isSmall TA
  hl : g.hasLeadlag = !isSmall (TB * TC)
  hs : g.hasSat = !isSmall (SE1 * SE2)
  hA : isSmall (SE1 * SE2) = false → g.satA = satCoefA E1 SE1 E2 SE2
  hB : isSmall (SE1 * SE2) = false → g.satB = satCoefB E1 SE1 E2 SE2
  meas : isSmall TR = false → ∃ b, filter b 1 TR = some g.Vmeas
  lead : isSmall (TB * TC) = false → ∃ b, leadLag b TA TB = some g.leadlag
  reg : isSmall TA = false → ∃ b, withLimits (filter b KA TA) Vrmin Vrmax (-1000) 1000 = some g.regulator
  gain : isSmall TA = true → ∃ b, g.gain = setGain b KA Vrmin Vrmax
  fb : setcoeffs g0.feedback TF1 1 KF 0 = some g.feedback
  int : integrator g0.output TE = some g.output

theorem optional_some (z : Bool) (b : Block) (r : Option Block) (h : z = false → ∃ b', r = some b') :
    ∃ b', optional z b r = some b' ∧ (z = false → r = some b') := by
  cases z
  · obtain ⟨b', hb'⟩ := h rfl
    exact ⟨b', hb', fun _ => hb'⟩
  · exact ⟨b, rfl, fun h => by cases h⟩

/-- The data collection with all parameters of EXDC1 present. -/
def exdc1Data (TR KA TA TB TC Vrmax Vrmin KE TE KF TF1 E1 SE1 E2 SE2 : Real) : Exdc1Data :=
  ⟨some TR, some KA, some TA, some TB, some TC, some Vrmax, some Vrmin, some KE, some TE, some KF, some TF1,
   some E1, some SE1, some E2, some SE2⟩

theorem exdc1_load (g0 : Exdc1) (TR KA TA TB TC Vrmax Vrmin KE TE KF TF1 E1 SE1 E2 SE2 : Real)
    (hTE : TE ≠ 0) (hTF : TF1 ≠ 0) :
    ∃ g, g0.construct.load (exdc1Data TR KA TA TB TC Vrmax Vrmin KE TE KF TF1 E1 SE1 E2 SE2) = some g ∧
      Exdc1Loaded g0 g TR KA TA TB TC Vrmax Vrmin KE TE KF TF1 E1 SE1 E2 SE2 := by
  obtain ⟨m, hm, hm'⟩ := optional_some (isSmall TR) g0.Vmeas (filter g0.Vmeas 1 TR)
    (fun h => filter_exists _ (ne_zero_of_isSmall h))
  obtain ⟨l, hl, hl'⟩ := optional_some (isSmall (TB * TC)) g0.leadlag (leadLag g0.leadlag TA TB)
    (fun h => leadLag_exists _ (left_ne_zero_of_mul (ne_zero_of_isSmall h)))
  obtain ⟨r, hr, hr'⟩ := optional_some (isSmall TA) g0.regulator
    (withLimits (filter g0.regulator KA TA) Vrmin Vrmax (-1000) 1000)
    (fun h => regulator_exists _ (ne_zero_of_isSmall h))
  obtain ⟨f, hf⟩ := feedback_exists g0.feedback (KF := KF) hTF
  obtain ⟨o, ho⟩ := integrator_exists g0.output hTE
  refine ⟨{ g0 with Vs := 0, KA := KA, KE := KE, Vrmax := Vrmax, Vrmin := Vrmin, TC := TC,
                    hasSat := !isSmall (SE1 * SE2), hasLeadlag := !isSmall (TB * TC), zeroTA := isSmall TA,
                    zeroTR := isSmall TR,
                    satA := if (!isSmall (SE1 * SE2)) then satCoefA E1 SE1 E2 SE2 else 0,
                    satB := if (!isSmall (SE1 * SE2)) then satCoefB E1 SE1 E2 SE2 else 0,
                    Vmeas := m, leadlag := l, regulator := r,
                    gain := if isSmall TA then setGain g0.gain KA Vrmin Vrmax else g0.gain,
                    feedback := f, output := o }, ?_,
    ⟨rfl, rfl, rfl, rfl, rfl, rfl, fun h => ?_, fun h => ?_, fun h => ⟨_, hm' h⟩, fun h => ⟨_, hl' h⟩,
     fun h => ⟨_, hr' h⟩, fun h => ⟨g0.gain, ?_⟩, hf, ho⟩⟩
  · simp [Exdc1.load, exdc1Data, Exdc1.construct, hm, hl, hr, hf, ho]
  · simp [h]
  · simp [h]
  · simp [h]

theorem ieeet1_load (g0 : Exdc1) (TR KA TA TB TC Vrmax Vrmin KE TE KF TF1 E1 SE1 E2 SE2 : Real)
    (hTE : TE ≠ 0) (hTF : TF1 ≠ 0) :
    ∃ g, ieeet1Load g0.construct (exdc1Data TR KA TA TB TC Vrmax Vrmin KE TE KF TF1 E1 SE1 E2 SE2) = some g ∧
      g.KA = KA ∧ g.KE = KE ∧ g.zeroTR = isSmall TR ∧ g.zeroTA = isSmall TA ∧
      g.hasSat = (!isSmall (SE1 * SE2)) ∧
      (isSmall (SE1 * SE2) = false → g.satA = satCoefA E1 SE1 E2 SE2) ∧
      (isSmall (SE1 * SE2) = false → g.satB = satCoefB E1 SE1 E2 SE2) ∧
      (isSmall TR = false → ∃ b, filter b 1 TR = some g.Vmeas) ∧
      (isSmall TA = false → ∃ b, withLimits (filter b KA TA) Vrmin Vrmax (-1000) 1000 = some g.regulator) ∧
      (isSmall TA = true → ∃ b, g.gain = setGain b KA Vrmin Vrmax) ∧
      setcoeffs g0.feedback TF1 1 KF 0 = some g.feedback ∧ integrator g0.output TE = some g.output := by
  obtain ⟨m, hm, hm'⟩ := optional_some (isSmall TR) g0.Vmeas (filter g0.Vmeas 1 TR)
    (fun h => filter_exists _ (ne_zero_of_isSmall h))
  obtain ⟨r, hr, hr'⟩ := optional_some (isSmall TA) g0.regulator
    (withLimits (filter g0.regulator KA TA) Vrmin Vrmax (-1000) 1000)
    (fun h => regulator_exists _ (ne_zero_of_isSmall h))
  obtain ⟨f, hf⟩ := feedback_exists g0.feedback (KF := KF) hTF
  obtain ⟨o, ho⟩ := integrator_exists g0.output hTE
  refine ⟨{ g0.construct with
                    KA := KA, KE := KE, Vrmax := Vrmax, Vrmin := Vrmin, hasSat := !isSmall (SE1 * SE2), zeroTA := isSmall TA,
                    zeroTR := isSmall TR,
                    satA := if (!isSmall (SE1 * SE2)) then satCoefA E1 SE1 E2 SE2 else 0,
                    satB := if (!isSmall (SE1 * SE2)) then satCoefB E1 SE1 E2 SE2 else 0,
                    Vmeas := m, regulator := r,
                    gain := if isSmall TA then setGain g0.gain KA Vrmin Vrmax else g0.gain,
                    feedback := f, output := o }, ?_,
    rfl, rfl, rfl, rfl, rfl, fun h => ?_, fun h => ?_, fun h => ⟨_, hm' h⟩,
     fun h => ⟨_, hr' h⟩, fun h => ⟨g0.gain, ?_⟩, hf, ho⟩
  · simp [ieeet1Load, exdc1Data, Exdc1.construct, hm, hr, hf, ho]
  · simp [h]
  · simp [h]
  · simp [h]

/-! ### Flat start -/

/-- EXDC1 at rest with field voltage `E`; `VR` is the output and `u` the input of the regulator. -/
structure Exdc1Rest (st : Stage) (g : Exdc1) (V vs E VR u : Real) : Prop where
  efd : g.Efd = E
  sat : g.satSignal = VR
  ref : g.Vref - V + vs - 0 = u
  meas : ReadyOpt g.zeroTR st g.Vmeas V V V
  fb : Ready st g.feedback E 0
  lead : ReadyOpt (!g.hasLeadlag) st g.leadlag u u u
  reg : ReadyOpt g.zeroTA st g.regulator u VR (g.gain.output u)
  out : Ready st g.output 0 E

theorem exdc1_rest_step {st : Stage} {g : Exdc1} {V vs E VR u : Real} (h : Exdc1Rest st g V vs E VR u)
    (dt : Real) : (exdc1Call g (V, vs) dt st).Efd = E ∧
      ∀ st', Exdc1Rest st' (exdc1Call g (V, vs) dt st) V vs E VR u := by
  obtain ⟨m1, m2⟩ := pass_step h.meas dt
  obtain ⟨f1, f2⟩ := ready_step h.fb dt
  obtain ⟨l1, l2⟩ := pass_step h.lead dt
  obtain ⟨r1, r2⟩ := pass_step h.reg dt
  obtain ⟨o1, o2⟩ := ready_step h.out dt
  have hEq : exdc1Call g (V, vs) dt st =
      { ((g.setVterminal V).setVstab vs) with
          Vmeas := (pass g.zeroTR g.Vmeas V V dt st).1,
          feedback := (getoutput g.feedback E dt st true).1,
          leadlag := (pass (!g.hasLeadlag) g.leadlag u u dt st).1,
          regulator := (pass g.zeroTA g.regulator u (g.gain.output u) dt st).1,
          output := (getoutput g.output 0 dt st true).1,
          Efd := E } := by
    have es : ((g.setVterminal V).setVstab vs).satSignal = VR := h.sat
    unfold exdc1Call Exdc1.compute
    simp only [es]
    simp only [Exdc1.setVterminal, Exdc1.setVstab, h.efd, m1, f1, h.ref, l1, r1, sub_self, o1]
  rw [hEq]
  refine ⟨rfl, fun st' => ⟨rfl, ?_, h.ref, m2 _, ready_of_held f2, l2 _, r2 _, ready_of_held o2⟩⟩
  have := h.sat
  unfold Exdc1.satSignal Exdc1.Sat at this ⊢
  rw [h.efd] at this
  exact this

theorem ieeet1_rest_step {st : Stage} {g : Exdc1} {V vs E VR u : Real}
    (h : Exdc1Rest st { g with hasLeadlag := false } V vs E VR u)
    (dt : Real) : (ieeet1Call g (V, vs) dt st).Efd = E ∧
      ∀ st', Exdc1Rest st' { ieeet1Call g (V, vs) dt st with hasLeadlag := false } V vs E VR u := by
  obtain ⟨he, hs, hr, hm, hf, hl, hg, ho⟩ := h
  have he : g.Efd = E := he
  have hr : g.Vref - V + vs - 0 = u := hr
  obtain ⟨m1, m2⟩ := pass_step (z := g.zeroTR) (b := g.Vmeas) hm dt
  obtain ⟨f1, f2⟩ := ready_step (b := g.feedback) hf dt
  obtain ⟨r1, r2⟩ := pass_step (z := g.zeroTA) (b := g.regulator) hg dt
  obtain ⟨o1, o2⟩ := ready_step (b := g.output) ho dt
  have hEq : ieeet1Call g (V, vs) dt st =
      { ((g.setVterminal V).setVstab vs) with
          Vmeas := (pass g.zeroTR g.Vmeas V V dt st).1,
          feedback := (getoutput g.feedback E dt st true).1,
          regulator := (pass g.zeroTA g.regulator u (g.gain.output u) dt st).1,
          output := (getoutput g.output 0 dt st true).1,
          Efd := E } := by
    have es : ((g.setVterminal V).setVstab vs).satSignal = VR := hs
    have r1' : (pass g.zeroTA g.regulator u (g.gain.output u) dt st).2 = VR := r1
    unfold ieeet1Call ieeet1Compute
    simp only [es]
    simp only [Exdc1.setVterminal, Exdc1.setVstab, he, m1, f1, hr, r1', sub_self, o1]
  rw [hEq]
  refine ⟨rfl, fun st' => ⟨rfl, ?_, hr, m2 _, ready_of_held f2, rfl, r2 _, ready_of_held o2⟩⟩
  have := hs
  unfold Exdc1.satSignal Exdc1.Sat at this ⊢
  simp only [he] at this
  exact this

/-- An optional regulator with gain started from its output. -/
theorem regulator_back {z : Bool} {b : Block} {gn : Dblock.GainLimiter} {KA TA L U y : Real}
    (hz : z = isSmall TA)
    (hr : isSmall TA = false → ∃ b', withLimits (filter b' KA TA) L U (-1000) 1000 = some b)
    (hg : isSmall TA = true → ∃ b', gn = setGain b' KA L U)
    (hTA : |TA| ≤ 10 ^ 10) (hK : KA ≠ 0) (hx : L ≤ y ∧ y ≤ U) (hy : |y| ≤ 1000) :
    (back z b y (y / KA)).2 = y / KA ∧
      ReadyOpt z .predictor (back z b y (y / KA)).1 (y / KA) y (gn.output (y / KA)) := by
  rw [hz]
  cases h : isSmall TA
  · obtain ⟨b', hb'⟩ := hr h
    exact regulator_rest hb' hTA hK hx hy
  · obtain ⟨b', hb'⟩ := hg h
    refine ⟨rfl, ?_⟩
    show gn.output (y / KA) = y
    rw [hb']; exact gain_rest hK hx

theorem measure_start {z : Bool} {b : Block} {TR V : Real} (hz : z = isSmall TR)
    (hm : isSmall TR = false → ∃ b', filter b' 1 TR = some b) (hTR : |TR| ≤ 10 ^ 10) (hV : |V| ≤ 1000) :
    (start z b V V).2 = V ∧ ReadyOpt z .predictor (start z b V V).1 V V V := by
  rw [hz]
  cases h : isSmall TR
  · obtain ⟨b', hb'⟩ := hm h
    exact measure_rest hb' hTR hV
  · exact ⟨rfl, rfl⟩

theorem lead_back {z : Bool} {b : Block} {TA TB y : Real} (hl : z = false → ∃ b', leadLag b' TA TB = some b)
    (hT : |TB| ≤ 10 ^ 10) (hy : |y| ≤ 1000) (hx : |(1 - TA / TB) * y| ≤ 1000) :
    (back z b y y).2 = y ∧ ReadyOpt z .predictor (back z b y y).1 y y y := by
  cases h : z
  · obtain ⟨b', hb'⟩ := hl h
    exact lead_rest hb' hT hy hx
  · exact ⟨rfl, rfl⟩

/-- The regulator output that holds the field voltage `E`: `KE E + E S(E)`. -/
noncomputable def Exdc1.holding (g : Exdc1) (E : Real) : Real := (g.setFieldVoltage E).satSignal

/-- C119 for EXDC1.  Loaded with any parameters (with or without measurement lag, lead-lag, regulator lag
and saturation), initialised at any terminal voltage and field voltage with stabiliser signal 0, and then
run with these inputs, the exciter reports exactly the initial field voltage after every call, provided
that the regulator output needed for it lies within the limits.  Partial: the stabiliser signal has to be 0
(`C119_exdc1_violated`), and the built-in limits ±1000 and the threshold 1e-10 of the blocks appear as
hypotheses. -/
theorem C119_exdc1_partial (g0 : Exdc1) (TR KA TA TB TC Vrmax Vrmin KE TE KF TF1 E1 SE1 E2 SE2 V E : Real)
    (hTE : TE ≠ 0) (hTF : TF1 ≠ 0) (hKA : KA ≠ 0) (hcf : Constructed g0.feedback) (hco : Constructed g0.output)
    (hTR' : |TR| ≤ 10 ^ 10) (hTA' : |TA| ≤ 10 ^ 10) (hTB' : |TB| ≤ 10 ^ 10) (hTF' : |TF1| ≤ 10 ^ 10)
    (hKF : KF = 0 ∨ eps * (TF1 * TF1) ≤ |KF|) (hf : |KF / TF1 * E| ≤ 1000) (hV : |V| ≤ 1000) (hE : |E| ≤ 1000) :
    ∃ g, g0.construct.load (exdc1Data TR KA TA TB TC Vrmax Vrmin KE TE KF TF1 E1 SE1 E2 SE2) = some g ∧
      (Vrmin ≤ g.holding E ∧ g.holding E ≤ Vrmax → |g.holding E| ≤ 1000 → |g.holding E / KA| ≤ 1000 →
       |(1 - TA / TB) * (g.holding E / KA)| ≤ 1000 →
       ∀ dts, ∀ v ∈ trace exdc1Call Exdc1.Efd (exdc1Start g V 0 E) (constant (V, 0) dts), v = E) := by
  obtain ⟨g, hg, H⟩ := exdc1_load g0 TR KA TA TB TC Vrmax Vrmin KE TE KF TF1 E1 SE1 E2 SE2 hTE hTF
  refine ⟨g, hg, fun hlim hVR hu hx dts => ?_⟩
  obtain ⟨f1, f2⟩ := feedback_rest hcf H.fb hTF' hKF hf
  obtain ⟨o1, o2⟩ := integrator_rest hco H.int hE
  obtain ⟨r1, r2⟩ := regulator_back H.zTA H.reg H.gain hTA' hKA hlim hVR
  obtain ⟨m1, m2⟩ := measure_start H.zTR H.meas hTR' hV
  obtain ⟨l1, l2⟩ := lead_back (z := !g.hasLeadlag) (b := g.leadlag) (TA := TA) (TB := TB)
    (fun h => H.lead (by rw [H.hl] at h; simpa using h)) hTB' hu hx
  have hst : exdc1Start g V 0 E = { (((g.setVterminal V).setVstab 0).setFieldVoltage E) with
      feedback := (initGivenU g.feedback E).1, output := (initGivenY g.output E).1,
      regulator := (back g.zeroTA g.regulator (g.holding E) (g.holding E / KA)).1,
      leadlag := (back (!g.hasLeadlag) g.leadlag (g.holding E / KA) (g.holding E / KA)).1,
      Vmeas := (start g.zeroTR g.Vmeas V V).1, Vref := g.holding E / KA - 0 + 0 + V } := by
    have es : (((g.setVterminal V).setVstab 0).setFieldVoltage E).satSignal = g.holding E := rfl
    unfold exdc1Start Exdc1.init
    simp only [es]
    simp only [Exdc1.setVterminal, Exdc1.setVstab, Exdc1.setFieldVoltage, f1, o1, zero_add, H.hKA, r1, l1, m1]
  apply trace_const exdc1Call Exdc1.Efd (fun st g' => Exdc1Rest st g' V 0 E (g.holding E) (g.holding E / KA))
    E (V, 0)
  · intro st s dt hs
    obtain ⟨h1, h2⟩ := exdc1_rest_step hs dt
    exact ⟨h1, h2 _, h2 _⟩
  · rw [hst]
    refine ⟨rfl, rfl, ?_, m2, f2, l2, r2, o2⟩
    show g.holding E / KA - 0 + 0 + V - V + 0 - 0 = _
    ring

/-- C119 for IEEET1: as for EXDC1, for every stabiliser signal. -/
theorem C119_ieeet1_partial (g0 : Exdc1) (TR KA TA TB TC Vrmax Vrmin KE TE KF TF1 E1 SE1 E2 SE2 V vs E : Real)
    (hTE : TE ≠ 0) (hTF : TF1 ≠ 0) (hKA : KA ≠ 0) (hcf : Constructed g0.feedback) (hco : Constructed g0.output)
    (hTR' : |TR| ≤ 10 ^ 10) (hTA' : |TA| ≤ 10 ^ 10) (hTF' : |TF1| ≤ 10 ^ 10)
    (hKF : KF = 0 ∨ eps * (TF1 * TF1) ≤ |KF|) (hf : |KF / TF1 * E| ≤ 1000) (hV : |V| ≤ 1000) (hE : |E| ≤ 1000) :
    ∃ g, ieeet1Load g0.construct (exdc1Data TR KA TA TB TC Vrmax Vrmin KE TE KF TF1 E1 SE1 E2 SE2) = some g ∧
      (Vrmin ≤ g.holding E ∧ g.holding E ≤ Vrmax → |g.holding E| ≤ 1000 →
       ∀ dts, ∀ v ∈ trace ieeet1Call Exdc1.Efd (ieeet1Start g V vs E) (constant (V, vs) dts), v = E) := by
  obtain ⟨g, hg, hKA', hKE', zTR, zTA, _, _, _, meas, reg, gain, fb, int⟩ :=
    ieeet1_load g0 TR KA TA TB TC Vrmax Vrmin KE TE KF TF1 E1 SE1 E2 SE2 hTE hTF
  refine ⟨g, hg, fun hlim hVR dts => ?_⟩
  obtain ⟨f1, f2⟩ := feedback_rest hcf fb hTF' hKF hf
  obtain ⟨o1, o2⟩ := integrator_rest hco int hE
  obtain ⟨r1, r2⟩ := regulator_back zTA reg gain hTA' hKA hlim hVR
  obtain ⟨m1, m2⟩ := measure_start zTR meas hTR' hV
  have hst : ieeet1Start g V vs E = { (((g.setVterminal V).setVstab vs).setFieldVoltage E) with
      feedback := (initGivenU g.feedback E).1, output := (initGivenY g.output E).1,
      regulator := (back g.zeroTA g.regulator (g.holding E) (g.holding E / KA)).1,
      Vmeas := (start g.zeroTR g.Vmeas V V).1, Vref := g.holding E / KA + 0 + V - vs } := by
    have es : (((g.setVterminal V).setVstab vs).setFieldVoltage E).satSignal = g.holding E := rfl
    unfold ieeet1Start ieeet1Init
    simp only [es]
    simp only [Exdc1.setVterminal, Exdc1.setVstab, Exdc1.setFieldVoltage, f1, o1, zero_add, hKA', r1, m1]
  apply trace_const ieeet1Call Exdc1.Efd
    (fun st g' => Exdc1Rest st { g' with hasLeadlag := false } V vs E (g.holding E) (g.holding E / KA))
    E (V, vs)
  · intro st s dt hs
    obtain ⟨h1, h2⟩ := ieeet1_rest_step hs dt
    exact ⟨h1, h2 _, h2 _⟩
  · rw [hst]
    refine ⟨rfl, rfl, ?_, m2, f2, rfl, r2, o2⟩
    show g.holding E / KA + 0 + V - vs - V + vs - 0 = _
    ring

/-- C119 fails for EXDC1 with a stabiliser signal other than 0 at initialisation, because it enters the
reference with the wrong sign: without lags, lead-lag and saturation the field voltage has moved by
`2 KA vs dt / TE` after the first time step. -/
theorem C119_exdc1_violated (g0 : Exdc1) (KA Vrmax Vrmin KE TE TF1 V vs E dt : Real) (hTE : TE ≠ 0)
    (hTF : TF1 ≠ 0) (hKA : KA ≠ 0) (hcf : Constructed g0.feedback) (hco : Constructed g0.output)
    (hTF' : |TF1| ≤ 10 ^ 10) (hE : |E| ≤ 1000)
    (hlim' : Vrmin ≤ KE * E + 2 * KA * vs ∧ KE * E + 2 * KA * vs ≤ Vrmax)
    (hd : |2 * KA * vs / TE| ≤ 1000) (hx : |E + dt * (2 * KA * vs / TE)| ≤ 1000) :
    ∃ g, g0.construct.load (exdc1Data 0 KA 0 0 0 Vrmax Vrmin KE TE 0 TF1 0 0 0 0) = some g ∧
      trace exdc1Call Exdc1.Efd (exdc1Start g V vs E) (constant (V, vs) [dt]) =
        [E, E + dt * (2 * KA * vs / TE)] := by
  obtain ⟨g, hg, H⟩ := exdc1_load g0 0 KA 0 0 0 Vrmax Vrmin KE TE 0 TF1 0 0 0 0 hTE hTF
  refine ⟨g, hg, ?_⟩
  obtain ⟨f1, f2⟩ := feedback_rest (u := E) hcf H.fb hTF' (Or.inl rfl) (by simp)
  obtain ⟨o1, o2⟩ := integrator_rest hco H.int hE
  have zTR : g.zeroTR = true := by rw [H.zTR, isSmall_zero]
  have zTA : g.zeroTA = true := by rw [H.zTA, isSmall_zero]
  have zl : g.hasLeadlag = false := by rw [H.hl, zero_mul, isSmall_zero]; rfl
  have zs : g.hasSat = false := by rw [H.hs, zero_mul, isSmall_zero]; rfl
  obtain ⟨gn, hgn⟩ := H.gain isSmall_zero
  have hout : (initGivenY g.output E).1 = { g.output with x := E } := by
    obtain ⟨_, e⟩ := integrator_coeffs H.int
    unfold initGivenY
    rw [if_pos (by rw [e]; simp [eps_pos])]
  have hst : exdc1Start g V vs E = { (((g.setVterminal V).setVstab vs).setFieldVoltage E) with
      feedback := (initGivenU g.feedback E).1, output := { g.output with x := E },
      Vref := KE * E / KA - 0 + vs + V } := by
    have es : (((g.setVterminal V).setVstab vs).setFieldVoltage E).satSignal = KE * E := by
      unfold Exdc1.satSignal
      rw [if_neg (by show ¬ g.hasSat = true; rw [zs]; simp)]
      show g.KE * E = _
      rw [H.hKE]
    unfold exdc1Start Exdc1.init
    simp only [es]
    simp only [Exdc1.setVterminal, Exdc1.setVstab, Exdc1.setFieldVoltage, f1, o1, zero_add, H.hKA, zTA, zTR,
      zl, back, start, Bool.not_false, if_true, hout]
  have hgo : g.gain.output (KE * E / KA - 0 + vs + V - V + vs - 0) = KE * E + 2 * KA * vs := by
    have e : KE * E / KA - 0 + vs + V - V + vs - 0 = (KE * E + 2 * KA * vs) / KA := by field_simp; ring
    rw [hgn, e]; exact gain_rest hKA hlim'
  -- the first two calls
  obtain ⟨p1, p2⟩ := rest_predictor f2 dt
  obtain ⟨_, eo⟩ := integrator_coeffs H.int
  obtain ⟨_, _, _, _, c5, c6, _⟩ := hco
  rw [abs_le] at hE hd hx
  have hi : getoutput { g.output with x := E } (2 * KA * vs) dt .predictor true =
      ({ g.output with x := E, dxdt := 2 * KA * vs / TE, xhat := E + dt * (2 * KA * vs / TE),
                       stage := .predictor }, E) := by
    rw [eo]
    have hd' : getderivative { g0.output with
        A := 0, B := 1 / TE, C := 1, D := 0, xmin := -1000, xmax := 1000,
        ymin := -1000, ymax := 1000, x := E } E (2 * KA * vs) = 2 * KA * vs / TE := by
      show 0 * E + 1 / TE * (2 * KA * vs) = _
      field_simp; ring
    show (updatestate { g0.output with
        A := 0, B := 1 / TE, C := 1, D := 0, xmin := -1000, xmax := 1000,
        ymin := -1000, ymax := 1000, x := E } (2 * KA * vs) dt (-1000) 1000 g0.output.dxmin g0.output.dxmax
        .predictor, clamp (-1000) 1000 (1 * E + 0 * (2 * KA * vs))) = _
    rw [show (1 : Real) * E + 0 * (2 * KA * vs) = E by ring, clamp_of_mem _ _ _ hE.1 hE.2]
    simp only [updatestate, hd']
    simp only [c5, c6, clamp_of_mem _ _ _ hd.1 hd.2, clamp_of_mem _ _ _ hx.1 hx.2]
  have h1 : exdc1Call (exdc1Start g V vs E) (V, vs) dt .predictor =
      { exdc1Start g V vs E with
          feedback := (getoutput (initGivenU g.feedback E).1 E dt .predictor true).1,
          output := { g.output with x := E, dxdt := 2 * KA * vs / TE, xhat := E + dt * (2 * KA * vs / TE),
                                    stage := .predictor } } := by
    rw [hst]
    unfold exdc1Call Exdc1.compute
    simp only [Exdc1.setVterminal, Exdc1.setVstab, Exdc1.setFieldVoltage, pass, zTR, zTA, zl, if_true, p1,
      Bool.not_false, hgo, Exdc1.satSignal, zs, Bool.false_eq_true, if_false, H.hKE,
      show KE * E + 2 * KA * vs - KE * E = 2 * KA * vs by ring, hi]
  have h2 : (exdc1Call (exdc1Call (exdc1Start g V vs E) (V, vs) dt .predictor) (V, vs) dt .corrector).Efd =
      E + dt * (2 * KA * vs / TE) := by
    rw [h1]
    show (getoutput { g.output with x := E, dxdt := 2 * KA * vs / TE, xhat := E + dt * (2 * KA * vs / TE),
                                    stage := .predictor } _ dt .corrector true).2 = _
    rw [eo]
    show clamp (-1000) 1000 (1 * (E + dt * (2 * KA * vs / TE)) + 0 * _) = _
    rw [zero_mul, add_zero, one_mul, clamp_of_mem _ _ _ hx.1 hx.2]
  simp only [constant, List.map_cons, List.map_nil, trace]
  rw [h2, h1, hst]
  rfl

/-- `KA = 46`, stabiliser signal 0.05, `TE = 0.5`, time step 0.005: the field voltage jumps by 0.046. -/
example : ∃ (KA Vrmax Vrmin KE TE vs E dt : Real),
    (Vrmin ≤ KE * E + 2 * KA * vs ∧ KE * E + 2 * KA * vs ≤ Vrmax) ∧ |2 * KA * vs / TE| ≤ 1000 ∧
    |E + dt * (2 * KA * vs / TE)| ≤ 1000 ∧ dt * (2 * KA * vs / TE) = 46 / 1000 := by
  refine ⟨46, 10, -10, 1, 1 / 2, 1 / 20, 2, 1 / 200, ?_⟩
  norm_num [abs_of_pos]

/-! ### C121: the lead time of EXDC1 -/

/-- C121 fails for EXDC1: the lead-lag block uses `TA` as lead time.  The lead time constant `TC` has no
effect: two exciters that differ in it (both values giving a lead-lag block at all) are loaded to the same
state up to the stored copy of the parameter, so that all their runs are the same. -/
theorem C121_exdc1_violated (g0 : Exdc1) (TR KA TA TB TC TC' Vrmax Vrmin KE TE KF TF1 E1 SE1 E2 SE2 V vs E : Real)
    (hTE : TE ≠ 0) (hTF : TF1 ≠ 0) (h : 1 / 10 ^ 6 ≤ |TB * TC|) (h' : 1 / 10 ^ 6 ≤ |TB * TC'|) :
    ∃ g g', g0.construct.load (exdc1Data TR KA TA TB TC Vrmax Vrmin KE TE KF TF1 E1 SE1 E2 SE2) = some g ∧
      g0.construct.load (exdc1Data TR KA TA TB TC' Vrmax Vrmin KE TE KF TF1 E1 SE1 E2 SE2) = some g' ∧
      ∀ steps, trace exdc1Call Exdc1.Efd (exdc1Start g V vs E) steps =
        trace exdc1Call Exdc1.Efd (exdc1Start g' V vs E) steps := by
  obtain ⟨g, hg, _⟩ := exdc1_load g0 TR KA TA TB TC Vrmax Vrmin KE TE KF TF1 E1 SE1 E2 SE2 hTE hTF
  have hs : isSmall (TB * TC) = false := isSmall_false (by unfold small; exact h)
  have hs' : isSmall (TB * TC') = false := isSmall_false (by unfold small; exact h')
  have key : g0.construct.load (exdc1Data TR KA TA TB TC' Vrmax Vrmin KE TE KF TF1 E1 SE1 E2 SE2) =
      (g0.construct.load (exdc1Data TR KA TA TB TC Vrmax Vrmin KE TE KF TF1 E1 SE1 E2 SE2)).map
        (fun x => { x with TC := TC' }) := by
    simp only [Exdc1.load, exdc1Data, Option.getD_some, hs, hs']
    generalize optional (g0.construct.zeroTR || isSmall TR) _ _ = a
    generalize optional (!(g0.construct.hasLeadlag && !false)) _ _ = b
    generalize optional (g0.construct.zeroTA || isSmall TA) _ _ = c
    generalize setcoeffs g0.construct.feedback TF1 1 KF 0 = d
    generalize integrator g0.construct.output TE = e
    cases a <;> cases b <;> cases c <;> cases d <;> cases e <;> rfl
  refine ⟨g, { g with TC := TC' }, hg, by rw [key, hg]; rfl, fun steps => ?_⟩
  have hcall : ∀ (s : Exdc1) i dt st, exdc1Call { s with TC := TC' } i dt st =
      { exdc1Call s i dt st with TC := TC' } := fun _ _ _ _ => rfl
  have hstart : exdc1Start { g with TC := TC' } V vs E = { exdc1Start g V vs E with TC := TC' } := rfl
  rw [hstart]
  generalize exdc1Start g V vs E = s
  induction steps generalizing s with
  | nil => rfl
  | cons d ds ih =>
    obtain ⟨i, j, dt⟩ := d
    simp only [trace, hcall]
    rw [← ih]

/-- The lead-lag block of EXDC1 reacts to a step of its input with the factor `TA / TB`, not `TC / TB`: this
is what `load` sets up. -/
theorem C121_exdc1_block_violated (g0 : Exdc1)
    (TR KA TA TB TC Vrmax Vrmin KE TE KF TF1 E1 SE1 E2 SE2 : Real)
    (hTE : TE ≠ 0) (hTF : TF1 ≠ 0) (h : 1 / 10 ^ 6 ≤ |TB * TC|) (hne : TA ≠ TC) :
    ∃ g, g0.construct.load (exdc1Data TR KA TA TB TC Vrmax Vrmin KE TE KF TF1 E1 SE1 E2 SE2) = some g ∧
      g.hasLeadlag = true ∧ g.leadlag.D = TA / TB ∧ g.leadlag.D ≠ TC / TB := by
  obtain ⟨g, hg, H⟩ := exdc1_load g0 TR KA TA TB TC Vrmax Vrmin KE TE KF TF1 E1 SE1 E2 SE2 hTE hTF
  have hs : isSmall (TB * TC) = false := isSmall_false (by unfold small; exact h)
  obtain ⟨b, hb⟩ := H.lead hs
  have hTB := left_ne_zero_of_mul (ne_zero_of_isSmall hs)
  have hD := (isLeadLag_of hb).hD
  refine ⟨g, hg, by rw [H.hl, hs]; rfl, hD, ?_⟩
  rw [hD]
  intro he
  rw [div_left_inj' hTB] at he
  exact hne he

example : (1 : Real) / 10 ^ 6 ≤ |(1 : Real) * 2| ∧ (1 : Real) / 10 ^ 6 ≤ |(1 : Real) * 7| ∧ (1 / 10 : Real) ≠ 2 := by
  norm_num [abs_of_pos]

end GridPACK.Exciters
