import Verif.Props.Exdc1

/-! Properties C119 (flat start), C120 (ceiling), C121 (second lead-lag) and C123 (stabiliser) for ESST1A. -/
namespace GridPACK.Exciters
open GridPACK.Cblock

/-- What a generator passes to the exciter before every call. -/
structure EsstIn where
  Vterm : Real
  Vcomp : Real
  Ifd : Real
  Vstab : Real

noncomputable def esstSet (g : Esst1a) (i : EsstIn) : Esst1a :=
  (((g.setVstab i.Vstab).setVterminal i.Vterm).setVcomp i.Vcomp).setFieldCurrent i.Ifd

/-- One call of the exciter by its generator. -/
noncomputable def esstCall (g : Esst1a) (i : EsstIn) (dt : Real) (s : Stage) : Esst1a :=
  (esstSet g i).compute dt s

/-- Initialisation by the generator with field voltage `E` and time step `ts`. -/
noncomputable def esstStart (g : Esst1a) (i : EsstIn) (E ts : Real) : Option Esst1a :=
  ((esstSet g i).setFieldVoltage E).init i.Vterm ts

/-- Values of all parameters of ESST1A that are used. -/
structure EsstPar where
  Tr : Real
  Vimax : Real
  Vimin : Real
  Tc : Real
  Tb : Real
  Tc1 : Real
  Tb1 : Real
  Ka : Real
  Ta : Real
  Vrmax : Real
  Vrmin : Real
  Kc : Real
  Kf : Real
  Tf : Real
  Klr : Real
  Ilr : Real

def EsstPar.data (p : EsstPar) : Esst1aData :=
  ⟨some p.Tr, some p.Vimax, some p.Vimin, some p.Tc, some p.Tb, some p.Tc1, some p.Tb1, some p.Ka, some p.Ta,
   some p.Vrmax, some p.Vrmin, some p.Kc, some p.Kf, some p.Tf, some p.Klr, some p.Ilr⟩

theorem tooShort_false {T ts : Real} (h : 4 * ts ≤ T) : tooShort T ts = false := by
  unfold tooShort; rw [if_neg (not_lt.mpr h)]

theorem tooShort_true {T ts : Real} (h : T < 4 * ts) : tooShort T ts = true := by
  unfold tooShort; rw [if_pos h]

theorem limit_in {lo hi v : Real} (h1 : lo ≤ v) (h2 : v ≤ hi) : limit lo hi v = v := by
  unfold limit; rw [if_neg (not_lt.mpr h2), if_neg (not_lt.mpr h1)]

theorem limit_le (lo hi v : Real) (h : lo ≤ hi) : lo ≤ limit lo hi v ∧ limit lo hi v ≤ hi := by
  unfold limit
  split
  · exact ⟨h, le_refl _⟩
  · rename_i h1
    split
    · exact ⟨le_refl _, h⟩
    · rename_i h2
      exact ⟨not_lt.mp h2, not_lt.mp h1⟩

/-- The upper limit is not exceeded even if it lies below the lower one, unless the value is below both. -/
theorem limit_le_max (lo hi v : Real) : limit lo hi v ≤ max lo hi := by
  unfold limit
  split
  · exact le_max_right _ _
  · rename_i h1
    split
    · exact le_max_left _ _
    · exact le_trans (not_lt.mp h1) (le_max_right _ _)

/-- The excess of the field current over its limit, times the gain. -/
noncomputable def excess (p : EsstPar) (Ifd : Real) : Real := max 0 ((Ifd - p.Ilr) * p.Klr)

theorem overload_eq (g : Esst1a) (x : Real) (h : (g.LadIfd - g.Ilr) * g.Klr = x) : g.overload = max 0 x := by
  unfold Esst1a.overload
  rw [h]
  split
  · rename_i h1; rw [max_eq_right h1.le]
  · rename_i h1; rw [max_eq_left (not_lt.mp h1)]

/-- ESST1A at rest with field voltage `E`. -/
structure EsstRest (st : Stage) (g : Esst1a) (i : EsstIn) (E VA u : Real) : Prop where
  efd : g.Efd = E
  ref : g.Vref - i.Vcomp + (0 + g.Vuel + g.Vothsg) - 0 = u
  inlim : g.Vimin ≤ u ∧ u ≤ g.Vimax
  meas : ReadyOpt g.zeroTR st g.filterR i.Vcomp i.Vcomp i.Vcomp
  fb : Ready st g.feedback E 0
  lead : Ready st g.leadlag u u
  lead1 : Ready st g.leadlag1 u u
  reg : ReadyOpt g.zeroTA st g.regulator u VA (g.gain.output u)
  out : VA - max 0 ((i.Ifd - g.Ilr) * g.Klr) = E
  gate : E ≤ g.lv
  lo : i.Vterm * g.Vrmin ≤ E
  hi : E ≤ i.Vterm * g.Vrmax - g.Kc * i.Ifd

theorem esst_rest_call {st : Stage} {g : Esst1a} {i : EsstIn} {E VA u : Real} (h : EsstRest st g i E VA u)
    (dt : Real) : esstCall g i dt st = { esstSet g i with
      filterR := (pass g.zeroTR g.filterR i.Vcomp i.Vcomp dt st).1,
      feedback := (getoutput g.feedback E dt st true).1,
      leadlag := (getoutput g.leadlag u dt st true).1,
      leadlag1 := (getoutput g.leadlag1 u dt st true).1,
      regulator := (pass g.zeroTA g.regulator u (g.gain.output u) dt st).1,
      Efd := E } := by
  have m1 := (pass_step h.meas dt).1
  have f1 := (ready_step h.fb dt).1
  have l1 := (ready_step h.lead dt).1
  have k1 := (ready_step h.lead1 dt).1
  have r1 := (pass_step h.reg dt).1
  have eo : (esstSet g i).overload = VA - E := by
    rw [overload_eq (esstSet g i) ((i.Ifd - g.Ilr) * g.Klr) rfl]
    have := h.out; linarith
  have eg : Dblock.lvGate g.lv E = E := by
    unfold Dblock.lvGate; rw [if_neg (not_lt.mpr h.gate)]
  unfold esstCall Esst1a.compute
  simp only [eo]
  simp only [esstSet, Esst1a.setVstab, Esst1a.setVterminal, Esst1a.setVcomp, Esst1a.setFieldCurrent, h.efd, m1,
    f1, h.ref, limit_in h.inlim.1 h.inlim.2, l1, k1, r1, sub_sub_cancel, eg, limit_in h.lo h.hi]

theorem esst_rest_step {st : Stage} {g : Esst1a} {i : EsstIn} {E VA u : Real} (h : EsstRest st g i E VA u)
    (dt : Real) : (esstCall g i dt st).Efd = E ∧ ∀ st', EsstRest st' (esstCall g i dt st) i E VA u := by
  rw [esst_rest_call h dt]
  refine ⟨rfl, fun st' => ?_⟩
  constructor
  · rfl
  · dsimp only [esstSet, Esst1a.setVstab, Esst1a.setVterminal, Esst1a.setVcomp, Esst1a.setFieldCurrent]
    exact h.ref
  · dsimp only [esstSet, Esst1a.setVstab, Esst1a.setVterminal, Esst1a.setVcomp, Esst1a.setFieldCurrent]
    exact h.inlim
  · exact (pass_step h.meas dt).2 st'
  · exact ready_of_held (ready_step h.fb dt).2
  · exact ready_of_held (ready_step h.lead dt).2
  · exact ready_of_held (ready_step h.lead1 dt).2
  · exact (pass_step h.reg dt).2 st'
  · dsimp only [esstSet, Esst1a.setVstab, Esst1a.setVterminal, Esst1a.setVcomp, Esst1a.setFieldCurrent]
    exact h.out
  · dsimp only [esstSet, Esst1a.setVstab, Esst1a.setVterminal, Esst1a.setVcomp, Esst1a.setFieldCurrent]
    exact h.gate
  · dsimp only [esstSet, Esst1a.setVstab, Esst1a.setVterminal, Esst1a.setVcomp, Esst1a.setFieldCurrent]
    exact h.lo
  · dsimp only [esstSet, Esst1a.setVstab, Esst1a.setVterminal, Esst1a.setVcomp, Esst1a.setFieldCurrent]
    exact h.hi

/-- Members set by `load` and the setters before `init`. -/
noncomputable def esstReady (g0 : Esst1a) (p : EsstPar) (i : EsstIn) (E : Real) : Esst1a :=
  (esstSet (g0.construct.load p.data) i).setFieldVoltage E

/-- The state after `init` when all blocks are set up. -/
theorem esst_init (g0 : Esst1a) (p : EsstPar) (i : EsstIn) (E ts : Real) (hTb : p.Tb ≠ 0) (hTb1 : p.Tb1 ≠ 0)
    (hTf : p.Tf ≠ 0) (hTa : 4 * ts ≤ p.Ta) (hTr : 4 * ts ≤ p.Tr) (hts : 0 < ts) :
    ∃ m l l1 r f, filter g0.filterR 1 p.Tr = some m ∧ leadLag g0.leadlag p.Tc p.Tb = some l ∧
      leadLag g0.leadlag1 p.Tc1 p.Tb1 = some l1 ∧
      withLimits (filter g0.regulator p.Ka p.Ta) p.Vrmin p.Vrmax (-1000) 1000 = some r ∧
      setcoeffs g0.feedback p.Tf 1 p.Kf 0 = some f ∧
      esstStart (g0.construct.load p.data) i E ts = some ({ esstReady g0 p i E with
        zeroTA := false, zeroTR := false, filterR := m, leadlag := l, leadlag1 := l1, regulator := r,
        feedback := f } : Esst1a).initBlocks := by
  obtain ⟨m, hm⟩ := filter_exists g0.filterR (K := 1) (T := p.Tr) (by intro h; rw [h] at hTr; linarith)
  obtain ⟨l, hl⟩ := leadLag_exists g0.leadlag (TA := p.Tc) hTb
  obtain ⟨l1, hl1⟩ := leadLag_exists g0.leadlag1 (TA := p.Tc1) hTb1
  obtain ⟨r, hr⟩ := regulator_exists g0.regulator (K := p.Ka) (T := p.Ta) (L := p.Vrmin) (U := p.Vrmax)
    (by intro h; rw [h] at hTa; linarith)
  obtain ⟨f, hf⟩ := feedback_exists g0.feedback (KF := p.Kf) hTf
  refine ⟨m, l, l1, r, f, hm, hl, hl1, hr, hf, ?_⟩
  simp [esstStart, Esst1a.init, esstReady, esstSet, Esst1a.setVstab, Esst1a.setVterminal, Esst1a.setVcomp,
    Esst1a.setFieldCurrent, Esst1a.setFieldVoltage, Esst1a.load, Esst1a.construct, EsstPar.data, optional,
    tooShort_false hTa, tooShort_false hTr, hm, hl, hl1, hr, hf]

/-- The second part of `init` for blocks that start at rest. -/
theorem initBlocks_rest (g : Esst1a) (i : EsstIn) (E VA u : Real) (hE : g.Efd = E) (hVt : g.Vterm = i.Vterm)
    (hVc : g.Vcomp = i.Vcomp) (hI : g.LadIfd = i.Ifd) (zR : g.zeroTR = false) (zA : g.zeroTA = false)
    (hVA : E + max 0 ((i.Ifd - g.Ilr) * g.Klr) = VA) (hpos : 0 < i.Vterm)
    (hf : (initGivenU g.feedback E).2 = 0 ∧ Rest (initGivenU g.feedback E).1 E 0)
    (hr : (initGivenY g.regulator VA).2 = u ∧ Rest (initGivenY g.regulator VA).1 u VA)
    (hl1 : (initGivenY g.leadlag1 u).2 = u ∧ Rest (initGivenY g.leadlag1 u).1 u u)
    (hl : (initGivenY g.leadlag u).2 = u ∧ Rest (initGivenY g.leadlag u).1 u u)
    (hm : (initGivenU g.filterR i.Vcomp).2 = i.Vcomp ∧ Rest (initGivenU g.filterR i.Vcomp).1 i.Vcomp i.Vcomp) :
    EsstRest .predictor g.initBlocks i E VA u := by
  have eo : E + g.overload = VA := by
    rw [overload_eq g ((i.Ifd - g.Ilr) * g.Klr) (by rw [hI])]; exact hVA
  unfold Esst1a.initBlocks
  simp only [hE, eo, hr.1, hl1.1, hl.1, hVc, hf.1, hm.1]
  constructor
  · rfl
  · dsimp only; ring
  · dsimp only
    constructor
    · split
      · linarith
      · rename_i h1; exact not_lt.mp h1
    · split
      · linarith
      · rename_i h1; exact not_lt.mp h1
  · dsimp only; rw [zR]; exact hm.2
  · exact hf.2
  · exact hl.2
  · exact hl1.2
  · dsimp only; rw [zA]; exact hr.2
  · dsimp only; linarith
  · dsimp only
    split
    · linarith
    · rename_i h1; exact not_lt.mp h1
  · dsimp only
    rw [hVt]
    split
    · have : i.Vterm * (E / i.Vterm - 1 / 10) = E - i.Vterm / 10 := by field_simp
      rw [this]; linarith
    · rename_i h1; exact not_lt.mp h1
  · dsimp only
    rw [hVt, hI]
    split
    · have : i.Vterm * ((E + g.Kc * i.Ifd) / i.Vterm + 21 / 100) = E + g.Kc * i.Ifd + i.Vterm * (21 / 100) := by
        field_simp
      rw [this]; linarith
    · rename_i h1; exact not_lt.mp h1

/-- C119 for ESST1A.  Loaded with any parameters and initialised with any field voltage for which the
regulator output (field voltage plus the contribution of the field current limiter) lies between `Vrmin`
and `Vrmax`, at any positive terminal voltage, the exciter run with these inputs reports exactly this field
voltage after every call.  Partial: `Ta` and `Tr` must be at least four time steps
(`C119_esst1a_lag_violated`), the regulator output must lie inside the limits although the ceiling depends
on the terminal voltage (`C119_esst1a_ceiling_violated`), and the built-in limits ±1000 and the threshold
1e-10 of the blocks appear as hypotheses. -/
theorem C119_esst1a_partial (g0 : Esst1a) (p : EsstPar) (i : EsstIn) (E ts : Real)
    (hTb : p.Tb ≠ 0) (hTb1 : p.Tb1 ≠ 0) (hTf : p.Tf ≠ 0) (hKa : p.Ka ≠ 0)
    (hts : 0 < ts) (hTa : 4 * ts ≤ p.Ta) (hTr : 4 * ts ≤ p.Tr) (hpos : 0 < i.Vterm)
    (hcf : Constructed g0.feedback)
    (hlim : p.Vrmin ≤ E + excess p i.Ifd ∧ E + excess p i.Ifd ≤ p.Vrmax)
    (hTa' : |p.Ta| ≤ 10 ^ 10) (hTr' : |p.Tr| ≤ 10 ^ 10) (hTb' : |p.Tb| ≤ 10 ^ 10) (hTb1' : |p.Tb1| ≤ 10 ^ 10)
    (hTf' : |p.Tf| ≤ 10 ^ 10) (hKf : p.Kf = 0 ∨ eps * (p.Tf * p.Tf) ≤ |p.Kf|) (hfx : |p.Kf / p.Tf * E| ≤ 1000)
    (hVA : |E + excess p i.Ifd| ≤ 1000) (hVc : |i.Vcomp| ≤ 1000)
    (hu : |(E + excess p i.Ifd) / p.Ka| ≤ 1000)
    (hx : |(1 - p.Tc / p.Tb) * ((E + excess p i.Ifd) / p.Ka)| ≤ 1000)
    (hx1 : |(1 - p.Tc1 / p.Tb1) * ((E + excess p i.Ifd) / p.Ka)| ≤ 1000) :
    ∃ g, esstStart (g0.construct.load p.data) i E ts = some g ∧
      ∀ dts, ∀ v ∈ trace esstCall Esst1a.Efd g (constant i dts), v = E := by
  obtain ⟨m, l, l1, r, f, hm, hl, hl1, hr, hf, hs⟩ := esst_init g0 p i E ts hTb hTb1 hTf hTa hTr hts
  refine ⟨_, hs, fun dts => ?_⟩
  apply trace_const esstCall Esst1a.Efd
    (fun st g => EsstRest st g i E (E + excess p i.Ifd) ((E + excess p i.Ifd) / p.Ka)) E i
  · intro st s dt h
    obtain ⟨h1, h2⟩ := esst_rest_step h dt
    exact ⟨h1, h2 _, h2 _⟩
  · apply initBlocks_rest _ i E _ _ rfl rfl rfl rfl rfl rfl rfl hpos
    · exact feedback_rest hcf hf hTf' hKf hfx
    · exact regulator_rest hr hTa' hKa hlim hVA
    · exact lead_rest hl1 hTb1' hu hx1
    · exact lead_rest hl hTb' hu hx
    · exact measure_rest hm hTr' hVc

/-- Typical parameters meet the hypotheses of C119. -/
example : ∃ (p : EsstPar) (i : EsstIn) (E ts : Real), p.Tb ≠ 0 ∧ p.Tb1 ≠ 0 ∧ p.Tf ≠ 0 ∧ p.Ka ≠ 0 ∧ 0 < ts ∧
    4 * ts ≤ p.Ta ∧ 4 * ts ≤ p.Tr ∧ 0 < i.Vterm ∧
    (p.Vrmin ≤ E + excess p i.Ifd ∧ E + excess p i.Ifd ≤ p.Vrmax) ∧ eps * (p.Tf * p.Tf) ≤ |p.Kf| ∧
    |p.Kf / p.Tf * E| ≤ 1000 ∧ |(1 - p.Tc / p.Tb) * ((E + excess p i.Ifd) / p.Ka)| ≤ 1000 := by
  refine ⟨⟨2 / 100, 1, -1, 1, 10, 1, 1, 200, 2 / 100, 5, -5, 1 / 10, 3 / 100, 1, 4, 3⟩, ⟨1, 1, 2, 0⟩, 2, 1 / 240, ?_⟩
  have e : excess ⟨2 / 100, 1, -1, 1, 10, 1, 1, 200, 2 / 100, 5, -5, 1 / 10, 3 / 100, 1, 4, 3⟩ 2 = 0 := by
    unfold excess; norm_num
  rw [e]
  unfold eps
  norm_num [abs_of_pos]

/-! ### C120: ceiling of ESST1A -/

open Classical in
theorem initBlocks_limits (g : Esst1a) :
    g.initBlocks.Vrmax = (if g.Efd > g.Vterm * g.Vrmax - g.Kc * g.LadIfd then
      (g.Efd + g.Kc * g.LadIfd) / g.Vterm + 21 / 100 else g.Vrmax) ∧
    g.initBlocks.Vrmin = (if g.Efd < g.Vterm * g.Vrmin then g.Efd / g.Vterm - 1 / 10 else g.Vrmin) ∧
    g.initBlocks.Kc = g.Kc ∧ g.initBlocks.zeroTA = g.zeroTA ∧
    g.initBlocks.regulator = (initGivenY g.regulator (g.Efd + g.overload)).1 := ⟨rfl, rfl, rfl, rfl, rfl⟩

/-- A call of the exciter: the regulator gets some input, and its output is limited. -/
theorem esst_call_out (s : Esst1a) (i : EsstIn) (dt : Real) (st : Stage) :
    ∃ u w, (esstCall s i dt st).Efd = limit (i.Vterm * s.Vrmin) (i.Vterm * s.Vrmax - s.Kc * i.Ifd)
        (Dblock.lvGate s.lv ((pass s.zeroTA s.regulator u w dt st).2 - (esstSet s i).overload)) ∧
      (esstCall s i dt st).regulator = (pass s.zeroTA s.regulator u w dt st).1 := by
  unfold esstCall Esst1a.compute
  dsimp only [esstSet, Esst1a.setVstab, Esst1a.setVterminal, Esst1a.setVcomp, Esst1a.setFieldCurrent]
  exact ⟨_, _, rfl, rfl⟩

theorem esst_call_keep (s : Esst1a) (i : EsstIn) (dt : Real) (st : Stage) :
    (esstCall s i dt st).Vrmax = s.Vrmax ∧ (esstCall s i dt st).Vrmin = s.Vrmin ∧
    (esstCall s i dt st).Kc = s.Kc ∧ (esstCall s i dt st).zeroTA = s.zeroTA ∧
    (esstCall s i dt st).Vterm = i.Vterm ∧ (esstCall s i dt st).LadIfd = i.Ifd := by
  unfold esstCall Esst1a.compute
  dsimp only [esstSet, Esst1a.setVstab, Esst1a.setVterminal, Esst1a.setVcomp, Esst1a.setFieldCurrent]
  exact ⟨rfl, rfl, rfl, rfl, rfl, rfl⟩

theorem esstReady_fields (g0 : Esst1a) (p : EsstPar) (i : EsstIn) (E : Real) :
    (esstReady g0 p i E).Efd = E ∧ (esstReady g0 p i E).Vterm = i.Vterm ∧ (esstReady g0 p i E).Vrmax = p.Vrmax ∧
    (esstReady g0 p i E).Vrmin = p.Vrmin ∧ (esstReady g0 p i E).Kc = p.Kc ∧
    (esstReady g0 p i E).LadIfd = i.Ifd := ⟨rfl, rfl, rfl, rfl, rfl, rfl⟩

/-- Whatever happens to the blocks, a started exciter has the limits of its parameters if the initial field
voltage respects them. -/
theorem esst_start_limits {g0 g : Esst1a} {p : EsstPar} {i : EsstIn} {E ts : Real}
    (hhi : E ≤ i.Vterm * p.Vrmax - p.Kc * i.Ifd) (hlo : i.Vterm * p.Vrmin ≤ E)
    (hg : esstStart (g0.construct.load p.data) i E ts = some g) :
    g.Vrmax = p.Vrmax ∧ g.Vrmin = p.Vrmin ∧ g.Kc = p.Kc := by
  unfold esstStart Esst1a.init at hg
  obtain ⟨m, _, hg⟩ := Option.bind_eq_some_iff.mp hg
  obtain ⟨l, _, hg⟩ := Option.bind_eq_some_iff.mp hg
  obtain ⟨l1, _, hg⟩ := Option.bind_eq_some_iff.mp hg
  obtain ⟨r, _, hg⟩ := Option.bind_eq_some_iff.mp hg
  obtain ⟨f, _, hg⟩ := Option.map_eq_some_iff.mp hg
  subst hg
  obtain ⟨e1, e2, e3, e4, e5, e6⟩ := esstReady_fields g0 p i E
  unfold esstReady at e1 e2 e3 e4 e5 e6
  refine ⟨?_, ?_, ?_⟩
  · rw [(initBlocks_limits _).1]
    dsimp only
    rw [e1, e3, e5, e6, if_neg (not_lt.mpr hhi)]
  · rw [(initBlocks_limits _).2.1]
    dsimp only
    rw [e1, e4, if_neg (not_lt.mpr hlo)]
  · rw [(initBlocks_limits _).2.2.1]
    exact e5

/-- C120 for ESST1A.  Loaded with any parameters and started with a field voltage inside the range given by
the terminal voltage and the field current, the exciter reports, after every call and for every history of
inputs and time steps, a field voltage between `VT Vrmin` and `VT Vrmax - Kc Ifd` of this call (where this
range is not empty). -/
theorem C120_esst1a (g0 : Esst1a) (p : EsstPar) (i : EsstIn) (E ts : Real)
    (hhi : E ≤ i.Vterm * p.Vrmax - p.Kc * i.Ifd) (hlo : i.Vterm * p.Vrmin ≤ E) :
    ∀ g, esstStart (g0.construct.load p.data) i E ts = some g →
      ∀ steps : List (EsstIn × EsstIn × Real),
        (∀ d ∈ steps, d.1.Vterm * p.Vrmin ≤ d.1.Vterm * p.Vrmax - p.Kc * d.1.Ifd ∧
          d.2.1.Vterm * p.Vrmin ≤ d.2.1.Vterm * p.Vrmax - p.Kc * d.2.1.Ifd) →
        (∀ v ∈ trace esstCall (fun s => s.Efd - s.Vterm * p.Vrmin) g steps, 0 ≤ v) ∧
        (∀ v ∈ trace esstCall (fun s => s.Vterm * p.Vrmax - p.Kc * s.LadIfd - s.Efd) g steps, 0 ≤ v) := by
  intro g hg steps hsteps
  have hstart := esst_start_limits hhi hlo hg
  have hkeep : ∀ s i dt st, (s.Vrmax = p.Vrmax ∧ s.Vrmin = p.Vrmin ∧ s.Kc = p.Kc) →
      ((esstCall s i dt st).Vrmax = p.Vrmax ∧ (esstCall s i dt st).Vrmin = p.Vrmin ∧
        (esstCall s i dt st).Kc = p.Kc) := by
    intro s i dt st h
    obtain ⟨k1, k2, k3, _⟩ := esst_call_keep s i dt st
    rw [k1, k2, k3]; exact h
  have hefd : ∀ (s : Esst1a) (i : EsstIn) dt st, (s.Vrmax = p.Vrmax ∧ s.Vrmin = p.Vrmin ∧ s.Kc = p.Kc) →
      i.Vterm * p.Vrmin ≤ i.Vterm * p.Vrmax - p.Kc * i.Ifd →
      0 ≤ (esstCall s i dt st).Efd - (esstCall s i dt st).Vterm * p.Vrmin ∧
      0 ≤ (esstCall s i dt st).Vterm * p.Vrmax - p.Kc * (esstCall s i dt st).LadIfd - (esstCall s i dt st).Efd := by
    rintro s i dt st ⟨h1, h2, h3⟩ hr
    obtain ⟨_, _, _, _, k5, k6⟩ := esst_call_keep s i dt st
    obtain ⟨u, w, hv, _⟩ := esst_call_out s i dt st
    rw [k5, k6, hv, h1, h2, h3]
    generalize Dblock.lvGate s.lv _ = v
    obtain ⟨a, b⟩ := limit_le _ _ v hr
    constructor <;> linarith
  constructor
  · refine trace_inv esstCall (fun s => s.Efd - s.Vterm * p.Vrmin)
      (fun s => s.Vrmax = p.Vrmax ∧ s.Vrmin = p.Vrmin ∧ s.Kc = p.Kc)
      (fun _ => True) (fun v => 0 ≤ v) _ ?_ g hstart steps hsteps
    rintro s i j dt ⟨h1, h2⟩ hI
    exact ⟨(hefd s i dt _ hI h1).1, trivial, fun _ => ⟨(hefd _ j dt _ (hkeep _ _ _ _ hI) h2).1,
      hkeep _ _ _ _ (hkeep _ _ _ _ hI)⟩⟩
  · refine trace_inv esstCall (fun s => s.Vterm * p.Vrmax - p.Kc * s.LadIfd - s.Efd)
      (fun s => s.Vrmax = p.Vrmax ∧ s.Vrmin = p.Vrmin ∧ s.Kc = p.Kc)
      (fun _ => True) (fun v => 0 ≤ v) _ ?_ g hstart steps hsteps
    rintro s i j dt ⟨h1, h2⟩ hI
    exact ⟨(hefd s i dt _ hI h1).2, trivial, fun _ => ⟨(hefd _ j dt _ (hkeep _ _ _ _ hI) h2).2,
      hkeep _ _ _ _ (hkeep _ _ _ _ hI)⟩⟩

example : ∃ (p : EsstPar) (i : EsstIn) (E : Real), E ≤ i.Vterm * p.Vrmax - p.Kc * i.Ifd ∧ i.Vterm * p.Vrmin ≤ E := by
  refine ⟨⟨2 / 100, 1, -1, 1, 10, 1, 1, 200, 2 / 100, 5, -5, 1 / 10, 3 / 100, 1, 4, 3⟩, ⟨1, 1, 2, 0⟩, 2, ?_⟩
  norm_num

/-! ### C119 fails for ESST1A -/

theorem lvGate_le (a b : Real) : Dblock.lvGate a b ≤ b := by
  unfold Dblock.lvGate
  split
  · rename_i h; exact le_of_lt h
  · exact le_refl _

/-- After a predictor call the output of a limited filter in the corrector is at most its upper limit. -/
theorem filter_corrector_le {b : Block} {L U : Real} (h1 : b.xmin = L) (h2 : b.xmax = U) (h3 : b.ymin = -1000)
    (h4 : b.C = 1) (h5 : b.D = 0) (hLU : L ≤ U) (hU : -1000 ≤ U) (u w dt : Real) :
    (getoutput (getoutput b u dt .predictor true).1 w dt .corrector true).2 ≤ U := by
  show clamp b.ymin b.ymax (b.C * (clamp b.xmin b.xmax _) + b.D * w) ≤ U
  rw [h1, h2, h3, h4, h5, one_mul, zero_mul, add_zero]
  unfold clamp
  exact max_le hU (le_trans (min_le_left _ _) (max_le hLU (min_le_right _ _)))

/-- C119 fails for ESST1A at a field voltage above `Vrmax` that the ceiling `VT Vrmax - Kc Ifd` still
admits (terminal voltage above 1): the regulator is limited to `Vrmax`, and the exciter leaves the initial
field voltage in the first time step. -/
theorem C119_esst1a_ceiling_violated (g0 : Esst1a) (p : EsstPar) (i : EsstIn) (E ts dt : Real)
    (hTb : p.Tb ≠ 0) (hTb1 : p.Tb1 ≠ 0) (hTf : p.Tf ≠ 0)
    (hts : 0 < ts) (hTa : 4 * ts ≤ p.Ta) (hTr : 4 * ts ≤ p.Tr)
    (hlim : p.Vrmin ≤ p.Vrmax) (hV : -1000 ≤ p.Vrmax)
    (hhi : E ≤ i.Vterm * p.Vrmax - p.Kc * i.Ifd) (hlo : i.Vterm * p.Vrmin < E) (hE : p.Vrmax < E) :
    ∃ g, esstStart (g0.construct.load p.data) i E ts = some g ∧
      ∃ v ∈ trace esstCall Esst1a.Efd g (constant i [dt]), v < E := by
  obtain ⟨m, l, l1, r, f, hm, hl, hl1, hr, hf, hs⟩ := esst_init g0 p i E ts hTb hTb1 hTf hTa hTr hts
  obtain ⟨_, hmin, _⟩ := esst_start_limits hhi hlo.le hs
  refine ⟨_, hs, ?_⟩
  obtain ⟨_, _, _, z0, hreg⟩ := initBlocks_limits ({ esstReady g0 p i E with
        zeroTA := false, zeroTR := false, filterR := m, leadlag := l, leadlag1 := l1, regulator := r,
        feedback := f } : Esst1a)
  generalize hs0 : Esst1a.initBlocks ({ esstReady g0 p i E with
        zeroTA := false, zeroTR := false, filterR := m, leadlag := l, leadlag1 := l1, regulator := r,
        feedback := f } : Esst1a) = s0 at hmin z0 hreg ⊢
  dsimp only at z0 hreg
  obtain ⟨b0, hb0, e⟩ := withLimits_some hr
  obtain ⟨_, e0⟩ := filter_coeffs hb0
  obtain ⟨x, hx⟩ : ∃ x, s0.regulator = { r with x := x } := by
    rw [hreg]
    unfold initGivenY
    split
    · exact ⟨_, rfl⟩
    · exact ⟨_, rfl⟩
  obtain ⟨up, wp, _, hp⟩ := esst_call_out s0 i dt .predictor
  obtain ⟨_, k2, _, k4, _⟩ := esst_call_keep s0 i dt .predictor
  rw [z0] at hp k4
  rw [hmin] at k2
  generalize hs1 : esstCall s0 i dt .predictor = s1 at hp k2 k4
  obtain ⟨uc, wc, hc, _⟩ := esst_call_out s1 i dt .corrector
  rw [k4, k2] at hc
  have hb := filter_corrector_le (b := s0.regulator) (L := p.Vrmin) (U := p.Vrmax) (by rw [hx, e])
    (by rw [hx, e]) (by rw [hx, e]) (by rw [hx, e, e0]) (by rw [hx, e, e0]) hlim hV up uc dt
  have hb' : (pass false s1.regulator uc wc dt .corrector).2 ≤ p.Vrmax := by
    show (getoutput s1.regulator uc dt .corrector true).2 ≤ _
    rw [hp]; exact hb
  have ho : 0 ≤ (esstSet s1 i).overload := by
    rw [overload_eq _ _ rfl]; exact le_max_left _ _
  refine ⟨(esstCall s1 i dt .corrector).Efd, ?_, ?_⟩
  · simp only [constant, List.map_cons, List.map_nil, trace, List.mem_cons, hs1]
    right; left; trivial
  · rw [hc]
    have h2 := lvGate_le s1.lv ((pass false s1.regulator uc wc dt .corrector).2 - (esstSet s1 i).overload)
    unfold limit
    split
    · linarith
    · split
      · exact hlo
      · linarith

/-- Terminal voltage 1.05, `Vrmax = 5`, field voltage 5.1. -/
example : ∃ (p : EsstPar) (i : EsstIn) (E : Real), E ≤ i.Vterm * p.Vrmax - p.Kc * i.Ifd ∧
    i.Vterm * p.Vrmin < E ∧ p.Vrmax < E := by
  refine ⟨⟨2 / 100, 1, -1, 1, 10, 1, 1, 200, 2 / 100, 5, -5, 0, 3 / 100, 1, 4, 3⟩, ⟨105 / 100, 1, 2, 0⟩,
    51 / 10, ?_⟩
  norm_num

theorem esst_init_lag (g0 : Esst1a) (p : EsstPar) (i : EsstIn) (E ts : Real) (hTb : p.Tb ≠ 0) (hTb1 : p.Tb1 ≠ 0)
    (hTf : p.Tf ≠ 0) (hTa : p.Ta < 4 * ts) (hTr : 4 * ts ≤ p.Tr) (hts : 0 < ts) :
    ∃ m l l1 f, filter g0.filterR 1 p.Tr = some m ∧ leadLag g0.leadlag p.Tc p.Tb = some l ∧
      leadLag g0.leadlag1 p.Tc1 p.Tb1 = some l1 ∧
      setcoeffs g0.feedback p.Tf 1 p.Kf 0 = some f ∧
      esstStart (g0.construct.load p.data) i E ts = some ({ esstReady g0 p i E with
        zeroTA := true, zeroTR := false, filterR := m, leadlag := l, leadlag1 := l1,
        gain := setGain g0.gain p.Ka p.Vrmin p.Vrmax, feedback := f } : Esst1a).initBlocks := by
  obtain ⟨m, hm⟩ := filter_exists g0.filterR (K := 1) (T := p.Tr) (by intro h; rw [h] at hTr; linarith)
  obtain ⟨l, hl⟩ := leadLag_exists g0.leadlag (TA := p.Tc) hTb
  obtain ⟨l1, hl1⟩ := leadLag_exists g0.leadlag1 (TA := p.Tc1) hTb1
  obtain ⟨f, hf⟩ := feedback_exists g0.feedback (KF := p.Kf) hTf
  refine ⟨m, l, l1, f, hm, hl, hl1, hf, ?_⟩
  simp [esstStart, Esst1a.init, esstReady, esstSet, Esst1a.setVstab, Esst1a.setVterminal, Esst1a.setVcomp,
    Esst1a.setFieldCurrent, Esst1a.setFieldVoltage, Esst1a.load, Esst1a.construct, EsstPar.data, optional,
    tooShort_true hTa, tooShort_false hTr, hm, hl, hl1, hf]

/-- The second part of `init` when the regulator block has not been set up and its memory holds no state
coefficient: all blocks in front of it start at 0. -/
theorem initBlocks_zero (g : Esst1a) (i : EsstIn) (E : Real) (hE : g.Efd = E) (hVc : g.Vcomp = i.Vcomp)
    (hA : |g.regulator.A| < eps)
    (hf : (initGivenU g.feedback E).2 = 0 ∧ Rest (initGivenU g.feedback E).1 E 0)
    (hl1 : (initGivenY g.leadlag1 0).2 = 0 ∧ Rest (initGivenY g.leadlag1 0).1 0 0)
    (hl : (initGivenY g.leadlag 0).2 = 0 ∧ Rest (initGivenY g.leadlag 0).1 0 0)
    (hm : (initGivenU g.filterR i.Vcomp).2 = i.Vcomp ∧ Rest (initGivenU g.filterR i.Vcomp).1 i.Vcomp i.Vcomp) :
    g.initBlocks.Efd = E ∧ g.initBlocks.Vref - i.Vcomp + (0 + g.initBlocks.Vuel + g.initBlocks.Vothsg) - 0 = 0 ∧
    g.initBlocks.Vimin ≤ 0 ∧ 0 ≤ g.initBlocks.Vimax ∧ Rest g.initBlocks.filterR i.Vcomp i.Vcomp ∧
    Rest g.initBlocks.feedback E 0 ∧ Rest g.initBlocks.leadlag 0 0 ∧ Rest g.initBlocks.leadlag1 0 0 ∧
    E ≤ g.initBlocks.lv ∧ g.initBlocks.gain = g.gain ∧ g.initBlocks.Ilr = g.Ilr ∧ g.initBlocks.Klr = g.Klr ∧
    g.initBlocks.zeroTR = g.zeroTR := by
  have hr : (initGivenY g.regulator (E + g.overload)).2 = 0 := by
    unfold initGivenY; rw [if_pos hA]
  unfold Esst1a.initBlocks
  simp only [hE, hr, hl1.1, hl.1, hVc, hf.1, hm.1]
  refine ⟨by trivial, by ring, ?_, ?_, hm.2, hf.2, hl.2, hl1.2, ?_, by trivial, by trivial, by trivial,
    by trivial⟩
  · split
    · norm_num
    · rename_i h1; exact not_lt.mp h1
  · split
    · norm_num
    · rename_i h1; exact not_lt.mp h1
  · split
    · linarith
    · rename_i h1; exact not_lt.mp h1

/-- A call of ESST1A with a plain gain whose blocks rest at 0. -/
theorem esst_zero_call {g : Esst1a} {i : EsstIn} {E : Real} (dt : Real) (hE : g.Efd = E)
    (href : g.Vref - i.Vcomp + (0 + g.Vuel + g.Vothsg) - 0 = 0) (h1 : g.Vimin ≤ 0) (h2 : 0 ≤ g.Vimax)
    (zR : g.zeroTR = false) (zA : g.zeroTA = true)
    (hm : Rest g.filterR i.Vcomp i.Vcomp) (hf : Rest g.feedback E 0) (hl : Rest g.leadlag 0 0)
    (hl1 : Rest g.leadlag1 0 0) :
    (esstCall g i dt .predictor).Efd = limit (i.Vterm * g.Vrmin) (i.Vterm * g.Vrmax - g.Kc * i.Ifd)
      (Dblock.lvGate g.lv (g.gain.output 0 - (esstSet g i).overload)) := by
  have m1 := (rest_predictor hm dt).1
  have f1 := (rest_predictor hf dt).1
  have l1 := (rest_predictor hl dt).1
  have k1 := (rest_predictor hl1 dt).1
  unfold esstCall Esst1a.compute
  generalize (esstSet g i).overload = o
  simp only [esstSet, Esst1a.setVstab, Esst1a.setVterminal, Esst1a.setVcomp, Esst1a.setFieldCurrent, hE,
    pass, zR, zA, Bool.false_eq_true, if_false, if_true, m1, f1, href, limit_in h1 h2, l1, k1]

/-- C119 fails for ESST1A without a regulator lag (`Ta` below four time steps): `init` still uses the
regulator block, which has not been set up.  If its memory happens to be zero, every exciter without field
current limitation starts with field voltage 0 in the first time step, whatever positive field voltage it
was initialised with. -/
theorem C119_esst1a_lag_violated (g0 : Esst1a) (p : EsstPar) (i : EsstIn) (E ts dt : Real)
    (hTb : p.Tb ≠ 0) (hTb1 : p.Tb1 ≠ 0) (hTf : p.Tf ≠ 0) (hts : 0 < ts) (hTa : p.Ta < 4 * ts)
    (hTr : 4 * ts ≤ p.Tr) (hmem : g0.regulator.A = 0) (hcf : Constructed g0.feedback)
    (hpos : 0 < i.Vterm) (hV : p.Vrmin ≤ 0 ∧ 0 ≤ p.Vrmax) (hE : 0 < E)
    (hhi : E ≤ i.Vterm * p.Vrmax - p.Kc * i.Ifd) (hex : excess p i.Ifd = 0)
    (hTr' : |p.Tr| ≤ 10 ^ 10) (hTb' : |p.Tb| ≤ 10 ^ 10) (hTb1' : |p.Tb1| ≤ 10 ^ 10) (hTf' : |p.Tf| ≤ 10 ^ 10)
    (hKf : p.Kf = 0 ∨ eps * (p.Tf * p.Tf) ≤ |p.Kf|) (hfx : |p.Kf / p.Tf * E| ≤ 1000) (hVc : |i.Vcomp| ≤ 1000) :
    ∃ g, esstStart (g0.construct.load p.data) i E ts = some g ∧
      (esstCall g i dt .predictor).Efd = 0 := by
  obtain ⟨m, l, l1, f, hm, hl, hl1, hf, hs⟩ := esst_init_lag g0 p i E ts hTb hTb1 hTf hTa hTr hts
  have hlo : i.Vterm * p.Vrmin ≤ E := by
    have := mul_nonneg hpos.le (neg_nonneg.mpr hV.1); linarith
  obtain ⟨lmax, lmin, lKc⟩ := esst_start_limits hhi hlo hs
  refine ⟨_, hs, ?_⟩
  obtain ⟨q1, q2, q3, q4, q5, q6, q7, q8, q9, q10, q11, q12, q13⟩ := initBlocks_zero ({ esstReady g0 p i E with
        zeroTA := true, zeroTR := false, filterR := m, leadlag := l, leadlag1 := l1,
        gain := setGain g0.gain p.Ka p.Vrmin p.Vrmax, feedback := f } : Esst1a) i E rfl rfl
    (by show |g0.regulator.A| < eps; rw [hmem, abs_zero]; exact eps_pos)
    (feedback_rest hcf hf hTf' hKf hfx) (lead_rest hl1 hTb1' (by simp) (by simp))
    (lead_rest hl hTb' (by simp) (by simp)) (measure_rest hm hTr' hVc)
  have z0 := (initBlocks_limits ({ esstReady g0 p i E with
        zeroTA := true, zeroTR := false, filterR := m, leadlag := l, leadlag1 := l1,
        gain := setGain g0.gain p.Ka p.Vrmin p.Vrmax, feedback := f } : Esst1a)).2.2.2.1
  dsimp only at z0 q10 q11 q12 q13
  have r1 : (esstReady g0 p i E).Ilr = p.Ilr := rfl
  have r2 : (esstReady g0 p i E).Klr = p.Klr := rfl
  replace q11 := q11.trans r1
  replace q12 := q12.trans r2
  generalize Esst1a.initBlocks ({ esstReady g0 p i E with
        zeroTA := true, zeroTR := false, filterR := m, leadlag := l, leadlag1 := l1,
        gain := setGain g0.gain p.Ka p.Vrmin p.Vrmax, feedback := f } : Esst1a) = s0
    at lmax lmin lKc q1 q2 q3 q4 q5 q6 q7 q8 q9 q10 q11 q12 q13 z0 ⊢
  rw [esst_zero_call dt q1 q2 q3 q4 q13 z0 q5 q6 q7 q8]
  have eo : (esstSet s0 i).overload = 0 := by
    rw [overload_eq (esstSet s0 i) ((i.Ifd - s0.Ilr) * s0.Klr) rfl, q11, q12]
    exact hex
  have eg : s0.gain.output 0 = 0 := by
    rw [q10]
    show clamp p.Vrmin p.Vrmax (p.Ka * 0) = 0
    rw [mul_zero]; exact clamp_of_mem _ _ _ hV.1 hV.2
  rw [eo, eg, sub_zero]
  have el : Dblock.lvGate s0.lv 0 = 0 := by
    unfold Dblock.lvGate; rw [if_neg (by linarith)]
  rw [el, lmax, lmin, lKc]
  apply limit_in
  · have := mul_nonneg hpos.le (neg_nonneg.mpr hV.1); linarith
  · linarith

/-- `Ta = 0`, field voltage 2. -/
example : ∃ (p : EsstPar) (i : EsstIn) (E ts : Real), 0 < ts ∧ p.Ta < 4 * ts ∧ 4 * ts ≤ p.Tr ∧ 0 < i.Vterm ∧
    (p.Vrmin ≤ 0 ∧ 0 ≤ p.Vrmax) ∧ 0 < E ∧ E ≤ i.Vterm * p.Vrmax - p.Kc * i.Ifd ∧ excess p i.Ifd = 0 := by
  refine ⟨⟨2 / 100, 1, -1, 1, 10, 1, 1, 200, 0, 5, -5, 1 / 10, 3 / 100, 1, 4, 3⟩, ⟨1, 1, 2, 0⟩, 2, 1 / 240, ?_⟩
  unfold excess
  norm_num

/-! ### C121 and C123: parameters and inputs of ESST1A without effect -/

/-- Two controllers whose calls and outputs agree up to a relation report the same. -/
theorem trace_rel {σ ι : Type} (call : σ → ι → Real → Stage → σ) (get : σ → Real) (R : σ → σ → Prop)
    (S : ι → ι → Prop) (hget : ∀ s t, R s t → get s = get t)
    (hcall : ∀ s t i j dt st, R s t → S i j → R (call s i dt st) (call t j dt st))
    (ds es : List (ι × ι × Real))
    (h : List.Forall₂ (fun d e => S d.1 e.1 ∧ S d.2.1 e.2.1 ∧ d.2.2 = e.2.2) ds es) :
    ∀ s t, R s t → trace call get s ds = trace call get t es := by
  induction h with
  | nil => intro s t _; rfl
  | @cons d e ds es hd _ ih =>
    obtain ⟨i, j, dt⟩ := d
    obtain ⟨i', j', dt'⟩ := e
    obtain ⟨h1, h2, h3⟩ := hd
    dsimp only at h1 h2 h3
    subst h3
    intro s t hst
    have r1 := hcall s t i i' dt .predictor hst h1
    have r2 := hcall _ _ j j' dt .corrector r1 h2
    simp only [trace]
    rw [hget _ _ r1, hget _ _ r2, ih _ _ r2]

/-- C123 fails for ESST1A: the stabiliser signal has no effect.  From every state, two histories of inputs
that differ in the stabiliser signal only give the same field voltages. -/
theorem C123_esst1a_violated (g : Esst1a) (steps steps' : List (EsstIn × EsstIn × Real))
    (h : List.Forall₂ (fun d e => { d.1 with Vstab := 0 } = { e.1 with Vstab := 0 } ∧
      { d.2.1 with Vstab := 0 } = { e.2.1 with Vstab := 0 } ∧ d.2.2 = e.2.2) steps steps') :
    trace esstCall Esst1a.Efd g steps = trace esstCall Esst1a.Efd g steps' := by
  refine trace_rel esstCall Esst1a.Efd (fun s t => { s with Vstab := 0 } = { t with Vstab := 0 })
    (fun i j : EsstIn => { i with Vstab := 0 } = { j with Vstab := 0 }) ?_ ?_ steps steps' h g g rfl
  · intro s t hst
    have := congrArg Esst1a.Efd hst
    exact this
  · intro s t i j dt st hst hij
    have e : ∀ (s : Esst1a) (i : EsstIn), ({ esstCall s i dt st with Vstab := 0 } : Esst1a) =
        { esstCall { s with Vstab := 0 } { i with Vstab := 0 } dt st with Vstab := 0 } := by
      intro s i
      unfold esstCall Esst1a.compute Esst1a.overload
      dsimp only [esstSet, Esst1a.setVstab, Esst1a.setVterminal, Esst1a.setVcomp, Esst1a.setFieldCurrent]
      rfl
    rw [e s i, e t j, hst, hij]

/-- The second lead-lag block has been replaced. -/
noncomputable def swap1 (g : Esst1a) (b : Block) (Tc1 Tb1 : Real) : Esst1a :=
  { g with leadlag1 := b, Tc1 := Tc1, Tb1 := Tb1 }

theorem lead_init_snd {b b' : Block} {TA TB : Real} (h : leadLag b TA TB = some b') (hT : |TB| ≤ 10 ^ 10)
    (y : Real) : (initGivenY b' y).2 = y := by
  obtain ⟨hT0, e⟩ := leadLag_coeffs h
  subst e
  unfold initGivenY
  rw [if_neg (not_lt.mpr (eps_le_inv hT0 hT))]
  have e1 : TA / TB - 1 * (1 / TB - TA / (TB * TB)) / (-1 / TB) = 1 := by field_simp; ring
  show y / (TA / TB - 1 * (1 / TB - TA / (TB * TB)) / (-1 / TB)) = y
  rw [e1, div_one]

theorem initBlocks_swap (g : Esst1a) (b : Block) (c d : Real)
    (h : ∀ w, (initGivenY b w).2 = (initGivenY g.leadlag1 w).2) :
    ∃ b', (swap1 g b c d).initBlocks = swap1 g.initBlocks b' c d := by
  unfold swap1 Esst1a.initBlocks Esst1a.overload
  dsimp only
  simp only [h]
  exact ⟨_, rfl⟩

theorem swap1_call (s : Esst1a) (b : Block) (c d : Real) (i : EsstIn) (dt : Real) (st : Stage)
    (z : s.zeroTA = false) : ∃ b', esstCall (swap1 s b c d) i dt st = swap1 (esstCall s i dt st) b' c d := by
  unfold swap1 esstCall Esst1a.compute Esst1a.overload
  dsimp only [esstSet, Esst1a.setVstab, Esst1a.setVterminal, Esst1a.setVcomp, Esst1a.setFieldCurrent]
  simp only [z, pass, Bool.false_eq_true, if_false]
  exact ⟨_, rfl⟩

/-- C121 fails for ESST1A with a regulator lag: the second lead-lag block has no effect.  Two exciters with
the same parameters except its time constants, initialised in the same way, report the same field voltages
for every history of inputs. -/
theorem C121_esst1a_violated (g0 : Esst1a) (p : EsstPar) (Tc1' Tb1' : Real) (i : EsstIn) (E ts : Real)
    (hTb : p.Tb ≠ 0) (hTb1 : p.Tb1 ≠ 0) (hTb1' : Tb1' ≠ 0) (hTf : p.Tf ≠ 0)
    (hts : 0 < ts) (hTa : 4 * ts ≤ p.Ta) (hTr : 4 * ts ≤ p.Tr) (b1 : |p.Tb1| ≤ 10 ^ 10) (b2 : |Tb1'| ≤ 10 ^ 10) :
    ∃ g g', esstStart (g0.construct.load p.data) i E ts = some g ∧
      esstStart (g0.construct.load { p with Tc1 := Tc1', Tb1 := Tb1' }.data) i E ts = some g' ∧
      ∀ steps, trace esstCall Esst1a.Efd g steps = trace esstCall Esst1a.Efd g' steps := by
  obtain ⟨m, l, l1, r, f, hm, hl, hl1, hr, hf, hs⟩ := esst_init g0 p i E ts hTb hTb1 hTf hTa hTr hts
  obtain ⟨m', l', l1', r', f', hm', hl', hl1', hr', hf', hs'⟩ :=
    esst_init g0 { p with Tc1 := Tc1', Tb1 := Tb1' } i E ts hTb hTb1' hTf hTa hTr hts
  dsimp only at hm' hl' hl1' hr' hf'
  obtain rfl : m = m' := Option.some.inj (hm.symm.trans hm')
  obtain rfl : l = l' := Option.some.inj (hl.symm.trans hl')
  obtain rfl : r = r' := Option.some.inj (hr.symm.trans hr')
  obtain rfl : f = f' := Option.some.inj (hf.symm.trans hf')
  refine ⟨_, _, hs, hs', fun steps => ?_⟩
  refine trace_rel esstCall Esst1a.Efd
    (fun s t => s.zeroTA = false ∧ ∃ b c d, t = swap1 s b c d) (fun i j => i = j) ?_ ?_ steps steps ?_ _ _ ?_
  · rintro s t ⟨_, b, c, d, rfl⟩; rfl
  · rintro s t i j dt st ⟨z, b, c, d, rfl⟩ rfl
    refine ⟨(esst_call_keep s i dt st).2.2.2.1.trans z, ?_⟩
    obtain ⟨b', hb'⟩ := swap1_call s b c d i dt st z
    exact ⟨b', c, d, hb'⟩
  · exact List.forall₂_same.mpr (fun _ _ => ⟨rfl, rfl, rfl⟩)
  · refine ⟨(initBlocks_limits _).2.2.2.1, ?_⟩
    obtain ⟨b', hb'⟩ := initBlocks_swap ({ esstReady g0 p i E with
        zeroTA := false, zeroTR := false, filterR := m, leadlag := l, leadlag1 := l1, regulator := r,
        feedback := f } : Esst1a) l1' Tc1' Tb1'
      (fun w => by rw [lead_init_snd hl1' b2]; exact (lead_init_snd hl1 b1 w).symm)
    exact ⟨b', Tc1', Tb1', hb'⟩

/-- Lead times 1 and 30 of the second block make no difference. -/
example : (1 : Real) ≠ 0 ∧ |(1 : Real)| ≤ 10 ^ 10 ∧ (4 * (1 / 240) : Real) ≤ 2 / 100 := by norm_num

end GridPACK.Exciters
