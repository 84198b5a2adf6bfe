import Verif.Model.Governors
import Verif.Lemmas.CblockRest
import Mathlib.Tactic.NormNum

/-! Property C112 (flat start of governors). -/
namespace GridPACK.Governors
open GridPACK.Cblock

/-- One call of a TGOV1 model by its generator: set the speed deviation, then predictor or corrector. -/
noncomputable def tgovCall (g : Tgov) (w dt : Real) (s : Stage) : Tgov :=
  (g.setRotorSpeedDeviation w).compute dt s

noncomputable def gastCall (g : Gast) (w dt : Real) (s : Stage) : Gast :=
  (g.setRotorSpeedDeviation w).compute dt s

noncomputable def hygovCall (g : Hygov) (w dt : Real) (s : Stage) : Hygov :=
  (g.setRotorSpeedDeviation w).compute dt s

noncomputable def wsiegCall (g : Wsieg) (w dt : Real) (s : Stage) : Wsieg :=
  (g.setRotorSpeedDeviation w).compute dt s

/-- Initialisation by the generator: mechanical power, speed deviation, `init`. -/
noncomputable def tgovStart (g : Tgov) (P w : Real) : Tgov :=
  ((g.setMechanicalPower P).setRotorSpeedDeviation w).init

noncomputable def gastStart (g : Gast) (P w : Real) : Gast :=
  ((g.setMechanicalPower P).setRotorSpeedDeviation w).init

noncomputable def hygovStart (g : Hygov) (P w : Real) : Hygov :=
  ((g.setMechanicalPower P).setRotorSpeedDeviation w).init

noncomputable def wsiegStart (g : Wsieg) (P w : Real) : Wsieg :=
  ((g.setMechanicalPower P).setRotorSpeedDeviation w).init

/-! ### C112: flat start -/

theorem tgov_load (g0 : Tgov) (R T1 Vmax Vmin T2 T3 Dt : Real) (h1 : T1 ≠ 0) (h3 : T3 ≠ 0) :
    ∃ g, g0.load ⟨some R, some T1, some Vmax, some Vmin, some T2, some T3, some Dt⟩ = some g ∧
      g.R = R ∧ g.Dt = Dt ∧
      (∃ b, leadLag b T2 T3 = some g.leadlag) ∧
      (∃ b, withLimits (filter b 1 T1) Vmin Vmax (-1000) 1000 = some g.delay) := by
  have e1 : ∃ l, leadLag g0.leadlag T2 T3 = some l := by
    unfold leadLag setcoeffs; rw [if_neg h3]; exact ⟨_, rfl⟩
  have e2 : ∃ f, withLimits (filter g0.delay 1 T1) Vmin Vmax (-1000) 1000 = some f := by
    unfold withLimits filter setcoeffs; rw [if_neg h1]; exact ⟨_, rfl⟩
  obtain ⟨l, hl⟩ := e1
  obtain ⟨f, hf⟩ := e2
  refine ⟨{ g0 with R := R, T1 := T1, Vmax := Vmax, Vmin := Vmin, T2 := T2, T3 := T3, Dt := Dt,
                    leadlag := l, delay := f }, ?_, rfl, rfl, ⟨g0.leadlag, hl⟩, ⟨g0.delay, hf⟩⟩
  unfold Tgov.load
  simp only [Option.getD_some, hl, hf, Option.bind_some, Option.map_some]

/-- TGOV1 at rest with power `P` at the speed deviation `w`. -/
structure TgovRest (st : Stage) (g : Tgov) (R Dt P w : Real) : Prop where
  hR : g.R = R
  hDt : g.Dt = Dt
  delay : Ready st g.delay ((g.Pref - w) / R) (P + Dt * w)
  leadlag : Ready st g.leadlag (P + Dt * w) (P + Dt * w)

/-- C112 for TGOV1.  Loaded with any parameters (non-zero `R`, `T1`, `T3`), initialised with a power at a
speed deviation for which the valve position lies within its limits, and then run at this speed, the
governor reports exactly that power after every call, for any number and length of time steps.  Partial
because the built-in limits of ±1000 of the blocks and the threshold 1e-10 appear as hypotheses. -/
theorem C112_tgov1_partial (g0 : Tgov) (R T1 Vmax Vmin T2 T3 Dt P w : Real) (hR : R ≠ 0) (h1 : T1 ≠ 0)
    (h3 : T3 ≠ 0) (h1' : |T1| ≤ 10 ^ 10) (h3' : |T3| ≤ 10 ^ 10)
    (hlim : Vmin ≤ P + Dt * w ∧ P + Dt * w ≤ Vmax)
    (hb : |P + Dt * w| ≤ 1000) (hb' : |(1 - T2 / T3) * (P + Dt * w)| ≤ 1000) :
    ∃ g, g0.load ⟨some R, some T1, some Vmax, some Vmin, some T2, some T3, some Dt⟩ = some g ∧
      ∀ dts, ∀ v ∈ trace tgovCall Tgov.Pmech (tgovStart g P w) (constant w dts), v = P := by
  obtain ⟨g, hg, hgR, hgD, ⟨b, hl⟩, ⟨b', hd⟩⟩ := tgov_load g0 R T1 Vmax Vmin T2 T3 Dt h1 h3
  refine ⟨g, hg, ?_⟩
  obtain ⟨_, el⟩ := leadLag_coeffs hl
  obtain ⟨d0, hd0, ed⟩ := withLimits_some hd
  obtain ⟨_, ed0⟩ := filter_coeffs hd0
  rw [abs_le] at hb hb'
  -- lead-lag block after initialisation
  obtain ⟨l1, l2⟩ := leadLag_rest (b := g.leadlag) (TA := T2) (TB := T3) (y := P + Dt * w) h3 h3'
    (by rw [el]) (by rw [el]) (by rw [el]) (by rw [el])
    (by rw [el]; exact hb') (by rw [el]; exact hb)
    (by rw [el]; constructor <;> simp [defaultLimits, setxlimits, setdxlimits, setylimits])
  obtain ⟨f1, f2⟩ := filter_rest (b := g.delay) (K := 1) (T := T1) (y := P + Dt * w) h1 h1' one_ne_zero
    (by rw [ed, ed0]) (by rw [ed, ed0]) (by rw [ed, ed0]) (by rw [ed, ed0])
    (by rw [ed]; exact hlim) (by rw [ed]; exact hb)
    (by rw [ed, ed0]; constructor <;> simp [defaultLimits, setxlimits, setdxlimits, setylimits])
  rw [div_one] at f1 f2
  apply trace_const tgovCall Tgov.Pmech (fun st g => TgovRest st g R Dt P w) P w
  · rintro st s dt ⟨a1, a2, a3, a4⟩
    obtain ⟨p1, p2⟩ := ready_step a3 dt
    obtain ⟨q1, q2⟩ := ready_step a4 dt
    have ef : getoutput s.delay ((s.Pref - w) / s.R) dt st true =
        getoutput s.delay ((s.Pref - w) / R) dt st true := by rw [a1]
    have e1 : (tgovCall s w dt st).delay = (getoutput s.delay ((s.Pref - w) / R) dt st true).1 := by
      rw [← ef]; rfl
    have e2 : (tgovCall s w dt st).leadlag = (getoutput s.leadlag (P + Dt * w) dt st true).1 := by
      show (getoutput s.leadlag (getoutput s.delay ((s.Pref - w) / s.R) dt st true).2 dt st true).1 = _
      rw [ef, p1]
    have e3 : (tgovCall s w dt st).Pmech = P := by
      show (getoutput s.leadlag (getoutput s.delay ((s.Pref - w) / s.R) dt st true).2 dt st true).2 -
        s.Dt * w = _
      rw [ef, p1, q1, a2]; ring
    refine ⟨e3, ⟨a1, a2, ?_, ?_⟩, ⟨a1, a2, ?_, ?_⟩⟩
    · rw [e1]; exact ready_of_held p2
    · rw [e2]; exact ready_of_held q2
    · rw [e1]; exact ready_of_held p2
    · rw [e2]; exact ready_of_held q2
  · -- the state after initialisation
    have e0 : (tgovStart g P w).leadlag = (initGivenY g.leadlag (P + Dt * w)).1 := by
      show (initGivenY g.leadlag (P + g.Dt * w)).1 = _
      rw [hgD]
    have e1 : (tgovStart g P w).delay = (initGivenY g.delay (P + Dt * w)).1 := by
      show (initGivenY g.delay (initGivenY g.leadlag (P + g.Dt * w)).2).1 = _
      rw [hgD, l1]
    have e2 : (tgovStart g P w).Pref = R * (P + Dt * w) + w := by
      show g.R * (initGivenY g.delay (initGivenY g.leadlag (P + g.Dt * w)).2).2 + w = _
      rw [hgD, l1, f1, hgR]
    refine ⟨hgR, hgD, ?_, ?_⟩
    · rw [e1, e2]
      have : (R * (P + Dt * w) + w - w) / R = P + Dt * w := by field_simp; ring
      rw [this]
      exact f2
    · rw [e0]
      exact l2

theorem gast_load (g0 : Gast) (R T1 T2 T3 AT KT VMAX VMIN Dt : Real) (h1 : T1 ≠ 0) (h2 : T2 ≠ 0)
    (h3 : T3 ≠ 0) :
    ∃ g, g0.load ⟨some R, some T1, some T2, some T3, some AT, some KT, some VMAX, some VMIN, some Dt⟩ =
        some g ∧ g.R = R ∧ g.Dt = Dt ∧ g.AT = AT ∧ g.KT = KT ∧ g.deltaW = g0.deltaW ∧
      (∃ b, withLimits (filter b 1 T1) VMIN VMAX (-10000) 10000 = some g.valve) ∧
      (∃ b, filter b 1 T2 = some g.flow) ∧ (∃ b, filter b 1 T3 = some g.exh) := by
  have e1 : ∃ l, withLimits (filter g0.valve 1 T1) VMIN VMAX (-10000) 10000 = some l := by
    unfold withLimits filter setcoeffs; rw [if_neg h1]; exact ⟨_, rfl⟩
  have e2 : ∃ f, filter g0.flow 1 T2 = some f := by
    unfold filter setcoeffs; rw [if_neg h2]; exact ⟨_, rfl⟩
  have e3 : ∃ f, filter g0.exh 1 T3 = some f := by
    unfold filter setcoeffs; rw [if_neg h3]; exact ⟨_, rfl⟩
  obtain ⟨l, hl⟩ := e1
  obtain ⟨f, hf⟩ := e2
  obtain ⟨e, he⟩ := e3
  refine ⟨{ g0 with R := R, T1 := T1, T2 := T2, T3 := T3, AT := AT, KT := KT, VMAX := VMAX,
                    VMIN := VMIN, Dt := Dt, valve := l, flow := f, exh := e }, ?_, rfl, rfl, rfl, rfl, rfl,
    ⟨g0.valve, hl⟩, ⟨g0.flow, hf⟩, ⟨g0.exh, he⟩⟩
  unfold Gast.load
  simp only [Option.getD_some, hl, hf, he, Option.bind_some, Option.map_some]

structure GastRest (st : Stage) (g : Gast) (AT KT P : Real) : Prop where
  hAT : g.AT = AT
  hKT : g.KT = KT
  hw : g.deltaW = 0
  pref : g.Pref = P
  exhOut : g.exhOut = P
  valve : Ready st g.valve P P
  flow : Ready st g.flow P P
  exh : Ready st g.exh P P

/-- C112 for GAST: if the temperature limiter does not act at the initial power and the valve is within
its limits, the governor reports the initial power for ever. -/
theorem C112_gast_partial (g0 : Gast) (R T1 T2 T3 AT KT VMAX VMIN Dt P w : Real) (_hR : R ≠ 0)
    (h1 : T1 ≠ 0) (h2 : T2 ≠ 0) (h3 : T3 ≠ 0) (h1' : |T1| ≤ 10 ^ 10) (h2' : |T2| ≤ 10 ^ 10) (h3' : |T3| ≤ 10 ^ 10)
    (hlim : VMIN ≤ P ∧ P ≤ VMAX) (hb : |P| ≤ 1000) (hgate : P ≤ AT + KT * (AT - P)) :
    ∃ g, g0.construct.load ⟨some R, some T1, some T2, some T3, some AT, some KT, some VMAX, some VMIN,
        some Dt⟩ = some g ∧
      ∀ dts, ∀ v ∈ trace gastCall Gast.Pmech (gastStart g P w) (constant w dts), v = P := by
  obtain ⟨g, hg, hgR, hgD, hgA, hgK, hgw, ⟨b, hv⟩, ⟨b', hf⟩, ⟨b'', he⟩⟩ :=
    gast_load g0.construct R T1 T2 T3 AT KT VMAX VMIN Dt h1 h2 h3
  have hgw : g.deltaW = 0 := hgw
  refine ⟨g, hg, ?_⟩
  obtain ⟨v0, hv0, ev⟩ := withLimits_some hv
  obtain ⟨_, ev0⟩ := filter_coeffs hv0
  obtain ⟨_, ef⟩ := filter_coeffs hf
  obtain ⟨_, ee⟩ := filter_coeffs he
  rw [abs_le] at hb
  obtain ⟨v1, v2⟩ := filter_rest (b := g.valve) (K := 1) (T := T1) (y := P) h1 h1' one_ne_zero
    (by rw [ev, ev0]) (by rw [ev, ev0]) (by rw [ev, ev0]) (by rw [ev, ev0])
    (by rw [ev]; exact hlim) (by rw [ev]; constructor <;> simp only <;> linarith)
    (by rw [ev, ev0]; constructor <;> simp [defaultLimits, setxlimits, setdxlimits, setylimits])
  obtain ⟨f1, f2⟩ := filter_rest (b := g.flow) (K := 1) (T := T2) (y := P) h2 h2' one_ne_zero
    (by rw [ef]) (by rw [ef]) (by rw [ef]) (by rw [ef])
    (by rw [ef]; exact hb) (by rw [ef]; exact hb)
    (by rw [ef]; constructor <;> simp [defaultLimits, setxlimits, setdxlimits, setylimits])
  have hexh : eps * |T3| ≤ |(1 : Real)| := by
    unfold eps
    rw [abs_one]
    calc 1 / 10 ^ 10 * |T3| ≤ 1 / 10 ^ 10 * 10 ^ 10 := by
          apply mul_le_mul_of_nonneg_left h3'; positivity
      _ = 1 := by norm_num
  obtain ⟨e1, e2⟩ := filter_rest_u (b := g.exh) (K := 1) (T := T3) (u := P) h3 h3' hexh
    (by rw [ee]) (by rw [ee]) (by rw [ee]) (by rw [ee])
    (by rw [ee, one_mul]; exact hb) (by rw [ee, one_mul]; exact hb)
    (by rw [ee]; constructor <;> simp [defaultLimits, setxlimits, setdxlimits, setylimits])
  rw [div_one] at v1 v2 f1 f2
  rw [one_mul] at e1 e2
  apply trace_const gastCall Gast.Pmech (fun st g => GastRest st g AT KT P) P w
  · rintro st s dt ⟨a1, a2, a3, a4, a5, a6, a7, a8⟩
    obtain ⟨p1, p2⟩ := ready_step a6 dt
    obtain ⟨q1, q2⟩ := ready_step a7 dt
    obtain ⟨r1, r2⟩ := ready_step a8 dt
    have hmin : min (s.AT + s.KT * (s.AT - s.exhOut)) (s.Pref - s.deltaW / s.R) = P := by
      rw [a1, a2, a3, a4, a5, zero_div, sub_zero]
      exact min_eq_right hgate
    have c1 : (gastCall s w dt st).valve = (getoutput s.valve P dt st true).1 := by
      show (getoutput s.valve (min (s.AT + s.KT * (s.AT - s.exhOut)) (s.Pref - s.deltaW / s.R)) dt st true).1 = _
      rw [hmin]
    have c2 : (gastCall s w dt st).flow = (getoutput s.flow P dt st true).1 := by
      show (getoutput s.flow (getoutput s.valve (min (s.AT + s.KT * (s.AT - s.exhOut)) (s.Pref - s.deltaW / s.R)) dt st true).2 dt st true).1 = _
      rw [hmin, p1]
    have c3 : (gastCall s w dt st).exh = (getoutput s.exh P dt st true).1 := by
      show (getoutput s.exh (getoutput s.flow (getoutput s.valve (min (s.AT + s.KT * (s.AT - s.exhOut)) (s.Pref - s.deltaW / s.R)) dt st true).2 dt st true).2
        dt st true).1 = _
      rw [hmin, p1, q1]
    have c4 : (gastCall s w dt st).exhOut = P := by
      show (getoutput s.exh (getoutput s.flow (getoutput s.valve (min (s.AT + s.KT * (s.AT - s.exhOut)) (s.Pref - s.deltaW / s.R)) dt st true).2 dt st true).2
        dt st true).2 = _
      rw [hmin, p1, q1, r1]
    have c5 : (gastCall s w dt st).Pmech = P := by
      show (getoutput s.flow (getoutput s.valve (min (s.AT + s.KT * (s.AT - s.exhOut)) (s.Pref - s.deltaW / s.R)) dt st true).2 dt st true).2 - s.Dt * s.deltaW = _
      rw [hmin, p1, q1, a3]; ring
    refine ⟨c5, ⟨a1, a2, a3, a4, c4, ?_, ?_, ?_⟩, ⟨a1, a2, a3, a4, c4, ?_, ?_, ?_⟩⟩
    · rw [c1]; exact ready_of_held p2
    · rw [c2]; exact ready_of_held q2
    · rw [c3]; exact ready_of_held r2
    · rw [c1]; exact ready_of_held p2
    · rw [c2]; exact ready_of_held q2
    · rw [c3]; exact ready_of_held r2
  · have h0 : P + g.Dt * g.deltaW = P := by rw [hgw]; ring
    refine ⟨hgA, hgK, hgw, ?_, ?_, ?_, ?_, ?_⟩
    · show (initGivenY g.valve (initGivenY g.flow (P + g.Dt * g.deltaW)).2).2 + g.deltaW * g.R = P
      rw [h0, f1, v1, hgw]; ring
    · show (initGivenU g.exh (P + g.Dt * g.deltaW)).2 = P
      rw [h0, e1]
    · show Rest (initGivenY g.valve (initGivenY g.flow (P + g.Dt * g.deltaW)).2).1 P P
      rw [h0, f1]; exact v2
    · show Rest (initGivenY g.flow (P + g.Dt * g.deltaW)).1 P P
      rw [h0]; exact f2
    · show Rest (initGivenU g.exh (P + g.Dt * g.deltaW)).1 P P
      rw [h0]; exact e2


theorem hygov_load (g0 : Hygov) (R r TR TF TG VELM GMAX GMIN TW AT Dt qNL : Real) (h1 : TF ≠ 0)
    (h2 : TG ≠ 0) (h3 : TW ≠ 0) :
    ∃ g, g0.load ⟨some R, some r, some TR, some TF, some TG, some VELM, some GMAX, some GMIN, some TW,
        some AT, some Dt, some qNL⟩ = some g ∧
      g.R = R ∧ g.AT = AT ∧ g.qNL = qNL ∧ g.deltaW = g0.deltaW ∧
      filter g0.filterB 1 TF = some g.filterB ∧
      withLimits (piControl g0.gate (1 / r) (1 / (r * TR))) GMIN GMAX (-10000) 10000 = some g.gate ∧
      filter g0.opening 1 TG = some g.opening ∧ integrator g0.flow TW = some g.flow := by
  have e1 : ∃ l, filter g0.filterB 1 TF = some l := by
    unfold filter setcoeffs; rw [if_neg h1]; exact ⟨_, rfl⟩
  have e2 : ∃ f, withLimits (piControl g0.gate (1 / r) (1 / (r * TR))) GMIN GMAX (-10000) 10000 =
      some f := by
    unfold withLimits piControl setcoeffs; rw [if_neg one_ne_zero]; exact ⟨_, rfl⟩
  have e3 : ∃ f, filter g0.opening 1 TG = some f := by
    unfold filter setcoeffs; rw [if_neg h2]; exact ⟨_, rfl⟩
  have e4 : ∃ f, integrator g0.flow TW = some f := by
    unfold integrator setcoeffs; rw [if_neg h3]; exact ⟨_, rfl⟩
  obtain ⟨f, hf⟩ := e1
  obtain ⟨p, hp⟩ := e2
  obtain ⟨o, ho⟩ := e3
  obtain ⟨i, hi⟩ := e4
  refine ⟨{ g0 with R := R, r := r, TR := TR, TF := TF, TG := TG, VELM := VELM, GMAX := GMAX,
                    GMIN := GMIN, TW := TW, AT := AT, Dt := Dt, qNL := qNL, filterB := f, gate := p,
                    opening := o, flow := i }, ?_, rfl, rfl, rfl, rfl, hf, hp, ho, hi⟩
  unfold Hygov.load
  simp only [Option.getD_some, Option.isSome_some, if_true, hf, hp, ho, hi, Option.bind_some,
    Option.map_some]

structure HygovRest (st : Stage) (g : Hygov) (R AT qNL q : Real) : Prop where
  hR : g.R = R
  hAT : g.AT = AT
  hq : g.qNL = qNL
  hw : g.deltaW = 0
  nref : g.nref = R * q
  gateOut : g.gateOut = q
  flowOut : g.flowOut = q
  filterB : Ready st g.filterB 0 0
  gate : Ready st g.gate 0 q
  opening : Ready st g.opening q q
  flow : Ready st g.flow 0 q

/-- C112 for HYGOV: gate position `P / AT + qNL` within the gate limits and not zero. -/
theorem C112_hygov_partial (g0 : Hygov) (R r TR TF TG VELM GMAX GMIN TW AT Dt qNL P w : Real)
    (_hr : r ≠ 0) (_hTR : TR ≠ 0) (h1 : TF ≠ 0) (h2 : TG ≠ 0) (h3 : TW ≠ 0) (h1' : |TF| ≤ 10 ^ 10)
    (h2' : |TG| ≤ 10 ^ 10) (hAT : AT ≠ 0) (hq : P / AT + qNL ≠ 0)
    (hlim : GMIN ≤ P / AT + qNL ∧ P / AT + qNL ≤ GMAX) (hb : |P / AT + qNL| ≤ 1000)
    (hcon : Constructed g0.flow) :
    ∃ g, g0.construct.load ⟨some R, some r, some TR, some TF, some TG, some VELM, some GMAX, some GMIN,
        some TW, some AT, some Dt, some qNL⟩ = some g ∧
      ∀ dts, ∀ v ∈ trace hygovCall Hygov.Pmech (hygovStart g P w) (constant w dts), v = P := by
  obtain ⟨g, hg, hgR, hgA, hgq, hgw, hf, hp, ho, hi⟩ :=
    hygov_load g0.construct R r TR TF TG VELM GMAX GMIN TW AT Dt qNL h1 h2 h3
  have hgw : g.deltaW = 0 := hgw
  refine ⟨g, hg, ?_⟩
  obtain ⟨_, ef⟩ := filter_coeffs hf
  obtain ⟨p0, hp0, ep⟩ := withLimits_some hp
  have ep0 := pi_coeffs hp0
  obtain ⟨_, eo⟩ := filter_coeffs ho
  obtain ⟨_, ei⟩ := integrator_coeffs hi
  obtain ⟨q, hqdef⟩ : ∃ q, q = P / AT + qNL := ⟨_, rfl⟩
  rw [← hqdef] at hq hlim hb
  rw [abs_le] at hb
  have hPq : AT * (q - qNL) = P := by rw [hqdef]; field_simp; ring
  obtain ⟨f1, f2⟩ := filter_rest (b := g.filterB) (K := 1) (T := TF) (y := 0) h1 h1' one_ne_zero
    (by rw [ef]) (by rw [ef]) (by rw [ef]) (by rw [ef])
    (by rw [ef]; constructor <;> simp [defaultLimits, setxlimits, setdxlimits, setylimits])
    (by rw [ef]; constructor <;> simp [defaultLimits, setxlimits, setdxlimits, setylimits])
    (by rw [ef]; constructor <;> simp [defaultLimits, setxlimits, setdxlimits, setylimits])
  obtain ⟨o1, o2⟩ := filter_rest (b := g.opening) (K := 1) (T := TG) (y := q) h2 h2' one_ne_zero
    (by rw [eo]) (by rw [eo]) (by rw [eo]) (by rw [eo])
    (by rw [eo]; exact hb) (by rw [eo]; exact hb)
    (by rw [eo]; constructor <;> simp [defaultLimits, setxlimits, setdxlimits, setylimits])
  obtain ⟨p1, p2⟩ := integral_rest (b := g.gate) (y := q) (by rw [ep, ep0]) (by rw [ep, ep0])
    (by rw [ep]; exact hlim) (by rw [ep]; constructor <;> simp only <;> linarith)
    (by rw [ep, ep0]; constructor <;> simp [defaultLimits, setxlimits, setdxlimits, setylimits])
  obtain ⟨_, _, _, _, c5, c6, _⟩ := hcon
  obtain ⟨i1, i2⟩ := integral_rest (b := g.flow) (y := q) (by rw [ei]) (by rw [ei])
    (by rw [ei]; exact hb) (by rw [ei]; exact hb)
    (by
      rw [ei]
      show g0.flow.dxmin ≤ 0 ∧ 0 ≤ g0.flow.dxmax
      rw [c5, c6]
      constructor <;> norm_num)
  rw [div_one] at f1 f2 o1 o2
  apply trace_const hygovCall Hygov.Pmech (fun st g => HygovRest st g R AT qNL q) P w
  · rintro st s dt ⟨a1, a2, a3, a4, a5, a6, a7, a8, a9, a10, a11⟩
    obtain ⟨b1, b2⟩ := ready_step a8 dt
    obtain ⟨d1, d2⟩ := ready_step a9 dt
    obtain ⟨k1, k2⟩ := ready_step a10 dt
    obtain ⟨m1, m2⟩ := ready_step a11 dt
    have hin : s.nref - (s.deltaW + s.R * s.gateOut) = 0 := by rw [a1, a4, a5, a6]; ring
    have hcall : hygovCall s w dt st = s.compute dt st := rfl
    have hh : q / s.flowOut * (q / s.flowOut) = 1 := by
      rw [a7, div_self hq]; ring
    have e1 : (s.compute dt st).filterB = (getoutput s.filterB 0 dt st true).1 := by
      simp only [Hygov.compute, hin]
    have e2 : (s.compute dt st).gate = (getoutput s.gate 0 dt st true).1 := by
      simp only [Hygov.compute, hin, b1]
    have e3 : (s.compute dt st).gateOut = q := by
      simp only [Hygov.compute, hin, b1, d1]
    have e4 : (s.compute dt st).opening = (getoutput s.opening q dt st true).1 := by
      simp only [Hygov.compute, hin, b1, d1]
    have e5 : (s.compute dt st).flow = (getoutput s.flow 0 dt st true).1 := by
      simp only [Hygov.compute, hin, b1, d1, k1, hh, sub_self]
    have e6 : (s.compute dt st).flowOut = q := by
      simp only [Hygov.compute, hin, b1, d1, k1, hh, sub_self, m1]
    have e7 : (s.compute dt st).Pmech = P := by
      simp only [Hygov.compute, hin, b1, d1, k1, hh, sub_self, m1]
      rw [a2, a3, a4]
      linarith
    rw [hcall]
    refine ⟨e7, ⟨a1, a2, a3, a4, a5, e3, e6, ?_, ?_, ?_, ?_⟩, ⟨a1, a2, a3, a4, a5, e3, e6, ?_, ?_, ?_, ?_⟩⟩
    · rw [e1]; exact ready_of_held b2
    · rw [e2]; exact ready_of_held d2
    · rw [e4]; exact ready_of_held k2
    · rw [e5]; exact ready_of_held m2
    · rw [e1]; exact ready_of_held b2
    · rw [e2]; exact ready_of_held d2
    · rw [e4]; exact ready_of_held k2
    · rw [e5]; exact ready_of_held m2
  · have hq0 : P / g.AT + g.qNL = q := by rw [hgA, hgq, hqdef]
    have hs : hygovStart g P w = (g.setMechanicalPower P).init := rfl
    have ha : (g.setMechanicalPower P).Pmech = P := rfl
    rw [hs]
    refine ⟨hgR, hgA, hgq, hgw, ?_, ?_, ?_, ?_, ?_, ?_, ?_⟩
    · simp only [Hygov.init, Hygov.setMechanicalPower, hq0, o1, p1, f1, hgw, hgR]; ring
    · simp only [Hygov.init, Hygov.setMechanicalPower, hq0, o1]
    · simp only [Hygov.init, Hygov.setMechanicalPower, hq0]
    · simp only [Hygov.init, Hygov.setMechanicalPower, hq0, o1, p1]; exact f2
    · simp only [Hygov.init, Hygov.setMechanicalPower, hq0, o1]; exact p2
    · simp only [Hygov.init, Hygov.setMechanicalPower, hq0]; exact o2
    · simp only [Hygov.init, Hygov.setMechanicalPower, hq0]; exact i2


/-! WSIEG1 -/

theorem unless_filter (b : Block) (T : Real) :
    ∃ b', unlessZero (T = 0) b (filter b 1 T) = some b' ∧ (T ≠ 0 → filter b 1 T = some b') := by
  unfold unlessZero
  by_cases h : T = 0
  · rw [if_pos h]; exact ⟨b, rfl, fun h' => absurd h h'⟩
  · rw [if_neg h]
    unfold filter setcoeffs; rw [if_neg h]
    exact ⟨_, rfl, fun _ => rfl⟩

theorem backward_rest {b0 b : Block} {T y : Real} (h : T ≠ 0 → filter b0 1 T = some b)
    (hT : |T| ≤ 10 ^ 10) (hb : -1000 ≤ y ∧ y ≤ 1000) :
    (backward T b y).2 = y ∧ (T ≠ 0 → Rest (backward T b y).1 y y) := by
  unfold backward
  by_cases h0 : T = 0
  · rw [if_pos h0]; exact ⟨rfl, fun h' => absurd h0 h'⟩
  · rw [if_neg h0]
    obtain ⟨_, ef⟩ := filter_coeffs (h h0)
    obtain ⟨f1, f2⟩ := filter_rest (b := b) (K := 1) (T := T) (y := y) h0 hT one_ne_zero
      (by rw [ef]) (by rw [ef]) (by rw [ef]) (by rw [ef])
      (by rw [ef]; exact hb) (by rw [ef]; exact hb)
      (by rw [ef]; constructor <;> simp [defaultLimits, setxlimits, setdxlimits, setylimits])
    rw [div_one] at f1 f2
    exact ⟨f1, fun _ => f2⟩

theorem forward_ready {b : Block} {T y : Real} {st : Stage} (h : T ≠ 0 → Ready st b y y) (dt : Real) :
    (forward T b y dt st).2 = y ∧ (T ≠ 0 → Held (forward T b y dt st).1 y y) := by
  unfold forward
  by_cases h0 : T = 0
  · rw [if_pos h0]; exact ⟨rfl, fun h' => absurd h0 h'⟩
  · rw [if_neg h0]
    obtain ⟨h1, h2⟩ := ready_step (h h0) dt
    exact ⟨h1, fun _ => h2⟩

theorem limit_of_mem {lo hi v : Real} (h1 : lo ≤ v) (h2 : v ≤ hi) : limit lo hi v = v := by
  unfold limit
  rw [if_neg (not_lt.mpr h2), if_neg (not_lt.mpr h1)]

theorem deadband_empty (d u : Real) : Dblock.deadband d d u = u := by
  unfold Dblock.deadband
  rw [if_neg]
  rintro ⟨h1, h2⟩
  have : (0 : Real) < 1 / 10 ^ 6 := by norm_num
  linarith

theorem wsieg_setup (g0 : Wsieg) :
    ∃ l p a b c d, g0.setup = some { g0 with leadlag := l, P := p, f1 := a, f2 := b, f3 := c, f4 := d } ∧
      (¬ (g0.T1 = 0 ∨ g0.T2 = 0) → leadLag g0.leadlag g0.T2 g0.T1 = some l) ∧
      withStateLimits (integrator g0.P 1) g0.Pmin g0.Pmax = some p ∧
      (g0.T4 ≠ 0 → filter g0.f1 1 g0.T4 = some a) ∧ (g0.T5 ≠ 0 → filter g0.f2 1 g0.T5 = some b) ∧
      (g0.T6 ≠ 0 → filter g0.f3 1 g0.T6 = some c) ∧ (g0.T7 ≠ 0 → filter g0.f4 1 g0.T7 = some d) := by
  classical
  have e1 : ∃ l, unlessZero (g0.T1 = 0 ∨ g0.T2 = 0) g0.leadlag (leadLag g0.leadlag g0.T2 g0.T1) =
      some l ∧ (¬ (g0.T1 = 0 ∨ g0.T2 = 0) → leadLag g0.leadlag g0.T2 g0.T1 = some l) := by
    unfold unlessZero
    by_cases h : g0.T1 = 0 ∨ g0.T2 = 0
    · rw [if_pos h]; exact ⟨_, rfl, fun h' => absurd h h'⟩
    · rw [if_neg h]
      unfold leadLag setcoeffs
      rw [if_neg (fun h' => h (Or.inl h'))]
      exact ⟨_, rfl, fun _ => rfl⟩
  have e2 : ∃ p, withStateLimits (integrator g0.P 1) g0.Pmin g0.Pmax = some p := by
    unfold withStateLimits integrator setcoeffs; rw [if_neg one_ne_zero]; exact ⟨_, rfl⟩
  obtain ⟨l, hl, hl'⟩ := e1
  obtain ⟨p, hp⟩ := e2
  obtain ⟨a, ha, ha'⟩ := unless_filter g0.f1 g0.T4
  obtain ⟨b, hb, hb'⟩ := unless_filter g0.f2 g0.T5
  obtain ⟨c, hc, hc'⟩ := unless_filter g0.f3 g0.T6
  obtain ⟨d, hd, hd'⟩ := unless_filter g0.f4 g0.T7
  refine ⟨l, p, a, b, c, d, ?_, hl', hp, ha', hb', hc', hd'⟩
  unfold Wsieg.setup
  have ha2 : unlessZero (g0.T4 = 0) g0.f1 (filter g0.f1 1 g0.T4) = some a := by convert ha
  have hb2 : unlessZero (g0.T5 = 0) g0.f2 (filter g0.f2 1 g0.T5) = some b := by convert hb
  have hc2 : unlessZero (g0.T6 = 0) g0.f3 (filter g0.f3 1 g0.T6) = some c := by convert hc
  have hd2 : unlessZero (g0.T7 = 0) g0.f4 (filter g0.f4 1 g0.T7) = some d := by convert hd
  have hl2 : unlessZero (g0.T1 = 0 ∨ g0.T2 = 0) g0.leadlag (leadLag g0.leadlag g0.T2 g0.T1) =
      some l := by convert hl
  simp only [hl2, hp, ha2, hb2, hc2, hd2, Option.bind_some, Option.map_some]

structure WsiegRest (st : Stage) (g g0 : Wsieg) (q : Real) : Prop where
  kk : g.K1 = g0.K1 ∧ g.K3 = g0.K3 ∧ g.K5 = g0.K5 ∧ g.K7 = g0.K7
  tt : g.T1 = g0.T1 ∧ g.T2 = g0.T2 ∧ g.T4 = g0.T4 ∧ g.T5 = g0.T5 ∧ g.T6 = g0.T6 ∧ g.T7 = g0.T7
  gv : g.GV = q
  gv0 : g.GV0 = q
  uu : g.Uc ≤ 0 ∧ 0 ≤ g.Uo
  pp : g.Pmin ≤ q ∧ q ≤ g.Pmax
  leadlag : ¬ (g0.T1 = 0 ∨ g0.T2 = 0) → Ready st g.leadlag 0 0
  P : Ready st g.P 0 q
  f1 : g0.T4 ≠ 0 → Ready st g.f1 q q
  f2 : g0.T5 ≠ 0 → Ready st g.f2 q q
  f3 : g0.T6 ≠ 0 → Ready st g.f3 q q
  f4 : g0.T7 ≠ 0 → Ready st g.f4 q q

theorem wsieg_step {st : Stage} {g g0 : Wsieg} {q : Real} (h : WsiegRest st g g0 q) (dt : Real) :
    (wsiegCall g 0 dt st).Pmech1 = (g0.K1 + g0.K3 + g0.K5 + g0.K7) * q ∧
    ∀ st', WsiegRest st' (wsiegCall g 0 dt st) g0 q := by
  obtain ⟨⟨k1, k2, k3, k4⟩, ⟨t1, t2, t4, t5, t6, t7⟩, hgv, hgv0, hu, hp, b1, b2, b3, b4, b5, b6⟩ := h
  have hl : ∃ l', (if g.T1 = 0 ∨ g.T2 = 0 then (g.leadlag, (0 : Real)) else
      getoutput g.leadlag 0 dt st true) = (l', 0) ∧ (¬ (g0.T1 = 0 ∨ g0.T2 = 0) → Held l' 0 0) := by
    by_cases h0 : g0.T1 = 0 ∨ g0.T2 = 0
    · rw [if_pos (by rw [t1, t2]; exact h0)]
      exact ⟨_, rfl, fun h' => absurd h0 h'⟩
    · rw [if_neg (by rw [t1, t2]; exact h0)]
      obtain ⟨r1, r2⟩ := ready_step (b1 h0) dt
      exact ⟨_, Prod.ext rfl r1, fun _ => r2⟩
  obtain ⟨l', hl1, hl2⟩ := hl
  obtain ⟨p1, p2⟩ := ready_step b2 dt
  obtain ⟨c1, c2⟩ := forward_ready b3 dt
  obtain ⟨d1, d2⟩ := forward_ready b4 dt
  obtain ⟨e1, e2⟩ := forward_ready b5 dt
  obtain ⟨f1, f2⟩ := forward_ready b6 dt
  have hzero : (0 : Real) * g.K = 0 := zero_mul _
  have hu3 : limit g.Uc g.Uo ((g.GV0 - 0 - g.GV) * 1 / g.T3) = 0 := by
    rw [hgv0, hgv]
    have : (q - 0 - q) * 1 / g.T3 = 0 := by ring
    rw [this]
    exact limit_of_mem hu.1 hu.2
  have hcall : wsiegCall g 0 dt st =
      { g with w := 0, leadlag := l', P := (getoutput g.P 0 dt st true).1, GV := q,
               f1 := (forward g0.T4 g.f1 q dt st).1, f2 := (forward g0.T5 g.f2 q dt st).1,
               f3 := (forward g0.T6 g.f3 q dt st).1, f4 := (forward g0.T7 g.f4 q dt st).1,
               Pmech1 := g.K1 * q + g.K3 * q + g.K5 * q + g.K7 * q,
               Pmech2 := g.K2 * q + g.K4 * q + g.K6 * q + g.K8 * q } := by
    unfold wsiegCall Wsieg.compute Wsieg.setRotorSpeedDeviation
    simp only [hzero, hl1, hu3, p1, limit_of_mem hp.1 hp.2, deadband_empty, t4, t5, t6, t7, c1, d1, e1, f1]
  rw [hcall]
  refine ⟨?_, fun st' => ⟨⟨k1, k2, k3, k4⟩, ⟨t1, t2, t4, t5, t6, t7⟩, rfl, hgv0, hu, hp,
    fun h => ready_of_held (hl2 h), ready_of_held p2, fun h => ready_of_held (c2 h),
    fun h => ready_of_held (d2 h), fun h => ready_of_held (e2 h), fun h => ready_of_held (f2 h)⟩⟩
  show g.K1 * q + g.K3 * q + g.K5 * q + g.K7 * q = _
  rw [k1, k2, k3, k4]
  ring

/-- C112 for WSIEG1 (first generator, nominal speed): gate position within the power limits, velocity
limits of opposite sign. -/
theorem C112_wsieg1_partial (g0 : Wsieg) (P : Real) (hS : 0 < g0.K1 + g0.K3 + g0.K5 + g0.K7)
    (h1 : |g0.T1| ≤ 10 ^ 10) (_h3 : g0.T3 ≠ 0) (h4 : |g0.T4| ≤ 10 ^ 10) (h5 : |g0.T5| ≤ 10 ^ 10)
    (h6 : |g0.T6| ≤ 10 ^ 10) (h7 : |g0.T7| ≤ 10 ^ 10) (hU : g0.Uc ≤ 0 ∧ 0 ≤ g0.Uo)
    (hlim : g0.Pmin ≤ P / (g0.K1 + g0.K3 + g0.K5 + g0.K7) ∧
      P / (g0.K1 + g0.K3 + g0.K5 + g0.K7) ≤ g0.Pmax)
    (hb : |P / (g0.K1 + g0.K3 + g0.K5 + g0.K7)| ≤ 1000) (hcon : Constructed g0.P) :
    ∃ g, g0.setup = some g ∧
      ∀ dts, ∀ v ∈ trace wsiegCall Wsieg.Pmech1 (wsiegStart g P 0) (constant 0 dts), v = P := by
  obtain ⟨l, p, a, b, c, d, hg, hl, hp, ha, hb', hc, hd⟩ := wsieg_setup g0
  refine ⟨_, hg, ?_⟩
  obtain ⟨q, hq⟩ : ∃ q, q = P / (g0.K1 + g0.K3 + g0.K5 + g0.K7) := ⟨_, rfl⟩
  rw [← hq] at hlim hb
  rw [abs_le] at hb
  have hPq : (g0.K1 + g0.K3 + g0.K5 + g0.K7) * q = P := by
    rw [hq]; field_simp
  obtain ⟨r4, s4⟩ := backward_rest hd h7 hb
  obtain ⟨r3, s3⟩ := backward_rest hc h6 hb
  obtain ⟨r2, s2⟩ := backward_rest hb' h5 hb
  obtain ⟨r1, s1⟩ := backward_rest ha h4 hb
  obtain ⟨p0, hp0, ep⟩ := withStateLimits_some hp
  obtain ⟨_, ep0⟩ := integrator_coeffs hp0
  obtain ⟨_, _, _, _, c5, c6, _⟩ := hcon
  obtain ⟨_, u2⟩ := integral_rest (b := p) (y := q) (by rw [ep, ep0]) (by rw [ep, ep0])
    (by rw [ep]; exact hlim) (by rw [ep, ep0]; exact hb)
    (by
      rw [ep, ep0]
      show g0.P.dxmin ≤ 0 ∧ 0 ≤ g0.P.dxmax
      rw [c5, c6]
      constructor <;> norm_num)
  have hll : ¬ (g0.T1 = 0 ∨ g0.T2 = 0) → Rest (initGivenY l 0).1 0 0 := by
    intro h
    obtain ⟨_, el⟩ := leadLag_coeffs (hl h)
    exact (leadLag_rest (b := l) (TA := g0.T2) (TB := g0.T1) (y := 0) (fun h' => h (Or.inl h')) h1
      (by rw [el]) (by rw [el]) (by rw [el]) (by rw [el])
      (by rw [el, mul_zero]; constructor <;> simp [defaultLimits, setxlimits, setdxlimits, setylimits])
      (by rw [el]; constructor <;> simp [defaultLimits, setxlimits, setdxlimits, setylimits])
      (by rw [el]; constructor <;> simp [defaultLimits, setxlimits, setdxlimits, setylimits])).2
  have key : ∀ dts, ∀ v ∈ trace wsiegCall Wsieg.Pmech1
      (wsiegStart { g0 with leadlag := l, P := p, f1 := a, f2 := b, f3 := c, f4 := d } P 0)
      (constant 0 dts), v = (g0.K1 + g0.K3 + g0.K5 + g0.K7) * q := by
    apply trace_const wsiegCall Wsieg.Pmech1 (fun st g => WsiegRest st g g0 q)
    · intro st s dt h
      obtain ⟨e1, e2⟩ := wsieg_step h dt
      exact ⟨e1, e2 _, e2 _⟩
    · have hgate : (wsiegStart { g0 with leadlag := l, P := p, f1 := a, f2 := b, f3 := c, f4 := d } P 0) =
          { g0 with
            w := 0, Pmech1 := P, Pmech2 := P,
            leadlag := if g0.T1 ≠ 0 ∧ g0.T2 ≠ 0 then (initGivenY l 0).1 else l,
            P := (initGivenY p q).1,
            f1 := (backward g0.T4 a q).1, f2 := (backward g0.T5 b q).1, f3 := (backward g0.T6 c q).1,
            f4 := (backward g0.T7 d q).1,
            GV := q, GV0 := q,
            Pmax := if q > g0.Pmax then q + 1 / 10 else g0.Pmax,
            Pmin := if q < g0.Pmin then q - 1 / 10 else g0.Pmin,
            Uo := if q > g0.Uo then q + 1 / 10 else g0.Uo,
            Uc := if q < g0.Uc then q - 1 / 10 else g0.Uc } := by
        unfold wsiegStart Wsieg.init Wsieg.gateFor Wsieg.setMechanicalPower Wsieg.setRotorSpeedDeviation
        simp only []
        rw [if_pos hS, ← hq]
        simp only [Wsieg.chainBack, r1, r2, r3, r4]
      rw [hgate]
      refine ⟨⟨rfl, rfl, rfl, rfl⟩, ⟨rfl, rfl, rfl, rfl, rfl, rfl⟩, rfl, rfl, ?_, ?_, ?_, u2, s1, s2, s3, s4⟩
      · show (if q < g0.Uc then q - 1 / 10 else g0.Uc) ≤ 0 ∧ 0 ≤ (if q > g0.Uo then q + 1 / 10 else g0.Uo)
        constructor
        · split_ifs with h
          · linarith [hU.1]
          · exact hU.1
        · split_ifs with h
          · linarith [hU.2]
          · exact hU.2
      · show (if q < g0.Pmin then q - 1 / 10 else g0.Pmin) ≤ q ∧
          q ≤ (if q > g0.Pmax then q + 1 / 10 else g0.Pmax)
        rw [if_neg (not_lt.mpr hlim.1), if_neg (not_lt.mpr hlim.2)]
        exact hlim
      · intro h
        show Rest (if g0.T1 ≠ 0 ∧ g0.T2 ≠ 0 then (initGivenY l 0).1 else l) 0 0
        rw [if_pos ⟨fun h' => h (Or.inl h'), fun h' => h (Or.inr h')⟩]
        exact hll h
  rw [hPq] at key
  exact key

/-- Parameters meeting the hypotheses of the flat-start theorems: TGOV1 with its default values at power
3/5; GAST with `AT = 1`, `KT = 2` at power 3/5; HYGOV with `AT = 6/5`, no-load flow 1/10 at power 3/5. -/
example : ((0 : Real) ≤ 3 / 5 + 0 * 0 ∧ (3 / 5 + 0 * 0 : Real) ≤ 1) ∧
    |(1 - 3 / 10) * (3 / 5 + 0 * 0 : Real)| ≤ 1000 ∧ (3 / 5 : Real) ≤ 1 + 2 * (1 - 3 / 5) ∧
    ((0 : Real) ≤ (3 / 5) / (6 / 5) + 1 / 10 ∧ ((3 / 5) / (6 / 5) + 1 / 10 : Real) ≤ 1) := by
  refine ⟨by norm_num, ?_, by norm_num, by norm_num⟩
  rw [abs_le]; norm_num

/-- A WSIEG1 model meeting the hypotheses of its flat-start theorem exists: all blocks as constructed. -/
example (b : Block) (hb : Constructed b) :
    let g : Wsieg := ⟨20, 1, 2, 1 / 10, 1 / 10, -1 / 5, 1, 0, 3 / 10, 3 / 10, 0, 5, 4 / 10, 0, 1 / 2, 3 / 10, 0, 0, 0,
      0, 0, 0, 0, 0, 0, 0, b, b, b, b, b, b⟩
    0 < g.K1 + g.K3 + g.K5 + g.K7 ∧ g.Uc ≤ 0 ∧ 0 ≤ g.Uo ∧ g.Pmin ≤ (1 / 2) / (g.K1 + g.K3 + g.K5 + g.K7) ∧
      (1 / 2) / (g.K1 + g.K3 + g.K5 + g.K7) ≤ g.Pmax ∧ Constructed g.P := by
  refine ⟨?_, ?_, ?_, ?_, ?_, hb⟩ <;> norm_num

end GridPACK.Governors
