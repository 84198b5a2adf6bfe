import Verif.Props.GovernorRun

/-! Cases in which the governors break C112 (flat start), C116 (velocity limits), C117 (missing
parameters) and C118 (backlash). -/
namespace GridPACK.Governors
open GridPACK.Cblock

/-! ### C112: flat start that fails -/

/-- C112 is violated by GAST when the data have no temperature limit: `AT` and `KT` become 0, the limiter
closes the valve and the power falls although the speed is constant (third reported value). -/
theorem C112_gast_violated (g0 : Gast) (R Dt P w dt : Real) (hP : 0 < P) (hP1 : P ≤ 1) (hdt : 0 < dt)
    (hdt1 : dt ≤ 1) :
    ∃ g, g0.construct.load ⟨some R, some 1, some 1, some 1, none, none, some 1, some 0, some Dt⟩ = some g ∧
      (trace gastCall Gast.Pmech (gastStart g P w) (constant w [dt, dt]))[2]? =
        some (P * (1 - dt ^ 2 / 2)) := by
  have hload : g0.construct.load ⟨some R, some 1, some 1, some 1, none, none, some 1, some 0, some Dt⟩ =
      g0.construct.load ⟨some R, some 1, some 1, some 1, some 0, some 0, some 1, some 0, some Dt⟩ := rfl
  obtain ⟨g, hg, hgR, hgD, hgA, hgK, hgw, ⟨b, hv⟩, ⟨b', hf⟩, ⟨b'', he⟩⟩ :=
    gast_load g0.construct R 1 1 1 0 0 1 0 Dt one_ne_zero one_ne_zero one_ne_zero
  have hgw : g.deltaW = 0 := hgw
  refine ⟨g, hload.trans hg, ?_⟩
  obtain ⟨v0, hv0, ev⟩ := withLimits_some hv
  obtain ⟨_, ev0⟩ := filter_coeffs hv0
  obtain ⟨_, ef⟩ := filter_coeffs hf
  have c1 : clamp (-1000) 1000 P = P := clamp_of_mem _ _ _ (by linarith) (by linarith)
  have c2 : clamp (-1000) 1000 (-P) = -P := clamp_of_mem _ _ _ (by linarith) (by linarith)
  have hz : (0 : Real) ≤ P * (1 - dt) := mul_nonneg hP.le (by linarith)
  have hzle : P * (1 - dt) ≤ 1 := by nlinarith
  have hpd : P * dt ≤ 1 := by nlinarith
  have hpd0 : 0 ≤ P * dt := by positivity
  have hx2 : P * (1 - dt ^ 2 / 2) ≤ 1 ∧ 0 ≤ P * (1 - dt ^ 2 / 2) := by
    have : 0 ≤ 1 - dt ^ 2 / 2 := by nlinarith
    have h2 : 1 - dt ^ 2 / 2 ≤ 1 := by nlinarith
    constructor
    · nlinarith
    · positivity
  have hV : g.valve.A = -1 ∧ g.valve.B = 1 ∧ g.valve.C = 1 ∧ g.valve.D = 0 ∧ g.valve.xmin = 0 ∧
      g.valve.xmax = 1 ∧ g.valve.ymin = -10000 ∧ g.valve.ymax = 10000 ∧ g.valve.dxmin = -1000 ∧
      g.valve.dxmax = 1000 := by
    rw [ev, ev0]
    norm_num [defaultLimits, setxlimits, setdxlimits, setylimits]
  have hF : g.flow.A = -1 ∧ g.flow.B = 1 ∧ g.flow.C = 1 ∧ g.flow.D = 0 ∧ g.flow.xmin = -1000 ∧
      g.flow.xmax = 1000 ∧ g.flow.ymin = -1000 ∧ g.flow.ymax = 1000 ∧ g.flow.dxmin = -1000 ∧
      g.flow.dxmax = 1000 := by
    rw [ef]
    norm_num [defaultLimits, setxlimits, setdxlimits, setylimits]
  obtain ⟨a1, a2, a3, a4, a5, a6, a7, a8, a9, a10⟩ := hV
  obtain ⟨d1, d2, d3, d4, d5, d6, d7, d8, d9, d10⟩ := hF
  have i1 : initGivenY g.flow P = ({ g.flow with x := P }, P / 1) :=
    filter_init (K := 1) (T := 1) one_ne_zero (by norm_num) one_ne_zero (by rw [d1]; norm_num)
      (by rw [d2]; norm_num) d3 d4
  have i2 : initGivenY g.valve P = ({ g.valve with x := P }, P / 1) :=
    filter_init (K := 1) (T := 1) one_ne_zero (by norm_num) one_ne_zero (by rw [a1]; norm_num)
      (by rw [a2]; norm_num) a3 a4
  rw [div_one] at i1 i2
  obtain ⟨s, hs⟩ : ∃ s, s = gastStart g P w := ⟨_, rfl⟩
  have k1 : s.valve = { g.valve with x := P } := by
    rw [hs]
    show (initGivenY g.valve (initGivenY g.flow (P + g.Dt * g.deltaW)).2).1 = _
    rw [hgw, mul_zero, add_zero, i1, i2]
  have k2 : s.flow = { g.flow with x := P } := by
    rw [hs]
    show (initGivenY g.flow (P + g.Dt * g.deltaW)).1 = _
    rw [hgw, mul_zero, add_zero, i1]
  have k3 : s.Pref = P := by
    rw [hs]
    show (initGivenY g.valve (initGivenY g.flow (P + g.Dt * g.deltaW)).2).2 + g.deltaW * g.R = _
    rw [hgw, mul_zero, add_zero, i1, i2]; ring
  have k4 : s.AT = 0 := by rw [hs]; exact hgA
  have k5 : s.KT = 0 := by rw [hs]; exact hgK
  have k6 : s.deltaW = 0 := by rw [hs]; exact hgw
  -- every call uses the gate value 0
  have hin : ∀ t : Gast, t.AT = 0 → t.KT = 0 → t.Pref = P → t.deltaW = 0 →
      min (t.AT + t.KT * (t.AT - t.exhOut)) (t.Pref - t.deltaW / t.R) = 0 := by
    intro t h1 h2 h3 h4
    rw [h1, h2, h3, h4, zero_div, sub_zero, zero_mul, add_zero]
    exact min_eq_left hP.le
  have step : ∀ (t : Gast) (st : Stage), t.AT = 0 → t.KT = 0 → t.Pref = P → t.deltaW = 0 →
      (gastCall t w dt st).valve = (getoutput t.valve 0 dt st true).1 ∧
      (gastCall t w dt st).flow = (getoutput t.flow (getoutput t.valve 0 dt st true).2 dt st true).1 ∧
      (gastCall t w dt st).Pmech = (getoutput t.flow (getoutput t.valve 0 dt st true).2 dt st true).2 ∧
      (gastCall t w dt st).AT = 0 ∧ (gastCall t w dt st).KT = 0 ∧ (gastCall t w dt st).Pref = P ∧
      (gastCall t w dt st).deltaW = 0 := by
    intro t st h1 h2 h3 h4
    have hm := hin t h1 h2 h3 h4
    refine ⟨?_, ?_, ?_, h1, h2, h3, h4⟩
    · simp only [gastCall, Gast.setRotorSpeedDeviation, Gast.compute, hm]
    · simp only [gastCall, Gast.setRotorSpeedDeviation, Gast.compute, hm]
    · simp only [gastCall, Gast.setRotorSpeedDeviation, Gast.compute, hm]
      rw [h4, mul_zero, sub_zero]
  -- predictor and corrector of the first step
  obtain ⟨p1, p2, _, p4, p5, p6, p7⟩ := step s .predictor k4 k5 k3 k6
  obtain ⟨q1, q2, _, q4, q5, q6, q7⟩ := step (gastCall s w dt .predictor) .corrector p4 p5 p6 p7
  obtain ⟨_, _, r3, _, _, _, _⟩ := step (gastCall (gastCall s w dt .predictor) w dt .corrector) .predictor
    q4 q5 q6 q7
  have hv1 : (getoutput s.valve 0 dt .predictor true).2 = P := by
    rw [k1]
    show clamp g.valve.ymin g.valve.ymax (g.valve.C * P + g.valve.D * 0) = P
    rw [a3, a4, a7, a8, one_mul, mul_zero, add_zero]
    exact clamp_of_mem _ _ _ (by linarith) (by linarith)
  have hvh : (getoutput s.valve 0 dt .predictor true).1.xhat = P * (1 - dt) := by
    rw [k1]
    show clamp g.valve.xmin g.valve.xmax (P + dt * clamp g.valve.dxmin g.valve.dxmax
      (g.valve.A * P + g.valve.B * 0)) = _
    rw [a1, a2, a5, a6, a9, a10]
    have : -1 * P + 1 * 0 = -P := by ring
    rw [this, c2]
    have : P + dt * -P = P * (1 - dt) := by ring
    rw [this]
    exact clamp_of_mem _ _ _ hz hzle
  have hv2 : (getoutput (getoutput s.valve 0 dt .predictor true).1 0 dt .corrector true).2 = P * (1 - dt) := by
    show clamp s.valve.ymin s.valve.ymax (s.valve.C * (getoutput s.valve 0 dt .predictor true).1.xhat +
      s.valve.D * 0) = _
    rw [hvh, k1]
    show clamp g.valve.ymin g.valve.ymax (g.valve.C * _ + g.valve.D * 0) = _
    rw [a3, a4, a7, a8, one_mul, mul_zero, add_zero]
    exact clamp_of_mem _ _ _ (by linarith) (by linarith)
  have hfd : (getoutput s.flow P dt .predictor true).1.dxdt = 0 := by
    rw [k2]
    show clamp g.flow.dxmin g.flow.dxmax (g.flow.A * P + g.flow.B * P) = 0
    rw [d1, d2, d9, d10]
    have : -1 * P + 1 * P = 0 := by ring
    rw [this]
    exact clamp_of_mem _ _ _ (by norm_num) (by norm_num)
  have hfh : (getoutput s.flow P dt .predictor true).1.xhat = P := by
    rw [k2]
    show clamp g.flow.xmin g.flow.xmax (P + dt * clamp g.flow.dxmin g.flow.dxmax
      (g.flow.A * P + g.flow.B * P)) = _
    rw [d1, d2, d5, d6, d9, d10]
    have : -1 * P + 1 * P = 0 := by ring
    rw [this, clamp_of_mem (-1000) 1000 0 (by norm_num) (by norm_num), mul_zero, add_zero]
    exact c1
  have hfx : (getoutput (getoutput s.flow P dt .predictor true).1 (P * (1 - dt)) dt .corrector true).1.x =
      P * (1 - dt ^ 2 / 2) := by
    show clamp s.flow.xmin s.flow.xmax (s.flow.x + dt * clamp s.flow.dxmin s.flow.dxmax
      (1 / 2 * ((getoutput s.flow P dt .predictor true).1.dxdt +
        (s.flow.A * (getoutput s.flow P dt .predictor true).1.xhat + s.flow.B * (P * (1 - dt)))))) = _
    rw [hfd, hfh, k2]
    show clamp g.flow.xmin g.flow.xmax (P + dt * clamp g.flow.dxmin g.flow.dxmax
      (1 / 2 * (0 + (g.flow.A * P + g.flow.B * (P * (1 - dt)))))) = _
    rw [d1, d2, d5, d6, d9, d10]
    have : 1 / 2 * (0 + (-1 * P + 1 * (P * (1 - dt)))) = -(P * dt / 2) := by ring
    rw [this, clamp_of_mem (-1000) 1000 (-(P * dt / 2)) (by linarith) (by linarith)]
    have : P + dt * -(P * dt / 2) = P * (1 - dt ^ 2 / 2) := by ring
    rw [this]
    exact clamp_of_mem _ _ _ (by linarith [hx2.2]) (by linarith [hx2.1])
  have hfin : (gastCall (gastCall (gastCall s w dt .predictor) w dt .corrector) w dt .predictor).Pmech =
      P * (1 - dt ^ 2 / 2) := by
    rw [r3, q2, p2, p1, hv1, hv2]
    show clamp s.flow.ymin s.flow.ymax (s.flow.C * (getoutput (getoutput s.flow P dt .predictor true).1
      (P * (1 - dt)) dt .corrector true).1.x + s.flow.D * _) = _
    rw [hfx, k2]
    show clamp g.flow.ymin g.flow.ymax (g.flow.C * _ + g.flow.D * _) = _
    rw [d3, d4, d7, d8, one_mul, zero_mul, add_zero]
    exact clamp_of_mem _ _ _ (by linarith [hx2.2]) (by linarith [hx2.1])
  rw [← hs]
  simp only [constant, List.map_cons, List.map_nil, trace]
  rw [← hfin]
  rfl

/-- The value of the previous theorem is below the initial power, for example 7/16 instead of 1/2. -/
example : (1 / 2 : Real) * (1 - (1 / 2) ^ 2 / 2) = 7 / 16 ∧ (7 / 16 : Real) < 1 / 2 := by norm_num

/-- State of WSIEG1 without lead-lag and filters, with all power in `K1 = 1`, after setup and start at
power `P` and nominal speed. -/
theorem wsieg_plain (g0 : Wsieg) (P : Real) (t1 : g0.T1 = 0) (t4 : g0.T4 = 0) (t5 : g0.T5 = 0)
    (t6 : g0.T6 = 0) (t7 : g0.T7 = 0) (k1 : g0.K1 = 1) (k3 : g0.K3 = 0) (k5 : g0.K5 = 0) (k7 : g0.K7 = 0)
    (hcon : Constructed g0.P) :
    ∃ g, g0.setup = some g ∧
      let s := wsiegStart g P 0
      s.T1 = 0 ∧ s.T3 = g0.T3 ∧ s.T4 = 0 ∧ s.T5 = 0 ∧ s.T6 = 0 ∧ s.T7 = 0 ∧ s.K = g0.K ∧ s.K1 = 1 ∧ s.K3 = 0 ∧
      s.K5 = 0 ∧ s.K7 = 0 ∧ s.GV = P ∧ s.GV0 = P ∧
      s.Pmax = (if P > g0.Pmax then P + 1 / 10 else g0.Pmax) ∧
      s.Pmin = (if P < g0.Pmin then P - 1 / 10 else g0.Pmin) ∧
      s.Uo = (if P > g0.Uo then P + 1 / 10 else g0.Uo) ∧
      s.Uc = (if P < g0.Uc then P - 1 / 10 else g0.Uc) ∧
      s.P.A = 0 ∧ s.P.B = 1 ∧ s.P.C = 1 ∧ s.P.D = 0 ∧ s.P.xmin = g0.Pmin ∧ s.P.xmax = g0.Pmax ∧
      s.P.ymin = -1000 ∧ s.P.ymax = 1000 ∧ s.P.dxmin = -1000 ∧ s.P.dxmax = 1000 ∧ s.P.x = P := by
  obtain ⟨l, p, a, b, c, d, hg, hl, hp, ha, hb', hc, hd⟩ := wsieg_setup g0
  refine ⟨_, hg, ?_⟩
  obtain ⟨p0, hp0, ep⟩ := withStateLimits_some hp
  obtain ⟨_, ep0⟩ := integrator_coeffs hp0
  obtain ⟨_, _, _, _, c5, c6, _⟩ := hcon
  have hi : initGivenY p P = ({ p with x := P }, 0) := by
    unfold initGivenY
    rw [if_pos (by rw [ep, ep0]; simp only [abs_zero]; exact eps_pos)]
  have hgate : (wsiegStart { g0 with leadlag := l, P := p, f1 := a, f2 := b, f3 := c, f4 := d } P 0) =
          { g0 with
            w := 0, Pmech1 := P, Pmech2 := P,
            leadlag := l,
            P := { p with x := P },
            f1 := a, f2 := b, f3 := c, f4 := d,
            GV := P, GV0 := P,
            Pmax := if P > g0.Pmax then P + 1 / 10 else g0.Pmax,
            Pmin := if P < g0.Pmin then P - 1 / 10 else g0.Pmin,
            Uo := if P > g0.Uo then P + 1 / 10 else g0.Uo,
            Uc := if P < g0.Uc then P - 1 / 10 else g0.Uc } := by
    have hS : g0.K1 + g0.K3 + g0.K5 + g0.K7 = 1 := by rw [k1, k3, k5, k7]; norm_num
    unfold wsiegStart Wsieg.init Wsieg.gateFor Wsieg.setMechanicalPower Wsieg.setRotorSpeedDeviation
    simp only []
    rw [if_pos (by rw [hS]; norm_num), hS, div_one]
    have bw : ∀ (T : Real) (_ : T = 0) (B : Block) (y : Real), backward T B y = (B, y) := by
      intro T hT B y; unfold backward; rw [if_pos hT]
    simp only [Wsieg.chainBack, bw _ t4, bw _ t5, bw _ t6, bw _ t7]
    simp only [hi, t1, ne_eq, not_true_eq_false, false_and, if_false]
  rw [hgate]
  refine ⟨t1, rfl, t4, t5, t6, t7, rfl, k1, k3, k5, k7, rfl, rfl, rfl, rfl, rfl, rfl, ?_⟩
  rw [ep, ep0]
  refine ⟨rfl, ?_, rfl, rfl, rfl, rfl, rfl, rfl, c5, c6, rfl⟩
  show (1 : Real) / 1 = 1
  norm_num

/-- One call of WSIEG1 without lead-lag and filters. -/
theorem wsieg_plain_call (s : Wsieg) (w dt : Real) (st : Stage) (t1 : s.T1 = 0) (t4 : s.T4 = 0)
    (t5 : s.T5 = 0) (t6 : s.T6 = 0) (t7 : s.T7 = 0) (k1 : s.K1 = 1) (k3 : s.K3 = 0) (k5 : s.K5 = 0)
    (k7 : s.K7 = 0) :
    let p := getoutput s.P (limit s.Uc s.Uo ((s.GV0 - w * s.K - s.GV) * 1 / s.T3)) dt st true
    (wsiegCall s w dt st).P = p.1 ∧ (wsiegCall s w dt st).GV = limit s.Pmin s.Pmax p.2 ∧
      (wsiegCall s w dt st).Pmech1 = limit s.Pmin s.Pmax p.2 := by
  have fw : ∀ (B : Block) (y : Real), forward 0 B y dt st = (B, y) := by
    intro B y; unfold forward; rw [if_pos rfl]
  intro p
  refine ⟨?_, ?_, ?_⟩
  · simp only [wsiegCall, Wsieg.setRotorSpeedDeviation, Wsieg.compute, t1, true_or, if_true]
    rfl
  · simp only [wsiegCall, Wsieg.setRotorSpeedDeviation, Wsieg.compute, t1, true_or, if_true, deadband_empty]
    rfl
  · simp only [wsiegCall, Wsieg.setRotorSpeedDeviation, Wsieg.compute, t1, true_or, if_true, deadband_empty,
      t4, t5, t6, t7, fw, k1, k3, k5, k7]
    show 1 * limit s.Pmin s.Pmax p.2 + 0 * _ + 0 * _ + 0 * _ = _
    ring

/-- C112 is violated by WSIEG1 started above its limit `Pmax`: `init` raises the limit that is applied
after the integrator, but the integrator keeps the old one, so already the second report is `Pmax`
instead of the initial power. -/
theorem C112_wsieg1_limits_violated (g0 : Wsieg) (P dt : Real) (t1 : g0.T1 = 0) (t4 : g0.T4 = 0)
    (t5 : g0.T5 = 0) (t6 : g0.T6 = 0) (t7 : g0.T7 = 0) (k1 : g0.K1 = 1) (k3 : g0.K3 = 0) (k5 : g0.K5 = 0)
    (k7 : g0.K7 = 0) (hcon : Constructed g0.P) (hU : g0.Uc ≤ 0 ∧ 0 ≤ g0.Uo) (hp0 : g0.Pmin ≤ g0.Pmax)
    (hpl : -1000 ≤ g0.Pmin) (hpmax : g0.Pmax < P) (hP : P ≤ 1000) :
    ∃ g, g0.setup = some g ∧
      trace wsiegCall Wsieg.Pmech1 (wsiegStart g P 0) (constant 0 [dt]) = [P, g0.Pmax] := by
  obtain ⟨g, hg, hs⟩ := wsieg_plain g0 P t1 t4 t5 t6 t7 k1 k3 k5 k7 hcon
  refine ⟨g, hg, ?_⟩
  obtain ⟨s, hse⟩ : ∃ s, s = wsiegStart g P 0 := ⟨_, rfl⟩
  rw [← hse] at hs ⊢
  obtain ⟨s1, s3, s4, s5, s6, s7, sK, m1, m3, m5, m7, sg, sg0, sx, sn, so, sc, b1, b2, b3, b4, b5, b6, b7, b8,
    b9, b10, b11⟩ := hs
  rw [if_pos hpmax] at sx
  rw [if_neg (by linarith)] at sn
  have ho : s.Uc ≤ 0 ∧ 0 ≤ s.Uo := by
    rw [so, sc]
    constructor
    · split_ifs with h
      · linarith [hU.1]
      · exact hU.1
    · split_ifs with h
      · linarith [hU.2]
      · exact hU.2
  have hu : limit s.Uc s.Uo ((s.GV0 - 0 * s.K - s.GV) * 1 / s.T3) = 0 := by
    rw [sg0, sg]
    have : (P - 0 * s.K - P) * 1 / s.T3 = 0 := by ring
    rw [this]; exact limit_of_mem ho.1 ho.2
  obtain ⟨c1, c2, c3⟩ := wsieg_plain_call s 0 dt .predictor s1 s4 s5 s6 s7 m1 m3 m5 m7
  have o1 : (getoutput s.P 0 dt .predictor true).2 = P := by
    show clamp s.P.ymin s.P.ymax (s.P.C * s.P.x + s.P.D * 0) = P
    rw [b3, b4, b7, b8, b11, one_mul, mul_zero, add_zero]
    exact clamp_of_mem _ _ _ (by linarith) hP
  have o2 : (getoutput s.P 0 dt .predictor true).1.xhat = g0.Pmax := by
    show clamp s.P.xmin s.P.xmax (s.P.x + dt * clamp s.P.dxmin s.P.dxmax (s.P.A * s.P.x + s.P.B * 0)) = _
    rw [b1, b2, b5, b6, b9, b10, b11]
    have : (0 : Real) * P + 1 * 0 = 0 := by ring
    rw [this, clamp_of_mem (-1000) 1000 0 (by norm_num) (by norm_num), mul_zero, add_zero]
    unfold clamp
    rw [min_eq_right hpmax.le, max_eq_right hp0]
  rw [hu] at c1 c2 c3
  have l1 : limit s.Pmin s.Pmax P = P := limit_of_mem (by rw [sn]; linarith) (by rw [sx]; linarith)
  rw [o1, l1] at c2 c3
  obtain ⟨_, _, d3⟩ := wsieg_plain_call (wsiegCall s 0 dt .predictor) 0 dt .corrector s1 s4 s5 s6 s7 m1 m3 m5 m7
  have hu2 : limit (wsiegCall s 0 dt .predictor).Uc (wsiegCall s 0 dt .predictor).Uo
      (((wsiegCall s 0 dt .predictor).GV0 - 0 * (wsiegCall s 0 dt .predictor).K -
        (wsiegCall s 0 dt .predictor).GV) * 1 / (wsiegCall s 0 dt .predictor).T3) = 0 := by
    rw [c2]
    show limit s.Uc s.Uo ((s.GV0 - 0 * s.K - P) * 1 / s.T3) = 0
    rw [sg0]
    have : (P - 0 * s.K - P) * 1 / s.T3 = 0 := by ring
    rw [this]; exact limit_of_mem ho.1 ho.2
  rw [hu2, c1] at d3
  have o3 : (getoutput (getoutput s.P 0 dt .predictor true).1 0 dt .corrector true).2 = g0.Pmax := by
    show clamp s.P.ymin s.P.ymax (s.P.C * (getoutput s.P 0 dt .predictor true).1.xhat + s.P.D * 0) = _
    rw [o2, b3, b4, b7, b8, one_mul, mul_zero, add_zero]
    exact clamp_of_mem _ _ _ (by linarith) (by linarith)
  rw [o3] at d3
  have l2 : limit (wsiegCall s 0 dt .predictor).Pmin (wsiegCall s 0 dt .predictor).Pmax g0.Pmax = g0.Pmax := by
    show limit s.Pmin s.Pmax g0.Pmax = _
    exact limit_of_mem (by rw [sn]; exact hp0) (by rw [sx]; linarith)
  rw [l2] at d3
  simp only [constant, List.map_cons, List.map_nil, trace]
  rw [c3, d3]

/-- C112 is violated by WSIEG1 whose power goes only to the second generator: the reported power is 0 after
every call, whatever the start and the speed. -/
theorem C112_wsieg1_second_violated (g : Wsieg) (P w : Real) (k1 : g.K1 = 0) (k3 : g.K3 = 0) (k5 : g.K5 = 0)
    (k7 : g.K7 = 0) (steps : List (Real × Real × Real)) :
    ∀ v ∈ trace wsiegCall Wsieg.Pmech1 (wsiegStart g P w) steps, v = 0 := by
  refine trace_inv wsiegCall Wsieg.Pmech1 (fun s => s.K1 = 0 ∧ s.K3 = 0 ∧ s.K5 = 0 ∧ s.K7 = 0)
    (fun s => s.K1 = 0 ∧ s.K3 = 0 ∧ s.K5 = 0 ∧ s.K7 = 0) (fun v => v = 0) (fun _ => True) ?_ _ ?_ steps
    (fun _ _ => trivial)
  · have one : ∀ (s : Wsieg) (w dt : Real) (st : Stage), (s.K1 = 0 ∧ s.K3 = 0 ∧ s.K5 = 0 ∧ s.K7 = 0) →
        (wsiegCall s w dt st).Pmech1 = 0 ∧ ((wsiegCall s w dt st).K1 = 0 ∧ (wsiegCall s w dt st).K3 = 0 ∧
          (wsiegCall s w dt st).K5 = 0 ∧ (wsiegCall s w dt st).K7 = 0) := by
      rintro s w dt st ⟨h1, h2, h3, h4⟩
      refine ⟨?_, h1, h2, h3, h4⟩
      simp only [wsiegCall, Wsieg.setRotorSpeedDeviation, Wsieg.compute, h1, h2, h3, h4, zero_mul, add_zero]
    intro s i j dt _ h
    obtain ⟨h1, h2⟩ := one s i dt .predictor h
    exact ⟨h1, h2, fun h3 => one _ j dt .corrector h3⟩
  · have e : (wsiegStart g P w).K1 = g.K1 ∧ (wsiegStart g P w).K3 = g.K3 ∧ (wsiegStart g P w).K5 = g.K5 ∧
        (wsiegStart g P w).K7 = g.K7 := by
      unfold wsiegStart Wsieg.init Wsieg.gateFor Wsieg.setMechanicalPower Wsieg.setRotorSpeedDeviation
      simp only []
      split_ifs <;> exact ⟨rfl, rfl, rfl, rfl⟩
    rw [e.1, e.2.1, e.2.2.1, e.2.2.2]
    exact ⟨k1, k3, k5, k7⟩

/-! ### C116: velocity limits -/

/-- C116 is violated by HYGOV: the reported powers do not depend on the gate velocity limit. -/
theorem C116_hygov_violated (g0 : Hygov) (R r TR TF TG VELM VELM' GMAX GMIN TW AT Dt qNL : Option Real)
    (P w : Real) (g g' : Hygov)
    (h : g0.load ⟨R, r, TR, TF, TG, VELM, GMAX, GMIN, TW, AT, Dt, qNL⟩ = some g)
    (h' : g0.load ⟨R, r, TR, TF, TG, VELM', GMAX, GMIN, TW, AT, Dt, qNL⟩ = some g')
    (steps : List (Real × Real × Real)) :
    trace hygovCall Hygov.Pmech (hygovStart g P w) steps = trace hygovCall Hygov.Pmech (hygovStart g' P w) steps := by
  have hg : ∃ v, g' = { g with VELM := v } := by
    refine ⟨VELM'.getD 1000, ?_⟩
    unfold Hygov.load at h h'
    simp only [Option.bind_eq_some_iff, Option.map_eq_some_iff] at h h'
    obtain ⟨f, hf, p, hp, o, ho, i, hi, e⟩ := h
    obtain ⟨f', hf', p', hp', o', ho', i', hi', e'⟩ := h'
    have q1 : f = f' := Option.some.inj (hf.symm.trans hf')
    have q2 : p = p' := Option.some.inj (hp.symm.trans hp')
    have q3 : o = o' := Option.some.inj (ho.symm.trans ho')
    have q4 : i = i' := Option.some.inj (hi.symm.trans hi')
    subst q1 q2 q3 q4
    rw [← e, ← e']
  obtain ⟨v, hv⟩ := hg
  rw [hv]
  have hs : hygovStart { g with VELM := v } P w = { hygovStart g P w with VELM := v } := rfl
  rw [hs]
  generalize hygovStart g P w = s
  clear h h' hv hs
  induction steps generalizing s with
  | nil => rfl
  | cons d ds ih =>
    obtain ⟨i, j, dt⟩ := d
    simp only [trace, List.cons.injEq]
    exact ⟨rfl, rfl, ih (hygovCall (hygovCall s i dt .predictor) j dt .corrector)⟩

/-- C116 is violated by WSIEG1: when the initial gate position is above the opening velocity `Uo`, `init`
replaces the velocity limit by the position plus 0.1, and the power then rises faster than `Uo`. -/
theorem C116_wsieg1_violated (g0 : Wsieg) (P dt : Real) (t1 : g0.T1 = 0) (t3 : g0.T3 = 1) (t4 : g0.T4 = 0)
    (t5 : g0.T5 = 0) (t6 : g0.T6 = 0) (t7 : g0.T7 = 0) (k : g0.K = 1) (k1 : g0.K1 = 1) (k3 : g0.K3 = 0) (k5 : g0.K5 = 0)
    (k7 : g0.K7 = 0) (hcon : Constructed g0.P) (hUc : g0.Uc ≤ 0) (hUo : 0 ≤ g0.Uo) (hUP : g0.Uo < P)
    (hmin : -1000 ≤ g0.Pmin ∧ g0.Pmin ≤ P) (hdt : 0 < dt) (hmax : P + dt * (P + 1 / 10) ≤ g0.Pmax)
    (hmax' : g0.Pmax ≤ 999) :
    ∃ g, g0.setup = some g ∧
      ∃ p0 p1, trace wsiegCall Wsieg.Pmech1 (wsiegStart g P 0) [(-(P + 1 / 10), -(P + 1 / 10), dt)] = [p0, p1] ∧
        p1 - p0 = dt * (P + 1 / 10) ∧ dt * g0.Uo < p1 - p0 := by
  obtain ⟨g, hg, hs⟩ := wsieg_plain g0 P t1 t4 t5 t6 t7 k1 k3 k5 k7 hcon
  refine ⟨g, hg, ?_⟩
  obtain ⟨s, hse⟩ : ∃ s, s = wsiegStart g P 0 := ⟨_, rfl⟩
  rw [← hse] at hs ⊢
  obtain ⟨s1, s3, s4, s5, s6, s7, sK, m1, m3, m5, m7, sg, sg0, sx, sn, so, sc, b1, b2, b3, b4, b5, b6, b7, b8,
    b9, b10, b11⟩ := hs
  have hP0 : 0 < P := by linarith
  have hd0 : 0 < dt * (P + 1 / 10) := mul_pos hdt (by linarith)
  rw [if_neg (by linarith)] at sx sn sc
  rw [if_pos hUP] at so
  have hu : limit s.Uc s.Uo ((s.GV0 - -(P + 1 / 10) * s.K - s.GV) * 1 / s.T3) = P + 1 / 10 := by
    rw [sg0, sg, sK, k, s3, t3, so, sc]
    have : (P - -(P + 1 / 10) * 1 - P) * 1 / 1 = P + 1 / 10 := by ring
    rw [this]; exact limit_of_mem (by linarith) le_rfl
  obtain ⟨c1, c2, c3⟩ := wsieg_plain_call s (-(P + 1 / 10)) dt .predictor s1 s4 s5 s6 s7 m1 m3 m5 m7
  rw [hu] at c1 c2 c3
  have o1 : (getoutput s.P (P + 1 / 10) dt .predictor true).2 = P := by
    show clamp s.P.ymin s.P.ymax (s.P.C * s.P.x + s.P.D * (P + 1 / 10)) = P
    rw [b3, b4, b7, b8, b11, one_mul, zero_mul, add_zero]
    exact clamp_of_mem _ _ _ (by linarith) (by linarith)
  have l1 : limit s.Pmin s.Pmax P = P := limit_of_mem (by rw [sn]; linarith [hmin.2]) (by rw [sx]; linarith)
  rw [o1, l1] at c2 c3
  have o2 : (getoutput s.P (P + 1 / 10) dt .predictor true).1.xhat = P + dt * (P + 1 / 10) := by
    show clamp s.P.xmin s.P.xmax (s.P.x + dt * clamp s.P.dxmin s.P.dxmax
      (s.P.A * s.P.x + s.P.B * (P + 1 / 10))) = _
    rw [b1, b2, b5, b6, b9, b10, b11]
    have : (0 : Real) * P + 1 * (P + 1 / 10) = P + 1 / 10 := by ring
    rw [this, clamp_of_mem (-1000) 1000 (P + 1 / 10) (by linarith) (by linarith)]
    exact clamp_of_mem _ _ _ (by linarith [hmin.2]) hmax
  obtain ⟨_, _, d3⟩ := wsieg_plain_call (wsiegCall s (-(P + 1 / 10)) dt .predictor) (-(P + 1 / 10)) dt .corrector
    s1 s4 s5 s6 s7 m1 m3 m5 m7
  rw [c1] at d3
  have o3 : ∀ u, (getoutput (getoutput s.P (P + 1 / 10) dt .predictor true).1 u dt .corrector true).2 =
      P + dt * (P + 1 / 10) := by
    intro u
    show clamp s.P.ymin s.P.ymax (s.P.C * (getoutput s.P (P + 1 / 10) dt .predictor true).1.xhat + s.P.D * u) = _
    rw [o2, b3, b4, b7, b8, one_mul, zero_mul, add_zero]
    exact clamp_of_mem _ _ _ (by linarith) (by linarith)
  rw [o3] at d3
  have l2 : limit (wsiegCall s (-(P + 1 / 10)) dt .predictor).Pmin (wsiegCall s (-(P + 1 / 10)) dt .predictor).Pmax
      (P + dt * (P + 1 / 10)) = P + dt * (P + 1 / 10) := by
    show limit s.Pmin s.Pmax _ = _
    exact limit_of_mem (by rw [sn]; linarith [hmin.2]) (by rw [sx]; exact hmax)
  rw [l2] at d3
  refine ⟨P, P + dt * (P + 1 / 10), ?_, by ring, ?_⟩
  · simp only [trace]
    rw [c3, d3]
  · have : dt * g0.Uo < dt * (P + 1 / 10) := mul_lt_mul_of_pos_left (by linarith) hdt
    linarith

/-- Parameters meeting the hypotheses: velocity limits ±1/10, power 1/2, limits 0 and 1, step 1/100. -/
example : (-1 / 10 : Real) ≤ 0 ∧ (0 : Real) ≤ 1 / 10 ∧ (1 / 10 : Real) < 1 / 2 ∧
    (1 / 2 + 1 / 100 * (1 / 2 + 1 / 10) : Real) ≤ 1 := by norm_num

/-! ### C117: missing parameters -/

/-- C117 is violated by HYGOV: without a value for the temporary droop `r`, the value given for the
permanent droop `R` has no effect (it becomes 0.05), and `r` keeps whatever the memory held. -/
theorem C117_hygov_violated (g0 : Hygov) (R : Real) (TR TF TG VELM GMAX GMIN TW AT Dt qNL : Option Real)
    (g : Hygov) (h : g0.load ⟨some R, none, TR, TF, TG, VELM, GMAX, GMIN, TW, AT, Dt, qNL⟩ = some g) :
    g.R = 5 / 100 ∧ g.r = g0.r ∧
      ∀ R', g0.load ⟨some R', none, TR, TF, TG, VELM, GMAX, GMIN, TW, AT, Dt, qNL⟩ = some g := by
  refine ⟨?_, ?_, fun R' => h⟩ <;>
  · unfold Hygov.load at h
    simp only [Option.bind_eq_some_iff, Option.map_eq_some_iff] at h
    obtain ⟨f, hf, p, hp, o, ho, i, hi, e⟩ := h
    rw [← e]
    rfl

/-- With a value for `r` both droops are taken from the data. -/
theorem C117_hygov_partial (g0 : Hygov) (R r : Real) (TR TF TG VELM GMAX GMIN TW AT Dt qNL : Option Real)
    (g : Hygov) (h : g0.load ⟨some R, some r, TR, TF, TG, VELM, GMAX, GMIN, TW, AT, Dt, qNL⟩ = some g) :
    g.R = R ∧ g.r = r := by
  unfold Hygov.load at h
  simp only [Option.bind_eq_some_iff, Option.map_eq_some_iff] at h
  obtain ⟨f, hf, p, hp, o, ho, i, hi, e⟩ := h
  rw [← e]
  exact ⟨rfl, rfl⟩

/-- A load without `r` that succeeds. -/
example (g0 : Hygov) : ∃ g, g0.load ⟨some 1, none, some 1, some 1, some 1, some 1, some 1, some 0, some 1,
    some 1, some 0, some 0⟩ = some g := by
  have : (1 : Real) ≠ 0 := one_ne_zero
  simp [Hygov.load, filter, integrator, piControl, withLimits, setcoeffs]

/-! ### C118: backlash -/

open Classical in
/-- `computeModel` of WSIEG1 with an arbitrary function in place of the deadband block. -/
noncomputable def wsiegWith (f : Real → Real) (g : Wsieg) (w dt : Real) (s : Stage) : Wsieg :=
  let l := if g.T1 = 0 ∨ g.T2 = 0 then (g.leadlag, w * g.K) else getoutput g.leadlag (w * g.K) dt s true
  let p := getoutput g.P (limit g.Uc g.Uo ((g.GV0 - l.2 - g.GV) * 1 / g.T3)) dt s true
  let a := forward g.T4 g.f1 (f (limit g.Pmin g.Pmax p.2)) dt s
  let b := forward g.T5 g.f2 a.2 dt s
  let c := forward g.T6 g.f3 b.2 dt s
  let d := forward g.T7 g.f4 c.2 dt s
  { g with w := w, leadlag := l.1, P := p.1, GV := f (limit g.Pmin g.Pmax p.2), f1 := a.1, f2 := b.1,
           f3 := c.1, f4 := d.1,
           Pmech1 := g.K1 * a.2 + g.K3 * b.2 + g.K5 * c.2 + g.K7 * d.2
           Pmech2 := g.K2 * a.2 + g.K4 * b.2 + g.K6 * c.2 + g.K8 * d.2 }

open Classical in
/-- `init` of WSIEG1 after the value of the gate has been found. -/
noncomputable def wsiegInitFrom (g : Wsieg) (GV : Real) : Wsieg :=
  { g with
    GV := GV
    P := (initGivenY g.P GV).1
    Pmax := if GV > g.Pmax then GV + 1 / 10 else g.Pmax
    Pmin := if GV < g.Pmin then GV - 1 / 10 else g.Pmin
    Uo := if GV > g.Uo then GV + 1 / 10 else g.Uo
    Uc := if GV < g.Uc then GV - 1 / 10 else g.Uc
    GV0 := GV
    leadlag := if g.T1 ≠ 0 ∧ g.T2 ≠ 0 then (initGivenY g.leadlag 0).1 else g.leadlag }

theorem wsiegInit_db (g : Wsieg) (d : Real) : ({ g with Db2 := d } : Wsieg).init = { g.init with Db2 := d } := by
  have h : ∀ g : Wsieg, g.init = wsiegInitFrom g.gateFor.1 g.gateFor.2 := fun _ => rfl
  have hg : ({ g with Db2 := d } : Wsieg).gateFor = ({ g.gateFor.1 with Db2 := d }, g.gateFor.2) := by
    unfold Wsieg.gateFor
    by_cases h1 : g.K1 + g.K3 + g.K5 + g.K7 > 0
    · rw [if_pos h1, if_pos h1]; rfl
    · rw [if_neg h1, if_neg h1]
      by_cases h2 : g.K2 + g.K4 + g.K6 + g.K8 > 0
      · rw [if_pos h2, if_pos h2]; rfl
      · rw [if_neg h2, if_neg h2]
  rw [h, h, hg]
  rfl

theorem wsiegCall_with (g : Wsieg) (w dt : Real) (s : Stage) :
    wsiegCall g w dt s = wsiegWith (fun u => u) g w dt s := by
  have h : wsiegCall g w dt s = wsiegWith (Dblock.deadband g.Db2 g.Db2) g w dt s := rfl
  rw [h, show Dblock.deadband g.Db2 g.Db2 = fun u => u from funext (deadband_empty _)]

/-- C118 is violated by WSIEG1: the reported powers do not depend on the width of the deadband `Db2`
(the block gets `Db2` for both of its ends, which makes it the identity). -/
theorem C118_wsieg1_violated (g : Wsieg) (d P w : Real) (steps : List (Real × Real × Real)) :
    trace wsiegCall Wsieg.Pmech1 (wsiegStart { g with Db2 := d } P w) steps =
      trace wsiegCall Wsieg.Pmech1 (wsiegStart g P w) steps := by
  have hs : wsiegStart { g with Db2 := d } P w = { wsiegStart g P w with Db2 := d } :=
    wsiegInit_db ((g.setMechanicalPower P).setRotorSpeedDeviation w) d
  rw [hs]
  generalize wsiegStart g P w = s
  have hc : ∀ (s : Wsieg) (i dt : Real) (st : Stage),
      wsiegCall { s with Db2 := d } i dt st = { wsiegCall s i dt st with Db2 := d } := by
    intro s i dt st
    rw [wsiegCall_with, wsiegCall_with]
    rfl
  induction steps generalizing s with
  | nil => rfl
  | cons x ds ih =>
    obtain ⟨i, j, dt⟩ := x
    simp only [trace, hc, List.cons.injEq]
    exact ⟨trivial, trivial, ih _⟩

end GridPACK.Governors
