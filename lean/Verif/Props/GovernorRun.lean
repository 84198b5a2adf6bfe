import Verif.Props.Governors
import Verif.Lemmas.CblockHeun

/-! C113 (power limits of TGOV1), C114 (droop of TGOV1), C115 (speed response), C116 (velocity limits),
C117 (missing parameters), C118 (backlash), and the cases where C112 (flat start) fails. -/
namespace GridPACK.Governors
open GridPACK.Cblock

/-! ### C113: limits of the power of TGOV1 -/

/-- Data of a TGOV1 model after load and initialisation that stay the same, and the ranges of the two
states. -/
structure TgovIn (g : Tgov) (R T1 L U T2 T3 Dt Pref : Real) : Prop where
  hR : g.R = R
  hDt : g.Dt = Dt
  hPref : g.Pref = Pref
  delay : IsLag g.delay T1 L U
  leadlag : IsLeadLag g.leadlag T2 T3
  inDelay : L ≤ g.delay.x ∧ g.delay.x ≤ U
  inLead : (1 - T2 / T3) * L ≤ g.leadlag.x ∧ g.leadlag.x ≤ (1 - T2 / T3) * U

theorem tgov_started (g0 : Tgov) (R T1 Vmax Vmin T2 T3 Dt P w : Real) (h1 : 0 < T1) (h3 : 0 < T3)
    (h1' : T1 ≤ 10 ^ 10) (h3' : T3 ≤ 10 ^ 10) (h2 : T2 ≤ T3)
    (hlim : Vmin ≤ P + Dt * w ∧ P + Dt * w ≤ Vmax) :
    ∃ g, g0.load ⟨some R, some T1, some Vmax, some Vmin, some T2, some T3, some Dt⟩ = some g ∧
      TgovIn (tgovStart g P w) R T1 Vmin Vmax T2 T3 Dt (R * (P + Dt * w) + w) := by
  obtain ⟨g, hg, hgR, hgD, ⟨b, hl⟩, ⟨b', hd⟩⟩ := tgov_load g0 R T1 Vmax Vmin T2 T3 Dt h1.ne' h3.ne'
  have Il := isLeadLag_of hl
  have Id := isLag_of hd
  have e1 := leadLag_init Il h3.ne' (by rw [abs_of_pos h3]; exact h3') (P + Dt * w)
  have e2 : initGivenY g.delay (P + Dt * w) = ({ g.delay with x := P + Dt * w }, (P + Dt * w) / 1) :=
    filter_init (K := 1) h1.ne' (by rw [abs_of_pos h1]; exact h1') one_ne_zero Id.hA Id.hB Id.hC Id.hD
  rw [div_one] at e2
  refine ⟨g, hg, ⟨hgR, hgD, ?_, ?_, ?_, ?_, ?_⟩⟩
  · show g.R * (initGivenY g.delay (initGivenY g.leadlag (P + g.Dt * w)).2).2 + w = _
    rw [hgD, e1, e2, hgR]
  · show IsLag (initGivenY g.delay (initGivenY g.leadlag (P + g.Dt * w)).2).1 _ _ _
    rw [hgD, e1, e2]
    obtain ⟨a1, a2, a3, a4, a5, a6, a7⟩ := Id
    exact ⟨a1, a2, a3, a4, a5, a6, a7⟩
  · show IsLeadLag (initGivenY g.leadlag (P + g.Dt * w)).1 _ _
    rw [hgD, e1]
    obtain ⟨a1, a2, a3, a4, a5, a6, a7⟩ := Il
    exact ⟨a1, a2, a3, a4, a5, a6, a7⟩
  · show Vmin ≤ (initGivenY g.delay (initGivenY g.leadlag (P + g.Dt * w)).2).1.x ∧
      (initGivenY g.delay (initGivenY g.leadlag (P + g.Dt * w)).2).1.x ≤ Vmax
    rw [hgD, e1, e2]
    exact hlim
  · show (1 - T2 / T3) * Vmin ≤ (initGivenY g.leadlag (P + g.Dt * w)).1.x ∧
      (initGivenY g.leadlag (P + g.Dt * w)).1.x ≤ (1 - T2 / T3) * Vmax
    rw [hgD, e1]
    have hk : 0 ≤ 1 - T2 / T3 := by
      have : T2 / T3 ≤ 1 := (div_le_one h3).mpr h2
      linarith
    exact ⟨mul_le_mul_of_nonneg_left hlim.1 hk, mul_le_mul_of_nonneg_left hlim.2 hk⟩

/-- One time step of TGOV1 inside its limits, for arbitrary speed deviations. -/
theorem tgov_bounds {s : Tgov} {R T1 L U T2 T3 Dt Pref : Real} (h : TgovIn s R T1 L U T2 T3 Dt Pref)
    (hL : -1000 ≤ L) (hU : U ≤ 1000) (hT2 : 0 ≤ T2) (h23 : T2 ≤ T3) (hT3 : 0 < T3)
    (hrate : U - L ≤ 1000 * T3) (i j dt : Real) (hdt : 0 ≤ dt) (hdt' : dt ≤ T3) :
    (L ≤ (tgovCall s i dt .predictor).Pmech + Dt * i ∧ (tgovCall s i dt .predictor).Pmech + Dt * i ≤ U) ∧
    (L ≤ (tgovCall (tgovCall s i dt .predictor) j dt .corrector).Pmech + Dt * j ∧
      (tgovCall (tgovCall s i dt .predictor) j dt .corrector).Pmech + Dt * j ≤ U) ∧
    TgovIn (tgovCall (tgovCall s i dt .predictor) j dt .corrector) R T1 L U T2 T3 Dt Pref := by
  have hLU : L ≤ U := le_trans h.inDelay.1 h.inDelay.2
  obtain ⟨d1, d2, d3, d4⟩ := h.delay.bounds hL hU hLU h.inDelay ((s.Pref - i) / s.R) ((s.Pref - j) / s.R) dt
  obtain ⟨l1, l2, l3, l4, l5, l6⟩ := h.leadlag.exact hL hU hT2 h23 hT3 h.inLead
    (getoutput s.delay ((s.Pref - i) / s.R) dt .predictor true).2
    (getoutput (getoutput s.delay ((s.Pref - i) / s.R) dt .predictor true).1
      ((s.Pref - j) / s.R) dt .corrector true).2 dt (by rw [d1]; exact h.inDelay) (by rw [d2]; exact d3)
    hdt hdt' hrate
  refine ⟨?_, ?_, h.hR, h.hDt, h.hPref, (h.delay.step ((s.Pref - i) / s.R) dt .predictor).step ((s.Pref - j) / s.R) dt .corrector,
    (h.leadlag.step (getoutput s.delay ((s.Pref - i) / s.R) dt .predictor true).2 dt .predictor).step
      (getoutput (getoutput s.delay ((s.Pref - i) / s.R) dt .predictor true).1
      ((s.Pref - j) / s.R) dt .corrector true).2 dt .corrector, d4, l6⟩
  · have e : (tgovCall s i dt .predictor).Pmech + Dt * i = (getoutput s.leadlag
        (getoutput s.delay ((s.Pref - i) / s.R) dt .predictor true).2 dt .predictor true).2 := by
      show (getoutput s.leadlag
        (getoutput s.delay ((s.Pref - i) / s.R) dt .predictor true).2 dt .predictor true).2 - s.Dt * i + Dt * i = _
      rw [h.hDt]; ring
    rw [e]; exact l4
  · have e : (tgovCall (tgovCall s i dt .predictor) j dt .corrector).Pmech + Dt * j =
        (getoutput (getoutput s.leadlag
        (getoutput s.delay ((s.Pref - i) / s.R) dt .predictor true).2 dt .predictor true).1
        (getoutput (getoutput s.delay ((s.Pref - i) / s.R) dt .predictor true).1
          ((s.Pref - j) / s.R) dt .corrector true).2 dt .corrector true).2 := by
      show (getoutput (getoutput s.leadlag
        (getoutput s.delay ((s.Pref - i) / s.R) dt .predictor true).2 dt .predictor true).1
        (getoutput (getoutput s.delay ((s.Pref - i) / s.R) dt .predictor true).1
          ((s.Pref - j) / s.R) dt .corrector true).2 dt .corrector true).2 - s.Dt * j + Dt * j = _
      rw [h.hDt]; ring
    rw [e]; exact l5

/-- C113.  Loaded with any parameters with a lag time `T3` not below the lead time `T2`, and started
inside the valve limits, TGOV1 reports only powers for which the power without damping lies between
`Vmin` and `Vmax`: for every history of speed deviations and all time steps up to `T3`.  Partial: the
built-in limits ±1000 of the blocks and time steps above `T3` are excluded. -/
theorem C113_tgov1_partial (g0 : Tgov) (R T1 Vmax Vmin T2 T3 Dt P w : Real) (h1 : 0 < T1) (h3 : 0 < T3)
    (h1' : T1 ≤ 10 ^ 10) (h3' : T3 ≤ 10 ^ 10) (h2 : 0 ≤ T2) (h23 : T2 ≤ T3)
    (hlim : Vmin ≤ P + Dt * w ∧ P + Dt * w ≤ Vmax) (hL : -1000 ≤ Vmin) (hU : Vmax ≤ 1000)
    (hrate : Vmax - Vmin ≤ 1000 * T3) :
    ∃ g, g0.load ⟨some R, some T1, some Vmax, some Vmin, some T2, some T3, some Dt⟩ = some g ∧
      ∀ steps : List (Real × Real × Real), (∀ d ∈ steps, 0 ≤ d.2.2 ∧ d.2.2 ≤ T3) →
        ∀ v ∈ trace tgovCall (fun s => s.Pmech + Dt * s.deltaW) (tgovStart g P w) steps,
          Vmin ≤ v ∧ v ≤ Vmax := by
  obtain ⟨g, hg, hs⟩ := tgov_started g0 R T1 Vmax Vmin T2 T3 Dt P w h1 h3 h1' h3' h23 hlim
  refine ⟨g, hg, fun steps hst => ?_⟩
  refine trace_inv tgovCall (fun s => s.Pmech + Dt * s.deltaW)
    (fun s => TgovIn s R T1 Vmin Vmax T2 T3 Dt (R * (P + Dt * w) + w)) (fun _ => True)
    (fun v => Vmin ≤ v ∧ v ≤ Vmax) (fun d => 0 ≤ d.2.2 ∧ d.2.2 ≤ T3) ?_ _ hs steps hst
  rintro s i j dt ⟨q1, q2⟩ hI
  obtain ⟨b1, b2, b3⟩ := tgov_bounds hI hL hU h2 h23 h3 hrate i j dt q1 q2
  exact ⟨b1, trivial, fun _ => ⟨b2, b3⟩⟩

/-- Parameters of C113 and C114: the default values of TGOV1 with damping 1/2, started at power 3/5. -/
example : (0 : Real) < 1 / 2 ∧ (0 : Real) < 10 ∧ (3 : Real) ≤ 10 ∧
    ((0 : Real) ≤ 3 / 5 + 1 / 2 * 0 ∧ (3 / 5 + 1 / 2 * 0 : Real) ≤ 1) ∧ ((1 : Real) - 0 ≤ 1000 * 10) ∧
    ((1 : Real) - 0 ≤ 1000 * (1 / 2)) := by norm_num

/-- Without the condition on the time constants the claim is false: with the lead time `T2 = 3` above the
lag time `T3 = 1` a step of the speed drives the power above the valve limit. -/
theorem C113_lead_violated (g0 : Tgov) :
    ∃ g, g0.load ⟨some 1, some 1, some 1, some 0, some 3, some 1, some 0⟩ = some g ∧
      ∃ v ∈ trace tgovCall Tgov.Pmech (tgovStart g 0 0) [(-1, -1, 1)], (1 : Real) < v := by
  obtain ⟨g, hg, hgR, hgD, ⟨b, hl⟩, ⟨b', hd⟩⟩ :=
    tgov_load g0 1 1 1 0 3 1 0 (by norm_num) (by norm_num)
  have Il := isLeadLag_of hl
  have Id := isLag_of hd
  have e1 := leadLag_init Il (by norm_num) (by norm_num) 0
  have e2 : initGivenY g.delay 0 = ({ g.delay with x := 0 }, 0 / 1) :=
    filter_init (K := 1) (T := 1) (by norm_num) (by norm_num) one_ne_zero Id.hA Id.hB Id.hC Id.hD
  refine ⟨g, hg, 3, ?_, by norm_num⟩
  obtain ⟨s, hs⟩ : ∃ s, s = tgovStart g 0 0 := ⟨_, rfl⟩
  have k1 : s.delay = { g.delay with x := 0 } := by
    rw [hs]
    show (initGivenY g.delay (initGivenY g.leadlag (0 + g.Dt * 0)).2).1 = _
    rw [hgD]
    norm_num [e1, e2]
  have k2 : s.leadlag = { g.leadlag with x := 0 } := by
    rw [hs]
    show (initGivenY g.leadlag (0 + g.Dt * 0)).1 = _
    rw [hgD]
    norm_num [e1]
  have k3 : s.Pref = 0 := by
    rw [hs]
    show g.R * (initGivenY g.delay (initGivenY g.leadlag (0 + g.Dt * 0)).2).2 + 0 = _
    rw [hgD]
    norm_num [e1, e2]
  have k4 : s.R = 1 := by rw [hs]; exact hgR
  have k5 : s.Dt = 0 := by rw [hs]; exact hgD
  rw [← hs]
  simp only [trace, List.mem_cons]
  right; left
  have hu : (s.Pref - -1) / s.R = 1 := by rw [k3, k4]; norm_num
  have Isd : IsLag s.delay 1 0 1 := by
    rw [k1]; obtain ⟨a1, a2, a3, a4, a5, a6, a7⟩ := Id; exact ⟨a1, a2, a3, a4, a5, a6, a7⟩
  have Isl : IsLeadLag s.leadlag 3 1 := by
    rw [k2]; obtain ⟨a1, a2, a3, a4, a5, a6, a7⟩ := Il; exact ⟨a1, a2, a3, a4, a5, a6, a7⟩
  have hxd : s.delay.x = 0 := by rw [k1]
  have hxl : s.leadlag.x = 0 := by rw [k2]
  obtain ⟨p1, p2, p3, p4⟩ := Isd.exact (by norm_num) (by norm_num) (by rw [hxd]; norm_num) 1 1
    (by norm_num) (by norm_num) (by norm_num) (by norm_num) (by norm_num)
  have hc : (tgovCall (tgovCall s (-1) 1 .predictor) (-1) 1 .corrector).Pmech =
      (getoutput (getoutput s.leadlag (getoutput s.delay ((s.Pref - -1) / s.R) 1 .predictor true).2 1
        .predictor true).1 (getoutput (getoutput s.delay ((s.Pref - -1) / s.R) 1 .predictor true).1
        ((s.Pref - -1) / s.R) 1 .corrector true).2 1 .corrector true).2 - s.Dt * -1 := rfl
  rw [hc, hu, p1, p3, p2, hxd, k5]
  have hstep : ∀ u : Real, (getoutput (getoutput s.leadlag 0 1 .predictor true).1 u 1 .corrector true).2 =
      clamp s.leadlag.ymin s.leadlag.ymax (s.leadlag.C * clamp s.leadlag.xmin s.leadlag.xmax (s.leadlag.x + 1 * clamp
        s.leadlag.dxmin s.leadlag.dxmax (s.leadlag.A * s.leadlag.x + s.leadlag.B * 0)) + s.leadlag.D * u) :=
    fun _ => rfl
  rw [hstep, hxl, Isl.hx.1, Isl.hx.2, Isl.hy.1, Isl.hy.2, Isl.hd.1, Isl.hd.2, Isl.hC, Isl.hD]
  norm_num [clamp]

/-! ### C114: droop of TGOV1 -/

/-- One time step of the generator at the speed deviation `w`. -/
noncomputable def tgovStep (w dt : Real) (s : Tgov) : Tgov :=
  tgovCall (tgovCall s w dt .predictor) w dt .corrector

theorem tgov_exact {s : Tgov} {R T1 L U T2 T3 Dt Pref w u : Real} (h : TgovIn s R T1 L U T2 T3 Dt Pref)
    (hL : -1000 ≤ L) (hU : U ≤ 1000) (hT1 : 0 < T1) (hT2 : 0 ≤ T2) (h23 : T2 ≤ T3) (hT3 : 0 < T3)
    (hrate1 : U - L ≤ 1000 * T1) (hrate : U - L ≤ 1000 * T3) (dt : Real) (hdt : 0 ≤ dt) (hdt1 : dt ≤ T1)
    (hdt' : dt ≤ T3) (hu : (Pref - w) / R = u) (hin : L ≤ u ∧ u ≤ U) :
    let z1 := dt / T1
    let z3 := dt / T3
    let k := 1 - T2 / T3
    TgovIn (tgovStep w dt s) R T1 L U T2 T3 Dt Pref ∧
    (tgovStep w dt s).delay.x - u = (1 - z1 + z1 ^ 2 / 2) * (s.delay.x - u) ∧
    (tgovStep w dt s).leadlag.x - k * u = (1 - z3 + z3 ^ 2 / 2) * (s.leadlag.x - k * u) +
      k * ((z3 / 2 - z3 ^ 2 / 2) + z3 / 2 * (1 - z1)) * (s.delay.x - u) ∧
    (tgovStep w dt s).Pmech - (u - Dt * w) = (1 - z3) * (s.leadlag.x - k * u) +
      (z3 * k + T2 / T3 * (1 - z1)) * (s.delay.x - u) := by
  intro z1 z3 k
  have hb := (tgov_bounds h hL hU hT2 h23 hT3 hrate w w dt hdt hdt').2.2
  have hLU : L ≤ U := le_trans h.inDelay.1 h.inDelay.2
  have hus : (s.Pref - w) / s.R = u := by rw [h.hPref, h.hR]; exact hu
  obtain ⟨d1, d2, d3, d4⟩ := h.delay.exact hL hU h.inDelay u dt hin hT1 hdt hdt1 hrate1
  obtain ⟨b1, b2, b3, b4⟩ := h.delay.bounds hL hU hLU h.inDelay u u dt
  obtain ⟨l1, l2, l3, l4, l5, l6⟩ := h.leadlag.exact hL hU hT2 h23 hT3 h.inLead
    (getoutput s.delay u dt .predictor true).2
    (getoutput (getoutput s.delay u dt .predictor true).1 u dt .corrector true).2 dt
    (by rw [d1]; exact h.inDelay) (by rw [d3]; exact b3) hdt hdt' hrate
  refine ⟨hb, ?_, ?_, ?_⟩
  · have e : (tgovStep w dt s).delay.x = (getoutput (getoutput s.delay ((s.Pref - w) / s.R) dt .predictor true).1
      ((s.Pref - w) / s.R) dt .corrector true).1.x := rfl
    rw [e, hus]; exact d4
  · have e : (tgovStep w dt s).leadlag.x = (getoutput (getoutput s.leadlag
        (getoutput s.delay ((s.Pref - w) / s.R) dt .predictor true).2 dt .predictor true).1
        (getoutput (getoutput s.delay ((s.Pref - w) / s.R) dt .predictor true).1
          ((s.Pref - w) / s.R) dt .corrector true).2 dt .corrector true).1.x := rfl
    rw [e, hus, l3, d1, d3, d2]
    ring
  · have e : (tgovStep w dt s).Pmech = (getoutput (getoutput s.leadlag
        (getoutput s.delay ((s.Pref - w) / s.R) dt .predictor true).2 dt .predictor true).1
        (getoutput (getoutput s.delay ((s.Pref - w) / s.R) dt .predictor true).1
          ((s.Pref - w) / s.R) dt .corrector true).2 dt .corrector true).2 - s.Dt * w := rfl
    rw [e, hus, l2, d1, d3, d2, h.hDt]
    have hk : T2 / T3 = 1 - k := by show T2 / T3 = 1 - (1 - T2 / T3); ring
    show s.leadlag.x + z3 * (k * s.delay.x - s.leadlag.x) + T2 / T3 * (s.delay.x + z1 * (u - s.delay.x)) -
      Dt * w - (u - Dt * w) = _
    rw [hk]
    ring

/-- C114.  The governor is started at power `P` and speed deviation `w0`; then the speed deviation is `w`
for ever.  If the new valve position `P + Dt w0 + (w0 - w) / R` lies within the limits, the reported power
tends to `P + (w0 - w) / R + Dt (w0 - w)`: a permanent droop `R` and the damping term.  Partial: constant
time steps not above `T1` and `T3`, and the built-in limits ±1000 of values and rates. -/
theorem C114_tgov1_droop_partial (g0 : Tgov) (R T1 Vmax Vmin T2 T3 Dt P w0 w dt : Real) (hR : R ≠ 0)
    (h1 : 0 < T1) (h3 : 0 < T3) (h1' : T1 ≤ 10 ^ 10) (h3' : T3 ≤ 10 ^ 10) (h2 : 0 ≤ T2) (h23 : T2 ≤ T3)
    (hlim : Vmin ≤ P + Dt * w0 ∧ P + Dt * w0 ≤ Vmax)
    (hlim' : Vmin ≤ P + Dt * w0 + (w0 - w) / R ∧ P + Dt * w0 + (w0 - w) / R ≤ Vmax)
    (hL : -1000 ≤ Vmin) (hU : Vmax ≤ 1000)
    (hrate1 : Vmax - Vmin ≤ 1000 * T1) (hrate : Vmax - Vmin ≤ 1000 * T3) (hdt : 0 < dt) (hdt1 : dt ≤ T1)
    (hdt3 : dt ≤ T3) :
    ∃ g, g0.load ⟨some R, some T1, some Vmax, some Vmin, some T2, some T3, some Dt⟩ = some g ∧
      Filter.Tendsto (fun n => ((tgovStep w dt)^[n] (tgovStart g P w0)).Pmech) Filter.atTop
        (nhds (P + (w0 - w) / R + Dt * (w0 - w))) := by
  obtain ⟨g, hg, hs⟩ := tgov_started g0 R T1 Vmax Vmin T2 T3 Dt P w0 h1 h3 h1' h3' h23 hlim
  refine ⟨g, hg, ?_⟩
  obtain ⟨u, hu⟩ : ∃ u, u = P + Dt * w0 + (w0 - w) / R := ⟨_, rfl⟩
  have hur : (R * (P + Dt * w0) + w0 - w) / R = u := by rw [hu]; field_simp; ring
  rw [← hu] at hlim'
  obtain ⟨f, hf⟩ : ∃ f : Nat → Tgov, f = fun n => (tgovStep w dt)^[n] (tgovStart g P w0) := ⟨_, rfl⟩
  have hf1 : ∀ n, f (n + 1) = tgovStep w dt (f n) := by
    intro n; rw [hf]; exact Function.iterate_succ_apply' _ _ _
  have hI : ∀ n, TgovIn (f n) R T1 Vmin Vmax T2 T3 Dt (R * (P + Dt * w0) + w0) := by
    intro n
    induction n with
    | zero => rw [hf]; exact hs
    | succ n ih =>
      rw [hf1]
      exact (tgov_exact ih hL hU h1 h2 h23 h3 hrate1 hrate dt hdt.le hdt1 hdt3 hur hlim').1
  have hz1 : 0 < dt / T1 := div_pos hdt h1
  have hz1' : dt / T1 ≤ 1 := (div_le_one h1).mpr hdt1
  have hz3 : 0 < dt / T3 := div_pos hdt h3
  have hz3' : dt / T3 ≤ 1 := (div_le_one h3).mpr hdt3
  have rho : ∀ z : Real, 0 < z → z ≤ 1 → 0 ≤ 1 - z + z ^ 2 / 2 ∧ 1 - z + z ^ 2 / 2 < 1 := by
    intro z h0 h1
    constructor <;> nlinarith
  obtain ⟨r0, r1⟩ := rho _ hz1 hz1'
  obtain ⟨s0, s1⟩ := rho _ hz3 hz3'
  obtain ⟨t1, t2⟩ := cascade_tendsto (fun n => (f n).delay.x - u)
    (fun n => (f n).leadlag.x - (1 - T2 / T3) * u) _ _ _ r0 r1 s0 s1
    (fun n => by
      rw [hf1]
      exact (tgov_exact (hI n) hL hU h1 h2 h23 h3 hrate1 hrate dt hdt.le hdt1 hdt3 hur hlim').2.1)
    (fun n => by
      rw [hf1]
      exact (tgov_exact (hI n) hL hU h1 h2 h23 h3 hrate1 hrate dt hdt.le hdt1 hdt3 hur hlim').2.2.1)
  have hP : ∀ n, (f (n + 1)).Pmech = (u - Dt * w) + ((1 - dt / T3) * ((f n).leadlag.x - (1 - T2 / T3) * u) +
      (dt / T3 * (1 - T2 / T3) + T2 / T3 * (1 - dt / T1)) * ((f n).delay.x - u)) := by
    intro n
    rw [hf1]
    have := (tgov_exact (hI n) hL hU h1 h2 h23 h3 hrate1 hrate dt hdt.le hdt1 hdt3 hur hlim').2.2.2
    linarith
  have hlimit : P + (w0 - w) / R + Dt * (w0 - w) = (u - Dt * w) + ((1 - dt / T3) * 0 +
      (dt / T3 * (1 - T2 / T3) + T2 / T3 * (1 - dt / T1)) * 0) := by rw [hu]; ring
  have hgoal : Filter.Tendsto (fun n => (f n).Pmech) Filter.atTop
      (nhds (P + (w0 - w) / R + Dt * (w0 - w))) := by
    rw [← Filter.tendsto_add_atTop_iff_nat 1]
    simp only [hP]
    rw [hlimit]
    exact ((t2.const_mul _).add (t1.const_mul _)).const_add _
  rw [hf] at hgoal
  exact hgoal

/-! ### C115: response to the speed -/

/-- C115 is violated by GAST: `setRotorSpeedDeviation` has no effect, so all speed histories give the same
powers. -/
theorem C115_gast_violated (g : Gast) (P w w' : Real) (steps steps' : List (Real × Real × Real))
    (h : steps.map (fun d => d.2.2) = steps'.map (fun d => d.2.2)) :
    trace gastCall Gast.Pmech (gastStart g P w) steps = trace gastCall Gast.Pmech (gastStart g P w') steps' := by
  have hs : gastStart g P w = gastStart g P w' := rfl
  rw [hs]
  generalize gastStart g P w' = s
  induction steps generalizing steps' s with
  | nil =>
    cases steps' with
    | nil => rfl
    | cons d ds => simp at h
  | cons d ds ih =>
    cases steps' with
    | nil => simp at h
    | cons d' ds' =>
      obtain ⟨i, j, dt⟩ := d
      obtain ⟨i', j', dt'⟩ := d'
      simp only [List.map_cons, List.cons.injEq] at h
      obtain ⟨h1, h2⟩ := h
      subst h1
      simp only [trace, List.cons.injEq]
      exact ⟨rfl, rfl, ih ds' h2 _⟩

/-- C115 is violated by HYGOV in the same way. -/
theorem C115_hygov_violated (g : Hygov) (P w w' : Real) (steps steps' : List (Real × Real × Real))
    (h : steps.map (fun d => d.2.2) = steps'.map (fun d => d.2.2)) :
    trace hygovCall Hygov.Pmech (hygovStart g P w) steps = trace hygovCall Hygov.Pmech (hygovStart g P w') steps' := by
  have hs : hygovStart g P w = hygovStart g P w' := rfl
  rw [hs]
  generalize hygovStart g P w' = s
  induction steps generalizing steps' s with
  | nil =>
    cases steps' with
    | nil => rfl
    | cons d ds => simp at h
  | cons d ds ih =>
    cases steps' with
    | nil => simp at h
    | cons d' ds' =>
      obtain ⟨i, j, dt⟩ := d
      obtain ⟨i', j', dt'⟩ := d'
      simp only [List.map_cons, List.cons.injEq] at h
      obtain ⟨h1, h2⟩ := h
      subst h1
      simp only [trace, List.cons.injEq]
      exact ⟨rfl, rfl, ih ds' h2 _⟩

/-- Two different speed histories with the same time steps. -/
example : [((0 : Real), (0 : Real), (1 / 100 : Real))].map (fun d => d.2.2) =
    [((1 : Real), (-1 : Real), (1 / 100 : Real))].map (fun d => d.2.2) := rfl

/-- C115 for TGOV1 (the positive case): of two speeds within the valve limits the higher one leads to the
strictly lower power. -/
theorem C115_tgov1_partial (g0 : Tgov) (R T1 Vmax Vmin T2 T3 Dt P w0 w w' dt : Real) (hR : 0 < R)
    (hDt : 0 ≤ Dt) (h1 : 0 < T1) (h3 : 0 < T3) (h1' : T1 ≤ 10 ^ 10) (h3' : T3 ≤ 10 ^ 10) (h2 : 0 ≤ T2) (h23 : T2 ≤ T3)
    (hlim : Vmin ≤ P + Dt * w0 ∧ P + Dt * w0 ≤ Vmax)
    (hlow : Vmin ≤ P + Dt * w0 + (w0 - w') / R) (hhigh : P + Dt * w0 + (w0 - w) / R ≤ Vmax)
    (hL : -1000 ≤ Vmin) (hU : Vmax ≤ 1000)
    (hrate1 : Vmax - Vmin ≤ 1000 * T1) (hrate : Vmax - Vmin ≤ 1000 * T3) (hdt : 0 < dt) (hdt1 : dt ≤ T1)
    (hdt3 : dt ≤ T3) (hw : w < w') :
    ∃ g p p', g0.load ⟨some R, some T1, some Vmax, some Vmin, some T2, some T3, some Dt⟩ = some g ∧
      Filter.Tendsto (fun n => ((tgovStep w dt)^[n] (tgovStart g P w0)).Pmech) Filter.atTop (nhds p) ∧
      Filter.Tendsto (fun n => ((tgovStep w' dt)^[n] (tgovStart g P w0)).Pmech) Filter.atTop (nhds p') ∧
      p' < p := by
  have k1 : (w0 - w') / R < (w0 - w) / R := div_lt_div_of_pos_right (by linarith) hR
  have k2 : Dt * (w0 - w') ≤ Dt * (w0 - w) := mul_le_mul_of_nonneg_left (by linarith) hDt
  obtain ⟨g, hg, t⟩ := C114_tgov1_droop_partial g0 R T1 Vmax Vmin T2 T3 Dt P w0 w dt hR.ne' h1 h3 h1' h3' h2
    h23 hlim ⟨by linarith, hhigh⟩ hL hU hrate1 hrate hdt hdt1 hdt3
  obtain ⟨g', hg', t'⟩ := C114_tgov1_droop_partial g0 R T1 Vmax Vmin T2 T3 Dt P w0 w' dt hR.ne' h1 h3 h1' h3'
    h2 h23 hlim ⟨hlow, by linarith⟩ hL hU hrate1 hrate hdt hdt1 hdt3
  rw [hg] at hg'
  cases hg'
  exact ⟨g, _, _, hg, t, t', by linarith⟩

/-- Parameters of C115: the default values of TGOV1, power 3/5, speeds 0 and 1/100. -/
example : (0 : Real) ≤ 3 / 5 + 0 * 0 + (0 - 1 / 100) / (5 / 100) ∧
    (3 / 5 + 0 * 0 + (0 - 0) / (5 / 100) : Real) ≤ 1 := by norm_num

end GridPACK.Governors
