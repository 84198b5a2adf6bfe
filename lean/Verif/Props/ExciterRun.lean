import Verif.Props.Exciters
import Verif.Lemmas.CblockHeun

/-! Property C124: the steady-state gain of SEXS. -/
namespace GridPACK.Cblock

/-- Coefficients and limits of a filter with gain `K` and state limits. -/
structure IsReg (b : Block) (K T L U : Real) : Prop where
  hA : b.A = -1 / T
  hB : b.B = K / T
  hC : b.C = 1
  hD : b.D = 0
  hx : b.xmin = L ∧ b.xmax = U
  hy : b.ymin = -1000 ∧ b.ymax = 1000
  hd : b.dxmin = -1000 ∧ b.dxmax = 1000

theorem isReg_of {b b' : Block} {K T L U : Real}
    (h : withLimits (filter b K T) L U (-1000) 1000 = some b') : IsReg b' K T L U := by
  obtain ⟨b0, h0, e⟩ := withLimits_some h
  obtain ⟨_, e0⟩ := filter_coeffs h0
  subst e e0
  exact ⟨rfl, rfl, rfl, rfl, ⟨rfl, rfl⟩, ⟨rfl, rfl⟩, ⟨rfl, rfl⟩⟩

theorem IsReg.step {b : Block} {K T L U : Real} (h : IsReg b K T L U) (u dt : Real) (s : Stage) :
    IsReg (getoutput b u dt s true).1 K T L U := by
  obtain ⟨h1, h2, h3, h4, h5, h6, h7⟩ := h
  cases s <;> exact ⟨h1, h2, h3, h4, h5, h6, h7⟩

/-- Exact step of a limited filter with gain while the amplified inputs stay inside the limits. -/
theorem IsReg.exact {b : Block} {K T L U : Real} (h : IsReg b K T L U) (hL : -1000 ≤ L) (hU : U ≤ 1000)
    (hx : L ≤ b.x ∧ b.x ≤ U) (up uc dt : Real) (hp : L ≤ K * up ∧ K * up ≤ U) (hc : L ≤ K * uc ∧ K * uc ≤ U)
    (hT : 0 < T) (hdt : 0 ≤ dt) (hdt' : dt ≤ T) (hrate : U - L ≤ 1000 * T) :
    let z := dt / T
    let p := getoutput b up dt .predictor true
    let c := getoutput p.1 uc dt .corrector true
    p.2 = b.x ∧ c.2 = b.x + z * (K * up - b.x) ∧
      c.1.x = (1 - z + z ^ 2 / 2) * b.x + (z / 2 - z ^ 2 / 2) * (K * up) + z / 2 * (K * uc) ∧
      (L ≤ c.1.x ∧ c.1.x ≤ U) := by
  intro z p c
  have hz0 : 0 ≤ z := div_nonneg hdt hT.le
  have hz1 : z ≤ 1 := (div_le_one hT).mpr hdt'
  have hder : ∀ x u, getderivative b x u = (K * u - x) / T := by
    intro x u
    show b.A * x + b.B * u = _
    rw [h.hA, h.hB]; ring
  have hb : ∀ v, -(U - L) ≤ v → v ≤ U - L → -1000 ≤ v / T ∧ v / T ≤ 1000 := by
    intro v hv1 hv2
    constructor
    · rw [le_div_iff₀ hT]; linarith
    · rw [div_le_iff₀ hT]; linarith
  obtain ⟨r1, r2⟩ := hb (K * up - b.x) (by linarith [hx.2, hp.1]) (by linarith [hx.1, hp.2])
  have e1 : clamp b.dxmin b.dxmax (getderivative b b.x up) = (K * up - b.x) / T := by
    rw [hder, h.hd.1, h.hd.2]; exact clamp_of_mem _ _ _ r1 r2
  have hdz : ∀ v, dt * (v / T) = z * v := by
    intro v; show dt * (v / T) = dt / T * v; ring
  have hhat : L ≤ b.x + z * (K * up - b.x) ∧ b.x + z * (K * up - b.x) ≤ U := mix hx hp hz0 hz1
  have e2 : p.1.xhat = b.x + z * (K * up - b.x) := by
    show clamp b.xmin b.xmax (b.x + dt * clamp b.dxmin b.dxmax (getderivative b b.x up)) = _
    rw [e1, h.hx.1, h.hx.2, hdz]
    exact clamp_of_mem _ _ _ hhat.1 hhat.2
  have o1 : p.2 = b.x := by
    show clamp b.ymin b.ymax (b.C * b.x + b.D * up) = _
    rw [h.hC, h.hD, h.hy.1, h.hy.2, one_mul, zero_mul, add_zero]
    exact clamp_of_mem _ _ _ (by linarith [hx.1]) (by linarith [hx.2])
  have o2 : c.2 = b.x + z * (K * up - b.x) := by
    show clamp b.ymin b.ymax (b.C * p.1.xhat + b.D * uc) = _
    rw [h.hC, h.hD, h.hy.1, h.hy.2, one_mul, zero_mul, add_zero, e2]
    exact clamp_of_mem _ _ _ (by linarith [hhat.1]) (by linarith [hhat.2])
  have hd1 : p.1.dxdt = (K * up - b.x) / T := e1
  have hder2 : getderivative p.1 p.1.xhat uc = (K * uc - p.1.xhat) / T := hder p.1.xhat uc
  have e3 : 1 / 2 * (p.1.dxdt + getderivative p.1 p.1.xhat uc) =
      (1 / 2 * (K * up - b.x) + 1 / 2 * (K * uc - (b.x + z * (K * up - b.x)))) / T := by
    rw [hd1, hder2, e2]; ring
  obtain ⟨r3, r4⟩ := hb (1 / 2 * (K * up - b.x) + 1 / 2 * (K * uc - (b.x + z * (K * up - b.x))))
    (by linarith [hhat.2, hx.2, hp.1, hc.1]) (by linarith [hhat.1, hx.1, hp.2, hc.2])
  have hnew : b.x + z * (1 / 2 * (K * up - b.x) + 1 / 2 * (K * uc - (b.x + z * (K * up - b.x)))) =
      (1 - z + z ^ 2 / 2) * b.x + (z / 2 - z ^ 2 / 2) * (K * up) + z / 2 * (K * uc) := by ring
  have hin : L ≤ (1 - z + z ^ 2 / 2) * b.x + (z / 2 - z ^ 2 / 2) * (K * up) + z / 2 * (K * uc) ∧
      (1 - z + z ^ 2 / 2) * b.x + (z / 2 - z ^ 2 / 2) * (K * up) + z / 2 * (K * uc) ≤ U := by
    obtain ⟨w1, w2, w3⟩ := heun_weights hz0 hz1
    exact mix3 hx hp hc w1 w2 w3 (by ring)
  have e4 : c.1.x = (1 - z + z ^ 2 / 2) * b.x + (z / 2 - z ^ 2 / 2) * (K * up) + z / 2 * (K * uc) := by
    show clamp b.xmin b.xmax (b.x + dt * clamp b.dxmin b.dxmax
      (1 / 2 * (p.1.dxdt + getderivative p.1 p.1.xhat uc))) = _
    rw [e3, h.hd.1, h.hd.2, clamp_of_mem _ _ _ r3 r4, hdz, hnew, h.hx.1, h.hx.2]
    exact clamp_of_mem _ _ _ hin.1 hin.2
  exact ⟨o1, o2, e4, by rw [e4]; exact hin⟩

end GridPACK.Cblock

namespace GridPACK.Exciters
open GridPACK.Cblock

/-- One time step at terminal voltage `V` and stabiliser signal `vs`. -/
noncomputable def sexsStep (V vs dt : Real) (s : Sexs) : Sexs :=
  sexsCall (sexsCall s (V, vs) dt .predictor) (V, vs) dt .corrector

/-- States reached while no limiter acts: `[l, u]` are the limits divided by the gain. -/
structure SexsLin (s : Sexs) (r TB K EMAX EMIN TE Vref : Real) : Prop where
  hz : s.zeroTE = false
  href : s.Vref = Vref
  lead : IsLeadLag s.leadlag (r * TB) TB
  reg : IsReg s.filterB K TE EMIN EMAX
  inLead : (1 - r * TB / TB) * (EMIN / K) ≤ s.leadlag.x ∧ s.leadlag.x ≤ (1 - r * TB / TB) * (EMAX / K)
  inReg : EMIN ≤ s.filterB.x ∧ s.filterB.x ≤ EMAX

theorem sexs_exact {s : Sexs} {r TB K EMAX EMIN TE Vref V vs u : Real}
    (h : SexsLin s r TB K EMAX EMIN TE Vref) (hK : 0 < K) (hr0 : 0 ≤ r) (hr1 : r ≤ 1) (hTB : 0 < TB) (hTE : 0 < TE)
    (hL : -1000 ≤ EMIN) (hU : EMAX ≤ 1000) (hL' : -1000 ≤ EMIN / K) (hU' : EMAX / K ≤ 1000)
    (hrB : EMAX / K - EMIN / K ≤ 1000 * TB) (hrE : EMAX - EMIN ≤ 1000 * TE) (dt : Real) (hdt : 0 ≤ dt)
    (hdtB : dt ≤ TB) (hdtE : dt ≤ TE) (hu : Vref + vs - V = u) (hin : EMIN ≤ K * u ∧ K * u ≤ EMAX) :
    let z := dt / TB
    let y := dt / TE
    let k := 1 - r * TB / TB
    SexsLin (sexsStep V vs dt s) r TB K EMAX EMIN TE Vref ∧
    (sexsStep V vs dt s).leadlag.x - k * u = (1 - z + z ^ 2 / 2) * (s.leadlag.x - k * u) ∧
    (sexsStep V vs dt s).filterB.x - K * u = (1 - y + y ^ 2 / 2) * (s.filterB.x - K * u) +
      K * ((y / 2 - y ^ 2 / 2) + y / 2 * (1 - z)) * (s.leadlag.x - k * u) ∧
    (sexsStep V vs dt s).Efd - K * u = (1 - y) * (s.filterB.x - K * u) + y * K * (s.leadlag.x - k * u) := by
  intro z y k
  have hub : EMIN / K ≤ u ∧ u ≤ EMAX / K := by
    constructor
    · rw [div_le_iff₀ hK]; linarith [hin.1]
    · rw [le_div_iff₀ hK]; linarith [hin.2]
  have hus : s.Vref + vs - V = u := by rw [h.href]; exact hu
  have scale : ∀ v, EMIN / K ≤ v ∧ v ≤ EMAX / K → EMIN ≤ K * v ∧ K * v ≤ EMAX := by
    rintro v ⟨v1, v2⟩
    rw [div_le_iff₀ hK] at v1
    rw [le_div_iff₀ hK] at v2
    constructor <;> linarith
  obtain ⟨l1, l2, l3, l4, l5, l6⟩ := h.lead.exact hL' hU' (mul_nonneg hr0 hTB.le)
    (by nlinarith) hTB h.inLead u u dt hub hub hdt hdtB hrB
  have s4 := scale _ l4
  have s5 := scale _ l5
  obtain ⟨f1, f2, f3, f4⟩ := h.reg.exact hL hU h.inReg (getoutput s.leadlag u dt .predictor true).2
    (getoutput (getoutput s.leadlag u dt .predictor true).1 u dt .corrector true).2 dt s4 s5 hTE hdt hdtE hrE
  have ep : sexsCall s (V, vs) dt .predictor = { ((s.setVterminal V).setVstab vs) with
      leadlag := (getoutput s.leadlag u dt .predictor true).1,
      filterB := (getoutput s.filterB (getoutput s.leadlag u dt .predictor true).2 dt .predictor true).1,
      Efd := (getoutput s.filterB (getoutput s.leadlag u dt .predictor true).2 dt .predictor true).2 } := by
    show ({ ((s.setVterminal V).setVstab vs) with
      leadlag := (getoutput s.leadlag (s.Vref + vs - V) dt .predictor true).1,
      filterB := (pass s.zeroTE s.filterB (getoutput s.leadlag (s.Vref + vs - V) dt .predictor true).2 _ dt
        .predictor).1,
      Efd := (pass s.zeroTE s.filterB (getoutput s.leadlag (s.Vref + vs - V) dt .predictor true).2 _ dt
        .predictor).2 } : Sexs) = _
    rw [h.hz, hus]; rfl
  obtain ⟨p, hp⟩ : ∃ p, p = sexsCall s (V, vs) dt .predictor := ⟨_, rfl⟩
  have p1 : p.zeroTE = false := by rw [hp]; exact h.hz
  have p2 : p.Vref + vs - V = u := by rw [hp]; exact hus
  have p3 : p.leadlag = (getoutput s.leadlag u dt .predictor true).1 := by rw [hp, ep]
  have p4 : p.filterB =
    (getoutput s.filterB (getoutput s.leadlag u dt .predictor true).2 dt .predictor true).1 := by rw [hp, ep]
  have ec : sexsCall p (V, vs) dt .corrector = { ((p.setVterminal V).setVstab vs) with
      leadlag := (getoutput p.leadlag u dt .corrector true).1,
      filterB := (getoutput p.filterB (getoutput p.leadlag u dt .corrector true).2 dt .corrector true).1,
      Efd := (getoutput p.filterB (getoutput p.leadlag u dt .corrector true).2 dt .corrector true).2 } := by
    show ({ ((p.setVterminal V).setVstab vs) with
      leadlag := (getoutput p.leadlag (p.Vref + vs - V) dt .corrector true).1,
      filterB := (pass p.zeroTE p.filterB (getoutput p.leadlag (p.Vref + vs - V) dt .corrector true).2 _ dt
        .corrector).1,
      Efd := (pass p.zeroTE p.filterB (getoutput p.leadlag (p.Vref + vs - V) dt .corrector true).2 _ dt
        .corrector).2 } : Sexs) = _
    rw [p1, p2]; rfl
  have q1 : (sexsStep V vs dt s).leadlag =
      (getoutput (getoutput s.leadlag u dt .predictor true).1 u dt .corrector true).1 := by
    show (sexsCall (sexsCall s (V, vs) dt .predictor) (V, vs) dt .corrector).leadlag = _
    rw [← hp, ec, p3]
  have q2 : (sexsStep V vs dt s).filterB = (getoutput
      (getoutput s.filterB (getoutput s.leadlag u dt .predictor true).2 dt .predictor true).1
      (getoutput (getoutput s.leadlag u dt .predictor true).1 u dt .corrector true).2 dt .corrector true).1 := by
    show (sexsCall (sexsCall s (V, vs) dt .predictor) (V, vs) dt .corrector).filterB = _
    rw [← hp, ec, p3, p4]
  have q3 : (sexsStep V vs dt s).Efd = (getoutput
      (getoutput s.filterB (getoutput s.leadlag u dt .predictor true).2 dt .predictor true).1
      (getoutput (getoutput s.leadlag u dt .predictor true).1 u dt .corrector true).2 dt .corrector true).2 := by
    show (sexsCall (sexsCall s (V, vs) dt .predictor) (V, vs) dt .corrector).Efd = _
    rw [← hp, ec, p3, p4]
  have hk : r * TB / TB = 1 - k := by show r * TB / TB = 1 - (1 - r * TB / TB); ring
  refine ⟨⟨h.hz, h.href, ?_, ?_, ?_, ?_⟩, ?_, ?_, ?_⟩
  · rw [q1]; exact (h.lead.step _ _ _).step _ _ _
  · rw [q2]; exact (h.reg.step _ _ _).step _ _ _
  · rw [q1]; exact l6
  · rw [q2]; exact f4
  · rw [q1, l3]; ring
  · rw [q2, f3, l1, l2, hk]; ring
  · rw [q3, f2, l1, hk]; ring

/-- C124.  SEXS is started with field voltage `E` at terminal voltage `V0` and stabiliser signal `vs0`; then
these inputs are `V` and `vs` for ever.  If the new field voltage `E + K ((V0 - V) + (vs - vs0))` lies within
the limits, the reported field voltage tends to it: the regulator has gain `K` and acts against the change
of the voltage.  Partial: with a lag `TE`, a lead time not above the lag time (`0 ≤ TA/TB ≤ 1`), constant time
steps not above `TB` and `TE`, and the built-in limits ±1000 of values and rates. -/
theorem C124_sexs_partial (g0 : Sexs) (r TB K EMAX EMIN TE V0 vs0 E V vs dt : Real) (hK : 0 < K) (hr0 : 0 ≤ r)
    (hr1 : r ≤ 1) (hTB : 0 < TB) (hTB' : TB ≤ 10 ^ 10) (hTE : 1 / 10 ^ 6 ≤ TE) (hTE' : TE ≤ 10 ^ 10)
    (hlim : EMIN ≤ E ∧ E ≤ EMAX)
    (hlim' : EMIN ≤ E + K * ((V0 - V) + (vs - vs0)) ∧ E + K * ((V0 - V) + (vs - vs0)) ≤ EMAX)
    (hL : -1000 ≤ EMIN) (hU : EMAX ≤ 1000) (hL' : -1000 ≤ EMIN / K) (hU' : EMAX / K ≤ 1000)
    (hrB : EMAX / K - EMIN / K ≤ 1000 * TB) (hrE : EMAX - EMIN ≤ 1000 * TE) (hdt : 0 < dt) (hdtB : dt ≤ TB)
    (hdtE : dt ≤ TE) :
    ∃ g, g0.load ⟨some r, some TB, some K, some EMAX, some EMIN, some TE⟩ = some g ∧
      Filter.Tendsto (fun n => ((sexsStep V vs dt)^[n] (sexsStart g V0 vs0 E)).Efd) Filter.atTop
        (nhds (E + K * ((V0 - V) + (vs - vs0)))) := by
  obtain ⟨g, hg, e1, e2, e3, e4, ⟨b, hb⟩, hf, hgn⟩ := sexs_load g0 r TB K EMAX EMIN TE hTB.ne'
  refine ⟨g, hg, ?_⟩
  have hTE0 : 0 < TE := lt_of_lt_of_le (by norm_num) hTE
  have hz : isSmall TE = false := isSmall_false (by unfold small; rw [abs_of_pos hTE0]; exact hTE)
  obtain ⟨b', hb'⟩ := hf hz
  have e4' : g.zeroTE = false := by rw [e4, hz]
  have Il := isLeadLag_of hb
  have Ir := isReg_of hb'
  have ei : initGivenY g.filterB E = ({ g.filterB with x := E }, E / K) :=
    filter_init (T := TE) hTE0.ne' (by rw [abs_of_pos hTE0]; exact hTE') hK.ne' Ir.hA Ir.hB Ir.hC Ir.hD
  have el : initGivenY g.leadlag (E / K) =
      ({ g.leadlag with x := (1 - r * TB / TB) * (E / K) }, E / K) :=
    leadLag_init Il hTB.ne' (by rw [abs_of_pos hTB]; exact hTB') _
  have hEK : EMIN / K ≤ E / K ∧ E / K ≤ EMAX / K :=
    ⟨div_le_div_of_nonneg_right hlim.1 hK.le, div_le_div_of_nonneg_right hlim.2 hK.le⟩
  have hk0 : 0 ≤ 1 - r * TB / TB := by rw [mul_div_cancel_right₀ _ hTB.ne']; linarith
  obtain ⟨u, hu⟩ : ∃ u, u = E / K + (V0 - V) + (vs - vs0) := ⟨_, rfl⟩
  have hKu : K * u = E + K * ((V0 - V) + (vs - vs0)) := by rw [hu]; field_simp; ring
  rw [← hKu] at hlim' ⊢
  have hback : back g.zeroTE g.filterB E (min g.EMAX (max g.EMIN (E / g.K))) =
      ({ g.filterB with x := E }, E / K) := by rw [e4', ← ei]; rfl
  have hs : SexsLin (sexsStart g V0 vs0 E) r TB K EMAX EMIN TE (V0 + E / K - vs0) := by
    refine ⟨e4', ?_, ?_, ?_, ?_, ?_⟩
    · show V0 + (initGivenY g.leadlag (back g.zeroTE g.filterB E (min g.EMAX (max g.EMIN (E / g.K)))).2).2 - vs0 = _
      rw [hback, el]
    · show IsLeadLag (initGivenY g.leadlag
        (back g.zeroTE g.filterB E (min g.EMAX (max g.EMIN (E / g.K)))).2).1 _ _
      rw [hback, el]
      obtain ⟨a1, a2, a3, a4, a5, a6, a7⟩ := Il; exact ⟨a1, a2, a3, a4, a5, a6, a7⟩
    · show IsReg (back g.zeroTE g.filterB E (min g.EMAX (max g.EMIN (E / g.K)))).1 _ _ _ _
      rw [hback]
      obtain ⟨a1, a2, a3, a4, a5, a6, a7⟩ := Ir; exact ⟨a1, a2, a3, a4, a5, a6, a7⟩
    · have : (sexsStart g V0 vs0 E).leadlag.x = (1 - r * TB / TB) * (E / K) := by
        show (initGivenY g.leadlag
          (back g.zeroTE g.filterB E (min g.EMAX (max g.EMIN (E / g.K)))).2).1.x = _
        rw [hback, el]
      rw [this]
      exact ⟨mul_le_mul_of_nonneg_left hEK.1 hk0, mul_le_mul_of_nonneg_left hEK.2 hk0⟩
    · have : (sexsStart g V0 vs0 E).filterB.x = E := by
        show (back g.zeroTE g.filterB E (min g.EMAX (max g.EMIN (E / g.K)))).1.x = _
        rw [hback]
      rw [this]; exact hlim
  have hur : V0 + E / K - vs0 + vs - V = u := by rw [hu]; ring
  generalize sexsStart g V0 vs0 E = s0 at hs
  obtain ⟨f, hfd⟩ : ∃ f : Nat → Sexs, f = fun n => (sexsStep V vs dt)^[n] s0 := ⟨_, rfl⟩
  have hf1 : ∀ n, f (n + 1) = sexsStep V vs dt (f n) := by
    intro n; rw [hfd]; exact Function.iterate_succ_apply' _ _ _
  have step := fun (s : Sexs) (hI : SexsLin s r TB K EMAX EMIN TE (V0 + E / K - vs0)) =>
    sexs_exact hI hK hr0 hr1 hTB hTE0 hL hU hL' hU' hrB hrE dt hdt.le hdtB hdtE hur hlim'
  have hI : ∀ n, SexsLin (f n) r TB K EMAX EMIN TE (V0 + E / K - vs0) := by
    intro n
    induction n with
    | zero => rw [hfd]; exact hs
    | succ n ih => rw [hf1]; exact (step _ ih).1
  have rho : ∀ z : Real, 0 < z → z ≤ 1 → 0 ≤ 1 - z + z ^ 2 / 2 ∧ 1 - z + z ^ 2 / 2 < 1 := by
    intro z h0 h1
    constructor <;> nlinarith
  obtain ⟨r0, r1⟩ := rho _ (div_pos hdt hTB) ((div_le_one hTB).mpr hdtB)
  obtain ⟨s0', s1⟩ := rho _ (div_pos hdt hTE0) ((div_le_one hTE0).mpr hdtE)
  obtain ⟨t1, t2⟩ := cascade_tendsto (fun n => (f n).leadlag.x - (1 - r * TB / TB) * u)
    (fun n => (f n).filterB.x - K * u) _ _ _ r0 r1 s0' s1
    (fun n => by rw [hf1]; exact (step _ (hI n)).2.1)
    (fun n => by rw [hf1]; exact (step _ (hI n)).2.2.1)
  have hP : ∀ n, (f (n + 1)).Efd = K * u + ((1 - dt / TE) * ((f n).filterB.x - K * u) +
      dt / TE * K * ((f n).leadlag.x - (1 - r * TB / TB) * u)) := by
    intro n
    rw [hf1]
    have := (step _ (hI n)).2.2.2
    linarith
  have hgoal : Filter.Tendsto (fun n => (f n).Efd) Filter.atTop (nhds (K * u)) := by
    rw [← Filter.tendsto_add_atTop_iff_nat 1]
    simp only [hP]
    have hl : K * u = K * u + ((1 - dt / TE) * 0 + dt / TE * K * 0) := by ring
    rw [hl]
    have := ((t2.const_mul (1 - dt / TE)).add (t1.const_mul (dt / TE * K))).const_add (K * u)
    simpa using this
  rw [hfd] at hgoal
  exact hgoal

/-- Typical data: a drop of the terminal voltage by 0.02 at gain 100 raises the field voltage from 1 to 3. -/
example : ∃ (r TB K EMAX EMIN TE V0 vs0 E V vs dt : Real), 0 < K ∧ 0 ≤ r ∧ r ≤ 1 ∧ 0 < TB ∧ TB ≤ 10 ^ 10 ∧
    1 / 10 ^ 6 ≤ TE ∧ TE ≤ 10 ^ 10 ∧ (EMIN ≤ E ∧ E ≤ EMAX) ∧
    E + K * ((V0 - V) + (vs - vs0)) = 3 ∧ (3 : Real) ≤ EMAX ∧ EMIN ≤ 3 ∧ -1000 ≤ EMIN ∧ EMAX ≤ 1000 ∧
    -1000 ≤ EMIN / K ∧ EMAX / K ≤ 1000 ∧ EMAX / K - EMIN / K ≤ 1000 * TB ∧ EMAX - EMIN ≤ 1000 * TE ∧
    0 < dt ∧ dt ≤ TB ∧ dt ≤ TE := by
  refine ⟨1 / 10, 10, 100, 5, -5, 1 / 20, 1, 0, 1, 98 / 100, 0, 1 / 200, ?_⟩
  norm_num

end GridPACK.Exciters
