import Verif.Lemmas.GridForming

/-! Claims about the grid-forming inverter. -/
namespace GridPACK.GridForming
open GridPACK.Cblock GridPACK.Dblock
open GridPACK.Wind (Hold Armed hold_call)

theorem base_eq {r : Record} {vm : Real} (h : Usable r vm) : machineBase r = r.mbase := by
  unfold machineBase
  obtain ⟨_, h, _, _⟩ := h
  rw [if_neg]
  rw [not_lt, abs_of_nonneg (le_trans (by positivity) h)]
  exact h

theorem base_pos {r : Record} {vm : Real} (h : Usable r vm) : 0 < r.mbase / r.sbase :=
  div_pos (lt_of_lt_of_le (by positivity) h.2.1) h.1

theorem polar_norm (a t : Real) : ‖(⟨a * Real.cos t, a * Real.sin t⟩ : ℂ)‖ = |a| := by
  rw [Complex.norm_eq_sqrt_sq_add_sq]
  have : (a * Real.cos t) ^ 2 + (a * Real.sin t) ^ 2 = a ^ 2 * (Real.cos t ^ 2 + Real.sin t ^ 2) := by ring
  show Real.sqrt ((a * Real.cos t) ^ 2 + (a * Real.sin t) ^ 2) = |a|
  rw [this, Real.cos_sq_add_sin_sq, mul_one, Real.sqrt_sq_eq_abs]

theorem polar_self (e : ℂ) : (⟨‖e‖ * Real.cos e.arg, ‖e‖ * Real.sin e.arg⟩ : ℂ) = e := by
  rw [Complex.norm_mul_cos_arg, Complex.norm_mul_sin_arg]

theorem adm_eq (g : Gen) : admittance g = g.r.z⁻¹ * ((g.mbase / g.r.sbase : Real) : ℂ) := by
  apply Complex.ext
  · rw [Complex.re_mul_ofReal, Complex.inv_re, Complex.normSq_apply]
    rfl
  · rw [Complex.im_mul_ofReal, Complex.inv_im, Complex.normSq_apply]
    rfl

theorem fed_eq (g : Gen) (v : ℂ) :
    fed g v = (limitedI g ((g.E - g.V) / g.r.z) + (g.V - v) / g.r.z) * ((g.mbase / g.r.sbase : Real) : ℂ) := by
  unfold fed iNorton
  rw [adm_eq, Complex.ofReal_div]
  ring

theorem limited_below {g : Gen} {i : ℂ} (h : ‖i‖ ≤ g.r.imax) : limitedI g i = i := by
  unfold limitedI
  rw [if_neg (not_lt.mpr h)]

theorem limited_norm (g : Gen) (i : ℂ) (h : 0 ≤ g.r.imax) : ‖limitedI g i‖ ≤ g.r.imax := by
  unfold limitedI
  split_ifs with hi
  · rw [polar_norm, abs_of_nonneg h]
  · exact not_lt.mp hi

theorem volt_norm (vm va : Real) (h : 0 < vm) : ‖volt vm va‖ = vm := by
  unfold volt
  rw [polar_norm, abs_of_pos h]

theorem volt_ne (vm va : Real) (h : 0 < vm) : volt vm va ≠ 0 := by
  intro h0
  have := volt_norm vm va h
  rw [h0, norm_zero] at this
  linarith

/-! ### C319: start and rest -/

/-- What `init` leaves. -/
structure Good (r : Record) (vm va : Real) (g : Gen) : Prop where
  data : g.r = r
  mb : g.mbase = r.mbase
  V : g.V = volt vm va
  E : g.E = internal r vm va
  pg : g.pg = (machinePower r).re
  qg : g.qg = (machinePower r).im

theorem started {r : Record} {vm va : Real} {g : Gen} (hu : Usable r vm) (h : Started r vm va g) :
    Good r vm va g := by
  obtain ⟨raw, _, rfl⟩ := h
  have hb : (load raw r).mbase = r.mbase := base_eq hu
  refine ⟨rfl, hb, rfl, ?_, ?_, ?_⟩
  · show volt vm va + r.z * (starRingEnd ℂ) ((⟨r.pg * (r.sbase / (load raw r).mbase),
      r.qg * (r.sbase / (load raw r).mbase)⟩ : ℂ) / volt vm va) = _
    rw [hb]
    rfl
  · show r.pg * (r.sbase / (load raw r).mbase) = _
    rw [hb]
    rfl
  · show r.qg * (r.sbase / (load raw r).mbase) = _
    rw [hb]
    rfl

/-- The current of the power flow. -/
theorem start_current {r : Record} {vm : Real} (va : Real) (hu : Usable r vm) :
    (internal r vm va - volt vm va) / r.z = (starRingEnd ℂ) (machinePower r / volt vm va) ∧
    ‖(starRingEnd ℂ) (machinePower r / volt vm va)‖ = ‖machinePower r‖ / vm := by
  constructor
  · unfold internal
    rw [add_sub_cancel_left, mul_div_cancel_left₀ _ hu.2.2.1]
  · rw [RCLike.norm_conj, norm_div, volt_norm vm va hu.2.2.2]

theorem start_power {r : Record} {vm : Real} (va : Real) (hu : Usable r vm) :
    volt vm va * (starRingEnd ℂ) ((starRingEnd ℂ) (machinePower r / volt vm va)) = machinePower r := by
  rw [Complex.conj_conj, mul_div_cancel₀ _ (volt_ne vm va hu.2.2.2)]

theorem machine_scale {r : Record} {vm : Real} (hu : Usable r vm) :
    machinePower r * ((r.mbase / r.sbase : Real) : ℂ) = ⟨r.pg, r.qg⟩ := by
  have h1 : r.sbase ≠ 0 := ne_of_gt hu.1
  have h2 : r.mbase ≠ 0 := ne_of_gt (lt_of_lt_of_le (by positivity) hu.2.1)
  apply Complex.ext
  · rw [Complex.re_mul_ofReal]
    show r.pg * (r.sbase / r.mbase) * (r.mbase / r.sbase) = r.pg
    field_simp
  · rw [Complex.im_mul_ofReal]
    show r.qg * (r.sbase / r.mbase) * (r.mbase / r.sbase) = r.qg
    field_simp

theorem good_power {r : Record} {vm va : Real} {g : Gen} (hu : Usable r vm) (ha : AllowedCurrent r vm)
    (h1 : g.r = r) (h2 : g.mbase = r.mbase) (h3 : g.V = volt vm va) (h4 : g.E = internal r vm va) :
    fedPower g (volt vm va) = ⟨r.pg, r.qg⟩ := by
  obtain ⟨i1, i2⟩ := start_current va hu
  unfold fedPower
  rw [fed_eq, h3, h4, h1, i1, limited_below (by rw [i2, h1]; exact ha), sub_self, zero_div, add_zero, map_mul,
    Complex.conj_ofReal, h2, ← mul_assoc, start_power va hu, machine_scale hu]

/-- C319: with a current that is allowed the inverter starts with the power of the power flow. -/
theorem C319_start (r : Record) (vm va : Real) (g : Gen) (hu : Usable r vm) (ha : AllowedCurrent r vm)
    (hs : Started r vm va g) : fedPower g (volt vm va) = ⟨r.pg, r.qg⟩ := by
  have h := started hu hs
  exact good_power hu ha h.data h.mb h.V h.E

/-- The inverter at rest. -/
structure Rest (r : Record) (vm va : Real) (g : Gen) : Prop where
  data : g.r = r
  mb : g.mbase = r.mbase
  V : g.V = volt vm va
  E : g.E = internal r vm va
  vset : g.vset = (if r.noPi = true then ‖internal r vm va‖ else vm) + (machinePower r).im * r.mq
  pset : g.pset = (machinePower r).re
  pF : FHold g.pF (machinePower r).re
  qF : FHold g.qF (machinePower r).im
  vF : FHold g.vF vm
  qmaxB : Low g.qmaxB (r.qmax - (machinePower r).im)
  qminB : High g.qminB (r.qmin - (machinePower r).im)
  pmaxB : Low g.pmaxB (r.pmax - (machinePower r).re)
  pminB : High g.pminB (r.pmin - (machinePower r).re)
  dB : Hold g.dB 0 (internal r vm va).arg (internal r vm va).arg
  eB : r.noPi = false → EHold g.eB ‖internal r vm va‖

/-- After a predictor call at rest. -/
structure Ready (r : Record) (vm va : Real) (g : Gen) : Prop where
  pF : FArmed g.pF (machinePower r).re
  qF : FArmed g.qF (machinePower r).im
  vF : FArmed g.vF vm
  qmaxB : LowArmed g.qmaxB
  qminB : HighArmed g.qminB
  pmaxB : LowArmed g.pmaxB
  pminB : HighArmed g.pminB
  dB : Armed g.dB (internal r vm va).arg
  eB : r.noPi = false → EArmed g.eB ‖internal r vm va‖

theorem arg_bound (e : ℂ) : |e.arg| ≤ 1000 :=
  le_trans (Complex.abs_arg_le_pi e) (le_trans Real.pi_le_four (by norm_num))

theorem rest_start {r : Record} {vm va : Real} {g : Gen} (hu : Usable r vm) (hi : Inside r vm va)
    (hk : Controls r) (hs : Started r vm va g) : Rest r vm va g := by
  have hg := started hu hs
  obtain ⟨raw, hc, rfl⟩ := hs
  have hb : (load raw r).mbase = r.mbase := base_eq hu
  obtain ⟨_, _, _, _, b5, p1, p2, p3, q1, q2, q3⟩ := hi
  obtain ⟨k1, k2, k3, k4, t1, t2, t3⟩ := hk
  have hp : (init (load raw r) vm va).pg = (machinePower r).re := hg.pg
  have hq : (init (load raw r) vm va).qg = (machinePower r).im := hg.qg
  have he : (init (load raw r) vm va).E = internal r vm va := hg.E
  refine ⟨hg.data, hg.mb, hg.V, hg.E, ?_, hp, ?_, ?_, ?_, ?_, ?_, ?_, ?_, ?_, ?_⟩
  · show (if r.noPi = true then ‖(init (load raw r) vm va).E‖ else
      (initGivenY ((piControl raw r.kpv r.kiv).getD raw) ‖(init (load raw r) vm va).E‖).2 + vm) +
      (init (load raw r) vm va).qg * r.mq = _
    rw [hq, he, (pi_e _).1, zero_add]
  · show FHold (initFilter (mkFilter raw r.tpf) (init (load raw r) vm va).pg) _
    rw [hp]
    exact f_init t1 p3
  · show FHold (initFilter (mkFilter raw r.tqf) (init (load raw r) vm va).qg) _
    rw [hq]
    exact f_init t2 q3
  · show FHold (initFilter (mkFilter raw r.tvf) vm) _
    exact f_init t3 (abs_le.mpr ⟨by linarith [hu.2.2.2], b5⟩)
  · exact pi_low k3 k4 (by linarith)
  · exact pi_high k3 k4 (by linarith)
  · exact pi_low k1 k2 (by linarith)
  · exact pi_high k1 k2 (by linarith)
  · show Hold (initGivenY ((integrator raw 1).getD raw) (init (load raw r) vm va).E.arg).1 0 _ _
    rw [he]
    exact delta_hold hc (arg_bound _)
  · intro hn
    show EHold (if r.noPi = true then _ else
      (initGivenY ((piControl raw r.kpv r.kiv).getD raw) ‖(init (load raw r) vm va).E‖).1) _
    rw [if_neg (by rw [hn]; exact Bool.false_ne_true), he]
    exact (pi_e _).2

theorem norton_rest {r : Record} {vm va : Real} {g : Gen} (hu : Usable r vm) (ha : AllowedCurrent r vm)
    (h : Rest r vm va g) :
    setVoltage (afterNorton g) (volt vm va) =
      { g with I := (starRingEnd ℂ) (machinePower r / volt vm va), eMax := r.emax, eMin := r.emin } := by
  obtain ⟨i1, i2⟩ := start_current va hu
  have hi : (g.E - g.V) / g.r.z = (starRingEnd ℂ) (machinePower r / volt vm va) := by
    rw [h.E, h.V, h.data, i1]
  have hn : ‖(starRingEnd ℂ) (machinePower r / volt vm va)‖ ≤ g.r.imax := by rw [i2, h.data]; exact ha
  unfold afterNorton
  simp only [hi]
  rw [if_neg (not_lt.mpr hn), limited_below hn, h.data]
  unfold setVoltage
  rw [← h.V]

/-- The result of the voltage controller at rest. -/
noncomputable def restE (r : Record) (vm va dt : Real) (s : Stage) (g : Gen) : Block × Real :=
  getoutputLim g.eB ((if r.noPi = true then ‖internal r vm va‖ else vm) - vm) dt (-1000) 1000 r.emin r.emax s true

noncomputable def restD (r : Record) (vm va dt : Real) (s : Stage) (g : Gen) : Real :=
  if r.noPi = true then clamp r.emin r.emax (1 * (if r.noPi = true then ‖internal r vm va‖ else vm))
  else (restE r vm va dt s g).2

/-- The result of a call at rest. -/
noncomputable def restCall (r : Record) (vm va dt : Real) (s : Stage) (g : Gen) : Gen :=
  { g with
    I := (starRingEnd ℂ) (machinePower r / volt vm va), eMax := r.emax, eMin := r.emin,
    pg := (machinePower r).re, qg := (machinePower r).im,
    pF := (useFilter g.pF (machinePower r).re dt s).1,
    qF := (useFilter g.qF (machinePower r).im dt s).1,
    vF := (useFilter g.vF vm dt s).1,
    qmaxB := (getoutput g.qmaxB (r.qmax - (machinePower r).im) dt s true).1,
    qminB := (getoutput g.qminB (r.qmin - (machinePower r).im) dt s true).1,
    eB := if r.noPi = true then g.eB else (restE r vm va dt s g).1,
    edroop := restD r vm va dt s g,
    pmaxB := (getoutput g.pmaxB (r.pmax - (machinePower r).re) dt s true).1,
    pminB := (getoutput g.pminB (r.pmin - (machinePower r).re) dt s true).1,
    omega := omega0 + 0,
    dB := (getoutput g.dB 0 dt s true).1,
    delta := (internal r vm va).arg,
    E := ⟨restD r vm va dt s g * Real.cos (internal r vm va).arg,
          restD r vm va dt s g * Real.sin (internal r vm va).arg⟩ }

theorem rest_call {r : Record} {vm va dt : Real} {g : Gen} (s : Stage) (hu : Usable r vm) (hi : Inside r vm va)
    (hdt : 0 ≤ dt) (h : Rest r vm va g) (ha : s = .corrector → Ready r vm va g) :
    Rest r vm va (call (setVoltage (afterNorton g) (volt vm va)) dt s) ∧
    (s = .predictor → Ready r vm va (call (setVoltage (afterNorton g) (volt vm va)) dt s)) ∧
    (call (setVoltage (afterNorton g) (volt vm va)) dt s).omega = omega0 ∧
    (call (setVoltage (afterNorton g) (volt vm va)) dt s).pg = (machinePower r).re ∧
    (call (setVoltage (afterNorton g) (volt vm va)) dt s).qg = (machinePower r).im := by
  rw [norton_rest hu hi.1 h]
  obtain ⟨_, e1, e2, e3, _, _, _, _, _, _, _⟩ := hi
  have hS : g.V * (starRingEnd ℂ) ((starRingEnd ℂ) (machinePower r / volt vm va)) = machinePower r := by
    rw [h.V, start_power va hu]
  have hV : ‖g.V‖ = vm := by rw [h.V, volt_norm vm va hu.2.2.2]
  obtain ⟨fp1, fp2, fp3⟩ := f_call dt s h.pF (fun hs => (ha hs).pF)
  obtain ⟨fq1, fq2, fq3⟩ := f_call dt s h.qF (fun hs => (ha hs).qF)
  obtain ⟨fv1, fv2, fv3⟩ := f_call dt s h.vF (fun hs => (ha hs).vF)
  obtain ⟨a1, a2, a3⟩ := low_call s h.qmaxB hdt (fun hs => (ha hs).qmaxB)
  obtain ⟨b1, b2, b3⟩ := high_call s h.qminB hdt (fun hs => (ha hs).qminB)
  obtain ⟨c1, c2, c3⟩ := low_call s h.pmaxB hdt (fun hs => (ha hs).pmaxB)
  obtain ⟨d1, d2, d3⟩ := high_call s h.pminB hdt (fun hs => (ha hs).pminB)
  obtain ⟨w1, w2, w3⟩ := hold_call dt s h.dB (fun hs => (ha hs).dB)
  have hk : omega0 * (r.mp * ((machinePower r).re - (machinePower r).re) + 0 + 0) = 0 := by ring
  have hvr : (if r.noPi = true then ‖internal r vm va‖ else vm) + (machinePower r).im * r.mq -
      (machinePower r).im * r.mq + 0 + 0 = if r.noPi = true then ‖internal r vm va‖ else vm := by ring
  have habs : |‖internal r vm va‖| ≤ 1000 := by rw [abs_of_nonneg (norm_nonneg _)]; exact e3
  have hcall : call { g with I := (starRingEnd ℂ) (machinePower r / volt vm va), eMax := r.emax, eMin := r.emin }
      dt s = restCall r vm va dt s g := by
    unfold call restCall restD restE
    simp only [hS, hV, fp3, fq3, fv3, h.data, h.vset, h.pset, a3, b3, c3, d3, hk, hvr, w3]
  rw [hcall]
  cases hn : r.noPi with
  | true =>
    have hD : restD r vm va dt s g = ‖internal r vm va‖ := by
      unfold restD
      rw [if_pos hn, if_pos hn, one_mul, clamp_of_mem _ _ _ e1 e2]
    refine ⟨⟨h.data, h.mb, h.V, ?_, h.vset, h.pset, fp1, fq1, fv1, a1, b1, c1, d1, w1, ?_⟩, fun hs =>
      ⟨fp2 hs, fq2 hs, fv2 hs, a2 hs, b2 hs, c2 hs, d2 hs, w2 hs, ?_⟩, add_zero _, rfl, rfl⟩
    · show (⟨restD r vm va dt s g * Real.cos (internal r vm va).arg,
        restD r vm va dt s g * Real.sin (internal r vm va).arg⟩ : ℂ) = _
      rw [hD]
      exact polar_self _
    · intro h
      rw [hn] at h
      cases h
    · intro h
      rw [hn] at h
      cases h
  | false =>
    obtain ⟨x1, x2, x3⟩ := e_call dt s (h.eB hn) e1 e2 habs (fun hs => (ha hs).eB hn)
    have hn' : ¬ r.noPi = true := by rw [hn]; exact Bool.false_ne_true
    have hR : restE r vm va dt s g = getoutputLim g.eB 0 dt (-1000) 1000 r.emin r.emax s true := by
      unfold restE
      rw [if_neg hn', sub_self]
    have hD : restD r vm va dt s g = ‖internal r vm va‖ := by
      unfold restD
      rw [if_neg hn', hR, x3]
    have hB : (restCall r vm va dt s g).eB = (getoutputLim g.eB 0 dt (-1000) 1000 r.emin r.emax s true).1 := by
      show (if r.noPi = true then g.eB else (restE r vm va dt s g).1) = _
      rw [if_neg hn', hR]
    refine ⟨⟨h.data, h.mb, h.V, ?_, h.vset, h.pset, fp1, fq1, fv1, a1, b1, c1, d1, w1, ?_⟩, fun hs =>
      ⟨fp2 hs, fq2 hs, fv2 hs, a2 hs, b2 hs, c2 hs, d2 hs, w2 hs, ?_⟩, add_zero _, rfl, rfl⟩
    · show (⟨restD r vm va dt s g * Real.cos (internal r vm va).arg,
        restD r vm va dt s g * Real.sin (internal r vm va).arg⟩ : ℂ) = _
      rw [hD]
      exact polar_self _
    · intro _
      rw [hB]
      exact x1
    · intro _
      rw [hB]
      exact x2 hs

theorem rest_run {r : Record} {vm va dt : Real} (hu : Usable r vm) (hi : Inside r vm va) (hdt : 0 ≤ dt)
    (n : Nat) : ∀ g, Rest r vm va g →
    Rest r vm va (run dt g (List.replicate n (volt vm va, volt vm va))) ∧
    (0 < n → (run dt g (List.replicate n (volt vm va, volt vm va))).omega = omega0 ∧
      (run dt g (List.replicate n (volt vm va, volt vm va))).pg = (machinePower r).re ∧
      (run dt g (List.replicate n (volt vm va, volt vm va))).qg = (machinePower r).im) := by
  induction n with
  | zero => exact fun g h => ⟨h, fun h => absurd h (lt_irrefl _)⟩
  | succ n ih =>
    intro g h
    obtain ⟨p1, p2, _, _, _⟩ := rest_call .predictor hu hi hdt h (fun h => Stage.noConfusion h)
    obtain ⟨c1, _, c3, c4, c5⟩ := rest_call .corrector hu hi hdt p1 (fun _ => by
      exact p2 rfl)
    obtain ⟨i1, i2⟩ := ih _ c1
    refine ⟨i1, fun _ => ?_⟩
    cases n with
    | zero => exact ⟨c3, c4, c5⟩
    | succ n => exact i2 (Nat.succ_pos n)

/-- C319: at an operating point inside its limits the inverter keeps feeding the power of the power flow,
reports it, and keeps the frequency, for as many steps as one likes. -/
theorem C319_flat (r : Record) (vm va dt : Real) (g : Gen) (n : Nat) (hu : Usable r vm) (hi : Inside r vm va)
    (hk : Controls r) (hdt : 0 ≤ dt) (hs : Started r vm va g) :
    fedPower (run dt g (List.replicate n (volt vm va, volt vm va))) (volt vm va) = ⟨r.pg, r.qg⟩ ∧
    (0 < n → reported (run dt g (List.replicate n (volt vm va, volt vm va))) = (r.pg, r.qg) ∧
      (run dt g (List.replicate n (volt vm va, volt vm va))).omega = omega0) := by
  obtain ⟨h, h2⟩ := rest_run hu hi hdt n g (rest_start hu hi hk hs)
  refine ⟨good_power hu hi.1 h.data h.mb h.V h.E, fun hn => ?_⟩
  obtain ⟨o, p, q⟩ := h2 hn
  refine ⟨?_, o⟩
  have hm := machine_scale hu
  unfold reported
  rw [p, q, h.mb, h.data]
  have m1 := congrArg Complex.re hm
  have m2 := congrArg Complex.im hm
  rw [Complex.re_mul_ofReal] at m1
  rw [Complex.im_mul_ofReal] at m2
  rw [mul_div_assoc, mul_div_assoc, m1, m2]

/-! ### C320: limit of the current -/

/-- C320, the part that holds: if the solution of the network is the voltage the inverter saw, its current
respects the limit; a current below the limit is not touched. -/
theorem C320_limit_partial (g : Gen) (hb : 0 < g.mbase / g.r.sbase) (hi : 0 ≤ g.r.imax) :
    ‖fed g g.V‖ ≤ g.r.imax * (g.mbase / g.r.sbase) ∧
    (‖(g.E - g.V) / g.r.z‖ ≤ g.r.imax →
      fed g g.V = (g.E - g.V) / g.r.z * ((g.mbase / g.r.sbase : Real) : ℂ)) := by
  rw [fed_eq, sub_self, zero_div, add_zero]
  refine ⟨?_, fun h => by rw [limited_below h]⟩
  rw [norm_mul, Complex.norm_real, Real.norm_of_nonneg hb.le]
  exact mul_le_mul_of_nonneg_right (limited_norm g _ hi) hb.le

/-- C320 is violated: whatever the limit, an inverter that starts below it exceeds it as soon as the solution of
the network is a voltage that asks for more. -/
theorem C320_limit_violated (r : Record) (vm va : Real) (g : Gen) (v : ℂ) (hu : Usable r vm)
    (ha : AllowedCurrent r vm) (hs : Started r vm va g) (hv : r.imax < ‖(internal r vm va - v) / r.z‖) :
    r.imax * (r.mbase / r.sbase) < ‖fed g v‖ := by
  have h := started hu hs
  obtain ⟨i1, i2⟩ := start_current va hu
  have hp := base_pos hu
  rw [fed_eq, h.E, h.V, h.data, h.mb, i1, limited_below (by rw [i2, h.data]; exact ha), ← i1, ← add_div,
    sub_add_sub_cancel, norm_mul, Complex.norm_real, Real.norm_of_nonneg hp.le]
  exact mul_lt_mul_of_pos_right hv hp

/-! ### C157, C158 for the grid-forming inverter -/

/-- The report after a call against the power fed in. -/
theorem report_eq (g : Gen) (v : ℂ) (dt : Real) (s : Stage) :
    (⟨(reported (call (setVoltage (afterNorton g) v) dt s)).1,
      (reported (call (setVoltage (afterNorton g) v) dt s)).2⟩ : ℂ) =
    fedPower g v + v * (starRingEnd ℂ) ((v - g.V) / g.r.z * ((g.mbase / g.r.sbase : Real) : ℂ)) := by
  have hI : (afterNorton g).I = limitedI g ((g.E - g.V) / g.r.z) := by
    unfold afterNorton
    simp only
    split_ifs <;> rfl
  have hm : (afterNorton g).mbase = g.mbase := by
    unfold afterNorton
    simp only
    split_ifs <;> rfl
  have hr : (afterNorton g).r = g.r := by
    unfold afterNorton
    simp only
    split_ifs <;> rfl
  have e : fedPower g v + v * (starRingEnd ℂ) ((v - g.V) / g.r.z * ((g.mbase / g.r.sbase : Real) : ℂ)) =
      v * (starRingEnd ℂ) (limitedI g ((g.E - g.V) / g.r.z)) * ((g.mbase / g.r.sbase : Real) : ℂ) := by
    unfold fedPower
    rw [fed_eq, ← mul_add, ← map_add, ← add_mul]
    have : limitedI g ((g.E - g.V) / g.r.z) + (g.V - v) / g.r.z + (v - g.V) / g.r.z =
        limitedI g ((g.E - g.V) / g.r.z) := by ring
    rw [this, map_mul, Complex.conj_ofReal, mul_assoc]
  rw [e]
  apply Complex.ext
  · rw [Complex.re_mul_ofReal]
    show (v * (starRingEnd ℂ) (afterNorton g).I).re * (afterNorton g).mbase / (afterNorton g).r.sbase = _
    rw [hI, hm, hr, mul_div_assoc]
  · rw [Complex.im_mul_ofReal]
    show (v * (starRingEnd ℂ) (afterNorton g).I).im * (afterNorton g).mbase / (afterNorton g).r.sbase = _
    rw [hI, hm, hr, mul_div_assoc]

/-- C157, the part that holds for the grid-forming inverter: as long as the voltage does not change the report
is the power fed in. -/
theorem C157_gridforming_partial (g : Gen) (dt : Real) (s : Stage) :
    (⟨(reported (call (setVoltage (afterNorton g) g.V) dt s)).1,
      (reported (call (setVoltage (afterNorton g) g.V) dt s)).2⟩ : ℂ) = fedPower g g.V := by
  rw [report_eq, sub_self, zero_div, zero_mul, map_zero, mul_zero, add_zero]

/-- C157 is violated: after every change of the voltage the report differs from the power fed in. -/
theorem C157_gridforming_violated (g : Gen) (v : ℂ) (dt : Real) (s : Stage) (hz : g.r.z ≠ 0)
    (hb : g.mbase / g.r.sbase ≠ 0) (hv : v ≠ 0) (hd : v ≠ g.V) :
    (⟨(reported (call (setVoltage (afterNorton g) v) dt s)).1,
      (reported (call (setVoltage (afterNorton g) v) dt s)).2⟩ : ℂ) ≠ fedPower g v := by
  rw [report_eq]
  intro h
  have h0 := left_eq_add.mp h.symm
  rcases mul_eq_zero.mp h0 with h0 | h0
  · exact hv h0
  · rw [map_eq_zero] at h0
    rcases mul_eq_zero.mp h0 with h0 | h0
    · rcases div_eq_zero_iff.mp h0 with h0 | h0
      · exact hd (sub_eq_zero.mp h0)
      · exact hz h0
    · exact hb (Complex.ofReal_eq_zero.mp h0)

/-- C158 is violated: a tripped grid-forming inverter feeds the current it fed before, at every voltage and in
every state; right after the start this is the power of the power flow. -/
theorem C158_gridforming_violated (g : Gen) (v : ℂ) :
    fed (trip g) v = fed g v ∧
    (∀ r vm va, Usable r vm → AllowedCurrent r vm → Started r vm va g → (⟨r.pg, r.qg⟩ : ℂ) ≠ 0 →
      fed (trip g) (volt vm va) ≠ 0) := by
  refine ⟨rfl, fun r vm va hu ha hs hp h0 => hp ?_⟩
  have h := C319_start r vm va g hu ha hs
  unfold fedPower at h
  have h1 : fed g (volt vm va) = 0 := h0
  rw [h1, map_zero, mul_zero] at h
  exact h.symm

/-! ### Examples -/

/-- An inverter of the parameters that `load` assumes, with half its power. -/
noncomputable def demo : Record :=
  ⟨100, 100, 1 / 2, 0, ⟨0, 1 / 10⟩, 1 / 20, 0, 6, 4, 1 / 20, 1 / 5, 1, 0, 2, 0, 1 / 60, 1, 1, -1, 1 / 10, 10,
   1 / 60, 1 / 60, true⟩

theorem demo_power : machinePower demo = ((1 / 2 : Real) : ℂ) := by
  apply Complex.ext
  · show (1 / 2 : Real) * (100 / 100) = 1 / 2
    norm_num
  · show (0 : Real) * (100 / 100) = 0
    norm_num

theorem demo_z : demo.z = ((1 / 10 : Real) : ℂ) * Complex.I := by
  apply Complex.ext <;> simp [demo]

theorem demo_usable : Usable demo 1 := by
  refine ⟨?_, ?_, ?_, one_pos⟩
  · show (0 : Real) < 100
    norm_num
  · show (1 / 10 ^ 6 : Real) ≤ 100
    norm_num
  · rw [demo_z]
    simp

theorem demo_allowed : AllowedCurrent demo 1 := by
  unfold AllowedCurrent
  rw [demo_power, Complex.norm_real, Real.norm_of_nonneg (by norm_num)]
  show (1 / 2 : Real) / 1 ≤ 1
  norm_num

theorem demo_internal : ‖internal demo 1 0‖ ≤ 2 := by
  unfold internal
  refine le_trans (norm_add_le _ _) ?_
  rw [norm_mul, RCLike.norm_conj, norm_div, volt_norm 1 0 one_pos, demo_power, demo_z, norm_mul, Complex.norm_I,
    Complex.norm_real, Complex.norm_real, Real.norm_of_nonneg (by norm_num), Real.norm_of_nonneg (by norm_num)]
  norm_num

theorem demo_inside : Inside demo 1 0 := by
  have h := demo_internal
  refine ⟨demo_allowed, norm_nonneg _, h, h.trans (by norm_num), by norm_num, ?_⟩
  rw [demo_power, Complex.ofReal_re, Complex.ofReal_im]
  show (0 : Real) ≤ 1 / 2 ∧ (1 / 2 : Real) ≤ 1 ∧ |(1 / 2 : Real)| ≤ 1000 ∧ (-1 : Real) ≤ 0 ∧ (0 : Real) ≤ 1 ∧
    |(0 : Real)| ≤ 1000
  refine ⟨by norm_num, by norm_num, ?_, by norm_num, by norm_num, ?_⟩
  · rw [abs_of_nonneg (by norm_num)]
    norm_num
  · rw [abs_zero]
    norm_num

theorem demo_controls : Controls demo := by
  have h : UsableT (1 / 60) := Or.inr ⟨by norm_num, by norm_num⟩
  refine ⟨?_, ?_, ?_, ?_, h, h, h⟩
  · show (0 : Real) ≤ 1 / 20
    norm_num
  · show (0 : Real) ≤ 1 / 5
    norm_num
  · show (0 : Real) ≤ 1 / 10
    norm_num
  · show (0 : Real) ≤ 10
    norm_num

/-- A constructed block. -/
noncomputable def rawBlock : Block := ⟨0, 0, 0, 0, 0, 0, 1000, -1000, 1000, -1000, 1000, -1000, .predictor, 0⟩

theorem raw_ok : Constructed rawBlock := ⟨rfl, rfl, rfl, rfl, rfl, rfl, rfl⟩

example (n : Nat) : fedPower (run (1 / 100) (init (load rawBlock demo) 1 0)
    (List.replicate n (volt 1 0, volt 1 0))) (volt 1 0) = ⟨1 / 2, 0⟩ :=
  (C319_flat demo 1 0 (1 / 100) _ n demo_usable demo_inside demo_controls (by norm_num) ⟨_, raw_ok, rfl⟩).1

/-- A short circuit at the inverter: the current exceeds its limit. -/
example : 1 * (100 / 100) < ‖fed (init (load rawBlock demo) 1 0) 0‖ := by
  refine C320_limit_violated demo 1 0 _ 0 demo_usable demo_allowed ⟨_, raw_ok, rfl⟩ ?_
  have h : ‖volt 1 0‖ - ‖demo.z * (starRingEnd ℂ) (machinePower demo / volt 1 0)‖ ≤ ‖internal demo 1 0‖ := by
    unfold internal
    have := norm_sub_le (volt 1 0 + demo.z * (starRingEnd ℂ) (machinePower demo / volt 1 0))
      (demo.z * (starRingEnd ℂ) (machinePower demo / volt 1 0))
    rw [add_sub_cancel_right] at this
    linarith
  have hz : ‖demo.z‖ = 1 / 10 := by
    rw [demo_z, norm_mul, Complex.norm_I, Complex.norm_real, Real.norm_of_nonneg (by norm_num), mul_one]
  rw [norm_mul, RCLike.norm_conj, norm_div, volt_norm 1 0 one_pos, demo_power, hz, Complex.norm_real,
    Real.norm_of_nonneg (by norm_num)] at h
  rw [sub_zero, norm_div, hz]
  show (1 : Real) < _
  rw [lt_div_iff₀ (by norm_num)]
  linarith

example : ‖fed (init (load rawBlock demo) 1 0) (init (load rawBlock demo) 1 0).V‖ ≤
    demo.imax * ((init (load rawBlock demo) 1 0).mbase / demo.sbase) := by
  refine (C320_limit_partial (init (load rawBlock demo) 1 0) ?_ ?_).1
  · show 0 < machineBase demo / demo.sbase
    rw [base_eq demo_usable]
    exact base_pos demo_usable
  · show (0 : Real) ≤ 1
    norm_num

/-- The tripped inverter. -/
example : fed (trip (init (load rawBlock demo) 1 0)) (volt 1 0) ≠ 0 := by
  refine (C158_gridforming_violated _ 0).2 demo 1 0 demo_usable demo_allowed ⟨_, raw_ok, rfl⟩ ?_
  intro h
  have := congrArg Complex.re h
  simp [demo] at this

/-- A step from the voltage 1 to the voltage 2. -/
example (dt : Real) (s : Stage) :
    (⟨(reported (call (setVoltage (afterNorton (init (load rawBlock demo) 1 0)) 2) dt s)).1,
      (reported (call (setVoltage (afterNorton (init (load rawBlock demo) 1 0)) 2) dt s)).2⟩ : ℂ) ≠
    fedPower (init (load rawBlock demo) 1 0) 2 := by
  refine C157_gridforming_violated _ 2 dt s demo_usable.2.2.1 ?_ two_ne_zero ?_
  · show machineBase demo / demo.sbase ≠ 0
    rw [base_eq demo_usable]
    exact ne_of_gt (base_pos demo_usable)
  · intro h
    have h2 : ‖(2 : ℂ)‖ = ‖volt 1 0‖ := congrArg norm h
    rw [volt_norm 1 0 one_pos] at h2
    norm_num at h2

end GridPACK.GridForming
