import Verif.Lemmas.CblockOpt
import Mathlib.Tactic.NormNum
import Mathlib.Tactic.Linarith

/-! Properties C119 (flat start of exciters) and C120 (limits of the field voltage). -/
namespace GridPACK.Exciters
open GridPACK.Cblock

/-- One call of an exciter by its generator: terminal voltage, stabiliser signal, then predictor or
corrector. -/
noncomputable def sexsCall (g : Sexs) (i : Real × Real) (dt : Real) (s : Stage) : Sexs :=
  ((g.setVterminal i.1).setVstab i.2).compute dt s

noncomputable def exdc1Call (g : Exdc1) (i : Real × Real) (dt : Real) (s : Stage) : Exdc1 :=
  ((g.setVterminal i.1).setVstab i.2).compute dt s

noncomputable def ieeet1Call (g : Exdc1) (i : Real × Real) (dt : Real) (s : Stage) : Exdc1 :=
  ieeet1Compute ((g.setVterminal i.1).setVstab i.2) dt s

/-- Initialisation by the generator: terminal voltage, stabiliser signal, field voltage, `init`. -/
noncomputable def sexsStart (g : Sexs) (V vs E : Real) : Sexs :=
  (((g.setVterminal V).setVstab vs).setFieldVoltage E).init V

noncomputable def exdc1Start (g : Exdc1) (V vs E : Real) : Exdc1 :=
  (((g.setVterminal V).setVstab vs).setFieldVoltage E).init

noncomputable def ieeet1Start (g : Exdc1) (V vs E : Real) : Exdc1 :=
  ieeet1Init (((g.setVterminal V).setVstab vs).setFieldVoltage E)

/-! ### SEXS -/

theorem sexs_load (g0 : Sexs) (r TB K EMAX EMIN TE : Real) (hTB : TB ≠ 0) :
    ∃ g, g0.load ⟨some r, some TB, some K, some EMAX, some EMIN, some TE⟩ = some g ∧
      g.K = K ∧ g.EMAX = EMAX ∧ g.EMIN = EMIN ∧ g.zeroTE = isSmall TE ∧
      (∃ b, leadLag b (r * TB) TB = some g.leadlag) ∧
      (isSmall TE = false → ∃ b, withLimits (filter b K TE) EMIN EMAX (-1000) 1000 = some g.filterB) ∧
      (isSmall TE = true → ∃ b, g.gain = setGain b K EMIN EMAX) := by
  obtain ⟨l, hl⟩ := leadLag_exists g0.leadlag (TA := r * TB) hTB
  cases hz : isSmall TE
  · obtain ⟨f, hf⟩ := regulator_exists g0.filterB (K := K) (L := EMIN) (U := EMAX) (ne_zero_of_isSmall hz)
    refine ⟨{ g0 with TA := r * TB, TB := TB, K := K, EMAX := EMAX, EMIN := EMIN, TE := TE, leadlag := l,
                      zeroTE := false, filterB := f, gain := g0.gain, Vs := 0 }, ?_, rfl, rfl, rfl, rfl,
      ⟨_, hl⟩, fun _ => ⟨_, hf⟩, by simp⟩
    simp [Sexs.load, hl, hz, optional, hf]
  · refine ⟨{ g0 with TA := r * TB, TB := TB, K := K, EMAX := EMAX, EMIN := EMIN, TE := TE, leadlag := l,
                      zeroTE := true, filterB := g0.filterB, gain := setGain g0.gain K EMIN EMAX, Vs := 0 },
      ?_, rfl, rfl, rfl, rfl, ⟨_, hl⟩, by simp, fun _ => ⟨_, rfl⟩⟩
    simp [Sexs.load, hl, hz, optional]

/-- SEXS at rest: `u` is the common value of input and output of the lead-lag block. -/
structure SexsRest (st : Stage) (g : Sexs) (V vs E u : Real) : Prop where
  ref : g.Vref + vs - V = u
  lead : Ready st g.leadlag u u
  out : ReadyOpt g.zeroTE st g.filterB u E (g.gain.output u)

theorem sexs_rest_step {st : Stage} {g : Sexs} {V vs E u : Real} (h : SexsRest st g V vs E u) (dt : Real) :
    (sexsCall g (V, vs) dt st).Efd = E ∧ ∀ st', SexsRest st' (sexsCall g (V, vs) dt st) V vs E u := by
  obtain ⟨p1, p2⟩ := ready_step h.lead dt
  obtain ⟨q1, q2⟩ := pass_step h.out dt
  have el : getoutput g.leadlag (g.Vref + vs - V) dt st true = getoutput g.leadlag u dt st true := by
    rw [h.ref]
  refine ⟨?_, fun st' => ⟨h.ref, ?_, ?_⟩⟩
  · show (pass g.zeroTE g.filterB (getoutput g.leadlag (g.Vref + vs - V) dt st true).2
      (g.gain.output (getoutput g.leadlag (g.Vref + vs - V) dt st true).2) dt st).2 = E
    rw [el, p1]; exact q1
  · show Ready st' (getoutput g.leadlag (g.Vref + vs - V) dt st true).1 u u
    rw [el]; exact ready_of_held p2
  · show ReadyOpt g.zeroTE st' (pass g.zeroTE g.filterB (getoutput g.leadlag (g.Vref + vs - V) dt st true).2
      (g.gain.output (getoutput g.leadlag (g.Vref + vs - V) dt st true).2) dt st).1 u E (g.gain.output u)
    rw [el, p1]; exact q2 st'

/-- C119 for SEXS.  Loaded with any parameters (non-zero `TB`, `K`), initialised with a field voltage inside
its limits at any terminal voltage and stabiliser signal, and then run with these inputs, the exciter
reports exactly this field voltage after every call.  Partial: without a lag (`|TE| < 1e-6`) also `E / K`
has to lie inside the limits (`C119_sexs_violated`); the built-in limits of ±1000 and the threshold 1e-10
of the blocks appear as hypotheses. -/
theorem C119_sexs_partial (g0 : Sexs) (r TB K EMAX EMIN TE V vs E : Real) (hTB : TB ≠ 0) (hK : K ≠ 0)
    (hlim : EMIN ≤ E ∧ E ≤ EMAX) (hz : |TE| < 1 / 10 ^ 6 → EMIN ≤ E / K ∧ E / K ≤ EMAX)
    (hTB' : |TB| ≤ 10 ^ 10) (hTE' : |TE| ≤ 10 ^ 10) (hE : |E| ≤ 1000) (hu : |E / K| ≤ 1000)
    (hx : |(1 - r) * (E / K)| ≤ 1000) :
    ∃ g, g0.load ⟨some r, some TB, some K, some EMAX, some EMIN, some TE⟩ = some g ∧
      ∀ dts, ∀ v ∈ trace sexsCall Sexs.Efd (sexsStart g V vs E) (constant (V, vs) dts), v = E := by
  obtain ⟨g, hg, e1, e2, e3, e4, ⟨b, hb⟩, hf, hgn⟩ := sexs_load g0 r TB K EMAX EMIN TE hTB
  refine ⟨g, hg, fun dts => ?_⟩
  have hr : r * TB / TB = r := mul_div_cancel_right₀ r hTB
  obtain ⟨l1, l2⟩ := lead_rest hb hTB' hu (by rw [hr]; exact hx)
  -- the output block delivers `E` for `E / K`
  have hout : (back g.zeroTE g.filterB E (min g.EMAX (max g.EMIN (E / g.K)))).2 = E / K ∧
      ReadyOpt g.zeroTE .predictor (back g.zeroTE g.filterB E (min g.EMAX (max g.EMIN (E / g.K)))).1 (E / K) E
        (g.gain.output (E / K)) := by
    rw [e4]
    cases h : isSmall TE
    · obtain ⟨b', hb'⟩ := hf h
      exact regulator_rest hb' hTE' hK hlim hE
    · obtain ⟨b', hb'⟩ := hgn h
      have hs : |TE| < 1 / 10 ^ 6 := by
        by_contra hc
        rw [isSmall_false (by unfold small; exact not_lt.mp hc)] at h
        cases h
      refine ⟨?_, ?_⟩
      · show min g.EMAX (max g.EMIN (E / g.K)) = E / K
        rw [e1, e2, e3, max_eq_right (hz hs).1, min_eq_right (hz hs).2]
      · show g.gain.output (E / K) = E
        rw [hb']; exact gain_rest hK hlim
  apply trace_const sexsCall Sexs.Efd (fun st g => SexsRest st g V vs E (E / K)) E (V, vs)
  · intro st s dt hs
    obtain ⟨h1, h2⟩ := sexs_rest_step hs dt
    exact ⟨h1, h2 _, h2 _⟩
  · obtain ⟨o1, o2⟩ := hout
    refine ⟨?_, ?_, o2⟩
    · show V + (initGivenY g.leadlag (back g.zeroTE g.filterB E (min g.EMAX (max g.EMIN (E / g.K)))).2).2 - vs
        + vs - V = E / K
      rw [o1, l1]; ring
    · show Ready .predictor
        (initGivenY g.leadlag (back g.zeroTE g.filterB E (min g.EMAX (max g.EMIN (E / g.K)))).2).1 _ _
      rw [o1]; exact l2

/-- Typical parameters satisfy the hypotheses: `K = 100`, limits 0 and 5, `TE = 0.05`, field voltage 2. -/
example : ∃ (r TB K EMAX EMIN TE E : Real), TB ≠ 0 ∧ K ≠ 0 ∧ (EMIN ≤ E ∧ E ≤ EMAX) ∧
    (|TE| < 1 / 10 ^ 6 → EMIN ≤ E / K ∧ E / K ≤ EMAX) ∧ |TB| ≤ 10 ^ 10 ∧ |TE| ≤ 10 ^ 10 ∧ |E| ≤ 1000 ∧
    |E / K| ≤ 1000 ∧ |(1 - r) * (E / K)| ≤ 1000 := by
  refine ⟨1 / 10, 10, 100, 5, 0, 1 / 20, 2, ?_⟩
  norm_num [abs_of_pos]

/-- C119 fails for SEXS without a lag (`|TE| < 1e-6`): the initialisation limits the *input* of the gain to
the range of the field voltage.  For every set of parameters with a positive lower limit above `E / K`, the
first reported field voltage lies above the one the exciter was initialised with. -/
theorem C119_sexs_violated (g0 : Sexs) (r TB K EMAX EMIN TE V vs E dt : Real) (hTB : TB ≠ 0) (hK : 0 < K)
    (hz : |TE| < 1 / 10 ^ 6) (hlim : EMIN ≤ E ∧ E < EMAX) (hlow : E / K < EMIN)
    (hTB' : |TB| ≤ 10 ^ 10) (hu : |EMIN| ≤ 1000) (hx : |(1 - r) * EMIN| ≤ 1000) :
    ∃ g, g0.load ⟨some r, some TB, some K, some EMAX, some EMIN, some TE⟩ = some g ∧
      ∃ v ∈ trace sexsCall Sexs.Efd (sexsStart g V vs E) (constant (V, vs) [dt]), E < v := by
  obtain ⟨g, hg, e1, e2, e3, e4, ⟨b, hb⟩, hf, hgn⟩ := sexs_load g0 r TB K EMAX EMIN TE hTB
  have hzt : isSmall TE = true := isSmall_true (by unfold small; exact hz)
  obtain ⟨b', hb'⟩ := hgn hzt
  have hr : r * TB / TB = r := mul_div_cancel_right₀ r hTB
  obtain ⟨l1, l2⟩ := lead_rest hb hTB' hu (by rw [hr]; exact hx)
  have hmm : min g.EMAX (max g.EMIN (E / g.K)) = EMIN := by
    rw [e1, e2, e3, max_eq_left hlow.le, min_eq_right (by linarith [hlim.1, hlim.2])]
  have hKE : E < K * EMIN := by
    rw [div_lt_iff₀ hK] at hlow; linarith
  have ho : g.gain.output EMIN = min (K * EMIN) EMAX := by
    rw [hb']
    show max EMIN (min (K * EMIN) EMAX) = _
    apply max_eq_right
    rw [le_min_iff]
    exact ⟨by linarith [hlim.1], by linarith [hlim.1, hlim.2]⟩
  have hrest : SexsRest .predictor (sexsStart g V vs E) V vs (min (K * EMIN) EMAX) EMIN := by
    have eb : back g.zeroTE g.filterB E (min g.EMAX (max g.EMIN (E / g.K))) = (g.filterB, EMIN) := by
      rw [e4, hzt, hmm]; rfl
    refine ⟨?_, ?_, ?_⟩
    · show V + (initGivenY g.leadlag (back g.zeroTE g.filterB E (min g.EMAX (max g.EMIN (E / g.K)))).2).2 - vs
        + vs - V = EMIN
      rw [eb, l1]; ring
    · show Ready .predictor
        (initGivenY g.leadlag (back g.zeroTE g.filterB E (min g.EMAX (max g.EMIN (E / g.K)))).2).1 _ _
      rw [eb]; exact l2
    · show ReadyOpt g.zeroTE _ _ _ _ (g.gain.output EMIN)
      rw [e4, hzt]; exact ho
  refine ⟨g, hg, min (K * EMIN) EMAX, ?_, lt_min hKE hlim.2⟩
  simp only [constant, List.map_cons, trace, List.mem_cons]
  left
  exact (sexs_rest_step hrest dt).1.symm

/-- `K = 100`, limits 1 and 5, field voltage 2: the exciter jumps to the upper limit 5. -/
example : ∃ (K EMIN EMAX E : Real), 0 < K ∧ (EMIN ≤ E ∧ E < EMAX) ∧ E / K < EMIN ∧ min (K * EMIN) EMAX = 5 := by
  refine ⟨100, 1, 5, 2, ?_⟩
  norm_num

/-! ### C120: limits of SEXS -/

/-- Data that stay the same, and the range of the state of the output block. -/
structure SexsIn (g : Sexs) (L U : Real) : Prop where
  out : if g.zeroTE then g.gain.ymin = L ∧ g.gain.ymax = U
    else g.filterB.xmin = L ∧ g.filterB.xmax = U ∧ g.filterB.ymin = -1000 ∧ g.filterB.ymax = 1000 ∧
      g.filterB.C = 1 ∧ g.filterB.D = 0 ∧ L ≤ g.filterB.x ∧ g.filterB.x ≤ U

theorem sexs_bounds {g : Sexs} {L U : Real} (h : SexsIn g L U) (hL : -1000 ≤ L) (hU : U ≤ 1000) (hLU : L ≤ U)
    (i j : Real × Real) (dt : Real) :
    (L ≤ (sexsCall g i dt .predictor).Efd ∧ (sexsCall g i dt .predictor).Efd ≤ U) ∧
    (L ≤ (sexsCall (sexsCall g i dt .predictor) j dt .corrector).Efd ∧
      (sexsCall (sexsCall g i dt .predictor) j dt .corrector).Efd ≤ U) ∧
    SexsIn (sexsCall (sexsCall g i dt .predictor) j dt .corrector) L U := by
  obtain ⟨h⟩ := h
  cases hz : g.zeroTE
  · rw [hz] at h
    obtain ⟨h1, h2, h3, h4, h5, h6, h7⟩ := h
    obtain ⟨up, hup⟩ : ∃ up, up = (getoutput g.leadlag (g.Vref + i.2 - i.1) dt .predictor true) := ⟨_, rfl⟩
    have ep : sexsCall g i dt .predictor = { ((g.setVterminal i.1).setVstab i.2) with
        leadlag := up.1, filterB := (getoutput g.filterB up.2 dt .predictor true).1,
        Efd := (getoutput g.filterB up.2 dt .predictor true).2 } := by
      subst hup
      show ({ ((g.setVterminal i.1).setVstab i.2) with
        leadlag := _, filterB := (pass g.zeroTE g.filterB _ _ dt .predictor).1,
        Efd := (pass g.zeroTE g.filterB _ _ dt .predictor).2 } : Sexs) = _
      rw [hz]; rfl
    obtain ⟨p, hp⟩ : ∃ p, p = sexsCall g i dt .predictor := ⟨_, rfl⟩
    have hpz : p.zeroTE = false := by rw [hp]; exact hz
    obtain ⟨uc, huc⟩ : ∃ uc, uc = (getoutput p.leadlag (p.Vref + j.2 - j.1) dt .corrector true) := ⟨_, rfl⟩
    have ec : sexsCall p j dt .corrector = { ((p.setVterminal j.1).setVstab j.2) with
        leadlag := uc.1, filterB := (getoutput p.filterB uc.2 dt .corrector true).1,
        Efd := (getoutput p.filterB uc.2 dt .corrector true).2 } := by
      subst huc
      show ({ ((p.setVterminal j.1).setVstab j.2) with
        leadlag := _, filterB := (pass p.zeroTE p.filterB _ _ dt .corrector).1,
        Efd := (pass p.zeroTE p.filterB _ _ dt .corrector).2 } : Sexs) = _
      rw [hpz]; rfl
    have hc0 : ∀ v, L ≤ v ∧ v ≤ U → L ≤ clamp (-1000) 1000 (1 * v + 0 * up.2) ∧
        clamp (-1000) 1000 (1 * v + 0 * up.2) ≤ U := by
      intro v hv
      rw [one_mul, zero_mul, add_zero, clamp_of_mem _ _ _ (by linarith [hv.1]) (by linarith [hv.2])]
      exact hv
    have hc1 : ∀ v, L ≤ v ∧ v ≤ U → L ≤ clamp (-1000) 1000 (1 * v + 0 * uc.2) ∧
        clamp (-1000) 1000 (1 * v + 0 * uc.2) ≤ U := by
      intro v hv
      rw [one_mul, zero_mul, add_zero, clamp_of_mem _ _ _ (by linarith [hv.1]) (by linarith [hv.2])]
      exact hv
    rw [← hp]
    refine ⟨?_, ?_, ⟨?_⟩⟩
    · rw [hp, ep]
      show L ≤ clamp g.filterB.ymin g.filterB.ymax (g.filterB.C * g.filterB.x + g.filterB.D * up.2) ∧
        clamp g.filterB.ymin g.filterB.ymax (g.filterB.C * g.filterB.x + g.filterB.D * up.2) ≤ U
      rw [h3, h4, h5, h6]
      exact hc0 _ h7
    · rw [ec]
      show L ≤ (getoutput p.filterB uc.2 dt .corrector true).2 ∧
        (getoutput p.filterB uc.2 dt .corrector true).2 ≤ U
      have hf : p.filterB = (getoutput g.filterB up.2 dt .predictor true).1 := by rw [hp, ep]
      rw [hf]
      show L ≤ clamp g.filterB.ymin g.filterB.ymax (g.filterB.C * (clamp g.filterB.xmin g.filterB.xmax _) +
          g.filterB.D * uc.2) ∧
        clamp g.filterB.ymin g.filterB.ymax (g.filterB.C * (clamp g.filterB.xmin g.filterB.xmax _) +
          g.filterB.D * uc.2) ≤ U
      rw [h1, h2, h3, h4, h5, h6]
      exact hc1 _ (clamp_mem _ _ _ hLU)
    · have hf : p.filterB = (getoutput g.filterB up.2 dt .predictor true).1 := by rw [hp, ep]
      rw [if_neg (by rw [ec]; show ¬ p.zeroTE = true; rw [hpz]; simp), ec]
      refine ⟨?_, ?_, ?_, ?_, ?_, ?_, ?_⟩
      · show p.filterB.xmin = L; rw [hf]; exact h1
      · show p.filterB.xmax = U; rw [hf]; exact h2
      · show p.filterB.ymin = -1000; rw [hf]; exact h3
      · show p.filterB.ymax = 1000; rw [hf]; exact h4
      · show p.filterB.C = 1; rw [hf]; exact h5
      · show p.filterB.D = 0; rw [hf]; exact h6
      · show L ≤ clamp p.filterB.xmin p.filterB.xmax _ ∧ clamp p.filterB.xmin p.filterB.xmax _ ≤ U
        have e1 : p.filterB.xmin = L := by rw [hf]; exact h1
        have e2 : p.filterB.xmax = U := by rw [hf]; exact h2
        rw [e1, e2]
        exact clamp_mem _ _ _ hLU
  · rw [hz] at h
    obtain ⟨h1, h2⟩ := h
    have key : ∀ (p : Sexs) (k : Real × Real) (s : Stage), p.zeroTE = true → p.gain.ymin = L → p.gain.ymax = U →
        L ≤ (sexsCall p k dt s).Efd ∧ (sexsCall p k dt s).Efd ≤ U := by
      intro p k s q1 q2 q3
      show L ≤ (pass p.zeroTE _ _ _ dt s).2 ∧ (pass p.zeroTE _ _ _ dt s).2 ≤ U
      rw [q1]
      show L ≤ clamp p.gain.ymin p.gain.ymax _ ∧ clamp p.gain.ymin p.gain.ymax _ ≤ U
      rw [q2, q3]
      exact clamp_mem _ _ _ hLU
    refine ⟨key g i _ hz h1 h2, key _ j _ hz h1 h2, ⟨?_⟩⟩
    rw [if_pos (by exact hz)]
    exact ⟨h1, h2⟩

/-- C120 for SEXS.  Loaded with any parameters (with or without lag) and started with a field voltage
between `EMIN` and `EMAX`, the exciter reports only field voltages in this range: for every history of
terminal voltages and stabiliser signals and all time steps.  Partial: limits beyond ±1000 are excluded. -/
theorem C120_sexs_partial (g0 : Sexs) (r TB K EMAX EMIN TE V vs E : Real) (hTB : TB ≠ 0) (hK : K ≠ 0)
    (hlim : EMIN ≤ E ∧ E ≤ EMAX) (hTE' : |TE| ≤ 10 ^ 10) (hL : -1000 ≤ EMIN) (hU : EMAX ≤ 1000) :
    ∃ g, g0.load ⟨some r, some TB, some K, some EMAX, some EMIN, some TE⟩ = some g ∧
      ∀ steps, ∀ v ∈ trace sexsCall Sexs.Efd (sexsStart g V vs E) steps, EMIN ≤ v ∧ v ≤ EMAX := by
  obtain ⟨g, hg, e1, e2, e3, e4, ⟨b, hb⟩, hf, hgn⟩ := sexs_load g0 r TB K EMAX EMIN TE hTB
  refine ⟨g, hg, fun steps => ?_⟩
  refine trace_inv sexsCall Sexs.Efd (fun s => SexsIn s EMIN EMAX) (fun _ => True)
    (fun v => EMIN ≤ v ∧ v ≤ EMAX) (fun _ => True) ?_ _ ?_ steps (fun _ _ => trivial)
  · rintro s i j dt _ hI
    obtain ⟨b1, b2, b3⟩ := sexs_bounds hI hL hU (le_trans hlim.1 hlim.2) i j dt
    exact ⟨b1, trivial, fun _ => ⟨b2, b3⟩⟩
  · constructor
    show if g.zeroTE then g.gain.ymin = EMIN ∧ g.gain.ymax = EMAX else _
    cases hz : isSmall TE
    · obtain ⟨b', hb'⟩ := hf hz
      have e4' : g.zeroTE = false := by rw [e4, hz]
      obtain ⟨b0, h0, eb⟩ := withLimits_some hb'
      obtain ⟨hT0, eb0⟩ := filter_coeffs h0
      have ei : initGivenY g.filterB E = ({ g.filterB with x := E }, E / K) :=
        filter_init (T := TE) hT0 hTE' hK (by rw [eb, eb0]) (by rw [eb, eb0]) (by rw [eb, eb0]) (by rw [eb, eb0])
      have es : (sexsStart g V vs E).filterB = { g.filterB with x := E } := by
        show (back g.zeroTE g.filterB E _).1 = _
        rw [e4']
        show (initGivenY g.filterB E).1 = _
        rw [ei]
      rw [if_neg (by rw [e4']; simp), es]
      refine ⟨?_, ?_, ?_, ?_, ?_, ?_, hlim⟩ <;> (rw [eb]) <;> (rw [eb0])
    · obtain ⟨b', hb'⟩ := hgn hz
      rw [if_pos (by rw [e4, hz]), hb']
      exact ⟨rfl, rfl⟩

example : ∃ (TB K EMAX EMIN TE E : Real), TB ≠ 0 ∧ K ≠ 0 ∧ (EMIN ≤ E ∧ E ≤ EMAX) ∧ |TE| ≤ 10 ^ 10 ∧
    -1000 ≤ EMIN ∧ EMAX ≤ 1000 := by
  refine ⟨10, 100, 5, -3, 0, 2, ?_⟩
  norm_num

end GridPACK.Exciters
