import Verif.Spec.Wind
import Verif.Lemmas.Wind

/-! C313–C318: converter and mechanical part of a wind turbine. -/
namespace GridPACK.Wind
open GridPACK.Cblock GridPACK.Dblock

/-! ### C313: start at the power flow -/

theorem base_eq {r : Record} (h : Bases r) : machineBase r = r.mbase := by
  unfold machineBase
  have : (0 : Real) < 1 / 10 ^ 6 := by positivity
  rw [if_neg]
  rw [abs_of_pos (lt_of_lt_of_le this h.2)]
  exact not_lt.mpr h.2

theorem base_pos {r : Record} (h : Bases r) : 0 < r.mbase :=
  lt_of_lt_of_le (by positivity) h.2

/-- Facts about a started converter. -/
theorem started {r : Record} {v0 : ℂ} {c : Conv} (hb : Bases r) (h : Started r v0 c) :
    ∃ c0, IsLoaded r c0 ∧ c = initConv c0 ‖v0‖ v0.arg ∧ c.r = r ∧ c.mbase = r.mbase ∧
      c.ip = startIp r v0 ∧ c.iq = startIq r v0 ∧
      c.lvpnt = Slope.setparams r.lvpnt0 r.lvpnt1 0 1 0 1 ∧
      c.lowlim = GainLimiter.setparams 1 r.lolim 1000 0 0 := by
  obtain ⟨raw, c0, hl, rfl⟩ := h
  have L := loaded hl
  refine ⟨c0, L, rfl, L.data, L.base.trans (base_eq hb), ?_, ?_, L.pn, L.ll⟩
  · show c0.r.pg * (c0.r.sbase / c0.mbase) / startVt ‖v0‖ v0.arg = _
    rw [rot_norm, L.data, L.base, base_eq hb]
    rfl
  · show -(c0.r.qg * (c0.r.sbase / c0.mbase)) / startVt ‖v0‖ v0.arg = _
    rw [rot_norm, L.data, L.base, base_eq hb]
    rfl

theorem feeds_eq (c : Conv) (v : ℂ) :
    feeds c v = ⟨‖v‖ * ipOut (setVoltage c v) * (c.mbase / c.r.sbase),
       -(‖v‖ * iqOut (setVoltage c v) * (c.mbase / c.r.sbase))⟩ := power_of c v

theorem over_zero {x : Real} (h : x ≤ 0) : max 0 x = 0 := max_eq_left h

/-- C313: a converter started at a normal voltage feeds in exactly the power of the power flow. -/
theorem C313_start (r : Record) (v0 : ℂ) (c : Conv) (hb : Bases r) (hn : NormalStart r v0)
    (h : Started r v0 c) : feeds c v0 = ⟨r.pg, r.qg⟩ := by
  obtain ⟨c0, L, he, h1, h2, h3, h4, h5, h6⟩ := started hb h
  obtain ⟨n0, n1, n2, n3, n4, n5⟩ := hn
  have hv : ‖v0‖ ≠ 0 := norm_ne_zero_iff.mpr n0
  have hs : r.sbase ≠ 0 := ne_of_gt hb.1
  have hm : r.mbase ≠ 0 := ne_of_gt (base_pos hb)
  have hp : ipOut (setVoltage c v0) = startIp r v0 := by
    show c.ip * c.lvpnt.output ‖v0‖ = _
    rw [h3, h5, slope_full _ _ _ _ _ _ _ n1 n2, mul_one]
  have hq : iqOut (setVoltage c v0) = startIq r v0 := by
    show c.lowlim.output (c.iq - max 0 (c.r.khv * (‖v0‖ - c.r.volim))) = _
    rw [h1, over_zero n3, sub_zero, h6, h4]
    show clamp r.lolim 1000 (1 * startIq r v0) = _
    rw [one_mul]
    exact clamp_of_mem _ _ _ n4 n5
  rw [feeds_eq, hp, hq, h1, h2]
  apply Complex.ext
  · show ‖v0‖ * (r.pg * (r.sbase / r.mbase) / ‖v0‖) * (r.mbase / r.sbase) = r.pg
    field_simp
  · show -(‖v0‖ * (-(r.qg * (r.sbase / r.mbase)) / ‖v0‖) * (r.mbase / r.sbase)) = r.qg
    field_simp

/-- The converter at rest. -/
structure AtRest (c0 : Conv) (v0 : ℂ) (c : Conv) : Prop where
  same : Same c0 c
  ip : c.ip = c0.ip
  iq : c.iq = c0.iq
  p : Hold c.ipBlk c0.ipcmd c0.ip c0.ip
  pl : c.ipBlk.xmin = -1000 ∧ c.ipBlk.ymin = -1000 ∧ c.ipBlk.ymax = 1000
  q : Hold c.iqBlk c0.iqcmd c0.iq c0.iq
  v : Hold c.vtBlk ‖v0‖ ‖v0‖ ‖v0‖

theorem rest_step (c0 : Conv) (v0 : ℂ) (dt : Real) (hr : 0 ≤ c0.r.rrpwr)
    (hl : c0.ip ≤ if c0.r.lvplsw = true then c0.lvpl.output ‖v0‖ else 1000) (c : Conv)
    (h : AtRest c0 v0 c) :
    AtRest c0 v0 (convStep dt c (⟨v0, c0.ipcmd, c0.iqcmd⟩, ⟨v0, c0.ipcmd, c0.iqcmd⟩)) := by
  obtain ⟨⟨s1, s2, s3, s4, s5⟩, i1, i2, p, ⟨l1, l2, l3⟩, q, v⟩ := h
  obtain ⟨v1, va, vo⟩ := hold_pred dt v
  obtain ⟨q1, qa, qo⟩ := hold_pred dt q
  have e1 : (if c.r.lvplsw = true then c.lvpl.output (getoutput c.vtBlk ‖v0‖ dt .predictor true).2 else 1000)
      = (if c0.r.lvplsw = true then c0.lvpl.output ‖v0‖ else 1000) := by rw [s1, s3, vo]
  have hl1 := hl
  rw [← e1] at hl1
  have hr1 : 0 ≤ c.r.rrpwr := by rw [s1]; exact hr
  obtain ⟨p1, pa, po⟩ := hold_pred_rate dt
    (if c.r.lvplsw = true then c.lvpl.output (getoutput c.vtBlk ‖v0‖ dt .predictor true).2 else 1000)
    c.r.rrpwr p l1 l2 l3 hl1 hr1
  obtain ⟨v2, vo2⟩ := hold_corr dt v1 va
  obtain ⟨q2, qo2⟩ := hold_corr dt q1 qa
  have e2 : (if c.r.lvplsw = true then c.lvpl.output
      (getoutput (getoutput c.vtBlk ‖v0‖ dt .predictor true).1 ‖v0‖ dt .corrector true).2 else 1000)
      = (if c0.r.lvplsw = true then c0.lvpl.output ‖v0‖ else 1000) := by rw [s1, s3, vo2]
  have hl2 := hl
  rw [← e2] at hl2
  obtain ⟨p2, po2⟩ := hold_corr_rate dt
    (if c.r.lvplsw = true then c.lvpl.output
      (getoutput (getoutput c.vtBlk ‖v0‖ dt .predictor true).1 ‖v0‖ dt .corrector true).2 else 1000)
    c.r.rrpwr p1 pa l1 l2 l3 hl2 hr1
  exact ⟨⟨s1, s2, s3, s4, s5⟩, po2, qo2, p2, ⟨l1, l2, l3⟩, q2, v2⟩

/-- C313: while the bus voltage and the commands of the electrical controller stay as at the start, the
converter goes on feeding in the power of the power flow, for any number of steps of any size. -/
theorem C313_flat (r : Record) (v0 : ℂ) (c : Conv) (dt : Real) (n : Nat) (hb : Bases r)
    (hn : NormalStart r v0) (hc : Calm r v0) (h : Started r v0 c) :
    feeds (convRun dt c (List.replicate n (⟨v0, c.ipcmd, c.iqcmd⟩, ⟨v0, c.ipcmd, c.iqcmd⟩))) v0 =
      ⟨r.pg, r.qg⟩ := by
  have hst := C313_start r v0 c hb hn h
  obtain ⟨c0, L, he, h1, h2, h3, h4, h5, h6⟩ := started hb h
  obtain ⟨t1, t2, t3, t4, k1, k2, k3, a1, a2, a3, a4⟩ := hc
  have av : |‖v0‖| ≤ 1000 := by rw [abs_of_nonneg (norm_nonneg _)]; exact a3
  have hp := filter_initY (y := startIp r v0) L.pB one_ne_zero t1 t2 a1
    ⟨by rw [L.pd.1]; norm_num, by rw [L.pd.2]; norm_num⟩
  have hq := filter_initY (y := startIq r v0) L.qB (by norm_num) t1 t2 a2 (by
    rcases lt_or_ge 0 r.qg with hh | hh
    · rw [(L.qd.1 hh).1, (L.qd.1 hh).2]
      exact ⟨by norm_num, k2⟩
    · rw [(L.qd.2 hh).1, (L.qd.2 hh).2]
      exact ⟨k3, by norm_num⟩)
  have hv := filter_initU (u := ‖v0‖) L.vB t3 t4 av
    ⟨by rw [L.vd.1]; norm_num, by rw [L.vd.2]; norm_num⟩
  have i1 : c.ipBlk = (initGivenY c0.ipBlk c.ip).1 := by rw [he]; rfl
  have i2 : c.ipcmd = (initGivenY c0.ipBlk c.ip).2 := by rw [he]; rfl
  have i3 : c.iqBlk = (initGivenY c0.iqBlk c.iq).1 := by rw [he]; rfl
  have i4 : c.iqcmd = (initGivenY c0.iqBlk c.iq).2 := by rw [he]; rfl
  have i5 : c.vtBlk = (initGivenU c0.vtBlk ‖v0‖).1 := by
    rw [he]
    show (initGivenU c0.vtBlk (startVt ‖v0‖ v0.arg)).1 = _
    rw [rot_norm]
  have i6 : c.lvpl = Slope.setparams r.zerox r.brkpt 0 r.lvpl1 0 1000 := by rw [he]; exact L.pl
  have hlim : c.ip ≤ if c.r.lvplsw = true then c.lvpl.output ‖v0‖ else 1000 := by
    have hle : c.ip ≤ 1000 := by rw [h3]; exact (abs_le.mp a1).2
    split
    · rename_i hsw
      rw [h1] at hsw
      rw [i6, slope_full _ _ _ _ _ _ _ (a4 hsw).1 (a4 hsw).2]
      exact hle
    · exact hle
  have rest0 : AtRest c v0 c := by
    refine ⟨⟨rfl, rfl, rfl, rfl, rfl⟩, rfl, rfl, ?_, ?_, ?_, ?_⟩
    · rw [i1, i2, h3]; exact hp.1
    · rw [i1, h3]; exact ⟨hp.2.xlo, hp.2.ylo, hp.2.yhi⟩
    · rw [i3, i4, h4]; exact hq.1
    · rw [i5]; exact hv
  have key : ∀ m d, AtRest c v0 d → AtRest c v0
      (convRun dt d (List.replicate m (⟨v0, c.ipcmd, c.iqcmd⟩, ⟨v0, c.ipcmd, c.iqcmd⟩))) := by
    intro m
    induction m with
    | zero => intro d hd; exact hd
    | succ m ih =>
      intro d hd
      exact ih _ (rest_step c v0 dt (by rw [h1]; exact k1) hlim d hd)
  have hk := key n c rest0
  unfold feeds at hst ⊢
  rw [feed_eq c _ v0 hk.same hk.ip hk.iq]
  exact hst

/-! ### C314: limits -/

theorem clamp_le {lo hi x b : Real} (h1 : lo ≤ b) (h2 : x ≤ b) : clamp lo hi x ≤ b :=
  max_le h1 (le_trans (min_le_left _ _) h2)

theorem clamp_le_hi {lo hi x : Real} (h : lo ≤ hi) : clamp lo hi x ≤ hi := max_le h (min_le_right _ _)

/-- The active current and its state are at most `B`. -/
def Below (c : Conv) (B : Real) : Prop :=
  c.ipBlk.C = 1 ∧ c.ipBlk.D = 0 ∧ c.ipBlk.x ≤ B ∧ c.ip ≤ B

theorem below_step (c : Conv) (i : CallIn × CallIn) (dt B : Real) (hdt : 0 ≤ dt) (hr : 0 ≤ c.r.rrpwr)
    (hB : 0 ≤ B) (h : Below c B) : Below (convStep dt c i) (B + dt * c.r.rrpwr) := by
  obtain ⟨hC, hD, hx, _⟩ := h
  have hstep : 0 ≤ dt * c.r.rrpwr := mul_nonneg hdt hr
  have hlow : (-1000 : Real) ≤ B + dt * c.r.rrpwr := by linarith
  have up : ∀ d, dt * clamp (-1000) c.r.rrpwr d ≤ dt * c.r.rrpwr := fun d =>
    mul_le_mul_of_nonneg_left (clamp_le_hi (by linarith)) hdt
  have hxh : (convCall (setVoltage c i.1.v) dt .predictor i.1.ipcmd i.1.iqcmd).ipBlk.xhat ≤
      B + dt * c.r.rrpwr := by
    refine clamp_le hlow ?_
    have := up (getderivative c.ipBlk c.ipBlk.x i.1.ipcmd)
    exact add_le_add hx this
  refine ⟨hC, hD, ?_, ?_⟩
  · refine clamp_le hlow ?_
    exact add_le_add hx (up _)
  · refine clamp_le hlow ?_
    show c.ipBlk.C * (convCall (setVoltage c i.1.v) dt .predictor i.1.ipcmd i.1.iqcmd).ipBlk.xhat +
      c.ipBlk.D * i.2.ipcmd ≤ _
    rw [hC, hD, one_mul, zero_mul, add_zero]
    exact hxh

theorem below_run (dt : Real) (hdt : 0 ≤ dt) (is : List (CallIn × CallIn)) :
    ∀ (c : Conv) (B : Real), 0 ≤ c.r.rrpwr → 0 ≤ B → Below c B →
      Below (convRun dt c is) (B + is.length * (dt * c.r.rrpwr)) := by
  induction is with
  | nil =>
    intro c B _ _ h
    simp only [List.length_nil, Nat.cast_zero, zero_mul, add_zero]
    exact h
  | cons i is ih =>
    intro c B hr hB h
    have hs := below_step c i dt B hdt hr hB h
    have hr' : 0 ≤ (convStep dt c i).r.rrpwr := hr
    have := ih (convStep dt c i) _ hr' (by have := mul_nonneg hdt hr; linarith) hs
    have e : B + dt * c.r.rrpwr + (is.length : Real) * (dt * (convStep dt c i).r.rrpwr) =
        B + ((i :: is).length : Real) * (dt * c.r.rrpwr) := by
      show B + dt * c.r.rrpwr + (is.length : Real) * (dt * c.r.rrpwr) = _
      rw [List.length_cons]
      push_cast
      ring
    rw [e] at this
    exact this

/-- C314: whatever voltages and commands the converter sees, its active power at any voltage is at most
that of the active current of the start raised by the ramp rate over the time since then. -/
theorem C314_ramp (r : Record) (v0 v : ℂ) (c : Conv) (dt : Real) (is : List (CallIn × CallIn)) (hb : Bases r)
    (hc : Calm r v0) (hpg : 0 ≤ r.pg) (hdt : 0 ≤ dt) (h : Started r v0 c) :
    (feeds (convRun dt c is) v).re ≤
      ‖v‖ * (startIp r v0 + is.length * (dt * r.rrpwr)) * (r.mbase / r.sbase) := by
  obtain ⟨c0, L, he, h1, h2, h3, h4, h5, h6⟩ := started hb h
  obtain ⟨t1, t2, t3, t4, k1, k2, k3, a1, a2, a3, a4⟩ := hc
  have hk : 0 ≤ r.mbase / r.sbase := div_nonneg (base_pos hb).le hb.1.le
  have hip : 0 ≤ startIp r v0 :=
    div_nonneg (mul_nonneg hpg (div_nonneg hb.1.le (base_pos hb).le)) (norm_nonneg _)
  have hp := filter_initY (y := startIp r v0) L.pB one_ne_zero t1 t2 a1
    ⟨by rw [L.pd.1]; norm_num, by rw [L.pd.2]; norm_num⟩
  have i1 : c.ipBlk = (initGivenY c0.ipBlk c.ip).1 := by rw [he]; rfl
  have b0 : Below c (startIp r v0) := by
    refine ⟨?_, ?_, ?_, h3.le⟩
    · rw [i1, h3]; exact hp.2.c
    · rw [i1, h3]; exact hp.2.d
    · rw [i1, h3]; exact hp.1.st.le
  have hB := below_run dt hdt is c _ (by rw [h1]; exact k1) hip b0
  rw [h1] at hB
  obtain ⟨s1, s2, _, s4, _⟩ := same_run dt is c
  rw [feeds_eq]
  show ‖v‖ * ((convRun dt c is).ip * (convRun dt c is).lvpnt.output ‖v‖) *
    ((convRun dt c is).mbase / (convRun dt c is).r.sbase) ≤ _
  rw [s1, s2, s4, h1, h2, h5]
  refine mul_le_mul_of_nonneg_right (mul_le_mul_of_nonneg_left ?_ (norm_nonneg _)) hk
  obtain ⟨l0, l1⟩ := slope_unit r.lvpnt0 r.lvpnt1 ‖v‖
  have hnn : 0 ≤ startIp r v0 + (is.length : Real) * (dt * r.rrpwr) :=
    add_nonneg hip (mul_nonneg (Nat.cast_nonneg _) (mul_nonneg hdt k1))
  calc (convRun dt c is).ip * (Slope.setparams r.lvpnt0 r.lvpnt1 0 1 0 1).output ‖v‖
      ≤ (startIp r v0 + is.length * (dt * r.rrpwr)) *
        (Slope.setparams r.lvpnt0 r.lvpnt1 0 1 0 1).output ‖v‖ :=
        mul_le_mul_of_nonneg_right hB.2.2.2 l0
    _ ≤ (startIp r v0 + is.length * (dt * r.rrpwr)) * 1 := mul_le_mul_of_nonneg_left l1 hnn
    _ = _ := mul_one _

/-- C314: at every moment of every simulation the converter feeds in no active power below the lower voltage
limit, and its reactive current is above the limit of the record. -/
theorem C314_low (r : Record) (v0 v : ℂ) (c : Conv) (dt : Real) (is : List (CallIn × CallIn)) (hb : Bases r)
    (h : Started r v0 c) :
    (‖v‖ ≤ r.lvpnt0 → (feeds (convRun dt c is) v).re = 0) ∧
    (feeds (convRun dt c is) v).im ≤ -(‖v‖ * r.lolim * (r.mbase / r.sbase)) := by
  obtain ⟨c0, L, he, h1, h2, h3, h4, h5, h6⟩ := started hb h
  obtain ⟨s1, s2, _, s4, s5⟩ := same_run dt is c
  have hk : 0 ≤ r.mbase / r.sbase := div_nonneg (base_pos hb).le hb.1.le
  rw [feeds_eq]
  constructor
  · intro hv
    show ‖v‖ * ((convRun dt c is).ip * (convRun dt c is).lvpnt.output ‖v‖) * _ = 0
    have ht : 0 < tol := by unfold tol; positivity
    rw [s4, h5, slope_zero _ _ _ (by linarith), mul_zero, mul_zero, zero_mul]
  · have hq : r.lolim ≤ iqOut (setVoltage (convRun dt c is) v) := by
      show r.lolim ≤ (convRun dt c is).lowlim.output _
      rw [s5, h6]
      exact le_max_left _ _
    show -(‖v‖ * iqOut (setVoltage (convRun dt c is) v) *
      ((convRun dt c is).mbase / (convRun dt c is).r.sbase)) ≤ _
    rw [s1, s2, h1, h2]
    exact neg_le_neg (mul_le_mul_of_nonneg_right (mul_le_mul_of_nonneg_left hq (norm_nonneg _)) hk)

/-! ### C315: reports -/

/-- C315, part: the active power reported is always the one fed in; the reactive power is, as long as no
reactive current is withheld for overvoltage. -/
theorem C315_report_partial (c : Conv) (v : ℂ) :
    reportP (setVoltage c v) = (feeds c v).re ∧
    (c.r.khv * (‖v‖ - c.r.volim) ≤ 0 → reportQ (setVoltage c v) = (feeds c v).im) := by
  rw [feeds_eq]
  constructor
  · show ‖v‖ * ipOut (setVoltage c v) * c.mbase / c.r.sbase = _
    rw [mul_div_assoc]
  · intro h
    have e : overCurrent (setVoltage c v) = 0 := over_zero h
    show -‖v‖ * c.lowlim.output (c.iq + overCurrent (setVoltage c v)) * c.mbase / c.r.sbase =
      -(‖v‖ * c.lowlim.output (c.iq - overCurrent (setVoltage c v)) * (c.mbase / c.r.sbase))
    rw [e, add_zero, sub_zero]
    ring

/-- C315 fails at overvoltage: for every converter that withholds reactive current (`khv > 0`), at every
voltage above the limit, less reactive power is reported than is fed in. -/
theorem C315_overvoltage_violated (r : Record) (v0 v : ℂ) (c : Conv) (hb : Bases r) (h : Started r v0 c)
    (hk : 0 < r.khv) (hv : r.volim < ‖v‖) (hv0 : v ≠ 0) (h1 : r.lolim ≤ startIq r v0)
    (h2 : startIq r v0 ≤ 1000) (h3 : r.lolim < 1000) :
    reportQ (setVoltage c v) < (feeds c v).im := by
  obtain ⟨c0, L, he, e1, e2, e3, e4, e5, e6⟩ := started hb h
  have hkk : 0 < r.mbase / r.sbase := div_pos (base_pos hb) hb.1
  have hn : 0 < ‖v‖ := norm_pos_iff.mpr hv0
  have ho : 0 < r.khv * (‖v‖ - r.volim) := mul_pos hk (by linarith)
  have eo : overCurrent (setVoltage c v) = r.khv * (‖v‖ - r.volim) := by
    show max 0 (c.r.khv * (‖v‖ - c.r.volim)) = _
    rw [e1]
    exact max_eq_right ho.le
  rw [feeds_eq]
  show -‖v‖ * c.lowlim.output (c.iq + overCurrent (setVoltage c v)) * c.mbase / c.r.sbase <
    -(‖v‖ * c.lowlim.output (c.iq - overCurrent (setVoltage c v)) * (c.mbase / c.r.sbase))
  rw [eo, e1, e2, e4, e6]
  generalize hw : r.khv * (‖v‖ - r.volim) = w at ho
  have hlt : clamp r.lolim 1000 (1 * (startIq r v0 - w)) < clamp r.lolim 1000 (1 * (startIq r v0 + w)) := by
    rw [one_mul, one_mul]
    have hr : clamp r.lolim 1000 (startIq r v0 + w) = min (startIq r v0 + w) 1000 :=
      max_eq_right (le_min (by linarith) h3.le)
    rw [hr]
    refine max_lt (lt_min (by linarith) h3) (lt_min ?_ ?_)
    · exact lt_of_le_of_lt (min_le_left _ _) (by linarith)
    · exact lt_of_le_of_lt (min_le_left _ _) (by linarith)
  have := mul_lt_mul_of_pos_right (mul_lt_mul_of_pos_left hlt hn) hkk
  show -‖v‖ * clamp r.lolim 1000 (1 * (startIq r v0 + w)) * r.mbase / r.sbase <
    -(‖v‖ * clamp r.lolim 1000 (1 * (startIq r v0 - w)) * (r.mbase / r.sbase))
  have e : -‖v‖ * clamp r.lolim 1000 (1 * (startIq r v0 + w)) * r.mbase / r.sbase =
    -(‖v‖ * clamp r.lolim 1000 (1 * (startIq r v0 + w)) * (r.mbase / r.sbase)) := by ring
  rw [e]
  exact neg_lt_neg this

/-- C315: observations are the power in MW divided by the system base; and they are the same when the
machine base is asked for, so that the power in MW computed from them is wrong whenever the bases differ and
active power is fed in. -/
theorem C315_base_violated (c : Conv) (v : ℂ) (hne : c.mbase ≠ c.r.sbase) (hp : (feeds c v).re ≠ 0) :
    (watched (setVoltage c v) true).1 * c.r.sbase = (feeds c v).re * c.r.sbase ∧
    (watched (setVoltage c v) false).1 * c.mbase ≠ (feeds c v).re * c.r.sbase := by
  have e := (C315_report_partial c v).1
  constructor
  · show reportP _ * c.r.sbase = _
    rw [e]
  · show reportP _ * c.mbase ≠ _
    rw [e]
    intro hh
    exact hne (mul_left_cancel₀ hp hh)

/-! ### C316: the drive train -/

/-- What `load` and `init` leave in an integrator. -/
structure IsIntegrator (b : Block) (T : Real) : Prop where
  a : b.A = 0
  bb : b.B = 1 / T
  c : b.C = 1
  d : b.D = 0
  xlo : b.xmin = -1000
  xhi : b.xmax = 1000
  ylo : b.ymin = -1000
  yhi : b.ymax = 1000
  dlo : b.dxmin = -1000
  dhi : b.dxmax = 1000

theorem integrator_is {raw b : Block} {T : Real} (hc : Constructed raw) (h : integrator raw T = some b) :
    T ≠ 0 ∧ IsIntegrator b T := by
  have hT : T ≠ 0 := by
    intro h0
    unfold integrator setcoeffs at h
    rw [if_pos h0] at h
    cases h
  rw [integrator_eq raw T hT] at h
  cases h
  obtain ⟨_, _, _, _, c5, c6, _⟩ := hc
  refine ⟨hT, ⟨?_, ?_, rfl, ?_, rfl, rfl, rfl, rfl, c5, c6⟩⟩
  · show -0 / T = (0 : Real)
    rw [neg_zero, zero_div]
  · show 1 / T - 0 * 0 / (T * T) = 1 / T
    rw [mul_zero, zero_div, sub_zero]
  · show (0 : Real) / T = 0
    exact zero_div T

theorem integrator_initY {b : Block} {T : Real} (y : Real) (h : IsIntegrator b T) :
    initGivenY b y = ({ b with x := y }, 0) := by
  unfold initGivenY
  rw [if_pos (by rw [h.a, abs_zero]; exact eps_pos)]

theorem drive_loaded {raw : Block} {H D Hfrac : Real} {d : Drive} (hc : Constructed raw)
    (h : loadDrive raw H D Hfrac = some d) :
    IsIntegrator d.gBlk (2 * (H - Hfrac * H)) ∧ IsIntegrator d.aBlk 1 ∧ d.D = D ∧
      2 * (H - Hfrac * H) ≠ 0 := by
  unfold loadDrive at h
  split at h
  · rename_i g a hg ha
    cases h
    exact ⟨(integrator_is hc hg).2, (integrator_is hc ha).2, rfl, (integrator_is hc hg).1⟩
  · cases h

/-- One step of an integrator under a constant input. -/
theorem integrator_step {b : Block} {T : Real} (u dt : Real) (h : IsIntegrator b T) (hu : |u / T| ≤ 1000)
    (hx : |b.x + dt * (u / T)| ≤ 1000) :
    IsIntegrator (getoutput b u dt .predictor true).1 T ∧
    (getoutput (getoutput b u dt .predictor true).1 u dt .corrector true).1.x = b.x + dt * (u / T) ∧
    IsIntegrator (getoutput (getoutput b u dt .predictor true).1 u dt .corrector true).1 T ∧
    (getoutput (getoutput b u dt .predictor true).1 u dt .corrector true).2 = b.x + dt * (u / T) := by
  have hd : ∀ x, getderivative b x u = u / T := by
    intro x
    unfold getderivative
    rw [h.a, h.bb, zero_mul, zero_add, one_div, inv_mul_eq_div]
  have hcl : clamp b.dxmin b.dxmax (u / T) = u / T := by
    rw [h.dlo, h.dhi]
    exact clamp_1000 hu
  have hcx : clamp b.xmin b.xmax (b.x + dt * (u / T)) = b.x + dt * (u / T) := by
    rw [h.xlo, h.xhi]
    exact clamp_1000 hx
  have hcy : clamp b.ymin b.ymax (b.x + dt * (u / T)) = b.x + dt * (u / T) := by
    rw [h.ylo, h.yhi]
    exact clamp_1000 hx
  have e1 : (getoutput b u dt .predictor true).1 =
      { b with dxdt := u / T, xhat := b.x + dt * (u / T), stage := .predictor } := by
    show updatestate b u dt b.xmin b.xmax b.dxmin b.dxmax .predictor = _
    simp only [updatestate, hd, hcl, hcx]
  have i1 : IsIntegrator (getoutput b u dt .predictor true).1 T := by
    rw [e1]
    exact ⟨h.a, h.bb, h.c, h.d, h.xlo, h.xhi, h.ylo, h.yhi, h.dlo, h.dhi⟩
  refine ⟨i1, ?_, ?_, ?_⟩
  · rw [e1]
    show clamp b.xmin b.xmax (b.x + dt * clamp b.dxmin b.dxmax (1 / 2 * (u / T + getderivative b _ u))) = _
    rw [hd, ← two_mul, ← mul_assoc, one_div, inv_mul_cancel₀ (two_ne_zero), one_mul, hcl, hcx]
  · rw [e1]
    exact ⟨h.a, h.bb, h.c, h.d, h.xlo, h.xhi, h.ylo, h.yhi, h.dlo, h.dhi⟩
  · rw [e1]
    show clamp b.ymin b.ymax (b.C * (b.x + dt * (u / T)) + b.D * u) = _
    rw [h.c, h.d, one_mul, zero_mul, add_zero, hcy]

/-- Generator speed after `n` steps under constant torques, no damping. -/
theorem speed_run {H Hfrac omegaRef te0 ang : Real} {d : Drive} (dt tm te : Real) (n : Nat)
    (h : DriveStarted H 0 Hfrac omegaRef te0 ang d) (hdt : 0 ≤ dt)
    (hr : |(tm - te) / (2 * (H - Hfrac * H))| ≤ 1000)
    (hs : |omegaRef - 1| + n * (dt * |(tm - te) / (2 * (H - Hfrac * H))|) ≤ 1000) :
    (drivePush dt tm te d n).wg = omegaRef - 1 + n * (dt * ((tm - te) / (2 * (H - Hfrac * H)))) ∧
    (drivePush dt tm te d n).gBlk.x = omegaRef - 1 + n * (dt * ((tm - te) / (2 * (H - Hfrac * H)))) ∧
    IsIntegrator (drivePush dt tm te d n).gBlk (2 * (H - Hfrac * H)) ∧ (drivePush dt tm te d n).D = 0 := by
  obtain ⟨raw, d0, hc, hl, rfl⟩ := h
  obtain ⟨hg, ha, hD, hT⟩ := drive_loaded hc hl
  generalize hq : (tm - te) / (2 * (H - Hfrac * H)) = q at *
  induction n with
  | zero =>
    have e : (initDrive d0 omegaRef te0 ang).gBlk = { d0.gBlk with x := omegaRef - 1 } := by
      show (initGivenY d0.gBlk (omegaRef - 1)).1 = _
      rw [integrator_initY _ hg]
    refine ⟨?_, ?_, ?_, hD⟩
    · show omegaRef - 1 = _
      simp
    · show (initDrive d0 omegaRef te0 ang).gBlk.x = _
      rw [e]
      simp
    · show IsIntegrator (initDrive d0 omegaRef te0 ang).gBlk _
      rw [e]
      exact ⟨hg.a, hg.bb, hg.c, hg.d, hg.xlo, hg.xhi, hg.ylo, hg.yhi, hg.dlo, hg.dhi⟩
  | succ n ih =>
    have hp : 0 ≤ dt * |q| := mul_nonneg hdt (abs_nonneg _)
    have hs' := hs
    push_cast at hs'
    obtain ⟨i1, i2, i3, i4⟩ := ih (by linarith)
    set d := drivePush dt tm te (initDrive d0 omegaRef te0 ang) n with hd
    have hx : |d.gBlk.x + dt * q| ≤ 1000 := by
      rw [i2]
      have e : omegaRef - 1 + n * (dt * q) + dt * q = omegaRef - 1 + ((n : Real) + 1) * (dt * q) := by ring
      rw [e]
      have a1 := abs_add_le (omegaRef - 1) (((n : Real) + 1) * (dt * q))
      have a2 : |((n : Real) + 1) * (dt * q)| = ((n : Real) + 1) * (dt * |q|) := by
        rw [abs_mul, abs_mul, abs_of_nonneg hdt, abs_of_nonneg (by positivity)]
      linarith
    have hu : ∀ w, tm - te - d.D * w = tm - te := by
      intro w
      rw [i4, zero_mul, sub_zero]
    have st := integrator_step (tm - te) dt i3 (by rw [hq]; exact hr) (by rw [hq]; exact hx)
    rw [hq] at st
    obtain ⟨_, s2, s3, s4⟩ := st
    have eg : drivePush dt tm te (initDrive d0 omegaRef te0 ang) (n + 1) =
        driveCall (driveCall d dt .predictor tm te) dt .corrector tm te := rfl
    have eb : (driveCall d dt .predictor tm te).gBlk = (getoutput d.gBlk (tm - te) dt .predictor true).1 := by
      show (getoutput d.gBlk (tm - te - d.D * d.wg) dt .predictor true).1 = _
      rw [hu]
    have ec : ∀ f : Block × Real → Real, f (getoutput (driveCall d dt .predictor tm te).gBlk
        (tm - te - d.D * (driveCall d dt .predictor tm te).wg) dt .corrector true) =
        f (getoutput (getoutput d.gBlk (tm - te) dt .predictor true).1 (tm - te) dt .corrector true) := by
      intro f
      rw [hu, eb]
    rw [eg]
    refine ⟨?_, ?_, ?_, i4⟩
    · refine (ec (fun z => z.2)).trans ?_
      show _ = _
      rw [s4, i2]
      push_cast
      ring
    · refine (ec (fun z => z.1.x)).trans ?_
      show _ = _
      rw [s2, i2]
      push_cast
      ring
    · show IsIntegrator (getoutput (driveCall d dt .predictor tm te).gBlk
        (tm - te - d.D * (driveCall d dt .predictor tm te).wg) dt .corrector true).1 _
      rw [hu, eb]
      exact s3

/-- C316, part: with one mass and no damping, a constant excess of driving torque raises the speed of the
generator by `excess/(2H)` per unit of time. -/
theorem C316_speed_partial (H omegaRef te0 ang dt tm te : Real) (d : Drive) (n : Nat)
    (h : DriveStarted H 0 0 omegaRef te0 ang d) (hdt : 0 ≤ dt) (hr : |(tm - te) / (2 * H)| ≤ 1000)
    (hs : |omegaRef - 1| + n * (dt * |(tm - te) / (2 * H)|) ≤ 1000) :
    (drivePush dt tm te d n).wg = omegaRef - 1 + n * dt * ((tm - te) / (2 * H)) := by
  have e : 2 * (H - 0 * H) = 2 * H := by ring
  have := (speed_run dt tm te n h hdt (by rw [e]; exact hr) (by rw [e]; exact hs)).1
  rw [this, e]
  ring

/-- C316 fails for the turbine: its speed stays at the initial value in every simulation, whatever torques
act, for one and for two masses. -/
theorem C316_turbine_violated (H D Hfrac omegaRef te0 ang dt : Real) (d : Drive)
    (h : DriveStarted H D Hfrac omegaRef te0 ang d) (ts : List (Stage × Real × Real)) :
    (ts.foldl (fun d t => driveCall d dt t.1 t.2.1 t.2.2) d).wt = omegaRef - 1 := by
  obtain ⟨raw, d0, hc, hl, rfl⟩ := h
  have key : ∀ d : Drive, (ts.foldl (fun d t => driveCall d dt t.1 t.2.1 t.2.2) d).wt = d.wt := by
    induction ts with
    | nil => intro d; rfl
    | cons t ts ih =>
      intro d
      exact ih (driveCall d dt t.1 t.2.1 t.2.2)
  exact key _

theorem push_wt (dt tm te : Real) (d : Drive) (n : Nat) : (drivePush dt tm te d n).wt = d.wt := by
  induction n with
  | zero => rfl
  | succ n ih => exact ih

/-- C316 fails: under a constant excess of torque the gap between the speeds of generator and turbine grows
with every step, also when they are one mass. -/
theorem C316_gap_violated (H Hfrac omegaRef te0 ang dt tm te : Real) (d : Drive) (n : Nat)
    (h : DriveStarted H 0 Hfrac omegaRef te0 ang d) (hdt : 0 ≤ dt)
    (hr : |(tm - te) / (2 * (H - Hfrac * H))| ≤ 1000)
    (hs : |omegaRef - 1| + n * (dt * |(tm - te) / (2 * (H - Hfrac * H))|) ≤ 1000) :
    (drivePush dt tm te d n).wg - (drivePush dt tm te d n).wt =
      n * dt * ((tm - te) / (2 * (H - Hfrac * H))) := by
  have h1 := (speed_run dt tm te n h hdt hr hs).1
  obtain ⟨raw, d0, hc, hl, rfl⟩ := h
  rw [h1, push_wt]
  show _ - (omegaRef - 1) = _
  ring

/-! ### C317: the turbine at rest -/

theorem hold_call {b : Block} {u x y : Real} (dt : Real) (s : Stage) (h : Hold b u x y)
    (ha : s = .corrector → Armed b x) :
    Hold (getoutput b u dt s true).1 u x y ∧ (s = .predictor → Armed (getoutput b u dt s true).1 x) ∧
    (getoutput b u dt s true).2 = y := by
  cases s with
  | predictor =>
    obtain ⟨a, b, c⟩ := hold_pred dt h
    exact ⟨a, fun _ => b, c⟩
  | corrector =>
    obtain ⟨a, b⟩ := hold_corr dt h (ha rfl)
    exact ⟨a, fun h => Stage.noConfusion h, b⟩

/-- The mechanical parts at rest. -/
structure StillT (D pg omegaRef va th0 : Real) (a : Aero) (t : Turbine) : Prop where
  damp : t.drive.D = D
  s0 : t.drive.s0 = omegaRef - 1
  wg : t.drive.wg = omegaRef - 1
  wt : t.drive.wt = omegaRef - 1
  ang : t.drive.angle = va
  aero : t.aero = a
  th : t.pitch.theta = th0
  g : Hold t.drive.gBlk 0 (omegaRef - 1) (omegaRef - 1)
  an : Hold t.drive.aBlk 0 va va
  comp : Hold t.pitch.comp 0 0 0
  ctrl : Hold t.pitch.ctrl 0 th0 th0
  lag : Hold t.pitch.lag th0 th0 th0

/-- All blocks have seen rest in the predictor. -/
def ArmedT (omegaRef va th0 : Real) (t : Turbine) : Prop :=
  Armed t.drive.gBlk (omegaRef - 1) ∧ Armed t.drive.aBlk va ∧ Armed t.pitch.comp 0 ∧ Armed t.pitch.ctrl th0 ∧
  Armed t.pitch.lag th0

theorem still_call {D pg omegaRef va th0 : Real} {a : Aero} {t : Turbine} (dt : Real) (s : Stage)
    (hw : omegaRef ≠ 0) (hth : a.Theta0 = th0)
    (hpm : a.Pmech0 = (pg / omegaRef + D * (omegaRef - 1)) * (1 + (omegaRef - 1)))
    (h : StillT D pg omegaRef va th0 a t) (ha : s = .corrector → ArmedT omegaRef va th0 t) :
    StillT D pg omegaRef va th0 a (turbineCall t dt s ⟨pg, pg, pg, omegaRef⟩) ∧
    (s = .predictor → ArmedT omegaRef va th0 (turbineCall t dt s ⟨pg, pg, pg, omegaRef⟩)) := by
  obtain ⟨h1, h2, h3, h4, h5, h6, h7, hg, han, hc, hk, hl⟩ := h
  have c1 := hold_call dt s hc (fun e => (ha e).2.2.1)
  have c2 := hold_call dt s hk (fun e => (ha e).2.2.2.1)
  have c3 := hold_call dt s hl (fun e => (ha e).2.2.2.2)
  have c4 := hold_call dt s hg (fun e => (ha e).1)
  have c5 := hold_call dt s han (fun e => (ha e).2.1)
  have u1 : pg - pg = 0 := sub_self pg
  have u2 : (1 + t.drive.wg) - omegaRef + t.pitch.Kcc * (pg - pg) = 0 := by rw [h3]; ring
  have e1 : getoutput t.pitch.comp (pg - pg) dt s true = getoutput t.pitch.comp 0 dt s true := by rw [u1]
  have e2 : getoutput t.pitch.ctrl ((1 + t.drive.wg) - omegaRef + t.pitch.Kcc * (pg - pg)) dt s true =
      getoutput t.pitch.ctrl 0 dt s true := by rw [u2]
  have e3 : getoutput t.pitch.lag ((getoutput t.pitch.comp (pg - pg) dt s true).2 + (getoutput t.pitch.ctrl
      ((1 + t.drive.wg) - omegaRef + t.pitch.Kcc * (pg - pg)) dt s true).2) dt s true =
      getoutput t.pitch.lag th0 dt s true := by rw [e1, e2, c1.2.2, c2.2.2, zero_add]
  have hp : pitchCall t.pitch dt s pg pg t.drive.wg omegaRef =
      { t.pitch with comp := (getoutput t.pitch.comp 0 dt s true).1
                     ctrl := (getoutput t.pitch.ctrl 0 dt s true).1
                     lag := (getoutput t.pitch.lag th0 dt s true).1
                     theta := (getoutput t.pitch.lag th0 dt s true).2 } := by
    unfold pitchCall
    simp only [e3]
    rw [e1, e2]
  have hpt : (pitchCall t.pitch dt s pg pg t.drive.wg omegaRef).theta = th0 := by
    rw [hp]
    exact c3.2.2
  have ht : taero t.aero (pitchCall t.pitch dt s pg pg t.drive.wg omegaRef).theta t.drive.wt =
      pg / omegaRef + D * (omegaRef - 1) := by
    have hne : 1 + (omegaRef - 1) ≠ 0 := by
      have : 1 + (omegaRef - 1) = omegaRef := by ring
      rw [this]
      exact hw
    unfold taero
    rw [hpt, h6, h4, hth, hpm, sub_self, mul_zero, sub_zero, mul_div_assoc, div_self hne, mul_one]
  have u4 : taero t.aero (pitchCall t.pitch dt s pg pg t.drive.wg omegaRef).theta t.drive.wt -
      pg / (1 + t.drive.wg) - t.drive.D * t.drive.wg = 0 := by
    rw [ht, h1, h3]
    have : 1 + (omegaRef - 1) = omegaRef := by ring
    rw [this]
    ring
  have e4 : getoutput t.drive.gBlk (taero t.aero (pitchCall t.pitch dt s pg pg t.drive.wg omegaRef).theta
      t.drive.wt - pg / (1 + t.drive.wg) - t.drive.D * t.drive.wg) dt s true =
      getoutput t.drive.gBlk 0 dt s true := by rw [u4]
  have e5 : getoutput t.drive.aBlk (omega0 * ((getoutput t.drive.gBlk (taero t.aero (pitchCall t.pitch dt s
      pg pg t.drive.wg omegaRef).theta t.drive.wt - pg / (1 + t.drive.wg) - t.drive.D * t.drive.wg) dt s
      true).2 - t.drive.s0)) dt s true = getoutput t.drive.aBlk 0 dt s true := by
    rw [e4, c4.2.2, h2, sub_self, mul_zero]
  have hd : (turbineCall t dt s ⟨pg, pg, pg, omegaRef⟩).drive.gBlk = (getoutput t.drive.gBlk 0 dt s true).1 :=
    congrArg Prod.fst e4
  have hd2 : (turbineCall t dt s ⟨pg, pg, pg, omegaRef⟩).drive.wg = (getoutput t.drive.gBlk 0 dt s true).2 :=
    congrArg Prod.snd e4
  have hd3 : (turbineCall t dt s ⟨pg, pg, pg, omegaRef⟩).drive.aBlk = (getoutput t.drive.aBlk 0 dt s true).1 :=
    congrArg Prod.fst e5
  have hd4 : (turbineCall t dt s ⟨pg, pg, pg, omegaRef⟩).drive.angle = (getoutput t.drive.aBlk 0 dt s true).2 :=
    congrArg Prod.snd e5
  have hpp : (turbineCall t dt s ⟨pg, pg, pg, omegaRef⟩).pitch =
      pitchCall t.pitch dt s pg pg t.drive.wg omegaRef := rfl
  refine ⟨⟨h1, h2, hd2.trans c4.2.2, h4, hd4.trans c5.2.2, h6, ?_, ?_, ?_, ?_, ?_, ?_⟩, ?_⟩
  · rw [hpp]; exact hpt
  · rw [hd]; exact c4.1
  · rw [hd3]; exact c5.1
  · rw [hpp, hp]; exact c1.1
  · rw [hpp, hp]; exact c2.1
  · rw [hpp, hp]; exact c3.1
  · intro e
    refine ⟨?_, ?_, ?_, ?_, ?_⟩
    · rw [hd]; exact c4.2.1 e
    · rw [hd3]; exact c5.2.1 e
    · rw [hpp, hp]; exact c1.2.1 e
    · rw [hpp, hp]; exact c2.2.1 e
    · rw [hpp, hp]; exact c3.2.1 e

/-- Coefficients of a loaded PI block. -/
structure IsPi (b : Block) (Kp Ki lo hi : Real) : Prop where
  a : b.A = 0
  bb : b.B = Ki
  c : b.C = 1
  d : b.D = Kp
  xlo : b.xmin = lo
  xhi : b.xmax = hi
  dlo : b.dxmin = -1000
  dhi : b.dxmax = 1000
  ylo : b.ymin = -1000
  yhi : b.ymax = 1000

theorem pi_is {raw b : Block} {Kp Ki lo hi : Real}
    (h : withLimits (piControl raw Kp Ki) lo hi (-1000) 1000 = some b) : IsPi b Kp Ki lo hi := by
  unfold withLimits piControl setcoeffs at h
  rw [if_neg one_ne_zero] at h
  cases h
  refine ⟨?_, ?_, rfl, ?_, rfl, rfl, rfl, rfl, rfl, rfl⟩
  · show -0 / 1 = (0 : Real)
    simp
  · show Ki / 1 - 0 * Kp / (1 * 1) = Ki
    simp
  · show Kp / 1 = Kp
    simp

theorem pi_initY {b : Block} {Kp Ki lo hi : Real} (y : Real) (h : IsPi b Kp Ki lo hi) :
    initGivenY b y = ({ b with x := y }, 0) := by
  unfold initGivenY
  rw [if_pos (by rw [h.a, abs_zero]; exact eps_pos)]

/-- The lag of the pitch controller as loaded. -/
structure IsLag (b : Block) (p : PitchRecord) : Prop where
  a : b.A = -1 / p.Tp
  bb : b.B = 1 / p.Tp
  c : b.C = 1
  d : b.D = 0
  xlo : b.xmin = p.thetaMin
  xhi : b.xmax = p.thetaMax
  dlo : b.dxmin = p.rateMin
  dhi : b.dxmax = p.rateMax
  ylo : b.ymin = -1000
  yhi : b.ymax = 1000

theorem pitch_loaded {raw : Block} {p : PitchRecord} {q : Pitch} (h : loadPitch raw p = some q) :
    IsPi q.comp p.Kpc p.Kic p.thetaMin p.thetaMax ∧ IsPi q.ctrl p.Kpw p.Kiw p.thetaMin p.thetaMax ∧
    IsLag q.lag p ∧ q.Kcc = p.Kcc := by
  unfold loadPitch at h
  split at h
  · rename_i a b l ha hb hl
    obtain ⟨_, f, _⟩ := filter_is hl
    cases h
    exact ⟨pi_is ha, pi_is hb, ⟨f.a, f.bb, f.c, f.d, rfl, rfl, rfl, rfl, rfl, rfl⟩, rfl⟩
  · cases h

theorem lag_initY {b : Block} {p : PitchRecord} (y : Real) (h : IsLag b p) (h0 : 0 < p.Tp)
    (h1 : p.Tp ≤ 1000) : initGivenY b y = ({ b with x := y }, y) := by
  have hT : p.Tp ≠ 0 := ne_of_gt h0
  have hg : b.D - b.C * b.B / b.A = 1 := by
    rw [h.a, h.bb, h.c, h.d]
    field_simp
    ring
  have hb : -b.B / b.A = 1 := by
    rw [h.a, h.bb]
    field_simp
  unfold initGivenY
  rw [if_neg (not_lt.mpr (by rw [h.a]; exact eps_le_inv h0 h1)), hg, hb, div_one, one_mul]

theorem still_start {H D Hfrac : Real} {a : Aero} {p : PitchRecord} {pg omegaRef va : Real} {t : Turbine}
    (h : TurbineStarted H D Hfrac a p pg omegaRef va t) (hq : QuietTurbine a p omegaRef va) :
    ∃ a', a'.Theta0 = a.Theta0 ∧
      a'.Pmech0 = (pg / omegaRef + D * (omegaRef - 1)) * (1 + (omegaRef - 1)) ∧
      StillT D pg omegaRef va a.Theta0 a' t ∧ IsPi t.pitch.comp p.Kpc p.Kic p.thetaMin p.thetaMax ∧
      IsPi t.pitch.ctrl p.Kpw p.Kiw p.thetaMin p.thetaMax ∧ IsLag t.pitch.lag p ∧ t.pitch.Kcc = p.Kcc := by
  obtain ⟨raw, d0, p0, hc, hd, hp, rfl⟩ := h
  obtain ⟨q1, q2, q3, q4, q5, q6, q7, q8, q9, q10, q11, q12⟩ := hq
  obtain ⟨g, an, hD, _⟩ := drive_loaded hc hd
  obtain ⟨i1, i2, i3, hK⟩ := pitch_loaded hp
  have eg := integrator_initY (omegaRef - 1) g
  have ea := integrator_initY va an
  have e1 := pi_initY 0 i1
  have e3 := lag_initY a.Theta0 i3 q5 q6
  have e2 := pi_initY a.Theta0 i2
  have bg : (initTurbine d0 a p0 pg omegaRef va).drive.gBlk = { d0.gBlk with x := omegaRef - 1 } := by
    show (initGivenY d0.gBlk (omegaRef - 1)).1 = _
    rw [eg]
  have ba : (initTurbine d0 a p0 pg omegaRef va).drive.aBlk = { d0.aBlk with x := va } := by
    show (initGivenY d0.aBlk va).1 = _
    rw [ea]
  have b1 : (initTurbine d0 a p0 pg omegaRef va).pitch.comp = { p0.comp with x := 0 } := by
    show (initGivenY p0.comp 0).1 = _
    rw [e1]
  have b3 : (initTurbine d0 a p0 pg omegaRef va).pitch.lag = { p0.lag with x := a.Theta0 } := by
    show (initGivenY p0.lag a.Theta0).1 = _
    rw [e3]
  have b2 : (initTurbine d0 a p0 pg omegaRef va).pitch.ctrl = { p0.ctrl with x := a.Theta0 } := by
    show (initGivenY p0.ctrl (initGivenY p0.lag a.Theta0).2).1 = _
    rw [e3, e2]
  refine ⟨(initTurbine d0 a p0 pg omegaRef va).aero, rfl, ?_,
    ⟨hD, rfl, rfl, rfl, rfl, rfl, rfl, ?_, ?_, ?_, ?_, ?_⟩, ?_, ?_, ?_, hK⟩
  · show (pg / omegaRef + d0.D * (omegaRef - 1) + (initGivenY d0.gBlk (omegaRef - 1)).2) *
      (1 + (omegaRef - 1)) = _
    rw [eg, hD, add_zero]
  · rw [bg]
    refine ⟨rfl, ?_, ?_, ?_, ?_, ?_, ?_⟩
    · show d0.gBlk.A * _ + d0.gBlk.B * 0 = 0
      rw [g.a]; ring
    · show d0.gBlk.xmin ≤ _
      rw [g.xlo]; exact (abs_le.mp q2).1
    · show _ ≤ d0.gBlk.xmax
      rw [g.xhi]; exact (abs_le.mp q2).2
    · show d0.gBlk.dxmin ≤ 0
      rw [g.dlo]; norm_num
    · show 0 ≤ d0.gBlk.dxmax
      rw [g.dhi]; norm_num
    · show clamp d0.gBlk.ymin d0.gBlk.ymax (d0.gBlk.C * (omegaRef - 1) + d0.gBlk.D * 0) = _
      rw [g.ylo, g.yhi, g.c, g.d, one_mul, mul_zero, add_zero]
      exact clamp_1000 q2
  · rw [ba]
    refine ⟨rfl, ?_, ?_, ?_, ?_, ?_, ?_⟩
    · show d0.aBlk.A * _ + d0.aBlk.B * 0 = 0
      rw [an.a]; ring
    · show d0.aBlk.xmin ≤ _
      rw [an.xlo]; exact (abs_le.mp q3).1
    · show _ ≤ d0.aBlk.xmax
      rw [an.xhi]; exact (abs_le.mp q3).2
    · show d0.aBlk.dxmin ≤ 0
      rw [an.dlo]; norm_num
    · show 0 ≤ d0.aBlk.dxmax
      rw [an.dhi]; norm_num
    · show clamp d0.aBlk.ymin d0.aBlk.ymax (d0.aBlk.C * va + d0.aBlk.D * 0) = _
      rw [an.ylo, an.yhi, an.c, an.d, one_mul, mul_zero, add_zero]
      exact clamp_1000 q3
  · rw [b1]
    refine ⟨rfl, ?_, ?_, ?_, ?_, ?_, ?_⟩
    · show p0.comp.A * 0 + p0.comp.B * 0 = 0
      ring
    · show p0.comp.xmin ≤ 0
      rw [i1.xlo]; exact q9
    · show 0 ≤ p0.comp.xmax
      rw [i1.xhi]; exact q10
    · show p0.comp.dxmin ≤ 0
      rw [i1.dlo]; norm_num
    · show 0 ≤ p0.comp.dxmax
      rw [i1.dhi]; norm_num
    · show clamp p0.comp.ymin p0.comp.ymax (p0.comp.C * 0 + p0.comp.D * 0) = 0
      rw [i1.ylo, i1.yhi, mul_zero, mul_zero, add_zero]
      exact clamp_1000 (by norm_num)
  · rw [b2]
    refine ⟨rfl, ?_, ?_, ?_, ?_, ?_, ?_⟩
    · show p0.ctrl.A * _ + p0.ctrl.B * 0 = 0
      rw [i2.a]; ring
    · show p0.ctrl.xmin ≤ _
      rw [i2.xlo]; exact q7
    · show _ ≤ p0.ctrl.xmax
      rw [i2.xhi]; exact q8
    · show p0.ctrl.dxmin ≤ 0
      rw [i2.dlo]; norm_num
    · show 0 ≤ p0.ctrl.dxmax
      rw [i2.dhi]; norm_num
    · show clamp p0.ctrl.ymin p0.ctrl.ymax (p0.ctrl.C * a.Theta0 + p0.ctrl.D * 0) = _
      rw [i2.ylo, i2.yhi, i2.c, one_mul, mul_zero, add_zero]
      exact clamp_1000 q4
  · rw [b3]
    refine ⟨rfl, ?_, ?_, ?_, ?_, ?_, ?_⟩
    · show p0.lag.A * _ + p0.lag.B * _ = 0
      rw [i3.a, i3.bb]; ring
    · show p0.lag.xmin ≤ _
      rw [i3.xlo]; exact q7
    · show _ ≤ p0.lag.xmax
      rw [i3.xhi]; exact q8
    · show p0.lag.dxmin ≤ 0
      rw [i3.dlo]; exact q11
    · show 0 ≤ p0.lag.dxmax
      rw [i3.dhi]; exact q12
    · show clamp p0.lag.ymin p0.lag.ymax (p0.lag.C * a.Theta0 + p0.lag.D * a.Theta0) = _
      rw [i3.ylo, i3.yhi, i3.c, i3.d, one_mul, zero_mul, add_zero]
      exact clamp_1000 q4
  · rw [b1]; exact ⟨i1.a, i1.bb, i1.c, i1.d, i1.xlo, i1.xhi, i1.dlo, i1.dhi, i1.ylo, i1.yhi⟩
  · rw [b2]; exact ⟨i2.a, i2.bb, i2.c, i2.d, i2.xlo, i2.xhi, i2.dlo, i2.dhi, i2.ylo, i2.yhi⟩
  · rw [b3]; exact ⟨i3.a, i3.bb, i3.c, i3.d, i3.xlo, i3.xhi, i3.dlo, i3.dhi, i3.ylo, i3.yhi⟩

/-- C317, part: with a plant controller that keeps its reference, and with constant electrical power,
speed, rotor angle and pitch angle stay at their initial values for any number of steps of any size. -/
theorem C317_rest_partial (H D Hfrac : Real) (a : Aero) (p : PitchRecord) (pg omegaRef va dt : Real)
    (t : Turbine) (n : Nat) (h : TurbineStarted H D Hfrac a p pg omegaRef va t)
    (hq : QuietTurbine a p omegaRef va) :
    let e := turbineRun dt t (List.replicate n (⟨pg, pg, pg, omegaRef⟩, ⟨pg, pg, pg, omegaRef⟩))
    1 + e.drive.wg = omegaRef ∧ e.drive.angle = va ∧ e.pitch.theta = a.Theta0 := by
  obtain ⟨a', h1, h2, hs, _⟩ := still_start h hq
  have key : ∀ m d, StillT D pg omegaRef va a.Theta0 a' d → StillT D pg omegaRef va a.Theta0 a'
      (turbineRun dt d (List.replicate m (⟨pg, pg, pg, omegaRef⟩, ⟨pg, pg, pg, omegaRef⟩))) := by
    intro m
    induction m with
    | zero => intro d hd; exact hd
    | succ m ih =>
      intro d hd
      have s1 := still_call dt .predictor hq.1 h1 h2 hd (fun e => by cases e)
      have s2 := still_call dt .corrector hq.1 h1 h2 s1.1 (fun _ => s1.2 rfl)
      exact ih _ s2.1
  intro e
  have k := key n t hs
  refine ⟨?_, k.ang, k.th⟩
  show 1 + (turbineRun dt t _).drive.wg = omegaRef
  rw [k.wg]
  ring

theorem lt_clamp {lo hi x b : Real} (h1 : b < hi) (h2 : b < x) : b < clamp lo hi x :=
  lt_of_lt_of_le (lt_min h2 h1) (le_max_right _ _)

theorem le_clamp {lo hi x b : Real} (h1 : b ≤ hi) (h2 : b ≤ x) : b ≤ clamp lo hi x :=
  le_trans (le_min h2 h1) (le_max_right _ _)

/-- C317 fails without a plant controller: the variable that should hold the reference of the plant is not
set then.  Whenever the value found there is below the power of the turbine, the blades are turned in the
first step although nothing has changed. -/
theorem C317_no_plant_violated (H D Hfrac : Real) (a : Aero) (p : PitchRecord) (pg omegaRef va dt g : Real)
    (t : Turbine) (h : TurbineStarted H D Hfrac a p pg omegaRef va t) (hq : QuietTurbine a p omegaRef va)
    (hdt : 0 < dt) (hth : a.Theta0 < p.thetaMax) (hth2 : a.Theta0 < 1000) (hr : 0 < p.rateMax)
    (hk : 0 < p.Kpc) (hk2 : 0 ≤ p.Kpw * p.Kcc) (hg : g < pg) :
    a.Theta0 < (turbineRun dt t [(⟨pg, pg, g, omegaRef⟩, ⟨pg, pg, g, omegaRef⟩)]).pitch.theta := by
  obtain ⟨a', h1, h2, hs, i1, i2, i3, hK⟩ := still_start h hq
  have he : 0 < pg - g := by linarith
  set u := (getoutput t.pitch.comp (pg - g) dt .predictor true).2 + (getoutput t.pitch.ctrl
      ((1 + t.drive.wg) - omegaRef + t.pitch.Kcc * (pg - g)) dt .predictor true).2 with hu
  have hy1 : 0 < (getoutput t.pitch.comp (pg - g) dt .predictor true).2 := by
    show 0 < clamp t.pitch.comp.ymin t.pitch.comp.ymax (t.pitch.comp.C * t.pitch.comp.x +
      t.pitch.comp.D * (pg - g))
    rw [i1.yhi, i1.c, i1.d, hs.comp.st, mul_zero, zero_add]
    exact lt_clamp (by norm_num) (mul_pos hk he)
  have hy2 : a.Theta0 ≤ (getoutput t.pitch.ctrl
      ((1 + t.drive.wg) - omegaRef + t.pitch.Kcc * (pg - g)) dt .predictor true).2 := by
    show a.Theta0 ≤ clamp t.pitch.ctrl.ymin t.pitch.ctrl.ymax (t.pitch.ctrl.C * t.pitch.ctrl.x +
      t.pitch.ctrl.D * ((1 + t.drive.wg) - omegaRef + t.pitch.Kcc * (pg - g)))
    rw [i2.yhi, i2.c, i2.d, hs.ctrl.st, hs.wg, hK]
    refine le_clamp hth2.le ?_
    have e : 1 * a.Theta0 + p.Kpw * (1 + (omegaRef - 1) - omegaRef + p.Kcc * (pg - g)) =
        a.Theta0 + p.Kpw * p.Kcc * (pg - g) := by ring
    rw [e]
    have := mul_nonneg hk2 he.le
    linarith
  have hup : a.Theta0 < u := by rw [hu]; linarith
  have hder : 0 < getderivative t.pitch.lag t.pitch.lag.x u := by
    unfold getderivative
    rw [i3.a, i3.bb, hs.lag.st]
    have e : -1 / p.Tp * a.Theta0 + 1 / p.Tp * u = (u - a.Theta0) / p.Tp := by ring
    rw [e]
    exact div_pos (by linarith) hq.2.2.2.2.1
  have hrate : 0 < clamp t.pitch.lag.dxmin t.pitch.lag.dxmax (getderivative t.pitch.lag t.pitch.lag.x u) := by
    rw [i3.dhi]
    exact lt_clamp hr hder
  have hxh : a.Theta0 < (getoutput t.pitch.lag u dt .predictor true).1.xhat := by
    show a.Theta0 < clamp t.pitch.lag.xmin t.pitch.lag.xmax (t.pitch.lag.x + dt * clamp t.pitch.lag.dxmin
      t.pitch.lag.dxmax (getderivative t.pitch.lag t.pitch.lag.x u))
    rw [i3.xhi]
    refine lt_clamp hth ?_
    rw [hs.lag.st]
    have := mul_pos hdt hrate
    rw [hs.lag.st] at this
    linarith
  have hfin : ∀ w, a.Theta0 < clamp t.pitch.lag.ymin t.pitch.lag.ymax (t.pitch.lag.C *
      (getoutput t.pitch.lag u dt .predictor true).1.xhat + t.pitch.lag.D * w) := by
    intro w
    rw [i3.yhi, i3.c, i3.d, one_mul, zero_mul, add_zero]
    exact lt_clamp hth2 hxh
  exact hfin _

/-! ### C318: limits of the controllers -/

/-- Angle and state of the pitch controller inside the limits. -/
def PitchIn (p : PitchRecord) (q : Pitch) : Prop :=
  IsLag q.lag p ∧ (p.thetaMin ≤ q.lag.x ∧ q.lag.x ≤ p.thetaMax) ∧ (p.thetaMin ≤ q.theta ∧ q.theta ≤ p.thetaMax)

theorem pitch_step {p : PitchRecord} (hl : p.thetaMin ≤ p.thetaMax) (h1 : -1000 ≤ p.thetaMin)
    (h2 : p.thetaMax ≤ 1000) (dt : Real) (t : Turbine) (i : MechIn × MechIn) (h : PitchIn p t.pitch) :
    PitchIn p (turbineStep dt t i).pitch := by
  obtain ⟨g, hx, _⟩ := h
  have hxh : p.thetaMin ≤ (turbineCall t dt .predictor i.1).pitch.lag.xhat ∧
      (turbineCall t dt .predictor i.1).pitch.lag.xhat ≤ p.thetaMax := by
    show p.thetaMin ≤ clamp t.pitch.lag.xmin t.pitch.lag.xmax _ ∧
      clamp t.pitch.lag.xmin t.pitch.lag.xmax _ ≤ p.thetaMax
    rw [g.xlo, g.xhi]
    exact clamp_mem _ _ _ hl
  refine ⟨⟨g.a, g.bb, g.c, g.d, g.xlo, g.xhi, g.dlo, g.dhi, g.ylo, g.yhi⟩, ?_, ?_⟩
  · show p.thetaMin ≤ clamp t.pitch.lag.xmin t.pitch.lag.xmax _ ∧
      clamp t.pitch.lag.xmin t.pitch.lag.xmax _ ≤ p.thetaMax
    rw [g.xlo, g.xhi]
    exact clamp_mem _ _ _ hl
  · have e : ∀ w, clamp t.pitch.lag.ymin t.pitch.lag.ymax (t.pitch.lag.C *
        (turbineCall t dt .predictor i.1).pitch.lag.xhat + t.pitch.lag.D * w) =
        (turbineCall t dt .predictor i.1).pitch.lag.xhat := by
      intro w
      rw [g.ylo, g.yhi, g.c, g.d, one_mul, zero_mul, add_zero]
      exact clamp_of_mem _ _ _ (le_trans h1 hxh.1) (le_trans hxh.2 h2)
    have e2 : (turbineStep dt t i).pitch.theta = (turbineCall t dt .predictor i.1).pitch.lag.xhat := e _
    rw [e2]
    exact hxh

/-- C318: whatever happens, the pitch angle stays between the limits of the record. -/
theorem C318_pitch (H D Hfrac : Real) (a : Aero) (p : PitchRecord) (pg omegaRef va dt : Real) (t : Turbine)
    (is : List (MechIn × MechIn)) (h : TurbineStarted H D Hfrac a p pg omegaRef va t)
    (hq : QuietTurbine a p omegaRef va) (h1 : -1000 ≤ p.thetaMin) (h2 : p.thetaMax ≤ 1000) :
    p.thetaMin ≤ (turbineRun dt t is).pitch.theta ∧ (turbineRun dt t is).pitch.theta ≤ p.thetaMax := by
  obtain ⟨a', _, _, hs, _, _, i3, _⟩ := still_start h hq
  obtain ⟨_, _, _, _, _, _, q7, q8, q9, q10, _, _⟩ := hq
  have h0 : PitchIn p t.pitch := by
    refine ⟨i3, ?_, ?_⟩
    · rw [hs.lag.st]; exact ⟨q7, q8⟩
    · rw [hs.th]; exact ⟨q7, q8⟩
  have key : ∀ (is : List (MechIn × MechIn)) (d : Turbine), PitchIn p d.pitch →
      PitchIn p (turbineRun dt d is).pitch := by
    intro is
    induction is with
    | nil => intro d hd; exact hd
    | cons i is ih =>
      intro d hd
      exact ih _ (pitch_step (le_trans q9 q10) h1 h2 dt d i hd)
  exact (key is t h0).2.2

/-- The PI block of the torque controller inside the limits. -/
def TorqueInside (Kp Ki lo hi : Real) (t : Torque) : Prop :=
  IsPi t.piBlk Kp Ki lo hi ∧ (lo ≤ t.piBlk.x ∧ t.piBlk.x ≤ hi) ∧ (lo ≤ t.piBlk.xhat ∧ t.piBlk.xhat ≤ hi)

theorem pi_call {Kp Ki lo hi : Real} (hl : lo ≤ hi) (b : Block) (u dt : Real) (s : Stage) (upd : Bool)
    (h : IsPi b Kp Ki lo hi) (hx : lo ≤ b.x ∧ b.x ≤ hi) (hh : lo ≤ b.xhat ∧ b.xhat ≤ hi) :
    IsPi (getoutput b u dt s upd).1 Kp Ki lo hi ∧
    (lo ≤ (getoutput b u dt s upd).1.x ∧ (getoutput b u dt s upd).1.x ≤ hi) ∧
    (lo ≤ (getoutput b u dt s upd).1.xhat ∧ (getoutput b u dt s upd).1.xhat ≤ hi) := by
  cases upd with
  | false => exact ⟨h, hx, hh⟩
  | true =>
    cases s with
    | predictor =>
      refine ⟨⟨h.a, h.bb, h.c, h.d, h.xlo, h.xhi, h.dlo, h.dhi, h.ylo, h.yhi⟩, hx, ?_⟩
      show lo ≤ clamp b.xmin b.xmax _ ∧ clamp b.xmin b.xmax _ ≤ hi
      rw [h.xlo, h.xhi]
      exact clamp_mem _ _ _ hl
    | corrector =>
      refine ⟨⟨h.a, h.bb, h.c, h.d, h.xlo, h.xhi, h.dlo, h.dhi, h.ylo, h.yhi⟩, ?_, hh⟩
      show lo ≤ clamp b.xmin b.xmax _ ∧ clamp b.xmin b.xmax _ ≤ hi
      rw [h.xlo, h.xhi]
      exact clamp_mem _ _ _ hl

theorem torque_started {raw : Block} {Kpp Kip Temin Temax pelec : Real} {t : Torque}
    (h : TorqueStarted raw Kpp Kip Temin Temax pelec t) :
    IsPi t.piBlk Kpp Kip Temin Temax ∧ t.piBlk.x = pelec / t.omegaRef ∧ t.piBlk.xhat = raw.xhat := by
  obtain ⟨t0, hp, rfl⟩ := h
  have i := pi_is hp
  have hx : t0.piBlk.xhat = raw.xhat := by
    unfold torquePi withLimits piControl setcoeffs at hp
    rw [if_neg one_ne_zero] at hp
    have := Option.some.inj hp
    rw [← this]
    rfl
  have e : (initTorque t0 pelec).piBlk =
      { t0.piBlk with x := pelec / (1 + ((initTorque t0 pelec).omegaRef - 1)) } := by
    show (initGivenY t0.piBlk (pelec / (1 + ((initTorque t0 pelec).omegaRef - 1)))).1 = _
    rw [pi_initY _ i]
  rw [e]
  refine ⟨⟨i.a, i.bb, i.c, i.d, i.xlo, i.xhi, i.dlo, i.dhi, i.ylo, i.yhi⟩, ?_, hx⟩
  show pelec / (1 + ((initTorque t0 pelec).omegaRef - 1)) = _
  have e1 : 1 + ((initTorque t0 pelec).omegaRef - 1) = (initTorque t0 pelec).omegaRef := by ring
  rw [e1]

/-- C318, part: a torque controller without proportional gain orders a torque between its limits after
every step, whatever happens, also during voltage dips (`raw.xhat` is what an unset variable holds; it
matters only when the first step falls into a dip). -/
theorem C318_torque_partial (raw : Block) (Kip Temin Temax pelec dt : Real) (t : Torque)
    (is : List (TorqueIn × TorqueIn)) (i : TorqueIn × TorqueIn)
    (h : TorqueStarted raw 0 Kip Temin Temax pelec t) (hl : Temin ≤ Temax)
    (h1 : -1000 ≤ Temin) (h2 : Temax ≤ 1000)
    (hx : Temin ≤ pelec / t.omegaRef ∧ pelec / t.omegaRef ≤ Temax)
    (hr : Temin ≤ raw.xhat ∧ raw.xhat ≤ Temax) (hw : -1 < i.2.wg) :
    Temin * (1 + i.2.wg) ≤ ((is ++ [i]).foldl (torqueStep dt) t).Pref ∧
    ((is ++ [i]).foldl (torqueStep dt) t).Pref ≤ Temax * (1 + i.2.wg) := by
  obtain ⟨p1, p2, p3⟩ := torque_started h
  have h0 : TorqueInside 0 Kip Temin Temax t := ⟨p1, by rw [p2]; exact hx, by rw [p3]; exact hr⟩
  have call : ∀ (s : Stage) (j : TorqueIn) (d : Torque), TorqueInside 0 Kip Temin Temax d →
      TorqueInside 0 Kip Temin Temax (torqueCall d dt s j.pref0 j.pelec j.wg j.vdip) := by
    intro s j d hd
    exact pi_call hl d.piBlk _ dt s (!j.vdip) hd.1 hd.2.1 hd.2.2
  have key : ∀ (js : List (TorqueIn × TorqueIn)) (d : Torque), TorqueInside 0 Kip Temin Temax d →
      TorqueInside 0 Kip Temin Temax (js.foldl (torqueStep dt) d) := by
    intro js
    induction js with
    | nil => intro d hd; exact hd
    | cons j js ih =>
      intro d hd
      exact ih _ (call .corrector j.2 _ (call .predictor j.1 d hd))
  rw [List.foldl_append]
  obtain ⟨g, _, hh⟩ := call .predictor i.1 _ (key is t h0)
  set d := torqueCall (is.foldl (torqueStep dt) t) dt .predictor i.1.pref0 i.1.pelec i.1.wg i.1.vdip with hd
  have hout : ∀ u, clamp d.piBlk.ymin d.piBlk.ymax (d.piBlk.C * d.piBlk.xhat + d.piBlk.D * u) =
      d.piBlk.xhat := by
    intro u
    rw [g.ylo, g.yhi, g.c, g.d, one_mul, zero_mul, add_zero]
    exact clamp_of_mem _ _ _ (le_trans h1 hh.1) (le_trans hh.2 h2)
  have e : ([i].foldl (torqueStep dt) (is.foldl (torqueStep dt) t)).Pref = d.piBlk.xhat * (1 + i.2.wg) :=
    congrArg (· * (1 + i.2.wg)) (hout _)
  rw [e]
  have hp : 0 ≤ 1 + i.2.wg := by linarith
  exact ⟨mul_le_mul_of_nonneg_right hh.1 hp, mul_le_mul_of_nonneg_right hh.2 hp⟩

/-- C318 fails for every torque controller with proportional gain: the limits bound its integral part only,
and there are power references for which the torque ordered in the first call exceeds the upper limit. -/
theorem C318_torque_violated (raw : Block) (Kpp Kip Temin Temax pelec pe dt wg : Real) (vdip : Bool)
    (t : Torque) (h : TorqueStarted raw Kpp Kip Temin Temax pelec t) (hk : 0 < Kpp) (hw : -1 < wg)
    (ht : t.tflag = true) (h2 : Temax < 1000) :
    ∃ pref0, Temax * (1 + wg) < (torqueCall t dt .predictor pref0 pe wg vdip).Pref := by
  obtain ⟨g, _, _⟩ := torque_started h
  have hp : 0 < 1 + wg := by linarith
  set f := (getoutput t.pelecBlk pe dt .predictor true).2 with hf
  refine ⟨f + (1000 - t.piBlk.x) / Kpp * (1 + wg), ?_⟩
  set pref0 := f + (1000 - t.piBlk.x) / Kpp * (1 + wg) with hpr
  have e1 : (pref0 - f) / (1 + wg) = (1000 - t.piBlk.x) / Kpp := by
    rw [hpr, add_sub_cancel_left, mul_div_assoc, div_self (ne_of_gt hp), mul_one]
  have e : (torqueCall t dt .predictor pref0 pe wg vdip).Pref = 1000 * (1 + wg) := by
    show clamp t.piBlk.ymin t.piBlk.ymax (t.piBlk.C * t.piBlk.x + t.piBlk.D *
      (if t.tflag = true then (pref0 - f) / (1 + wg) else _)) * (1 + wg) = _
    rw [if_pos ht, e1, g.ylo, g.yhi, g.c, g.d, one_mul, mul_div_cancel₀ _ (ne_of_gt hk)]
    have e2 : t.piBlk.x + (1000 - t.piBlk.x) = 1000 := by ring
    rw [e2, clamp_1000 (by norm_num)]
  rw [e]
  exact mul_lt_mul_of_pos_right h2 hp

/-! ### Examples -/

/-- Default values of the record (regca1.cpp 88-102), 50 MW and 10 Mvar on a machine of 80 MVA. -/
noncomputable def r0 : Record :=
  ⟨100, 80, 1 / 2, 1 / 10, true, 1 / 50, 10, 9 / 10, 2 / 5, 61 / 50, 6 / 5, 4 / 5, 2 / 5, -13 / 10, 1 / 50,
   7 / 10, 999, -999⟩

/-- Blocks as constructed. -/
noncomputable def raw0 : Block := ⟨0, 0, 0, 0, 0, 0, 1000, -1000, 1000, -1000, 1000, -1000, .predictor, 0⟩

example : Constructed raw0 := by simp [Constructed, raw0]

example : ∃ c, Started r0 1 c := by
  refine ⟨_, raw0, ?_, ?_, rfl⟩
  · exact (loadConv raw0 r0).get (by
      unfold loadConv
      rw [filter_eq _ _ _ (by norm_num [r0]), filter_eq _ _ _ (by norm_num [r0]),
        filter_eq _ _ _ (by norm_num [r0])]
      rfl)
  · exact (Option.some_get _).symm

example : Bases r0 := by norm_num [Bases, r0]

example : NormalStart r0 1 := by
  norm_num [NormalStart, r0, startIq, tol]

example : Calm r0 1 := by
  norm_num [Calm, r0, startIq, startIp, tol, abs_le]

/-- A voltage above the limit. -/
example : 0 < r0.khv ∧ r0.volim < ‖(5 / 4 : ℂ)‖ ∧ (5 / 4 : ℂ) ≠ 0 ∧ r0.lolim ≤ startIq r0 1 ∧
    startIq r0 1 ≤ 1000 ∧ r0.lolim < 1000 := by
  refine ⟨by norm_num [r0], ?_, by norm_num, by norm_num [r0, startIq], by norm_num [r0, startIq],
    by norm_num [r0]⟩
  have : (5 / 4 : ℂ) = ((5 / 4 : Real) : ℂ) := by push_cast; rfl
  rw [this, Complex.norm_real, Real.norm_of_nonneg (by norm_num)]
  norm_num [r0]

/-- The bases differ and active power is fed in. -/
example (c : Conv) (h : Started r0 1 c) : c.mbase ≠ c.r.sbase ∧ (feeds c 1).re ≠ 0 := by
  have hb : Bases r0 := by norm_num [Bases, r0]
  obtain ⟨_, _, _, e1, e2, _⟩ := started hb h
  refine ⟨?_, ?_⟩
  · rw [e1, e2]; norm_num [r0]
  · rw [C313_start r0 1 c hb (by norm_num [NormalStart, r0, startIq, tol]) h]
    norm_num [r0]

/-- Drive trains with one and with two masses; a torque excess of 0.1 for 100 steps. -/
example : ∃ d, DriveStarted 4 0 0 (6 / 5) 1 0 d := by
  refine ⟨_, raw0, ?_, by simp [Constructed, raw0], ?_, rfl⟩
  · exact (loadDrive raw0 4 0 0).get (by
      unfold loadDrive
      rw [integrator_eq _ _ (by norm_num), integrator_eq _ _ (by norm_num)]
      rfl)
  · exact (Option.some_get _).symm

example : |((11 / 10 : Real) - 1) / (2 * 4)| ≤ 1000 ∧
    |(6 / 5 : Real) - 1| + (100 : Nat) * ((1 / 100) * |((11 / 10 : Real) - 1) / (2 * 4)|) ≤ 1000 := by
  norm_num [abs_le, abs_of_pos]

/-- A turbine; pitch angle between 0 and 27 degrees. -/
noncomputable def p0 : PitchRecord := ⟨1, 1, 2, 3, 4, 27, 0, 10, -10, 3 / 10⟩

noncomputable def a0 : Aero := ⟨7 / 1000, 5, 0⟩

example : ∃ t, TurbineStarted 4 1 (1 / 5) a0 p0 (5 / 8) (6 / 5) 0 t := by
  refine ⟨_, raw0, ?_, ?_, by simp [Constructed, raw0], ?_, ?_, rfl⟩
  · exact (loadDrive raw0 4 1 (1 / 5)).get (by
      unfold loadDrive
      rw [integrator_eq _ _ (by norm_num), integrator_eq _ _ (by norm_num)]
      rfl)
  · exact (loadPitch raw0 p0).get (by
      unfold loadPitch piControl setcoeffs
      rw [if_neg one_ne_zero, if_neg one_ne_zero, filter_eq _ _ _ (by norm_num [p0])]
      rfl)
  · exact (Option.some_get _).symm
  · exact (Option.some_get _).symm

example : QuietTurbine a0 p0 (6 / 5) 0 := by
  norm_num [QuietTurbine, a0, p0, abs_le]

example : a0.Theta0 < p0.thetaMax ∧ a0.Theta0 < 1000 ∧ 0 < p0.rateMax ∧ 0 < p0.Kpc ∧
    0 ≤ p0.Kpw * p0.Kcc ∧ (0 : Real) < 5 / 8 := by
  norm_num [a0, p0]

/-- A torque controller with a proportional gain, and one without, at half power and nominal speed. -/
example (Kpp : Real) : ∃ t, TorqueStarted raw0 Kpp 5 0 (6 / 5) (1 / 2) t ∧ t.tflag = true ∧
    (0 ≤ 1 / 2 / t.omegaRef ∧ 1 / 2 / t.omegaRef ≤ 6 / 5) ∧ (0 ≤ raw0.xhat ∧ raw0.xhat ≤ 6 / 5) := by
  obtain ⟨b, hb⟩ : ∃ b, torquePi raw0 Kpp 5 0 (6 / 5) = some b := by
    unfold torquePi withLimits piControl setcoeffs
    rw [if_neg one_ne_zero]
    exact ⟨_, rfl⟩
  have e : (initGivenU (lag 0 1000) 1).2 = 1 := by
    unfold initGivenU
    rw [if_neg (by norm_num [lag, eps]), if_neg (by norm_num [lag, eps])]
    norm_num [lag]
  refine ⟨_, ⟨⟨true, lag 0 1000, lag 0 1000, b, fun _ => 1, 0, 0⟩, hb, rfl⟩, rfl, ?_, by norm_num [raw0]⟩
  have e2 : (initTorque ⟨true, lag 0 1000, lag 0 1000, b, fun _ => 1, 0, 0⟩ (1 / 2)).omegaRef = 1 := e
  rw [e2]
  norm_num

end GridPACK.Wind
