import Verif.Spec.DaeEvents
import Verif.Lemmas.DaeNet

/-! C191, C192: limiters and faults in the DAE form of the dynamic simulation. -/
namespace GridPACK.Dae

/-! ### C191: limiters -/

/-- C191: both limiters of EXDC1 work as they should, whatever events occur together. -/
theorem C191_exdc1_partial (e : Exdc1) (X : Ix → ℝ) (t0 t1 : Bool) :
    LimiterStep e.VRatmin (e.handle X t0 t1).VRatmin t0 (e.dVR X < 0) ∧
    LimiterStep e.VRatmax (e.handle X t0 t1).VRatmax t1 (0 < e.dVR X) ∧
    LimiterReset e.VRatmin (e.reset X).VRatmin (0 < e.dVR X) (X (.exc 2) < e.VRmin) ∧
    LimiterReset e.VRatmax (e.reset X).VRatmax (e.dVR X < 0) (e.VRmax < X (.exc 2)) := by
  refine ⟨⟨?_, ?_, ?_⟩, ⟨?_, ?_, ?_⟩, ⟨?_, ?_⟩, ⟨?_, ?_⟩⟩
  all_goals cases t0 <;> cases t1 <;> cases h1 : e.VRatmin <;> cases h2 : e.VRatmax <;>
    simp [Exdc1.handle, Exdc1.reset, h1, h2, sub_neg, Exdc1.dVR, Exdc1.yLL, Exdc1.Vf, Exdc1.diff1]

private theorem step_and (before event out : Bool) (P : Prop) (h : out = true ↔ P) :
    LimiterStep before (if event then !before && out else before) event P := by
  constructor <;> cases event <;> cases before <;> simp [h]

private theorem step_not (before event : Bool) : LimiterStep before (if event then !before else before) event True := by
  constructor <;> cases event <;> cases before <;> simp

private theorem reset_if (before inw bey : Bool) (P Q : Prop) (hp : inw = true ↔ P) (hq : bey = true ↔ Q) :
    LimiterReset before (if !before then bey else !inw) P Q := by
  constructor <;> cases before <;> simp [hp, hq]

/-- C191: of ESST1A, the limiters of the regulator output and the upper limiter of the input error work as they should,
the latter unless the lower one lets go at the same time. -/
theorem C191_esst1a_partial (e : Esst1a) (X : Ix → ℝ) (t0 t1 t2 t3 : Bool) :
    LimiterStep e.Vaatmin (e.handle X t0 t1 t2 t3).Vaatmin t2 (e.dVa X < 0) ∧
    LimiterStep e.Vaatmax (e.handle X t0 t1 t2 t3).Vaatmax t3 (0 < e.dVa X) ∧
    ((t0 = false ∨ e.Viatmin = false) → LimiterStep e.Viatmax (e.handle X t0 t1 t2 t3).Viatmax t1 True) ∧
    LimiterReset e.Vaatmin (e.reset X).Vaatmin (0 < e.dVa X) (X (.exc 3) < e.Vamin) ∧
    LimiterReset e.Vaatmax (e.reset X).Vaatmax (e.dVa X < 0) (e.Vamax < X (.exc 3)) ∧
    LimiterReset e.Viatmin (e.reset X).Viatmin (e.Vimin < e.ViFree X) (e.ViFree X < e.Vimin) ∧
    LimiterReset e.Viatmax (e.reset X).Viatmax (e.ViFree X < e.Vimax) (e.Vimax < e.ViFree X) := by
  have h1 : (e.handle X t0 t1 t2 t3).Vaatmin = if t2 then !e.Vaatmin && decide (e.dVa X < 0) else e.Vaatmin := by
    cases t0 <;> cases t1 <;> cases t2 <;> cases t3 <;> cases h : e.Viatmin <;> simp [Esst1a.handle, h]
  have h2 : (e.handle X t0 t1 t2 t3).Vaatmax = if t3 then !e.Vaatmax && decide (0 < e.dVa X) else e.Vaatmax := by
    cases t0 <;> cases t1 <;> cases t2 <;> cases t3 <;> cases h : e.Viatmin <;> simp [Esst1a.handle, h]
  have h3 : (t0 = false ∨ e.Viatmin = false) →
      (e.handle X t0 t1 t2 t3).Viatmax = if t1 then !e.Viatmax else e.Viatmax := by
    intro ht
    cases t0 <;> cases t1 <;> cases t2 <;> cases t3 <;> simp at ht <;> simp [Esst1a.handle, ht]
  rw [h1, h2]
  refine ⟨step_and _ _ _ _ (by simp), step_and _ _ _ _ (by simp), fun h => by rw [h3 h]; exact step_not _ _, ?_, ?_, ?_, ?_⟩
  · exact reset_if _ _ _ _ _ (by simp) (by simp [sub_neg])
  · exact reset_if _ _ _ _ _ (by simp) (by simp [sub_neg])
  · exact reset_if _ _ _ _ _ (by simp [sub_neg]) (by simp [sub_neg])
  · exact reset_if _ _ _ _ _ (by simp [sub_neg]) (by simp [sub_neg])

/-- C191: of WSIEG1, the limiters of the gate position and the upper limiter of the gate speed work as they should, the
latter unless the lower one lets go at the same time. -/
theorem C191_wsieg1_partial (g : Wsieg1) (X : Ix → ℝ) (dw : ℝ) (t0 t1 t2 t3 : Bool) :
    LimiterStep g.xatmin (g.handle X dw t0 t1 t2 t3).xatmin t2 (g.uFree X dw < 0) ∧
    LimiterStep g.xatmax (g.handle X dw t0 t1 t2 t3).xatmax t3 (0 < g.uFree X dw) ∧
    ((t0 = false ∨ g.uatmin = false) → LimiterStep g.uatmax (g.handle X dw t0 t1 t2 t3).uatmax t1 True) ∧
    LimiterReset g.xatmin (g.reset X dw).xatmin (0 < g.uFree X dw) (X (.gov 1) < g.Pmin) ∧
    LimiterReset g.xatmax (g.reset X dw).xatmax (g.uFree X dw < 0) (g.Pmax < X (.gov 1)) ∧
    LimiterReset g.uatmax (g.reset X dw).uatmax (g.uFree X dw < g.Uo) (g.Uo < g.uFree X dw) := by
  have h1 : (g.handle X dw t0 t1 t2 t3).xatmin = if t2 then !g.xatmin && decide (g.uFree X dw < 0) else g.xatmin := by
    cases t0 <;> cases t1 <;> cases t2 <;> cases t3 <;> cases h : g.uatmin <;> simp [Wsieg1.handle, h]
  have h2 : (g.handle X dw t0 t1 t2 t3).xatmax = if t3 then !g.xatmax && decide (0 < g.uFree X dw) else g.xatmax := by
    cases t0 <;> cases t1 <;> cases t2 <;> cases t3 <;> cases h : g.uatmin <;> simp [Wsieg1.handle, h]
  have h3 : (t0 = false ∨ g.uatmin = false) →
      (g.handle X dw t0 t1 t2 t3).uatmax = if t1 then !g.uatmax else g.uatmax := by
    intro ht
    cases t0 <;> cases t1 <;> cases t2 <;> cases t3 <;> simp at ht <;> simp [Wsieg1.handle, ht]
  rw [h1, h2]
  refine ⟨step_and _ _ _ _ (by simp), step_and _ _ _ _ (by simp), fun h => by rw [h3 h]; exact step_not _ _, ?_, ?_, ?_⟩
  · exact reset_if _ _ _ _ _ (by simp) (by simp [sub_neg])
  · exact reset_if _ _ _ _ _ (by simp) (by simp [sub_neg])
  · exact reset_if _ _ _ _ _ (by simp [sub_neg]) (by simp [sub_neg])

/-- C191: what is watched for the limiters of EXDC1, and the rate used there, are right. -/
theorem C191_exdc1_watched (e : Exdc1) (X : Ix → ℝ) (hT : e.TA ≠ 0) :
    e.dVR X = e.rate X ∧
    LimiterWatch e.VRatmin (e.events X).1 (X (.exc 2) < e.VRmin) (0 < e.rate X) ∧
    LimiterWatch e.VRatmax (e.events X).2 (e.VRmax < X (.exc 2)) (e.rate X < 0) := by
  have h : e.dVR X = e.rate X := by
    simp [Exdc1.dVR, Exdc1.rate, Exdc1.resid, Exdc1.diff2, hT, Exdc1.yLL, Exdc1.Vf, Exdc1.diff1]
  refine ⟨h, ⟨fun h1 => ?_, fun h1 => ?_⟩, ⟨fun h1 => ?_, fun h1 => ?_⟩⟩ <;> simp [Exdc1.events, h1, h, sub_neg]

/-- C191: the same for ESST1A while neither limiter of the input error holds. -/
theorem C191_esst1a_watched_partial (e : Esst1a) (X : Ix → ℝ) (hT : e.Ta ≠ 0) (hf : e.Viatmin = false ∧ e.Viatmax = false) :
    e.dVa X = e.rate X ∧
    LimiterWatch e.Viatmin (e.events X).1 (e.ViFree X < e.Vimin) (e.Vimin < e.ViFree X) ∧
    LimiterWatch e.Viatmax (e.events X).2.1 (e.Vimax < e.ViFree X) (e.ViFree X < e.Vimax) ∧
    LimiterWatch e.Vaatmin (e.events X).2.2.1 (X (.exc 3) < e.Vamin) (0 < e.rate X) ∧
    LimiterWatch e.Vaatmax (e.events X).2.2.2 (e.Vamax < X (.exc 3)) (e.rate X < 0) := by
  have h : e.dVa X = e.rate X := by
    simp [Esst1a.dVa, Esst1a.rate, Esst1a.resid, Esst1a.diff3, hT, Esst1a.yLL2, Esst1a.yLL1, Esst1a.Vf, Esst1a.diff1,
      Esst1a.diff2, Esst1a.Vi, Esst1a.ViFree, hf.1, hf.2]
  refine ⟨h, ⟨fun h1 => ?_, fun h1 => ?_⟩, ⟨fun h1 => ?_, fun h1 => ?_⟩, ⟨fun h1 => ?_, fun h1 => ?_⟩,
    ⟨fun h1 => ?_, fun h1 => ?_⟩⟩ <;> simp [Esst1a.events, h1, h, sub_neg]

/-- C191: the same for WSIEG1; for the gate position if closing is the negative and opening the positive direction. -/
theorem C191_wsieg1_watched (g : Wsieg1) (X : Ix → ℝ) (dw : ℝ) :
    LimiterWatch g.uatmin (g.events X dw).1 (g.uFree X dw < g.Uc) (g.Uc < g.uFree X dw) ∧
    LimiterWatch g.uatmax (g.events X dw).2.1 (g.Uo < g.uFree X dw) (g.uFree X dw < g.Uo) ∧
    (g.uatmin = false → g.uatmax = false → g.uFree X dw = g.rate X dw ∧
      LimiterWatch g.xatmin (g.events X dw).2.2.1 (X (.gov 1) < g.Pmin) (0 < g.rate X dw) ∧
      LimiterWatch g.xatmax (g.events X dw).2.2.2 (g.Pmax < X (.gov 1)) (g.rate X dw < 0)) := by
  refine ⟨⟨fun h1 => ?_, fun h1 => ?_⟩, ⟨fun h1 => ?_, fun h1 => ?_⟩, fun hm hM => ?_⟩
  · simp [Wsieg1.events, h1, sub_neg]
  · simp [Wsieg1.events, h1, sub_neg]
  · simp [Wsieg1.events, h1, sub_neg]
  · simp [Wsieg1.events, h1, sub_neg]
  · have h : g.uFree X dw = g.rate X dw := by
      simp [Wsieg1.rate, Wsieg1.resid, hm, hM, Wsieg1.uFree, Wsieg1.yLL, Wsieg1.diff0]
    refine ⟨h, ⟨fun h1 => ?_, fun h1 => ?_⟩, ⟨fun h1 => ?_, fun h1 => ?_⟩⟩ <;> simp [Wsieg1.events, h1, ← h, sub_neg]

/-- C191: with both lead-lag blocks active there are states in which the input error of ESST1A is held at its upper limit
(rightly) and the regulator output at its upper limit would come down, but the value watched for the latter says that
it would go on rising: it is computed with the input error before its limits.  The limiter does not let go. -/
theorem C191_esst1a_watched_violated (e : Esst1a) (hT : 0 < e.Ta) (hK : 0 < e.Ka) (h1 : 0 < e.Tc) (h2 : 0 < e.Tb)
    (h3 : 0 < e.Tc1) (h4 : 0 < e.Tb1) (hi : e.Viatmax = true) (ha : e.Vaatmax = true) :
    ∃ X : Ix → ℝ, e.Vimax < e.ViFree X ∧ X (.exc 3) = e.Vamax ∧ e.rate X < 0 ∧ 0 < (e.events X).2.2.2 := by
  set a := e.Tc1 / e.Tb1 * (e.Tc / e.Tb) with ha'
  have hap : 0 < a := by positivity
  have hd1 : e.diff1 = true := by simp [Esst1a.diff1, h1.ne', h2.ne']
  have hd2 : e.diff2 = true := by simp [Esst1a.diff2, h3.ne', h4.ne']
  have hd3 : e.diff3 = true := by simp [Esst1a.diff3, hT.ne']
  let X : Ix → ℝ := fun ix => match ix with
    | .exc 0 => e.Vref - e.Kf / e.Tf * e.Vamax - e.Vimax - 2 * e.Ta / (e.Ka * a)
    | .exc 2 => (e.Vamax - e.Ta) / e.Ka - a * e.Vimax
    | .exc 3 => e.Vamax
    | _ => 0
  have hv : e.ViFree X = e.Vimax + 2 * e.Ta / (e.Ka * a) := by
    simp only [Esst1a.ViFree, Esst1a.Vf, X]
    ring
  have hr : e.rate X = -1 := by
    have : e.rate X = (-e.Vamax + e.Ka * ((e.Vamax - e.Ta) / e.Ka - a * e.Vimax + a * e.Vimax)) / e.Ta := by
      simp only [Esst1a.diff1, Esst1a.diff2, Esst1a.diff3] at hd1 hd2 hd3
      simp only [Esst1a.rate, Esst1a.resid, Esst1a.yLL2, Esst1a.yLL1, Esst1a.diff1, Esst1a.diff2, Esst1a.diff3, hd1, hd2, hd3,
        Esst1a.Vi, hi, X, ha']
      simp
      ring
    rw [this]
    field_simp
    ring
  have hdv : e.dVa X = 1 := by
    have : e.dVa X = (-e.Vamax + e.Ka * ((e.Vamax - e.Ta) / e.Ka - a * e.Vimax + a * e.ViFree X)) / e.Ta := by
      simp only [Esst1a.dVa, Esst1a.yLL2, Esst1a.yLL1, hd1, hd2, X, ha']
      simp
      ring
    rw [this, hv]
    field_simp
    ring
  refine ⟨X, ?_, rfl, ?_, ?_⟩
  · rw [hv]
    have : 0 < 2 * e.Ta / (e.Ka * a) := by positivity
    linarith
  · rw [hr]
    norm_num
  · simp [Esst1a.events, ha, hdv]

/-- Such an exciter. -/
example : let e : Esst1a := ⟨0.02, 1, -1, 1, 10, 1, 2, 200, 0.02, 7, -6, 6, -6, 0, 0.1, 1, 1, false, true, false, true⟩
    ∃ X : Ix → ℝ, e.Vimax < e.ViFree X ∧ X (.exc 3) = e.Vamax ∧ e.rate X < 0 ∧ 0 < (e.events X).2.2.2 := by
  intro e
  exact C191_esst1a_watched_violated e (by norm_num [e]) (by norm_num [e]) (by norm_num [e]) (by norm_num [e])
    (by norm_num [e]) (by norm_num [e]) rfl rfl

/-- C191: once the lower limiter of the input error of ESST1A holds, no sequence of events makes it let go: as long as the
upper one does not hold, the exciter works with the lower limit instead of its input, at every state. -/
theorem C191_esst1a_violated (e : Esst1a) (h : e.Viatmin = true)
    (es : List ((Ix → ℝ) × Bool × Bool × Bool × Bool)) (X : Ix → ℝ) :
    let e' := es.foldl (fun e ev => e.handle ev.1 ev.2.1 ev.2.2.1 ev.2.2.2.1 ev.2.2.2.2) e
    e'.Viatmin = true ∧ (e'.Viatmax = false → e'.Vi X = e.Vimin) := by
  suffices hs : ∀ (es : List ((Ix → ℝ) × Bool × Bool × Bool × Bool)) (e : Esst1a), e.Viatmin = true →
      (es.foldl (fun e ev => e.handle ev.1 ev.2.1 ev.2.2.1 ev.2.2.2.1 ev.2.2.2.2) e).Viatmin = true ∧
      (es.foldl (fun e ev => e.handle ev.1 ev.2.1 ev.2.2.1 ev.2.2.2.1 ev.2.2.2.2) e).Vimin = e.Vimin by
    intro e'
    obtain ⟨h1, h2⟩ := hs es e h
    refine ⟨h1, fun h3 => ?_⟩
    simp only [Esst1a.Vi, e', h1, h2] at h3 ⊢
    simp [h3]
  intro es
  induction es with
  | nil => intro e h; exact ⟨h, rfl⟩
  | cons ev es ih =>
    intro e h
    obtain ⟨Y, t0, t1, t2, t3⟩ := ev
    have h1 : (e.handle Y t0 t1 t2 t3).Viatmin = true ∧ (e.handle Y t0 t1 t2 t3).Vimin = e.Vimin := by
      cases t0 <;> cases t1 <;> cases t2 <;> cases t3 <;> simp [Esst1a.handle, h]
    have := ih _ h1.1
    rw [h1.2] at this
    exact this

/-- C191: the same for the lower limiter of the gate speed of WSIEG1: as long as the gate is not at its end, it goes on
closing at the limiting speed, whatever the speed deviation. -/
theorem C191_wsieg1_violated (g : Wsieg1) (h : g.uatmin = true)
    (es : List ((Ix → ℝ) × ℝ × Bool × Bool × Bool × Bool)) (X Xd P : Ix → ℝ) (dw : ℝ) :
    let g' := es.foldl (fun g ev => g.handle ev.1 ev.2.1 ev.2.2.1 ev.2.2.2.1 ev.2.2.2.2.1 ev.2.2.2.2.2) g
    g'.uatmin = true ∧ (g'.xatmin = false → g'.xatmax = false → (g'.resid X dw .resid Xd P 1 = 0 ↔ Xd (.gov 1) = g.Uc)) := by
  suffices hs : ∀ (es : List ((Ix → ℝ) × ℝ × Bool × Bool × Bool × Bool)) (g : Wsieg1), g.uatmin = true →
      (es.foldl (fun g ev => g.handle ev.1 ev.2.1 ev.2.2.1 ev.2.2.2.1 ev.2.2.2.2.1 ev.2.2.2.2.2) g).uatmin = true ∧
      (es.foldl (fun g ev => g.handle ev.1 ev.2.1 ev.2.2.1 ev.2.2.2.1 ev.2.2.2.2.1 ev.2.2.2.2.2) g).Uc = g.Uc by
    intro g'
    obtain ⟨h1, h2⟩ := hs es g h
    refine ⟨h1, fun h3 h4 => ?_⟩
    simp only [Wsieg1.resid, g', h1, h2] at h3 h4 ⊢
    simp only [h3, h4, if_true, Bool.false_eq_true, if_false, sub_eq_zero]
    exact eq_comm
  intro es
  induction es with
  | nil => intro g h; exact ⟨h, rfl⟩
  | cons ev es ih =>
    intro g h
    obtain ⟨Y, w, t0, t1, t2, t3⟩ := ev
    have h1 : (g.handle Y w t0 t1 t2 t3).uatmin = true ∧ (g.handle Y w t0 t1 t2 t3).Uc = g.Uc := by
      cases t0 <;> cases t1 <;> cases t2 <;> cases t3 <;> simp [Wsieg1.handle, h]
    have := ih _ h1.1
    rw [h1.2] at this
    exact this

/-- C191: the event of the lower limiter of ESST1A releases the upper one. -/
theorem C191_other_limiter_violated (e : Esst1a) (X : Ix → ℝ) (h : e.Viatmin = true) (h' : e.Viatmax = true)
    (t2 t3 : Bool) : (e.handle X true false t2 t3).Viatmax = false := by
  cases t2 <;> cases t3 <;> simp [Esst1a.handle, h, h']

/-- C191: when a fault begins or ends, the lower limiter of the gate speed of WSIEG1 goes on holding although the gate
speed is within its limits. -/
theorem C191_reset_violated (g : Wsieg1) (X : Ix → ℝ) (dw : ℝ) (h : g.uatmin = true)
    (hu : g.Uc < g.uFree X dw ∧ g.uFree X dw ≤ g.Uo) :
    (g.reset X dw).uatmin = true ∧
    ¬ LimiterReset g.uatmin (g.reset X dw).uatmin (g.Uc < g.uFree X dw) (g.uFree X dw < g.Uc) := by
  have h1 : (g.reset X dw).uatmin = true := by simp [Wsieg1.reset, h, hu.2]
  refine ⟨h1, fun hr => ?_⟩
  have := (hr.release h).mpr hu.1
  rw [h1] at this
  cases this

/-- A regulator output of EXDC1 that reaches its upper limit while rising, and later falls. -/
example : ∃ (e : Exdc1) (X Y : Ix → ℝ), (e.handle X false true).VRatmax = true ∧
    ((e.handle X false true).handle Y false true).VRatmax = false := by
  let e : Exdc1 := ⟨0, 10, 1, 0, 0, 5, -5, 1, 1, 0, 1, 0, 0, 999, 1, false, false⟩
  refine ⟨e, fun _ => 1, fun _ => 0, ?_, ?_⟩
  · exact ((C191_exdc1_partial e _ false true).2.1.hold rfl rfl).mpr (by norm_num [Exdc1.dVR, Exdc1.yLL, Exdc1.diff1, e])
  · exact (C191_exdc1_partial _ _ false true).2.1.release rfl
      (((C191_exdc1_partial e _ false true).2.1.hold rfl rfl).mpr (by norm_num [Exdc1.dVR, Exdc1.yLL, Exdc1.diff1, e]))

/-- An exciter whose lower limiter takes hold. -/
example : ∃ (e : Esst1a) (X : Ix → ℝ), e.Viatmin = false ∧ (e.handle X true false false false).Viatmin = true :=
  ⟨⟨0, 1, -1, 0, 0, 0, 0, 1, 1, 1, -1, 1, -1, 0, 0, 1, 0, false, false, false, false⟩, fun _ => 0, rfl, rfl⟩

/-- A governor whose gate speed is back within its limits. -/
example : ∃ (g : Wsieg1) (X : Ix → ℝ) (dw : ℝ), g.uatmin = true ∧ g.Uc < g.uFree X dw ∧ g.uFree X dw ≤ g.Uo := by
  refine ⟨⟨20, 0, 0, 1, 0.5, -0.5, 1, 0, 0, 0, 0, 0, 1, 0, 0, 0, 0, 0, 0, 0, 0, 0, true, false, false, false⟩,
    fun _ => 0, 0, rfl, ?_⟩
  norm_num [Wsieg1.uFree, Wsieg1.yLL, Wsieg1.diff0]

/-! ### C192: faults -/

variable {ι : Type} [DecidableEq ι]

/-- Conductances and susceptances added at bus `i` by a list of faults. -/
private def added (i : ι) (f : ι × ℝ × ℝ → ℝ) (l : List (ι × ℝ × ℝ)) : ℝ :=
  (l.map (fun a => if a.1 = i then f a else 0)).sum

private theorem afterFaults_eq (N : Net ι) (es : List (FaultEvent ι)) (h : ∀ e ∈ es, ¬(e.begins = true ∧ e.ends = true)) (i : ι) :
    (N.afterFaults es).branches = N.branches ∧ (N.afterFaults es).junk = N.junk ∧
    (N.afterFaults es).bus i = { N.bus i with
      gl := (N.bus i).gl + (added i (·.2.1) (beginning es) - added i (·.2.1) (ending es)),
      bl := (N.bus i).bl - (added i (·.2.2) (beginning es) - added i (·.2.2) (ending es)) } := by
  induction es generalizing N with
  | nil => simp [Net.afterFaults, beginning, ending, added]
  | cons e es ih =>
    have ih := ih (N.faultHandle e.bus e.G e.B e.begins e.ends) (fun a ha => h a (List.mem_cons_of_mem _ ha))
    have he := h e (List.mem_cons_self ..)
    have hcons : N.afterFaults (e :: es) = (N.faultHandle e.bus e.G e.B e.begins e.ends).afterFaults es := rfl
    rw [hcons]
    obtain ⟨h1, h2, h3⟩ := ih
    refine ⟨?_, ?_, ?_⟩
    · rw [h1]
      unfold Net.faultHandle Net.setfault
      split
      · rfl
      · split <;> rfl
    · rw [h2]
      unfold Net.faultHandle Net.setfault
      split
      · rfl
      · split <;> rfl
    · rw [h3]
      cases hb : e.begins <;> cases hd : e.ends
      · simp [Net.faultHandle, hb, hd, beginning, ending]
      · by_cases hi : i = e.bus
        · subst hi
          simp [Net.faultHandle, Net.setfault, hb, hd, beginning, ending, added]
          constructor <;> ring
        · have hi' : e.bus ≠ i := fun h => hi h.symm
          simp [Net.faultHandle, Net.setfault, hb, hd, beginning, ending, added, hi, hi']
      · by_cases hi : i = e.bus
        · subst hi
          simp [Net.faultHandle, Net.setfault, hb, hd, beginning, ending, added]
          constructor <;> ring
        · have hi' : e.bus ≠ i := fun h => hi h.symm
          simp [Net.faultHandle, Net.setfault, hb, hd, beginning, ending, added, hi, hi']
      · exact absurd ⟨hb, hd⟩ he

/-- C192: after any history of events in which every fault begins as often as it ends, in any order and any number of
faults at the same or different buses, the network is the one before; unless a fault begins and ends at the same
moment. -/
theorem C192_restored_partial (N : Net ι) (es : List (FaultEvent ι)) (h : ∀ e ∈ es, ¬(e.begins = true ∧ e.ends = true))
    (hp : (beginning es).Perm (ending es)) : N.afterFaults es = N := by
  have hs : ∀ i (f : ι × ℝ × ℝ → ℝ), added i f (beginning es) = added i f (ending es) := by
    intro i f
    exact (hp.map _).sum_eq
  obtain ⟨bus, branches, junk⟩ := N
  have key := afterFaults_eq ⟨bus, branches, junk⟩ es h
  have hb : ∀ i, (Net.afterFaults ⟨bus, branches, junk⟩ es).bus i = bus i := by
    intro i
    rw [(key i).2.2, hs, hs]
    simp
  by_cases hne : Nonempty ι
  · obtain ⟨i0⟩ := hne
    have h1 := (key i0).1
    have h2 := (key i0).2.1
    cases hN : Net.afterFaults ⟨bus, branches, junk⟩ es with
    | mk b br j =>
      rw [hN] at h1 h2 hb
      simp only at h1 h2 hb
      rw [h1, h2, funext hb]
  · cases es with
    | nil => rfl
    | cons e es => exact absurd ⟨e.bus⟩ hne

/-- C192: while a fault is on, exactly its current `(G - jB) V` is taken out of its bus, and the equations of all other
buses are unchanged. -/
theorem C192_during (N : Net ι) (k : ι) (G B : ℝ) (m : Mode) (x xd xp : ι → ℕ → ℝ) (buf : ℕ → ℝ) (i : ι) (r : ℕ)
    (hk : (N.bus k).isolated = false) :
    (N.faultHandle k G B true false).F m x xd xp buf i r = N.F m x xd xp buf i r
      - (if i = k then
          (if r = 0 then ((⟨G, -B⟩ : ℂ) * ⟨x k 0, x k 1⟩).im
           else if r = 1 then ((⟨G, -B⟩ : ℂ) * ⟨x k 0, x k 1⟩).re else 0) else 0) := by
  have hiso : ∀ j, ((N.faultHandle k G B true false).bus j).isolated = (N.bus j).isolated := by
    intro j
    simp only [Net.faultHandle, Net.setfault, if_true]
    split <;> rfl
  have hvolt : ∀ j, (N.faultHandle k G B true false).volt x j = N.volt x j := by
    intro j
    simp only [Net.volt, hiso]
    rfl
  have hbr : ∀ br, (N.faultHandle k G B true false).branchCurrent x i br = N.branchCurrent x i br := by
    intro br
    simp only [Net.branchCurrent, hvolt]
  have hn : (N.faultHandle k G B true false).nbrs i = N.nbrs i := rfl
  by_cases hik : i = k
  · subst hik
    have hv : N.volt x i = (x i 0, x i 1) := by simp [Net.volt, hk]
    simp only [Net.F, hvolt, hbr, hn, hiso, hk, hv, if_true]
    have hb : (N.faultHandle i G B true false).bus i = { N.bus i with gl := (N.bus i).gl + G, bl := (N.bus i).bl + -B } := by
      simp [Net.faultHandle, Net.setfault]
    rw [hb]
    by_cases h0 : r = 0
    · subst h0
      simp [wrBlock]
      ring
    · by_cases h1 : r = 1
      · subst h1
        simp [wrBlock]
        ring
      · have h2 : ¬ r < 2 := by omega
        simp [wrBlock, h0, h1, h2]
  · have hb : (N.faultHandle k G B true false).bus i = N.bus i := by
      simp [Net.faultHandle, Net.setfault, hik]
    simp only [Net.F, hvolt, hbr, hn, hb, if_neg hik, sub_zero]

/-- C192: a fault that begins and ends at the same moment stays on. -/
theorem C192_same_moment_violated (N : Net ι) (k : ι) (G B : ℝ) (h : G ≠ 0 ∨ B ≠ 0) :
    N.afterFaults [⟨k, G, B, true, true⟩] ≠ N := by
  intro hN
  have := congrArg (fun M : Net ι => ((M.bus k).gl, (M.bus k).bl)) hN
  simp [Net.afterFaults, Net.faultHandle, Net.setfault] at this
  tauto

/-- Two overlapping faults at one bus. -/
example (N : Net Bool) :
    N.afterFaults [⟨true, 1, 2, true, false⟩, ⟨true, 0, 5, true, false⟩, ⟨true, 1, 2, false, true⟩, ⟨true, 0, 5, false, true⟩] = N := by
  refine C192_restored_partial N _ ?_ ?_
  · intro e he
    fin_cases he <;> simp
  · simp [beginning, ending]

end GridPACK.Dae
