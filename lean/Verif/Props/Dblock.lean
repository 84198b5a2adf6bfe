import Verif.Model.Dblock
import Verif.Props.Cblock

/-! Properties C70 (gain limiter), C71 (piecewise slope), C72 (deadband and gates). -/
namespace GridPACK.Dblock
open GridPACK.Cblock (clamp clamp_mem clamp_of_mem clamp_between)

/-! ### C70 -/

/-- A history of rate-limited calls: input, time step, update flag. -/
noncomputable def GainLimiter.run : GainLimiter → List (Real × Real × Bool) → List Real
  | _, [] => []
  | g, c :: cs => (g.outputRate c.1 c.2.1 c.2.2).2 :: GainLimiter.run (g.outputRate c.1 c.2.1 c.2.2).1 cs

theorem rate_out_mem (g : GainLimiter) (u dt : Real) (upd : Bool) (hy : g.ymin ≤ g.ymax)
    (hd : 0 ≤ g.dymin ∧ 0 ≤ g.dymax) (hdt : 0 ≤ dt)
    (hp : g.yprev = mark ∨ (g.ymin ≤ g.yprev ∧ g.yprev ≤ g.ymax)) :
    (g.ymin ≤ (g.outputRate u dt upd).2 ∧ (g.outputRate u dt upd).2 ≤ g.ymax) ∧
    (g.ymin ≤ (g.outputRate u dt upd).1.yprev ∧ (g.outputRate u dt upd).1.yprev ≤ g.ymax) := by
  have hyc := clamp_mem g.ymin g.ymax (g.K * u) hy
  unfold GainLimiter.outputRate
  simp only
  generalize clamp g.ymin g.ymax (g.K * u) = y at hyc
  have hprev : g.ymin ≤ (if g.yprev = mark then y else g.yprev) ∧
      (if g.yprev = mark then y else g.yprev) ≤ g.ymax := by
    split
    · exact hyc
    · rename_i h
      rcases hp with hp | hp
      · exact absurd hp h
      · exact hp
  generalize (if g.yprev = mark then y else g.yprev) = prev at hprev
  have h1 : 0 ≤ g.dymin * dt := mul_nonneg hd.1 hdt
  have h2 : 0 ≤ g.dymax * dt := mul_nonneg hd.2 hdt
  obtain ⟨t, a, b, c⟩ := clamp_between (prev - g.dymin * dt) (prev + g.dymax * dt) y prev
    (by linarith) (by linarith)
  have hout : g.ymin ≤ clamp (prev - g.dymin * dt) (prev + g.dymax * dt) y ∧
      clamp (prev - g.dymin * dt) (prev + g.dymax * dt) y ≤ g.ymax := by
    have e : clamp (prev - g.dymin * dt) (prev + g.dymax * dt) y = (1 - t) * prev + t * y := by
      linarith
    rw [e]
    constructor
    · nlinarith [hprev.1, hyc.1]
    · nlinarith [hprev.2, hyc.2]
  refine ⟨hout, ?_⟩
  cases upd
  · exact hprev
  · exact hout

theorem outputRate_params (g : GainLimiter) (u dt : Real) (upd : Bool) :
    (g.outputRate u dt upd).1.ymin = g.ymin ∧ (g.outputRate u dt upd).1.ymax = g.ymax ∧
    (g.outputRate u dt upd).1.dymin = g.dymin ∧ (g.outputRate u dt upd).1.dymax = g.dymax ∧
    (g.outputRate u dt upd).1.K = g.K := ⟨rfl, rfl, rfl, rfl, rfl⟩

/-- C70, value limits: after `setparams` every output of every history of calls is inside
`[ymin, ymax]`. -/
theorem C70_value_limits (K ymin ymax dymin dymax : Real) (hy : ymin ≤ ymax) (hd : 0 ≤ dymax)
    (cs : List (Real × Real × Bool)) (hdt : ∀ c ∈ cs, 0 ≤ c.2.1) :
    ∀ y ∈ (GainLimiter.setparams K ymin ymax dymin dymax).run cs, ymin ≤ y ∧ y ≤ ymax := by
  have key : ∀ (cs : List (Real × Real × Bool)) (g : GainLimiter), g.ymin = ymin → g.ymax = ymax →
      0 ≤ g.dymin → 0 ≤ g.dymax → (g.yprev = mark ∨ (g.ymin ≤ g.yprev ∧ g.yprev ≤ g.ymax)) →
      (∀ c ∈ cs, 0 ≤ c.2.1) → ∀ y ∈ g.run cs, ymin ≤ y ∧ y ≤ ymax := by
    intro cs
    induction cs with
    | nil => intro g _ _ _ _ _ _ y hy; simp [GainLimiter.run] at hy
    | cons c cs ih =>
      intro g h1 h2 h3 h4 h5 h6 y hmem
      have := rate_out_mem g c.1 c.2.1 c.2.2 (by rw [h1, h2]; exact hy) ⟨h3, h4⟩ (h6 c (by simp)) h5
      rcases List.mem_cons.mp hmem with rfl | hmem
      · rw [← h1, ← h2]; exact this.1
      · exact ih (g.outputRate c.1 c.2.1 c.2.2).1 h1 h2 h3 h4 (.inr this.2) (fun c hc => h6 c (List.mem_cons_of_mem _ hc)) y hmem
  exact key cs _ rfl rfl (abs_nonneg _) hd (.inl rfl) hdt

/-- C70, calls without rate limits: the output lies inside the limits in force, is the scaled input when that
lies inside them, and limits given with a call stay in force. -/
theorem C70_plain_output (g : GainLimiter) (u ymin ymax : Real) (hg : g.ymin ≤ g.ymax) (hy : ymin ≤ ymax) :
    (g.ymin ≤ g.output u ∧ g.output u ≤ g.ymax) ∧
    (g.ymin ≤ g.K * u → g.K * u ≤ g.ymax → g.output u = g.K * u) ∧
    (g.K * u < g.ymin → g.output u = g.ymin) ∧ (g.ymax < g.K * u → g.output u = g.ymax) ∧
    (g.outputLim u ymin ymax).2 = (g.outputLim u ymin ymax).1.output u ∧
    (g.outputLim u ymin ymax).1.ymin = ymin ∧ (g.outputLim u ymin ymax).1.ymax = ymax ∧
    (ymin ≤ (g.outputLim u ymin ymax).2 ∧ (g.outputLim u ymin ymax).2 ≤ ymax) := by
  refine ⟨clamp_mem _ _ _ hg, fun h1 h2 => clamp_of_mem _ _ _ h1 h2, ?_, ?_, rfl, rfl, rfl,
    clamp_mem _ _ _ hy⟩
  · intro h
    unfold GainLimiter.output clamp
    rw [min_eq_left (by linarith), max_eq_left (by linarith)]
  · intro h
    unfold GainLimiter.output clamp
    rw [min_eq_right (by linarith), max_eq_right hg]

/-- C70, rate limits: an output differs from the previous one by at most the rate limits times the step,
unless the previous output happens to be the marker value. -/
theorem C70_rate_partial (g : GainLimiter) (u dt : Real) (upd : Bool) (hd : 0 ≤ g.dymin ∧ 0 ≤ g.dymax)
    (hdt : 0 ≤ dt) (hp : g.yprev ≠ mark) :
    -(g.dymin * dt) ≤ (g.outputRate u dt upd).2 - g.yprev ∧
    (g.outputRate u dt upd).2 - g.yprev ≤ g.dymax * dt := by
  unfold GainLimiter.outputRate
  simp only
  rw [if_neg hp]
  have h1 : 0 ≤ g.dymin * dt := mul_nonneg hd.1 hdt
  have h2 : 0 ≤ g.dymax * dt := mul_nonneg hd.2 hdt
  have := clamp_mem (g.yprev - g.dymin * dt) (g.yprev + g.dymax * dt)
    (clamp g.ymin g.ymax (g.K * u)) (by linarith)
  constructor <;> linarith [this.1, this.2]

/-- C70, the previous output is the last one obtained with the update flag. -/
theorem C70_previous (g : GainLimiter) (u dt : Real) :
    (g.outputRate u dt true).1.yprev = (g.outputRate u dt true).2 ∧
    (g.yprev ≠ mark → (g.outputRate u dt false).1.yprev = g.yprev) := by
  refine ⟨rfl, ?_⟩
  intro h
  unfold GainLimiter.outputRate
  simp [h]

/-- C70 fails when the previous output is exactly 100000: the next output is not rate limited at all. -/
theorem C70_marker_violated (g : GainLimiter) (u dt : Real) (upd : Bool)
    (hd : 0 ≤ g.dymin ∧ 0 ≤ g.dymax) (hdt : 0 ≤ dt) (hp : g.yprev = mark) :
    (g.outputRate u dt upd).2 = clamp g.ymin g.ymax (g.K * u) := by
  unfold GainLimiter.outputRate
  simp only
  rw [if_pos hp]
  have h1 : 0 ≤ g.dymin * dt := mul_nonneg hd.1 hdt
  have h2 : 0 ≤ g.dymax * dt := mul_nonneg hd.2 hdt
  exact clamp_of_mem _ _ _ (by linarith) (by linarith)

/-- The marker value is reachable as an ordinary output, and then the output can jump to 0 in one step of
length 1 although the rate limit is 1. -/
example : let g : GainLimiter := GainLimiter.setparams 1 0 200000 1 1
    let g1 := (g.outputRate 100000 1 true).1
    g1.yprev = mark ∧ (g1.outputRate 0 1 true).2 = 0 := by
  intro g g1
  have h : g1.yprev = mark := by
    show (g.outputRate 100000 1 true).2 = mark
    rw [C70_marker_violated g 100000 1 true ⟨abs_nonneg _, by norm_num [g, GainLimiter.setparams]⟩
      (by norm_num) rfl]
    simp only [g, GainLimiter.setparams, mark]
    rw [clamp_of_mem] <;> norm_num
  refine ⟨h, ?_⟩
  rw [C70_marker_violated g1 0 1 true ⟨abs_nonneg _, by
      show (0:Real) ≤ 1; norm_num⟩ (by norm_num) h]
  show clamp 0 200000 (1 * 0) = 0
  rw [clamp_of_mem] <;> norm_num

/-! ### C71 -/

/-- Linear interpolation between two points. -/
noncomputable def lerp (u0 y0 u1 y1 u : Real) : Real := y0 + (y1 - y0) / (u1 - u0) * (u - u0)

theorem set_same (f : Nat → α) (i : Nat) (v : α) : set f i v i = v := by simp [set]
theorem set_other (f : Nat → α) (i j : Nat) (v : α) (h : j ≠ i) : set f i v j = f j := by simp [set, h]

/-- The block after loading `m + 1` increasing points. -/
structure Loaded (p : Piecewise) (uin yin : Nat → Real) (m : Nat) : Prop where
  n : p.n = m
  inc : p.increasing = true
  u : 0 < m → ∀ i, i ≤ m → p.u i = uin i
  y : 0 < m → ∀ i, i ≤ m → p.y i = yin i
  sl : ∀ i, i < m → p.slopes i =
    Slope.setparams (uin i) (uin (i + 1)) (yin i) (yin (i + 1)) (yin i) (yin (i + 1))

theorem loaded (p : Piecewise) (uin yin : Nat → Real) (m : Nat) (hp : p.n = 0)
    (hinc : ∀ i, i < m + 1 → uin i < uin (i + 1)) :
    Loaded (p.setparams (m + 2) uin yin) uin yin (m + 1) := by
  unfold Piecewise.setparams
  have h01 : uin 1 > uin 0 := hinc 0 (by omega)
  rw [if_pos h01]
  have : ∀ k, k ≤ m + 1 → Loaded ((List.range k).foldl (Piecewise.addSegment uin yin)
      { p with increasing := true }) uin yin k := by
    intro k
    induction k with
    | zero =>
      intro _
      refine ⟨hp, rfl, by omega, by omega, by omega⟩
    | succ k ih =>
      intro hk
      have h := ih (by omega)
      rw [List.range_succ, List.foldl_append, List.foldl_cons, List.foldl_nil]
      generalize (List.range k).foldl (Piecewise.addSegment uin yin) { p with increasing := true } = q at h
      unfold Piecewise.addSegment
      rw [if_pos (.inl ⟨h.inc, hinc k (by omega)⟩), h.n]
      refine ⟨rfl, h.inc, ?_, ?_, ?_⟩
      · intro _ i hi
        simp only
        by_cases h1 : i = k + 1
        · subst h1; rw [set_same]
        · rw [set_other _ _ _ _ h1]
          by_cases h2 : i = k
          · subst h2; rw [set_same]
          · rw [set_other _ _ _ _ h2]
            exact h.u (by omega) i (by omega)
      · intro _ i hi
        simp only
        by_cases h1 : i = k + 1
        · subst h1; rw [set_same]
        · rw [set_other _ _ _ _ h1]
          by_cases h2 : i = k
          · subst h2; rw [set_same]
          · rw [set_other _ _ _ _ h2]
            exact h.y (by omega) i (by omega)
      · intro i hi
        simp only
        by_cases h2 : i = k
        · subst h2; rw [set_same]
        · rw [set_other _ _ _ _ h2]
          exact h.sl i (by omega)
  exact this (m + 1) (le_refl _)

theorem mono_le (k : Nat → Real) (m : Nat) (h : ∀ i, i < m → k i < k (i + 1)) (i j : Nat) (hij : i ≤ j)
    (hj : j ≤ m) : k i ≤ k j := by
  induction j with
  | zero =>
    have : i = 0 := by omega
    rw [this]
  | succ j ih =>
    by_cases hi : i = j + 1
    · rw [hi]
    · exact le_trans (ih (by omega) (by omega)) (h j (by omega)).le

theorem mono_lt (k : Nat → Real) (m : Nat) (h : ∀ i, i < m → k i < k (i + 1)) (i j : Nat) (hij : i < j)
    (hj : j ≤ m) : k i < k j :=
  lt_of_lt_of_le (h i (by omega)) (mono_le k m h (i + 1) j (by omega) hj)

/-- The scan over increasing knots: for a value in segment `i` the result is that of segment `i`, or of
segment `i + 1` when the value is their common knot. -/
theorem scan_eq (k f : Nat → Real) (v : Real) (n i : Nat) (a : Option Real)
    (hk : ∀ i, i < n → k i < k (i + 1)) (hi : i < n) (hv : k i ≤ v ∧ v ≤ k (i + 1)) :
    scan k f v n a = some (f i) ∨
    (i + 1 < n ∧ v = k (i + 1) ∧ scan k f v n a = some (f (i + 1))) := by
  have key : ∀ m, i < m → m ≤ n → scan k f v m a = some (f i) ∨
      (i + 1 < m ∧ v = k (i + 1) ∧ scan k f v m a = some (f (i + 1))) := by
    intro m
    induction m with
    | zero => omega
    | succ m ih =>
      intro h1 h2
      unfold scan at *
      rw [List.range_succ, List.foldl_append, List.foldl_cons, List.foldl_nil]
      by_cases him : m = i
      · subst him
        rw [if_pos hv]
        exact .inl rfl
      · by_cases hc : k m ≤ v ∧ v ≤ k (m + 1)
        · rw [if_pos hc]
          have hle : k (i + 1) ≤ k m := mono_le k n hk (i + 1) m (by omega) (by omega)
          have hveq : v = k (i + 1) := le_antisymm hv.2 (le_trans hle hc.1)
          have hm : m = i + 1 := by
            by_contra hne
            have := mono_lt k n hk (i + 1) m (by omega) (by omega)
            linarith [hc.1]
          subst hm
          exact .inr ⟨by omega, hveq, rfl⟩
        · rw [if_neg hc]
          rcases ih (by omega) (by omega) with h | ⟨h3, h4, h5⟩
          · exact .inl h
          · exact .inr ⟨by omega, h4, h5⟩
  exact key n hi (le_refl _)

theorem scan_none (k f : Nat → Real) (v : Real) (n : Nat) (a : Option Real)
    (h : ∀ i, i < n → ¬ (k i ≤ v ∧ v ≤ k (i + 1))) : scan k f v n a = a := by
  unfold scan
  induction n with
  | zero => rfl
  | succ n ih =>
    rw [List.range_succ, List.foldl_append, List.foldl_cons, List.foldl_nil, if_neg (h n (by omega))]
    exact ih (fun i hi => h i (by omega))

theorem tol_pos : 0 < tol := by unfold tol; positivity

/-- One segment: the result is the interpolation up to the tolerance times the slope. -/
theorem slope_close (u0 u1 y0 y1 u : Real) (h : u0 < u1) (hu : u0 ≤ u ∧ u ≤ u1) :
    |(Slope.setparams u0 u1 y0 y1 y0 y1).output u - lerp u0 y0 u1 y1 u| ≤
      tol * |(y1 - y0) / (u1 - u0)| := by
  unfold Slope.output Slope.setparams lerp
  simp only
  have hne : u1 - u0 ≠ 0 := by linarith
  have e1 : y1 = y0 + (y1 - y0) / (u1 - u0) * (u1 - u0) := by field_simp; ring
  generalize hs : (y1 - y0) / (u1 - u0) = s at e1
  by_cases h1 : u - u0 < tol
  · rw [if_pos h1]
    have : y0 - (y0 + s * (u - u0)) = -((u - u0) * s) := by ring
    rw [this, abs_neg, abs_mul, abs_of_nonneg (by linarith [hu.1] : (0:Real) ≤ u - u0)]
    exact mul_le_mul_of_nonneg_right h1.le (abs_nonneg _)
  · rw [if_neg h1]
    by_cases h2 : u1 - u < tol
    · rw [if_pos h2]
      have : y1 - (y0 + s * (u - u0)) = (u1 - u) * s := by rw [e1]; ring
      rw [this, abs_mul, abs_of_nonneg (by linarith [hu.2] : (0:Real) ≤ u1 - u)]
      exact mul_le_mul_of_nonneg_right h2.le (abs_nonneg _)
    · rw [if_neg h2, sub_self, abs_zero]
      exact mul_nonneg tol_pos.le (abs_nonneg _)

theorem lerp_right (u0 y0 u1 y1 : Real) (h : u0 < u1) : lerp u0 y0 u1 y1 u1 = y1 := by
  unfold lerp
  have : u1 - u0 ≠ 0 := by linarith
  field_simp
  ring

theorem slope_left (u0 u1 y0 y1 ya yb : Real) :
    (Slope.setparams u0 u1 y0 y1 ya yb).output u0 = ya := by
  unfold Slope.output Slope.setparams
  simp only
  rw [if_pos (by rw [sub_self]; exact tol_pos)]

theorem interpolates_tol (p : Piecewise) (uin yin : Nat → Real) (m : Nat) (hp : p.n = 0)
    (hinc : ∀ i, i < m + 1 → uin i < uin (i + 1)) (i : Nat) (hi : i < m + 1) (u : Real)
    (hu : uin i ≤ u ∧ u ≤ uin (i + 1)) :
    ∃ y, (p.setparams (m + 2) uin yin).output u = some y ∧
      |y - lerp (uin i) (yin i) (uin (i + 1)) (yin (i + 1)) u| ≤
        tol * |(yin (i + 1) - yin i) / (uin (i + 1) - uin i)| := by
  have h := loaded p uin yin m hp hinc
  generalize p.setparams (m + 2) uin yin = q at h
  unfold Piecewise.output
  have hk : ∀ i, i < q.n → q.u i < q.u (i + 1) := by
    intro i hi
    rw [h.n] at hi
    rw [h.u (by omega) i (by omega), h.u (by omega) (i + 1) (by omega)]
    exact hinc i hi
  have hv : q.u i ≤ u ∧ u ≤ q.u (i + 1) := by
    rw [h.u (by omega) i (by omega), h.u (by omega) (i + 1) (by omega)]; exact hu
  rcases scan_eq q.u (fun i => (q.slopes i).output u) u q.n i
      (ends q.increasing q.u q.y q.n u) hk (by rw [h.n]; exact hi) hv with h1 | ⟨h1, h2, h3⟩
  · refine ⟨_, h1, ?_⟩
    rw [h.sl i hi]
    exact slope_close _ _ _ _ u (hinc i hi) hu
  · refine ⟨_, h3, ?_⟩
    rw [h.n] at h1
    rw [h.sl (i + 1) h1]
    rw [h.u (by omega) (i + 1) (by omega)] at h2
    subst h2
    rw [slope_left, lerp_right _ _ _ _ (hinc i hi), sub_self, abs_zero]
    exact mul_nonneg tol_pos.le (abs_nonneg _)

/-- C71, increasing points: in every segment the output is the linear interpolation of the given points,
up to 1e-5 times the slope of that segment.  Any number of points, any outputs. -/
theorem C71_interpolates_partial (p : Piecewise) (uin yin : Nat → Real) (m : Nat) (hp : p.n = 0)
    (hinc : ∀ i, i < m + 1 → uin i < uin (i + 1)) (i : Nat) (hi : i < m + 1) (u : Real)
    (hu : uin i ≤ u ∧ u ≤ uin (i + 1)) :
    ∃ y, (p.setparams (m + 2) uin yin).output u = some y ∧
      |y - lerp (uin i) (yin i) (uin (i + 1)) (yin (i + 1)) u| ≤
        1 / 10 ^ 5 * |(yin (i + 1) - yin i) / (uin (i + 1) - uin i)| :=
  interpolates_tol p uin yin m hp hinc i hi u hu

/-- C71, outside the points: constant continuation. -/
theorem C71_ends_partial (p : Piecewise) (uin yin : Nat → Real) (m : Nat) (hp : p.n = 0)
    (hinc : ∀ i, i < m + 1 → uin i < uin (i + 1)) (u : Real) :
    (u < uin 0 → (p.setparams (m + 2) uin yin).output u = some (yin 0)) ∧
    (uin (m + 1) < u → (p.setparams (m + 2) uin yin).output u = some (yin (m + 1))) := by
  have h := loaded p uin yin m hp hinc
  generalize p.setparams (m + 2) uin yin = q at h
  unfold Piecewise.output
  have h0 := h.u (by omega) 0 (by omega)
  have hm := h.u (by omega) (m + 1) (by omega)
  have hlt : uin 0 < uin (m + 1) := mono_lt uin (m + 1) hinc 0 (m + 1) (by omega) (le_refl _)
  constructor
  · intro hu
    rw [scan_none]
    · unfold ends
      rw [h.inc, h.n, h0, hm, h.y (by omega) 0 (by omega)]
      simp [hu.le, not_le.mpr (lt_trans hu hlt)]
    · intro i hi hc
      rw [h.n] at hi
      rw [h.u (by omega) i (by omega)] at hc
      have := mono_le uin (m + 1) hinc 0 i (by omega) (by omega)
      linarith [hc.1]
  · intro hu
    rw [scan_none]
    · unfold ends
      rw [h.inc, h.n, h0, hm, h.y (by omega) (m + 1) (by omega)]
      simp [hu.le]
    · intro i hi hc
      rw [h.n] at hi
      rw [h.u (by omega) (i + 1) (by omega)] at hc
      have := mono_le uin (m + 1) hinc (i + 1) (m + 1) (by omega) (by omega)
      linarith [hc.2]

theorem inverse_tol (p : Piecewise) (uin yin : Nat → Real) (m : Nat) (hp : p.n = 0)
    (hinc : ∀ i, i < m + 1 → uin i < uin (i + 1)) (hy : ∀ i, i < m + 1 → yin i < yin (i + 1))
    (i : Nat) (hi : i < m + 1) (y : Real) (hyi : yin i ≤ y ∧ y ≤ yin (i + 1)) :
    ∃ u y', (p.setparams (m + 2) uin yin).initGivenY y = some u ∧ uin i ≤ u ∧ u ≤ uin (i + 1) ∧
      (p.setparams (m + 2) uin yin).output u = some y' ∧
      |y' - y| ≤ tol * |(yin (i + 1) - yin i) / (uin (i + 1) - uin i)| := by
  have h := loaded p uin yin m hp hinc
  have hout := interpolates_tol p uin yin m hp hinc i hi
  generalize p.setparams (m + 2) uin yin = q at h hout
  have hk : ∀ i, i < q.n → q.y i < q.y (i + 1) := by
    intro i hi
    rw [h.n] at hi
    rw [h.y (by omega) i (by omega), h.y (by omega) (i + 1) (by omega)]
    exact hy i hi
  have hv : q.y i ≤ y ∧ y ≤ q.y (i + 1) := by
    rw [h.y (by omega) i (by omega), h.y (by omega) (i + 1) (by omega)]; exact hyi
  have hdy : 0 < yin (i + 1) - yin i := by linarith [hy i hi]
  have hdu : 0 < uin (i + 1) - uin i := by linarith [hinc i hi]
  have hval : q.initGivenY y =
      some (uin i + (uin (i + 1) - uin i) / (yin (i + 1) - yin i) * (y - yin i)) := by
    unfold Piecewise.initGivenY
    rcases scan_eq q.y (fun i => q.u i + (q.u (i + 1) - q.u i) / (q.y (i + 1) - q.y i) * (y - q.y i)) y q.n i
        (ends q.increasing q.y q.u q.n y) hk (by rw [h.n]; exact hi) hv with h1 | ⟨h1, h2, h3⟩
    · rw [h1, h.y (by omega) i (by omega), h.y (by omega) (i + 1) (by omega),
        h.u (by omega) i (by omega), h.u (by omega) (i + 1) (by omega)]
    · rw [h3]
      rw [h.y (by omega) (i + 1) (by omega)] at h2
      rw [h.n] at h1
      subst h2
      rw [h.y (by omega) (i + 1) (by omega), h.u (by omega) (i + 1) (by omega)]
      congr 1
      have := hdy.ne'
      field_simp
      ring
  have hr0 : 0 ≤ (uin (i + 1) - uin i) / (yin (i + 1) - yin i) * (y - yin i) :=
    mul_nonneg (div_nonneg hdu.le hdy.le) (by linarith [hyi.1])
  have hr1 : (uin (i + 1) - uin i) / (yin (i + 1) - yin i) * (y - yin i) ≤ uin (i + 1) - uin i := by
    calc (uin (i + 1) - uin i) / (yin (i + 1) - yin i) * (y - yin i)
        ≤ (uin (i + 1) - uin i) / (yin (i + 1) - yin i) * (yin (i + 1) - yin i) :=
          mul_le_mul_of_nonneg_left (by linarith [hyi.2]) (div_nonneg hdu.le hdy.le)
      _ = uin (i + 1) - uin i := by field_simp
  obtain ⟨y', hy1, hy2⟩ := hout
    (uin i + (uin (i + 1) - uin i) / (yin (i + 1) - yin i) * (y - yin i)) ⟨by linarith, by linarith⟩
  refine ⟨_, y', hval, by linarith, by linarith, hy1, ?_⟩
  have : lerp (uin i) (yin i) (uin (i + 1)) (yin (i + 1))
      (uin i + (uin (i + 1) - uin i) / (yin (i + 1) - yin i) * (y - yin i)) = y := by
    unfold lerp
    have h1 := hdu.ne'
    have h2 := hdy.ne'
    field_simp
    ring
  rw [this] at hy2
  exact hy2

/-- C71, inverse: when inputs and outputs both increase, the input found for an output inside the range
reproduces that output, up to 1e-5 times the slope. -/
theorem C71_inverse_partial (p : Piecewise) (uin yin : Nat → Real) (m : Nat) (hp : p.n = 0)
    (hinc : ∀ i, i < m + 1 → uin i < uin (i + 1)) (hy : ∀ i, i < m + 1 → yin i < yin (i + 1))
    (i : Nat) (hi : i < m + 1) (y : Real) (hyi : yin i ≤ y ∧ y ≤ yin (i + 1)) :
    ∃ u y', (p.setparams (m + 2) uin yin).initGivenY y = some u ∧ uin i ≤ u ∧ u ≤ uin (i + 1) ∧
      (p.setparams (m + 2) uin yin).output u = some y' ∧
      |y' - y| ≤ 1 / 10 ^ 5 * |(yin (i + 1) - yin i) / (uin (i + 1) - uin i)| :=
  inverse_tol p uin yin m hp hinc hy i hi y hyi

/-- The block after loading decreasing points. -/
theorem loaded_decreasing (p : Piecewise) (uin yin : Nat → Real) (m : Nat) (hp : p.n = 0)
    (hdec : ∀ i, i < m + 1 → uin (i + 1) < uin i) :
    (p.setparams (m + 2) uin yin).n = m + 1 ∧ (p.setparams (m + 2) uin yin).increasing = false ∧
    (∀ i, i ≤ m + 1 → (p.setparams (m + 2) uin yin).u i = uin i) ∧
    ∀ i, i ≤ m + 1 → (p.setparams (m + 2) uin yin).y i = yin i := by
  unfold Piecewise.setparams
  have h01 : ¬ uin 1 > uin 0 := not_lt.mpr (hdec 0 (by omega)).le
  rw [if_neg h01]
  have : ∀ k, k ≤ m + 1 → ∀ q, q = ((List.range k).foldl (Piecewise.addSegment uin yin)
      { p with increasing := false }) → q.n = k ∧ q.increasing = false ∧
      (0 < k → ∀ i, i ≤ k → q.u i = uin i) ∧ (0 < k → ∀ i, i ≤ k → q.y i = yin i) := by
    intro k
    induction k with
    | zero => intro _ q hq; subst hq; exact ⟨hp, rfl, by omega, by omega⟩
    | succ k ih =>
      intro hk q hq
      obtain ⟨h1, h2, h3, h4⟩ := ih (by omega) _ rfl
      rw [List.range_succ, List.foldl_append, List.foldl_cons, List.foldl_nil] at hq
      generalize (List.range k).foldl (Piecewise.addSegment uin yin) { p with increasing := false } = r
        at hq h1 h2 h3 h4
      unfold Piecewise.addSegment at hq
      rw [if_pos (.inr ⟨h2, hdec k (by omega)⟩), h1] at hq
      subst hq
      refine ⟨rfl, h2, ?_, ?_⟩
      all_goals
        intro _ i hi
        simp only
        by_cases e1 : i = k + 1
        · subst e1; rw [set_same]
        · rw [set_other _ _ _ _ e1]
          by_cases e2 : i = k
          · subst e2; rw [set_same]
          · rw [set_other _ _ _ _ e2]
            first
              | exact h3 (by omega) i (by omega)
              | exact h4 (by omega) i (by omega)
  obtain ⟨h1, h2, h3, h4⟩ := this (m + 1) (le_refl _) _ rfl
  exact ⟨h1, h2, h3 (by omega), h4 (by omega)⟩

theorem dec_le (k : Nat → Real) (m : Nat) (h : ∀ i, i < m → k (i + 1) < k i) (i j : Nat) (hij : i ≤ j)
    (hj : j ≤ m) : k j ≤ k i := by
  induction j with
  | zero =>
    have : i = 0 := by omega
    rw [this]
  | succ j ih =>
    by_cases hi : i = j + 1
    · rw [hi]
    · exact le_trans (h j (by omega)).le (ih (by omega) (by omega))

/-- C71, decreasing points: outside the points the output is that of the nearest point. -/
theorem C71_decreasing_ends_partial (p : Piecewise) (uin yin : Nat → Real) (m : Nat) (hp : p.n = 0)
    (hdec : ∀ i, i < m + 1 → uin (i + 1) < uin i) (u : Real) :
    (uin 0 ≤ u → (p.setparams (m + 2) uin yin).output u = some (yin 0)) ∧
    (u ≤ uin (m + 1) → (p.setparams (m + 2) uin yin).output u = some (yin (m + 1))) := by
  obtain ⟨hn, hi, hu, hy⟩ := loaded_decreasing p uin yin m hp hdec
  generalize p.setparams (m + 2) uin yin = q at hn hi hu hy
  have h0m := dec_le uin (m + 1) hdec 1 (m + 1) (by omega) (le_refl _)
  have h01 := hdec 0 (by omega)
  rw [Nat.zero_add] at h01
  have hscan : ∀ a, scan q.u (fun i => (q.slopes i).output u) u q.n a = a := by
    intro a
    apply scan_none
    intro i hlt hc
    rw [hn] at hlt
    rw [hu i (by omega), hu (i + 1) (by omega)] at hc
    linarith [hdec i hlt, hc.1, hc.2]
  unfold Piecewise.output
  rw [hscan]
  unfold ends
  rw [hi, hn, hu 0 (by omega), hu (m + 1) (by omega), hy 0 (by omega), hy (m + 1) (by omega)]
  constructor
  · intro h
    have : ¬ u ≤ uin (m + 1) := by linarith
    simp [h, this]
  · intro h
    simp [h]

/-- C71 fails for decreasing points, which the code accepts as valid: for every input strictly between the
last and the first point the returned variable has never been assigned. -/
theorem C71_decreasing_violated (p : Piecewise) (uin yin : Nat → Real) (m : Nat) (hp : p.n = 0)
    (hdec : ∀ i, i < m + 1 → uin (i + 1) < uin i) (u : Real) (h1 : uin (m + 1) < u) (h2 : u < uin 0) :
    (p.setparams (m + 2) uin yin).output u = none := by
  obtain ⟨hn, hi, hu, _⟩ := loaded_decreasing p uin yin m hp hdec
  generalize p.setparams (m + 2) uin yin = q at hn hi hu
  unfold Piecewise.output
  rw [scan_none]
  · unfold ends
    rw [hi, hn, hu 0 (by omega), hu (m + 1) (by omega)]
    simp [not_le.mpr h1, not_le.mpr h2]
  · intro i hlt hc
    rw [hn] at hlt
    rw [hu i (by omega), hu (i + 1) (by omega)] at hc
    linarith [hdec i hlt, hc.1, hc.2]

/-- C71: the documentation calls the first argument of `setparams` the number of segments; called that way
the last point is never used: beyond the point before it the output is constant. -/
theorem C71_segment_count_violated (p : Piecewise) (uin yin : Nat → Real) (m : Nat) (hp : p.n = 0)
    (hinc : ∀ i, i < m + 2 → uin i < uin (i + 1)) (hne : yin (m + 2) ≠ yin (m + 1)) :
    (p.setparams (m + 2) uin yin).output (uin (m + 2)) ≠ some (yin (m + 2)) := by
  rw [(C71_ends_partial p uin yin m hp (fun i hi => hinc i (by omega)) (uin (m + 2))).2
    (hinc (m + 1) (by omega))]
  intro h
  exact hne (Option.some.inj h).symm

/-- Three increasing points meet the hypotheses. -/
example : ∀ i, i < 1 + 1 → (fun i : Nat => (i : Real)) i < (fun i : Nat => (i : Real)) (i + 1) := by
  intro i _
  simp

/-! ### C72 -/

/-- C72.  The deadband passes the input unchanged outside `(u1, u2)`, gives zero inside (1e-6 away from the
ends) and never anything else; the gates return the smaller (larger) of limit and input. -/
theorem C72_deadband (u1 u2 u : Real) :
    ((u ≤ u1 ∨ u2 ≤ u) → deadband u1 u2 u = u) ∧
    ((u ≤ u1 + 1 / 10 ^ 6 ∨ u2 - 1 / 10 ^ 6 ≤ u) → deadband u1 u2 u = u) ∧
    ((u1 + 1 / 10 ^ 6 < u ∧ u < u2 - 1 / 10 ^ 6) → deadband u1 u2 u = 0) ∧
    (deadband u1 u2 u = u ∨ deadband u1 u2 u = 0) := by
  have hp : (0 : Real) < 1 / 10 ^ 6 := by positivity
  unfold deadband
  refine ⟨?_, ?_, ?_, ?_⟩
  · intro h
    rw [if_neg]
    rintro ⟨h1, h2⟩
    rcases h with h | h <;> linarith
  · intro h
    rw [if_neg]
    rintro ⟨h1, h2⟩
    rcases h with h | h <;> linarith
  · rintro ⟨h1, h2⟩
    rw [if_pos ⟨by linarith, by linarith⟩]
  · split
    · exact .inr rfl
    · exact .inl rfl

theorem C72_gates (p u : Real) : lvGate p u = min p u ∧ hvGate p u = max p u := by
  unfold lvGate hvGate
  constructor
  · split
    · rename_i h; exact (min_eq_left h.le).symm
    · rename_i h; exact (min_eq_right (not_lt.mp h)).symm
  · split
    · rename_i h; exact (max_eq_left h.le).symm
    · rename_i h; exact (max_eq_right (not_lt.mp h)).symm

end GridPACK.Dblock
