import Verif.Model.Cblock
import Mathlib.Tactic.Linarith
import Mathlib.Tactic.Ring
import Mathlib.Tactic.FieldSimp

/-! Properties C34 (limits), C35 (steady state), C68 (stability of the integration),
C69 (transfer function of the subclasses). -/
namespace GridPACK.Cblock

theorem clamp_mem (lo hi v : Real) (h : lo ≤ hi) : lo ≤ clamp lo hi v ∧ clamp lo hi v ≤ hi := by
  unfold clamp
  exact ⟨le_max_left _ _, max_le h (min_le_right _ _)⟩

theorem clamp_of_mem (lo hi v : Real) (h1 : lo ≤ v) (h2 : v ≤ hi) : clamp lo hi v = v := by
  unfold clamp
  rw [min_eq_left h2, max_eq_right h1]

/-- Limiting moves a value towards every point inside the limits, and never past it. -/
theorem clamp_between (lo hi v c : Real) (h1 : lo ≤ c) (h2 : c ≤ hi) :
    ∃ t, 0 ≤ t ∧ t ≤ 1 ∧ clamp lo hi v - c = t * (v - c) := by
  by_cases hlo : v < lo
  · have : clamp lo hi v = lo := by
      unfold clamp
      rw [min_eq_left (by linarith), max_eq_left hlo.le]
    rw [this]
    have hpos : 0 < c - v := by linarith
    refine ⟨(c - lo) / (c - v), div_nonneg (by linarith) hpos.le, ?_, ?_⟩
    · rw [div_le_one hpos]; linarith
    · have hne := hpos.ne'
      field_simp
      ring
  · by_cases hhi : hi < v
    · have : clamp lo hi v = hi := by
        unfold clamp
        rw [min_eq_right hhi.le, max_eq_right (by linarith)]
      rw [this]
      have hpos : 0 < v - c := by linarith
      refine ⟨(hi - c) / (v - c), div_nonneg (by linarith) hpos.le, ?_, ?_⟩
      · rw [div_le_one hpos]; linarith
      · have hne := hpos.ne'
        field_simp
    · refine ⟨1, by norm_num, le_refl _, ?_⟩
      rw [clamp_of_mem lo hi v (not_lt.mp hlo) (not_lt.mp hhi)]
      ring

/-! ### C34 -/

/-- One call of `getoutput(u, dt, stage, update)`. -/
structure Call where
  u : Real
  dt : Real
  stage : Stage
  upd : Bool

/-- Blocks and outputs along a history of calls. -/
noncomputable def run : Block → List Call → Block × List Real
  | b, [] => (b, [])
  | b, c :: cs =>
    ((run (getoutput b c.u c.dt c.stage c.upd).1 cs).1,
     (getoutput b c.u c.dt c.stage c.upd).2 :: (run (getoutput b c.u c.dt c.stage c.upd).1 cs).2)

/-- The limits and coefficients of two blocks are the same. -/
def SameParams (b b' : Block) : Prop :=
  b'.A = b.A ∧ b'.B = b.B ∧ b'.C = b.C ∧ b'.D = b.D ∧ b'.xmin = b.xmin ∧ b'.xmax = b.xmax ∧
  b'.dxmin = b.dxmin ∧ b'.dxmax = b.dxmax ∧ b'.ymin = b.ymin ∧ b'.ymax = b.ymax

theorem getoutput_same (b : Block) (c : Call) :
    SameParams b (getoutput b c.u c.dt c.stage c.upd).1 := by
  unfold getoutput getoutputLim SameParams
  cases c.upd with
  | false => simp
  | true => cases c.stage <;> simp [updatestate]

/-- C34, one call with any limits: afterwards the updated state, the stored rate and the returned output
are inside the limits given to that call, whatever the state was before. -/
theorem C34_after_call (b : Block) (u dt xmin xmax dxmin dxmax ymin ymax : Real) (s : Stage)
    (hx : xmin ≤ xmax) (hy : ymin ≤ ymax) (hd : dxmin ≤ dxmax) :
    let r := getoutputRate b u dt xmin xmax dxmin dxmax ymin ymax s true
    (xmin ≤ getstate r.1 s ∧ getstate r.1 s ≤ xmax) ∧ (ymin ≤ r.2 ∧ r.2 ≤ ymax) ∧
    (s = .predictor → dxmin ≤ r.1.dxdt ∧ r.1.dxdt ≤ dxmax) := by
  intro r
  refine ⟨?_, clamp_mem _ _ _ hy, ?_⟩
  · cases s
    · exact clamp_mem _ _ _ hx
    · exact clamp_mem _ _ _ hx
  · rintro rfl
    exact clamp_mem _ _ _ hd

/-- C34.  Along every history of calls, with any inputs, steps and stages, a block that starts inside its
limits stays inside them and all outputs are inside the output limits. -/
theorem C34_limits (b : Block) (cs : List Call) (hx : b.xmin ≤ b.xmax) (hy : b.ymin ≤ b.ymax)
    (h0 : b.xmin ≤ b.x ∧ b.x ≤ b.xmax) :
    (b.xmin ≤ (run b cs).1.x ∧ (run b cs).1.x ≤ b.xmax) ∧
    ∀ y ∈ (run b cs).2, b.ymin ≤ y ∧ y ≤ b.ymax := by
  induction cs generalizing b with
  | nil => exact ⟨h0, by simp [run]⟩
  | cons c cs ih =>
    obtain ⟨_, _, _, _, p1, p2, _, _, p3, p4⟩ := getoutput_same b c
    have hin : b.xmin ≤ (getoutput b c.u c.dt c.stage c.upd).1.x ∧
        (getoutput b c.u c.dt c.stage c.upd).1.x ≤ b.xmax := by
      unfold getoutput getoutputLim
      cases c.upd with
      | false => simpa using h0
      | true =>
        cases c.stage with
        | predictor => simpa [updatestate] using h0
        | corrector => exact clamp_mem _ _ _ hx
    have := ih (getoutput b c.u c.dt c.stage c.upd).1 (by rw [p1, p2]; exact hx)
      (by rw [p3, p4]; exact hy) (by rw [p1, p2]; exact hin)
    rw [p1, p2, p3, p4] at this
    refine ⟨this.1, ?_⟩
    intro y hmem
    rcases List.mem_cons.mp hmem with rfl | hmem
    · exact clamp_mem _ _ _ hy
    · exact this.2 y hmem

/-- C34, rate: a corrector call moves a state inside the limits by at most the rate limits times the time
step. -/
theorem C34_rate (b : Block) (u dt : Real) (hdt : 0 ≤ dt) (h0 : b.xmin ≤ b.x ∧ b.x ≤ b.xmax)
    (hd : b.dxmin ≤ 0 ∧ 0 ≤ b.dxmax) :
    dt * b.dxmin ≤ (getoutput b u dt .corrector true).1.x - b.x ∧
    (getoutput b u dt .corrector true).1.x - b.x ≤ dt * b.dxmax := by
  have hval : (getoutput b u dt .corrector true).1.x = clamp b.xmin b.xmax (b.x + dt *
      clamp b.dxmin b.dxmax (1 / 2 * (b.dxdt + getderivative b b.xhat u))) := rfl
  rw [hval]
  generalize hr : clamp b.dxmin b.dxmax (1 / 2 * (b.dxdt + getderivative b b.xhat u)) = r
  have hb : b.dxmin ≤ r ∧ r ≤ b.dxmax := by
    rw [← hr]; exact clamp_mem _ _ _ (by linarith)
  obtain ⟨t, ht0, ht1, ht⟩ := clamp_between b.xmin b.xmax (b.x + dt * r) b.x h0.1 h0.2
  rw [ht]
  have e : t * (b.x + dt * r - b.x) = t * (dt * r) := by ring
  rw [e]
  have h1 : dt * b.dxmin ≤ dt * r := mul_le_mul_of_nonneg_left hb.1 hdt
  have h2 : dt * r ≤ dt * b.dxmax := mul_le_mul_of_nonneg_left hb.2 hdt
  have h3 : dt * b.dxmin ≤ 0 := mul_nonpos_of_nonneg_of_nonpos hdt hd.1
  have h4 : 0 ≤ dt * b.dxmax := mul_nonneg hdt hd.2
  constructor <;> nlinarith

/-- C34: the rate limits passed to `updatestate` have no effect; the result is the same for all of them. -/
theorem C34_rate_arguments_ignored_violated (b : Block) (u dt xmin xmax d1 d2 d3 d4 : Real) (s : Stage) :
    updatestate b u dt xmin xmax d1 d2 s = updatestate b u dt xmin xmax d3 d4 s := by
  cases s <;> rfl

/-- C34 fails right after initialisation: the state is set without looking at the limits.  For every
block with non-zero `A` and any state limits there is an input for which `init_given_u` leaves the
state above its limit. -/
theorem C34_init_violated (b : Block) (hA : eps ≤ |b.A|) (hB : eps ≤ |b.B|) :
    ∃ u, b.xmax < (initGivenU b u).1.x := by
  have he : 0 < eps := by unfold eps; positivity
  have hA0 : b.A ≠ 0 := by intro h; rw [h] at hA; simp at hA; linarith
  have hB0 : b.B ≠ 0 := by intro h; rw [h] at hB; simp at hB; linarith
  refine ⟨(b.xmax + 1) / (-b.B / b.A), ?_⟩
  unfold initGivenU
  rw [if_neg (not_lt.mpr hB), if_neg (not_lt.mpr hA)]
  have : -b.B / b.A * ((b.xmax + 1) / (-b.B / b.A)) = b.xmax + 1 := by
    have : -b.B / b.A ≠ 0 := div_ne_zero (neg_ne_zero.mpr hB0) hA0
    field_simp
  show b.xmax < -b.B / b.A * ((b.xmax + 1) / (-b.B / b.A))
  rw [this]
  linarith

/-! ### C35 -/

/-- A block in equilibrium for the input `u`, inside its limits. -/
structure Steady (b : Block) (u : Real) : Prop where
  rate : b.A * b.x + b.B * u = 0
  inx : b.xmin ≤ b.x ∧ b.x ≤ b.xmax
  indx : b.dxmin ≤ 0 ∧ 0 ≤ b.dxmax

theorem steady_step (b : Block) (u dt : Real) (h : Steady b u) :
    let b1 := (getoutput b u dt .predictor true).1
    let b2 := timeStep b u u dt
    b1.x = b.x ∧ b1.xhat = b.x ∧ b2.x = b.x ∧ b2.xhat = b.x ∧ SameParams b b2 ∧ Steady b2 u := by
  intro b1 b2
  have hd : getderivative b b.x u = 0 := h.rate
  have hc0 : clamp b.dxmin b.dxmax 0 = 0 := clamp_of_mem _ _ _ h.indx.1 h.indx.2
  have hcx : clamp b.xmin b.xmax b.x = b.x := clamp_of_mem _ _ _ h.inx.1 h.inx.2
  have e1 : b1 = { b with dxdt := 0, xhat := b.x, stage := .predictor } := by
    show updatestate b u dt b.xmin b.xmax b.dxmin b.dxmax .predictor = _
    simp only [updatestate, hd, hc0, mul_zero, add_zero, hcx]
  have e2 : b2 = { b with dxdt := 0, xhat := b.x, stage := .corrector } := by
    show updatestate b1 u dt b1.xmin b1.xmax b1.dxmin b1.dxmax .corrector = _
    rw [e1]
    have hd' : getderivative { b with dxdt := 0, xhat := b.x, stage := Stage.predictor } b.x u = 0 := hd
    simp only [updatestate, hd', add_zero, mul_zero, hc0, hcx]
  rw [e1, e2]
  exact ⟨rfl, rfl, rfl, rfl, ⟨rfl, rfl, rfl, rfl, rfl, rfl, rfl, rfl, rfl, rfl⟩, ⟨h.rate, h.inx, h.indx⟩⟩

/-- C35, dynamics: a block in equilibrium stays there for ever under the same input, for any step size,
and every output reported on the way is the equilibrium output. -/
theorem C35_equilibrium_is_kept (b : Block) (u dt : Real) (h : Steady b u) (n : Nat) :
    ((fun c => timeStep c u u dt)^[n] b).x = b.x ∧
    ∀ s, (getoutput ((fun c => timeStep c u u dt)^[n + 1] b) u dt s true).2 =
      clamp b.ymin b.ymax (b.C * b.x + b.D * u) := by
  have key : ∀ n, ((fun c => timeStep c u u dt)^[n] b).x = b.x ∧
      SameParams b ((fun c => timeStep c u u dt)^[n] b) ∧ Steady ((fun c => timeStep c u u dt)^[n] b) u ∧
      (0 < n → ((fun c => timeStep c u u dt)^[n] b).xhat = b.x) := by
    intro n
    induction n with
    | zero => exact ⟨rfl, ⟨rfl, rfl, rfl, rfl, rfl, rfl, rfl, rfl, rfl, rfl⟩, h, by simp⟩
    | succ n ih =>
      rw [Function.iterate_succ', Function.comp]
      obtain ⟨h1, h2, h3, _⟩ := ih
      obtain ⟨_, _, g3, g4, g5, g6⟩ := steady_step _ u dt h3
      refine ⟨g3.trans h1, ?_, g6, fun _ => g4.trans h1⟩
      unfold SameParams at *
      obtain ⟨a1, a2, a3, a4, a5, a6, a7, a8, a9, a10⟩ := h2
      obtain ⟨c1, c2, c3, c4, c5, c6, c7, c8, c9, c10⟩ := g5
      exact ⟨c1.trans a1, c2.trans a2, c3.trans a3, c4.trans a4, c5.trans a5, c6.trans a6,
        c7.trans a7, c8.trans a8, c9.trans a9, c10.trans a10⟩
  refine ⟨(key n).1, ?_⟩
  intro s
  obtain ⟨h1, ⟨_, _, a3, a4, _, _, _, _, a9, a10⟩, _, h4⟩ := key (n + 1)
  have h4 := h4 (Nat.succ_pos n)
  show clamp _ _ _ = _
  rw [a3, a4, a9, a10]
  cases s with
  | predictor => simp only [outState]; rw [h1]
  | corrector => simp only [outState]; rw [h4]

theorem eps_pos : 0 < eps := by unfold eps; positivity

theorem ne_zero_of_eps {a : Real} (h : eps ≤ |a|) : a ≠ 0 := by
  intro h0; rw [h0, abs_zero] at h; exact absurd eps_pos (not_lt.mpr h)

/-- C35, initialisation from the input: equilibrium, and the returned value is the output.  Holds for
every block whose `A` and `B` exceed the code's threshold, and for `B = 0`. -/
theorem C35_init_given_u_partial (b : Block) (u : Real)
    (h : (eps ≤ |b.A| ∧ eps ≤ |b.B|) ∨ b.B = 0) :
    let r := initGivenU b u
    r.1.A * r.1.x + r.1.B * u = 0 ∧ r.2 = r.1.C * r.1.x + r.1.D * u := by
  intro r
  show (initGivenU b u).1.A * (initGivenU b u).1.x + (initGivenU b u).1.B * u = 0 ∧
    (initGivenU b u).2 = (initGivenU b u).1.C * (initGivenU b u).1.x + (initGivenU b u).1.D * u
  unfold initGivenU
  rcases h with ⟨hA, hB⟩ | hB
  · rw [if_neg (not_lt.mpr hB), if_neg (not_lt.mpr hA)]
    have := ne_zero_of_eps hA
    refine ⟨?_, rfl⟩
    simp only
    field_simp
    ring
  · rw [if_pos (by rw [hB, abs_zero]; exact eps_pos)]
    simp [hB]

/-- C35, initialisation from the output: equilibrium for the returned input, and the unlimited output is
the given one.  Holds for every block with non-zero static gain and for pure integrators. -/
theorem C35_init_given_y_partial (b : Block) (y : Real) (hC : b.C = 1)
    (h : (eps ≤ |b.A| ∧ b.D - b.C * b.B / b.A ≠ 0) ∨ b.A = 0) :
    let r := initGivenY b y
    r.1.A * r.1.x + r.1.B * r.2 = 0 ∧ r.1.C * r.1.x + r.1.D * r.2 = y := by
  intro r
  show (initGivenY b y).1.A * (initGivenY b y).1.x + (initGivenY b y).1.B * (initGivenY b y).2 = 0 ∧
    (initGivenY b y).1.C * (initGivenY b y).1.x + (initGivenY b y).1.D * (initGivenY b y).2 = y
  unfold initGivenY
  rcases h with ⟨hA, hg⟩ | hA
  · rw [if_neg (not_lt.mpr hA)]
    have hA0 := ne_zero_of_eps hA
    simp only
    constructor
    · generalize y / (b.D - b.C * b.B / b.A) = u
      field_simp
      ring
    · have : b.C * (-b.B / b.A * (y / (b.D - b.C * b.B / b.A))) + b.D * (y / (b.D - b.C * b.B / b.A)) =
          (b.D - b.C * b.B / b.A) * (y / (b.D - b.C * b.B / b.A)) := by ring
      rw [this, mul_div_cancel₀ _ hg]
  · rw [if_pos (by rw [hA, abs_zero]; exact eps_pos)]
    simp [hA, hC]

/-- C35 as a whole: initialise from an output inside the limits, with the resulting state inside the
limits; then under the returned input the state never changes and all outputs equal the given one. -/
theorem C35_steady_state_partial (b : Block) (y dt : Real) (hC : b.C = 1)
    (h : (eps ≤ |b.A| ∧ b.D - b.C * b.B / b.A ≠ 0) ∨ b.A = 0)
    (hx : b.xmin ≤ (initGivenY b y).1.x ∧ (initGivenY b y).1.x ≤ b.xmax)
    (hd : b.dxmin ≤ 0 ∧ 0 ≤ b.dxmax) (hy : b.ymin ≤ y ∧ y ≤ b.ymax) (n : Nat) :
    let r := initGivenY b y
    ((fun c => timeStep c r.2 r.2 dt)^[n] r.1).x = r.1.x ∧
    ∀ s, (getoutput ((fun c => timeStep c r.2 r.2 dt)^[n + 1] r.1) r.2 dt s true).2 = y := by
  intro r
  obtain ⟨h1, h2⟩ := C35_init_given_y_partial b y hC h
  have hlim : r.1.xmin = b.xmin ∧ r.1.xmax = b.xmax ∧ r.1.dxmin = b.dxmin ∧ r.1.dxmax = b.dxmax ∧
      r.1.ymin = b.ymin ∧ r.1.ymax = b.ymax := by
    show (initGivenY b y).1.xmin = _ ∧ (initGivenY b y).1.xmax = _ ∧ (initGivenY b y).1.dxmin = _ ∧
      (initGivenY b y).1.dxmax = _ ∧ (initGivenY b y).1.ymin = _ ∧ (initGivenY b y).1.ymax = _
    unfold initGivenY
    split <;> exact ⟨rfl, rfl, rfl, rfl, rfl, rfl⟩
  obtain ⟨l1, l2, l3, l4, l5, l6⟩ := hlim
  have hs : Steady r.1 r.2 :=
    ⟨h1, by rw [l1, l2]; exact hx, by rw [l3, l4]; exact hd⟩
  have := C35_equilibrium_is_kept r.1 r.2 dt hs n
  refine ⟨this.1, ?_⟩
  intro s
  rw [this.2 s]
  have h2' : r.1.C * r.1.x + r.1.D * r.2 = y := h2
  rw [h2', l5, l6]
  exact clamp_of_mem _ _ _ hy.1 hy.2

/-- C35 fails when the initial state lies outside the state limits: with any step size the first time step
moves the state, for every block in equilibrium above its upper limit. -/
theorem C35_out_of_limits_violated (b : Block) (u dt : Real)
    (hlim : b.xmin ≤ b.xmax) (hout : b.xmax < b.x) :
    (timeStep b u u dt).x ≠ b.x := by
  have : (timeStep b u u dt).x ≤ b.xmax := by
    have := (clamp_mem b.xmin b.xmax
      (b.x + dt * clamp b.dxmin b.dxmax (1 / 2 * ((getoutput b u dt .predictor true).1.dxdt +
        getderivative (getoutput b u dt .predictor true).1 (getoutput b u dt .predictor true).1.xhat u)))
      hlim).2
    exact this
  intro h
  rw [h] at this
  linarith

/-- C35 fails for a block with a very small but non-zero `B`: the state is set to 0 although this is not
an equilibrium. -/
theorem C35_small_gain_violated (b : Block) (u : Real) (hB : |b.B| < eps) (hB0 : b.B ≠ 0) (hu : u ≠ 0) :
    (initGivenU b u).1.A * (initGivenU b u).1.x + (initGivenU b u).1.B * u ≠ 0 := by
  unfold initGivenU
  rw [if_pos hB]
  simp [hB0, hu]

/-- C35 fails for an integrator initialised from a non-zero input: the state is set to 0, which is not an
equilibrium; the returned value is the feed-through. -/
theorem C35_integrator_violated (b : Block) (u : Real) (hA : b.A = 0) (hB : eps ≤ |b.B|) (hu : u ≠ 0) :
    (initGivenU b u).1.x = 0 ∧ (initGivenU b u).2 = b.D * u ∧
    getderivative (initGivenU b u).1 (initGivenU b u).1.x u ≠ 0 := by
  have hA' : |b.A| < eps := by rw [hA, abs_zero]; exact eps_pos
  have : initGivenU b u = ({ b with x := 0 }, b.D * u) := by
    unfold initGivenU
    rw [if_neg (not_lt.mpr hB), if_pos hA']
  rw [this]
  refine ⟨rfl, rfl, ?_⟩
  simp [getderivative, ne_zero_of_eps hB, hu]

/-! ### C68 -/

/-- C68.  Without active limits the distance from the equilibrium `xs` under constant input is multiplied
by exactly `1 + z + z²/2` (`z = A dt`) in every time step: the method is of second order. -/
theorem C68_unlimited_step (b : Block) (u dt xs : Real) (hs : b.A * xs + b.B * u = 0)
    (h1 : b.dxmin ≤ b.A * b.x + b.B * u ∧ b.A * b.x + b.B * u ≤ b.dxmax)
    (h2 : let xh := b.x + dt * (b.A * b.x + b.B * u)
      b.xmin ≤ xh ∧ xh ≤ b.xmax ∧
      b.dxmin ≤ 1 / 2 * (b.A * b.x + b.B * u + (b.A * xh + b.B * u)) ∧
      1 / 2 * (b.A * b.x + b.B * u + (b.A * xh + b.B * u)) ≤ b.dxmax ∧
      b.xmin ≤ b.x + dt * (1 / 2 * (b.A * b.x + b.B * u + (b.A * xh + b.B * u))) ∧
      b.x + dt * (1 / 2 * (b.A * b.x + b.B * u + (b.A * xh + b.B * u))) ≤ b.xmax) :
    (timeStep b u u dt).x - xs = (1 + b.A * dt + (b.A * dt) ^ 2 / 2) * (b.x - xs) := by
  obtain ⟨k1, k2, k3, k4, k5, k6⟩ := h2
  have hB : b.B * u = -(b.A * xs) := by linarith
  have e1 : (getoutput b u dt .predictor true).1 =
      { b with dxdt := b.A * b.x + b.B * u, xhat := b.x + dt * (b.A * b.x + b.B * u),
               stage := .predictor } := by
    show updatestate b u dt b.xmin b.xmax b.dxmin b.dxmax .predictor = _
    simp only [updatestate, getderivative]
    rw [clamp_of_mem _ _ _ h1.1 h1.2, clamp_of_mem _ _ _ k1 k2]
  have e2 : (timeStep b u u dt).x =
      b.x + dt * (1 / 2 * (b.A * b.x + b.B * u + (b.A * (b.x + dt * (b.A * b.x + b.B * u)) + b.B * u))) := by
    unfold timeStep
    rw [e1]
    show clamp _ _ _ = _
    simp only [getderivative]
    rw [clamp_of_mem _ _ _ k3 k4, clamp_of_mem _ _ _ k5 k6]
  rw [e2, hB]
  ring

theorem factor_bounds (t1 t2 t3 z : Real) (a1 : 0 ≤ t1) (a2 : t1 ≤ 1) (c1 : 0 ≤ t2) (c2 : t2 ≤ 1)
    (d1 : 0 ≤ t3) (d2 : t3 ≤ 1) (hz0 : z ≤ 0) (hz2 : -2 ≤ z) :
    0 ≤ 1 + t3 * (z / 2 * (t1 + t2 + t1 * t2 * z)) ∧ 1 + t3 * (z / 2 * (t1 + t2 + t1 * t2 * z)) ≤ 1 := by
  have h12 : 0 ≤ t1 * t2 := mul_nonneg a1 c1
  have h12' : t1 * t2 ≤ 1 := mul_le_one₀ a2 c1 c2
  have hw0 : 0 ≤ t1 + t2 + t1 * t2 * z := by
    have e : t1 + t2 + t1 * t2 * z = t1 * (1 - t2) + t2 * (1 - t1) + t1 * t2 * (z + 2) := by ring
    rw [e]
    exact add_nonneg (add_nonneg (mul_nonneg a1 (by linarith)) (mul_nonneg c1 (by linarith)))
      (mul_nonneg h12 (by linarith))
  have hw1 : -1 ≤ z / 2 * (t1 + t2 + t1 * t2 * z) := by
    have e : z / 2 * (t1 + t2 + t1 * t2 * z) + 1 =
        (1 - t1 * t2) * (z / 2 + 1) + t1 * t2 * (((z + 1) ^ 2 + 1) / 2) +
        (-z / 2) * ((1 - t1) * (1 - t2)) := by ring
    have k1 : 0 ≤ (1 - t1 * t2) * (z / 2 + 1) := mul_nonneg (by linarith) (by linarith)
    have k2 : 0 ≤ t1 * t2 * (((z + 1) ^ 2 + 1) / 2) := mul_nonneg h12 (by positivity)
    have k3 : 0 ≤ (-z / 2) * ((1 - t1) * (1 - t2)) :=
      mul_nonneg (by linarith) (mul_nonneg (by linarith) (by linarith))
    linarith
  have hw2 : z / 2 * (t1 + t2 + t1 * t2 * z) ≤ 0 :=
    mul_nonpos_of_nonpos_of_nonneg (by linarith) hw0
  generalize z / 2 * (t1 + t2 + t1 * t2 * z) = w at hw1 hw2
  constructor
  · nlinarith
  · have := mul_nonpos_of_nonneg_of_nonpos d1 hw2
    linarith

/-- C68, with limits: for a stable block (`A ≤ 0`) and a step of at most twice the time constant, a
constant input whose equilibrium lies inside the limits never drives the state away from the equilibrium
or past it, whatever limiters act. -/
theorem C68_no_overshoot (b : Block) (u dt xs : Real) (hs : b.A * xs + b.B * u = 0)
    (hin : b.xmin ≤ xs ∧ xs ≤ b.xmax) (hd : b.dxmin ≤ 0 ∧ 0 ≤ b.dxmax)
    (hz0 : b.A * dt ≤ 0) (hz2 : -2 ≤ b.A * dt) :
    ∃ q, 0 ≤ q ∧ q ≤ 1 ∧ (timeStep b u u dt).x - xs = q * (b.x - xs) := by
  have hder : ∀ x, b.A * x + b.B * u = b.A * (x - xs) := by
    intro x; have : b.B * u = -(b.A * xs) := by linarith
    rw [this]; ring
  obtain ⟨t1, a1, a2, a3⟩ := clamp_between b.dxmin b.dxmax (getderivative b b.x u) 0 hd.1 hd.2
  have e1 : clamp b.dxmin b.dxmax (getderivative b b.x u) = t1 * (b.A * (b.x - xs)) := by
    have := a3
    unfold getderivative at this ⊢
    rw [hder] at this ⊢
    linarith
  obtain ⟨t2, c1, c2, c3⟩ := clamp_between b.xmin b.xmax
    (b.x + dt * clamp b.dxmin b.dxmax (getderivative b b.x u)) xs hin.1 hin.2
  rw [e1] at c3
  let P := (getoutput b u dt .predictor true).1
  have hPd : P.dxdt = t1 * (b.A * (b.x - xs)) := e1
  have hPx : P.xhat - xs = t2 * (b.x + dt * (t1 * (b.A * (b.x - xs))) - xs) := by
    have : P.xhat = clamp b.xmin b.xmax (b.x + dt * clamp b.dxmin b.dxmax (getderivative b b.x u)) := rfl
    rw [this, e1]
    exact c3
  have hPder : getderivative P P.xhat u = b.A * (P.xhat - xs) := hder P.xhat
  obtain ⟨t3, d1, d2, d3⟩ := clamp_between b.dxmin b.dxmax
    (1 / 2 * (P.dxdt + getderivative P P.xhat u)) 0 hd.1 hd.2
  rw [hPder, hPd, hPx] at d3
  have e3 : clamp b.dxmin b.dxmax (1 / 2 * (P.dxdt + getderivative P P.xhat u)) =
      t3 * (1 / 2 * (t1 * (b.A * (b.x - xs)) +
        b.A * (t2 * (b.x + dt * (t1 * (b.A * (b.x - xs))) - xs)))) := by
    rw [hPder, hPd, hPx]
    linarith
  obtain ⟨t4, f1, f2, f3⟩ := clamp_between b.xmin b.xmax
    (b.x + dt * clamp b.dxmin b.dxmax (1 / 2 * (P.dxdt + getderivative P P.xhat u))) xs hin.1 hin.2
  have hfin : (timeStep b u u dt).x = clamp b.xmin b.xmax
      (b.x + dt * clamp b.dxmin b.dxmax (1 / 2 * (P.dxdt + getderivative P P.xhat u))) := rfl
  rw [hfin, f3, e3]
  generalize hz : b.A * dt = z at hz0 hz2
  -- the multiplier of the distance before the last limiter
  have e4 : b.x + dt * (t3 * (1 / 2 * (t1 * (b.A * (b.x - xs)) +
        b.A * (t2 * (b.x + dt * (t1 * (b.A * (b.x - xs))) - xs))))) - xs =
      (1 + t3 * (z / 2 * (t1 + t2 + t1 * t2 * z))) * (b.x - xs) := by
    rw [← hz]; ring
  rw [e4]
  obtain ⟨g1, g2⟩ := factor_bounds t1 t2 t3 z a1 a2 c1 c2 d1 d2 hz0 hz2
  exact ⟨t4 * (1 + t3 * (z / 2 * (t1 + t2 + t1 * t2 * z))), mul_nonneg f1 g1,
    mul_le_one₀ f2 g1 g2, by ring⟩

/-- C68, any number of steps: the distance never grows and never changes sign. -/
theorem C68_no_overshoot_run (b : Block) (u dt xs : Real) (hs : b.A * xs + b.B * u = 0)
    (hin : b.xmin ≤ xs ∧ xs ≤ b.xmax) (hd : b.dxmin ≤ 0 ∧ 0 ≤ b.dxmax)
    (hz0 : b.A * dt ≤ 0) (hz2 : -2 ≤ b.A * dt) (n : Nat) :
    ∃ q, 0 ≤ q ∧ q ≤ 1 ∧ ((fun c => timeStep c u u dt)^[n] b).x - xs = q * (b.x - xs) := by
  induction n generalizing b with
  | zero => exact ⟨1, by norm_num, le_refl _, by simp⟩
  | succ n ih =>
    rw [Function.iterate_succ, Function.comp]
    obtain ⟨q1, h1, h2, h3⟩ := C68_no_overshoot b u dt xs hs hin hd hz0 hz2
    obtain ⟨q2, g1, g2, g3⟩ := ih (timeStep b u u dt) hs hin hd hz0 hz2
    refine ⟨q2 * q1, mul_nonneg g1 h1, by nlinarith, ?_⟩
    rw [g3, h3]; ring

/-! ### C69 -/

/-- C69.  In equilibrium (`A x + B u = 0`) each standard block has the static gain of its transfer
function: `K` for the filter, 1 for the lead-lag; its state equation is that of the transfer function. -/
theorem C69_filter (b b' : Block) (K T : Real) (h : filter b K T = some b') :
    (∀ x u, T * getderivative b' x u = K * u - x) ∧ b'.C = 1 ∧ b'.D = 0 := by
  unfold filter setcoeffs at h
  by_cases hT : T = 0
  · rw [if_pos hT] at h; cases h
  · rw [if_neg hT] at h
    simp only [Option.map_some, Option.some.injEq] at h
    subst h
    refine ⟨?_, rfl, ?_⟩
    · intro x u
      simp only [getderivative, defaultLimits, setxlimits, setdxlimits, setylimits]
      field_simp
      ring
    · simp [defaultLimits, setxlimits, setdxlimits, setylimits]

/-- C69, lead-lag `(1 + s TA)/(1 + s TB)`: with `y = x + (TA/TB) u`, `TB y' + y = TA u' + u`, i.e.
`TB x' = u - y` for every state and input. -/
theorem C69_leadLag (b b' : Block) (TA TB : Real) (h : leadLag b TA TB = some b') :
    ∀ x u, TB * getderivative b' x u = u - (b'.C * x + b'.D * u) ∧ b'.C = 1 ∧ TB * b'.D = TA := by
  unfold leadLag setcoeffs at h
  by_cases hT : TB = 0
  · rw [if_pos hT] at h; cases h
  · rw [if_neg hT] at h
    simp only [Option.map_some, Option.some.injEq] at h
    subst h
    intro x u
    refine ⟨?_, rfl, ?_⟩
    · simp only [getderivative, defaultLimits, setxlimits, setdxlimits, setylimits]
      field_simp
      ring
    · simp only [defaultLimits, setxlimits, setdxlimits, setylimits]
      field_simp

/-- C69, PI controller `Kp + Ki/s` and integrator `1/(sT)`. -/
theorem C69_pi_integrator (b : Block) (Kp Ki T : Real) :
    (∀ b', piControl b Kp Ki = some b' → ∀ x u, getderivative b' x u = Ki * u ∧ b'.C = 1 ∧ b'.D = Kp) ∧
    (∀ b', integrator b T = some b' → ∀ x u, T * getderivative b' x u = u ∧ b'.C = 1 ∧ b'.D = 0) := by
  constructor
  · intro b' h x u
    unfold piControl setcoeffs at h
    rw [if_neg one_ne_zero] at h
    simp only [Option.map_some, Option.some.injEq] at h
    subst h
    simp [getderivative, defaultLimits, setxlimits, setdxlimits, setylimits]
  · intro b' h x u
    unfold integrator setcoeffs at h
    by_cases hT : T = 0
    · rw [if_pos hT] at h; cases h
    · rw [if_neg hT] at h
      simp only [Option.map_some, Option.some.injEq] at h
      subst h
      refine ⟨?_, rfl, by simp [setxlimits, setylimits]⟩
      simp only [getderivative, setxlimits, setylimits]
      field_simp
      ring

/-- C69, limits of the standard blocks when none are given: ±1000 for state, rate and output; the integrator keeps
the rate limits it had. -/
theorem C69_default_limits (b b' : Block) (K T : Real) :
    (filter b K T = some b' ∨ leadLag b K T = some b' ∨ piControl b K T = some b' →
      b'.xmin = -1000 ∧ b'.xmax = 1000 ∧ b'.dxmin = -1000 ∧ b'.dxmax = 1000 ∧ b'.ymin = -1000 ∧ b'.ymax = 1000) ∧
    (integrator b T = some b' → b'.xmin = -1000 ∧ b'.xmax = 1000 ∧ b'.dxmin = b.dxmin ∧ b'.dxmax = b.dxmax ∧
      b'.ymin = -1000 ∧ b'.ymax = 1000) := by
  have key : ∀ a0 a1 b0 b1, (setcoeffs b a0 a1 b0 b1).map defaultLimits = some b' →
      b'.xmin = -1000 ∧ b'.xmax = 1000 ∧ b'.dxmin = -1000 ∧ b'.dxmax = 1000 ∧ b'.ymin = -1000 ∧ b'.ymax = 1000 := by
    intro a0 a1 b0 b1 h
    unfold setcoeffs at h
    split at h
    · cases h
    · simp only [Option.map_some, Option.some.injEq] at h
      subst h
      exact ⟨rfl, rfl, rfl, rfl, rfl, rfl⟩
  refine ⟨?_, ?_⟩
  · rintro (h | h | h)
    · exact key _ _ _ _ h
    · exact key _ _ _ _ h
    · exact key _ _ _ _ h
  · intro h
    unfold integrator setcoeffs at h
    split at h
    · cases h
    · simp only [Option.map_some, Option.some.injEq] at h
      subst h
      exact ⟨rfl, rfl, rfl, rfl, rfl, rfl⟩

/-- C69, asking for the output alone after a call with update: the same value as that call returned. -/
theorem C69_output_only (b : Block) (u dt : Real) (s : Stage) :
    getoutput1 (getoutput b u dt s true).1 u = (getoutput b u dt s true).2 := by
  cases s <;> rfl

/-- C69, output equation along a time step with inputs `up` (predictor) and `uc` (corrector), limits not
active: the predictor call returns the output at the old state, the corrector call the output at the state
extrapolated with the derivative at the old one. -/
theorem C69_outputs_in_a_step (b : Block) (up uc dt : Real)
    (hr : b.dxmin ≤ b.A * b.x + b.B * up ∧ b.A * b.x + b.B * up ≤ b.dxmax)
    (hx : b.xmin ≤ b.x + dt * (b.A * b.x + b.B * up) ∧ b.x + dt * (b.A * b.x + b.B * up) ≤ b.xmax)
    (hp : b.ymin ≤ b.C * b.x + b.D * up ∧ b.C * b.x + b.D * up ≤ b.ymax)
    (hc : b.ymin ≤ b.C * (b.x + dt * (b.A * b.x + b.B * up)) + b.D * uc ∧
      b.C * (b.x + dt * (b.A * b.x + b.B * up)) + b.D * uc ≤ b.ymax) :
    (getoutput b up dt .predictor true).2 = b.C * b.x + b.D * up ∧
    (getoutput (getoutput b up dt .predictor true).1 uc dt .corrector true).2 =
      b.C * (b.x + dt * (b.A * b.x + b.B * up)) + b.D * uc := by
  have e1 : clamp b.dxmin b.dxmax (b.A * b.x + b.B * up) = b.A * b.x + b.B * up :=
    clamp_of_mem _ _ _ hr.1 hr.2
  have e2 : clamp b.xmin b.xmax (b.x + dt * (b.A * b.x + b.B * up)) =
      b.x + dt * (b.A * b.x + b.B * up) := clamp_of_mem _ _ _ hx.1 hx.2
  refine ⟨clamp_of_mem _ _ _ hp.1 hp.2, ?_⟩
  simp only [getoutput, getoutputLim, updatestate, outState, getderivative, if_true, e1, e2]
  exact clamp_of_mem _ _ _ hc.1 hc.2

/-- C69: initialising the standard blocks from an output gives the input one expects from the static
gain. -/
theorem C69_filter_init (b b' : Block) (K T y : Real) (h : filter b K T = some b')
    (hT : |T| ≤ 10 ^ 10) (hK : K ≠ 0) : (initGivenY b' y).2 = y / K ∧ (initGivenY b' y).1.x = y := by
  unfold filter setcoeffs at h
  by_cases hT0 : T = 0
  · rw [if_pos hT0] at h; cases h
  · rw [if_neg hT0] at h
    simp only [Option.map_some, Option.some.injEq] at h
    subst h
    have habs : ¬ |(-1 : Real) / T| < eps := by
      rw [abs_div, abs_neg, abs_one, not_lt]
      unfold eps
      have : 0 < |T| := abs_pos.mpr hT0
      exact one_div_le_one_div_of_le this hT
    unfold initGivenY
    rw [if_neg (by exact habs)]
    simp only [defaultLimits, setxlimits, setdxlimits, setylimits]
    constructor
    · field_simp
      ring
    · field_simp
      ring

/-- A block meeting the hypotheses: a filter with gain 2 and time constant 3, output 4. -/
example : ∃ b' : Block, filter ⟨0,0,0,0,0,0,0,0,0,0,0,0,.predictor,0⟩ 2 3 = some b' ∧
    eps ≤ |b'.A| ∧ b'.D - b'.C * b'.B / b'.A ≠ 0 ∧ b'.C = 1 ∧ b'.dxmin ≤ 0 ∧ 0 ≤ b'.dxmax ∧
    (initGivenY b' 4).2 = 2 := by
  refine ⟨_, by unfold filter setcoeffs; rw [if_neg (by norm_num : (3:Real) ≠ 0)]; rfl, ?_, ?_, rfl, ?_, ?_, ?_⟩
  · simp only [defaultLimits, setxlimits, setdxlimits, setylimits, eps]
    rw [abs_div, abs_neg, abs_one]
    norm_num
  · simp only [defaultLimits, setxlimits, setdxlimits, setylimits]
    norm_num
  · simp only [defaultLimits, setxlimits, setdxlimits, setylimits]
    norm_num
  · simp only [defaultLimits, setxlimits, setdxlimits, setylimits]
    norm_num
  · have := (C69_filter_init ⟨0,0,0,0,0,0,0,0,0,0,0,0,.predictor,0⟩ _ 2 3 4
      (by unfold filter setcoeffs; rw [if_neg (by norm_num : (3:Real) ≠ 0)]; rfl)
      (by rw [abs_of_pos] <;> norm_num) (by norm_num)).1
    rw [this]; norm_num

/-! ### Cases meeting the hypotheses: a lag `x' = u - x` with output `x`, limited to [-1, 2] -/

noncomputable def lag (x xmax : Real) : Block := ⟨-1, 1, 1, 0, 0, 0, xmax, -1, 2, -1, 10, -10, .predictor, x⟩

theorem eps_le_one : eps ≤ 1 := by unfold eps; norm_num

example := C34_after_call (lag 0 2) 5 1 (-1) 2 (-10) 10 (-1) 2 .predictor (by norm_num) (by norm_num) (by norm_num)

example := C34_limits (lag 0 2) [⟨5, 1, .predictor, true⟩, ⟨5, 1, .corrector, true⟩] (by norm_num [lag])
  (by norm_num [lag]) (by norm_num [lag])

example := C34_rate (lag 0 2) 5 1 (by norm_num) (by norm_num [lag]) (by norm_num [lag])

example := C34_init_violated (lag 0 2) (by simpa [lag] using eps_le_one) (by simpa [lag] using eps_le_one)

example := C35_equilibrium_is_kept (lag 1 2) 1 1 (by constructor <;> norm_num [lag]) 7

example := C35_init_given_u_partial (lag 0 2) 1
  (Or.inl ⟨by simpa [lag] using eps_le_one, by simpa [lag] using eps_le_one⟩)

example := C35_init_given_y_partial (lag 0 2) 1 rfl (Or.inl ⟨by simpa [lag] using eps_le_one, by norm_num [lag]⟩)

/-- Started outside its limits. -/
example := C35_out_of_limits_violated (lag 3 2) 3 1 (by norm_num [lag]) (by norm_num [lag])

example := C35_small_gain_violated { lag 0 2 with B := 1 / 10 ^ 11 } 1
  (by show |(1 / 10 ^ 11 : Real)| < eps; rw [abs_of_pos (by norm_num)]; unfold eps; norm_num)
  (by show (1 / 10 ^ 11 : Real) ≠ 0; norm_num) (by norm_num)

example := C35_integrator_violated { lag 0 2 with A := 0 } 1 rfl (by simpa [lag] using eps_le_one) (by norm_num)

example := C68_unlimited_step (lag 0 2) 1 (1 / 2) 1 (by norm_num [lag]) (by norm_num [lag]) (by norm_num [lag])

example := C68_no_overshoot (lag 0 2) 1 (1 / 2) 1 (by norm_num [lag]) (by norm_num [lag]) (by norm_num [lag])
  (by norm_num [lag]) (by norm_num [lag])

example := C69_outputs_in_a_step (lag 0 2) 1 1 (1 / 2) (by norm_num [lag]) (by norm_num [lag]) (by norm_num [lag])
  (by norm_num [lag])

end GridPACK.Cblock
