import Verif.Props.Cblock

/-! Control blocks at rest: building blocks for the flat start of governors, exciters and stabilisers. -/
namespace GridPACK.Cblock

/-- The block is in equilibrium for the input `u` with output `y`, inside all limits. -/
structure Rest (b : Block) (u y : Real) : Prop where
  rate : b.A * b.x + b.B * u = 0
  out : b.C * b.x + b.D * u = y
  inx : b.xmin ≤ b.x ∧ b.x ≤ b.xmax
  indx : b.dxmin ≤ 0 ∧ 0 ≤ b.dxmax
  iny : b.ymin ≤ y ∧ y ≤ b.ymax

/-- At rest, and the last predictor call left no change either. -/
structure Held (b : Block) (u y : Real) : Prop extends Rest b u y where
  hat : b.xhat = b.x
  still : b.dxdt = 0

theorem rest_predictor {b : Block} {u y : Real} (h : Rest b u y) (dt : Real) :
    (getoutput b u dt .predictor true).2 = y ∧ Held (getoutput b u dt .predictor true).1 u y := by
  have hd : getderivative b b.x u = 0 := h.rate
  have hc0 : clamp b.dxmin b.dxmax 0 = 0 := clamp_of_mem _ _ _ h.indx.1 h.indx.2
  have hcx : clamp b.xmin b.xmax b.x = b.x := clamp_of_mem _ _ _ h.inx.1 h.inx.2
  have e1 : (getoutput b u dt .predictor true).1 =
      { b with dxdt := 0, xhat := b.x, stage := .predictor } := by
    show updatestate b u dt b.xmin b.xmax b.dxmin b.dxmax .predictor = _
    simp only [updatestate, hd, hc0, mul_zero, add_zero, hcx]
  refine ⟨?_, ?_⟩
  · show clamp b.ymin b.ymax (b.C * b.x + b.D * u) = y
    rw [h.out]
    exact clamp_of_mem _ _ _ h.iny.1 h.iny.2
  · rw [e1]
    exact ⟨⟨h.rate, h.out, h.inx, h.indx, h.iny⟩, rfl, rfl⟩

theorem held_corrector {b : Block} {u y : Real} (h : Held b u y) (dt : Real) :
    (getoutput b u dt .corrector true).2 = y ∧ Held (getoutput b u dt .corrector true).1 u y := by
  have hd : getderivative b b.xhat u = 0 := by rw [h.hat]; exact h.rate
  have hc0 : clamp b.dxmin b.dxmax 0 = 0 := clamp_of_mem _ _ _ h.indx.1 h.indx.2
  have hcx : clamp b.xmin b.xmax b.x = b.x := clamp_of_mem _ _ _ h.inx.1 h.inx.2
  have e1 : (getoutput b u dt .corrector true).1 = { b with stage := .corrector } := by
    show updatestate b u dt b.xmin b.xmax b.dxmin b.dxmax .corrector = _
    simp only [updatestate, hd, h.still, hc0, mul_zero, add_zero, hcx]
  refine ⟨?_, ?_⟩
  · show clamp b.ymin b.ymax (b.C * b.xhat + b.D * u) = y
    rw [h.hat, h.out]
    exact clamp_of_mem _ _ _ h.iny.1 h.iny.2
  · rw [e1]
    exact ⟨⟨h.rate, h.out, h.inx, h.indx, h.iny⟩, h.hat, h.still⟩

/-- Ready for a call in the given stage. -/
def Ready (s : Stage) (b : Block) (u y : Real) : Prop :=
  match s with
  | .predictor => Rest b u y
  | .corrector => Held b u y

theorem ready_step {s : Stage} {b : Block} {u y : Real} (h : Ready s b u y) (dt : Real) :
    (getoutput b u dt s true).2 = y ∧ Held (getoutput b u dt s true).1 u y := by
  cases s
  · exact rest_predictor h dt
  · exact held_corrector h dt

theorem ready_of_held {s : Stage} {b : Block} {u y : Real} (h : Held b u y) : Ready s b u y := by
  cases s
  · exact h.toRest
  · exact h

/-! ### Coefficients of the standard blocks -/

theorem filter_coeffs {b b' : Block} {K T : Real} (h : filter b K T = some b') :
    T ≠ 0 ∧ b' = { defaultLimits b with A := -1 / T, B := K / T, C := 1, D := 0 } := by
  unfold filter setcoeffs at h
  by_cases hT : T = 0
  · rw [if_pos hT] at h; cases h
  · rw [if_neg hT] at h
    simp only [Option.map_some, Option.some.injEq] at h
    subst h
    refine ⟨hT, ?_⟩
    simp [defaultLimits, setxlimits, setdxlimits, setylimits]

theorem leadLag_coeffs {b b' : Block} {TA TB : Real} (h : leadLag b TA TB = some b') :
    TB ≠ 0 ∧ b' = { defaultLimits b with A := -1 / TB, B := 1 / TB - TA / (TB * TB), C := 1,
                                         D := TA / TB } := by
  unfold leadLag setcoeffs at h
  by_cases hT : TB = 0
  · rw [if_pos hT] at h; cases h
  · rw [if_neg hT] at h
    simp only [Option.map_some, Option.some.injEq] at h
    subst h
    refine ⟨hT, ?_⟩
    simp [defaultLimits, setxlimits, setdxlimits, setylimits]

theorem pi_coeffs {b b' : Block} {Kp Ki : Real} (h : piControl b Kp Ki = some b') :
    b' = { defaultLimits b with A := 0, B := Ki, C := 1, D := Kp } := by
  unfold piControl setcoeffs at h
  rw [if_neg one_ne_zero] at h
  simp only [Option.map_some, Option.some.injEq] at h
  subst h
  simp [defaultLimits, setxlimits, setdxlimits, setylimits]

theorem integrator_coeffs {b b' : Block} {T : Real} (h : integrator b T = some b') :
    T ≠ 0 ∧ b' = { b with A := 0, B := 1 / T, C := 1, D := 0, xmin := -1000, xmax := 1000, ymin := -1000,
                          ymax := 1000 } := by
  unfold integrator setcoeffs at h
  by_cases hT : T = 0
  · rw [if_pos hT] at h; cases h
  · rw [if_neg hT] at h
    simp only [Option.map_some, Option.some.injEq] at h
    subst h
    refine ⟨hT, ?_⟩
    simp [setxlimits, setylimits]

theorem withLimits_some {b : Option Block} {b' : Block} {a c d e : Real}
    (h : withLimits b a c d e = some b') :
    ∃ b0, b = some b0 ∧ b' = { b0 with xmin := a, xmax := c, ymin := d, ymax := e } := by
  unfold withLimits at h
  cases b with
  | none => cases h
  | some b0 =>
    simp only [Option.map_some, Option.some.injEq] at h
    exact ⟨b0, rfl, h.symm⟩

theorem withStateLimits_some {b : Option Block} {b' : Block} {a c : Real}
    (h : withStateLimits b a c = some b') :
    ∃ b0, b = some b0 ∧ b' = { b0 with xmin := a, xmax := c } := by
  unfold withStateLimits at h
  cases b with
  | none => cases h
  | some b0 =>
    simp only [Option.map_some, Option.some.injEq] at h
    exact ⟨b0, rfl, h.symm⟩

/-! ### Initialisation of the standard blocks -/

theorem eps_le_inv {T : Real} (hT : T ≠ 0) (h : |T| ≤ 10 ^ 10) : eps ≤ |(-1 : Real) / T| := by
  rw [abs_div, abs_neg, abs_one]
  unfold eps
  exact one_div_le_one_div_of_le (abs_pos.mpr hT) h

/-- A block with the coefficients of a filter (`K ≠ 0`), initialised from its output. -/
theorem filter_init {b : Block} {K T y : Real} (hT : T ≠ 0) (hT' : |T| ≤ 10 ^ 10) (hK : K ≠ 0)
    (hA : b.A = -1 / T) (hB : b.B = K / T) (hC : b.C = 1) (hD : b.D = 0) :
    initGivenY b y = ({ b with x := y }, y / K) := by
  unfold initGivenY
  rw [if_neg (by rw [hA]; exact not_lt.mpr (eps_le_inv hT hT')), hA, hB, hC, hD]
  have e1 : (0 : Real) - 1 * (K / T) / (-1 / T) = K := by field_simp; ring
  have e2 : -(K / T) / (-1 / T) * (y / K) = y := by field_simp
  rw [e1, e2]

theorem filter_rest {b : Block} {K T y : Real} (hT : T ≠ 0) (hT' : |T| ≤ 10 ^ 10) (hK : K ≠ 0)
    (hA : b.A = -1 / T) (hB : b.B = K / T) (hC : b.C = 1) (hD : b.D = 0)
    (hx : b.xmin ≤ y ∧ y ≤ b.xmax) (hy : b.ymin ≤ y ∧ y ≤ b.ymax) (hd : b.dxmin ≤ 0 ∧ 0 ≤ b.dxmax) :
    (initGivenY b y).2 = y / K ∧ Rest (initGivenY b y).1 (y / K) y := by
  rw [filter_init hT hT' hK hA hB hC hD]
  refine ⟨rfl, ⟨?_, ?_, hx, hd, hy⟩⟩
  · show b.A * y + b.B * (y / K) = 0
    rw [hA, hB]; field_simp; ring
  · show b.C * y + b.D * (y / K) = y
    rw [hC, hD]; ring

/-- The same block initialised from its input. -/
theorem filter_rest_u {b : Block} {K T u : Real} (hT : T ≠ 0) (hT' : |T| ≤ 10 ^ 10)
    (hK' : eps * |T| ≤ |K|)
    (hA : b.A = -1 / T) (hB : b.B = K / T) (hC : b.C = 1) (hD : b.D = 0)
    (hx : b.xmin ≤ K * u ∧ K * u ≤ b.xmax) (hy : b.ymin ≤ K * u ∧ K * u ≤ b.ymax)
    (hd : b.dxmin ≤ 0 ∧ 0 ≤ b.dxmax) :
    (initGivenU b u).2 = K * u ∧ Rest (initGivenU b u).1 u (K * u) := by
  have e : initGivenU b u = ({ b with x := K * u }, K * u) := by
    unfold initGivenU
    rw [if_neg (by
        rw [hB, abs_div, not_lt, le_div_iff₀ (abs_pos.mpr hT)]; exact hK'),
      if_neg (by rw [hA]; exact not_lt.mpr (eps_le_inv hT hT')), hA, hB, hC, hD]
    have e2 : -(K / T) / (-1 / T) * u = K * u := by field_simp
    rw [e2]
    ring_nf
  rw [e]
  refine ⟨rfl, ⟨?_, ?_, hx, hd, hy⟩⟩
  · show b.A * (K * u) + b.B * u = 0
    rw [hA, hB]; field_simp; ring
  · show b.C * (K * u) + b.D * u = K * u
    rw [hC, hD]; ring

/-- Lead-lag initialised from its output. -/
theorem leadLag_rest {b : Block} {TA TB y : Real} (hT : TB ≠ 0) (hT' : |TB| ≤ 10 ^ 10)
    (hA : b.A = -1 / TB) (hB : b.B = 1 / TB - TA / (TB * TB)) (hC : b.C = 1) (hD : b.D = TA / TB)
    (hx : b.xmin ≤ (1 - TA / TB) * y ∧ (1 - TA / TB) * y ≤ b.xmax) (hy : b.ymin ≤ y ∧ y ≤ b.ymax)
    (hd : b.dxmin ≤ 0 ∧ 0 ≤ b.dxmax) :
    (initGivenY b y).2 = y ∧ Rest (initGivenY b y).1 y y := by
  have e : initGivenY b y = ({ b with x := (1 - TA / TB) * y }, y) := by
    unfold initGivenY
    rw [if_neg (by rw [hA]; exact not_lt.mpr (eps_le_inv hT hT')), hA, hB, hC, hD]
    have e1 : TA / TB - 1 * (1 / TB - TA / (TB * TB)) / (-1 / TB) = 1 := by field_simp; ring
    have e2 : -(1 / TB - TA / (TB * TB)) / (-1 / TB) = 1 - TA / TB := by field_simp
    rw [e1, e2, div_one]
  rw [e]
  refine ⟨rfl, ⟨?_, ?_, hx, hd, hy⟩⟩
  · show b.A * ((1 - TA / TB) * y) + b.B * y = 0
    rw [hA, hB]; field_simp; ring
  · show b.C * ((1 - TA / TB) * y) + b.D * y = y
    rw [hC, hD]; ring

/-- PI controller and integrator initialised from their output: the input is 0. -/
theorem integral_rest {b : Block} {y : Real} (hA : b.A = 0) (hC : b.C = 1)
    (hx : b.xmin ≤ y ∧ y ≤ b.xmax) (hy : b.ymin ≤ y ∧ y ≤ b.ymax) (hd : b.dxmin ≤ 0 ∧ 0 ≤ b.dxmax) :
    (initGivenY b y).2 = 0 ∧ Rest (initGivenY b y).1 0 y := by
  have e : initGivenY b y = ({ b with x := y }, 0) := by
    unfold initGivenY
    rw [if_pos (by rw [hA, abs_zero]; exact eps_pos)]
  rw [e]
  refine ⟨rfl, ⟨?_, ?_, hx, hd, hy⟩⟩
  · show b.A * y + b.B * 0 = 0
    rw [hA]; ring
  · show b.C * y + b.D * 0 = y
    rw [hC]; ring

/-! ### Runs of a controller -/

/-- What a controller reports along a run.  A time step is given by the inputs before the predictor and
before the corrector call and its length; the output is read after each of the two calls. -/
def trace {σ ι : Type} (call : σ → ι → Real → Stage → σ) (get : σ → Real) :
    σ → List (ι × ι × Real) → List Real
  | _, [] => []
  | s, (i, j, dt) :: ds =>
    get (call s i dt .predictor) :: get (call (call s i dt .predictor) j dt .corrector) ::
      trace call get (call (call s i dt .predictor) j dt .corrector) ds

/-- Time steps of the given lengths with the same input all the time. -/
def constant {ι : Type} (i : ι) (dts : List Real) : List (ι × ι × Real) := dts.map fun dt => (i, i, dt)

/-- A controller whose states satisfy `I` before a predictor and `J` before a corrector call reports only
values with the property `Y`. -/
theorem trace_inv {σ ι : Type} (call : σ → ι → Real → Stage → σ) (get : σ → Real) (I J : σ → Prop)
    (Y : Real → Prop) (S : ι × ι × Real → Prop)
    (hp : ∀ s i j dt, S (i, j, dt) → I s → Y (get (call s i dt .predictor)) ∧
      J (call s i dt .predictor) ∧ (J (call s i dt .predictor) →
        Y (get (call (call s i dt .predictor) j dt .corrector)) ∧
        I (call (call s i dt .predictor) j dt .corrector)))
    (s : σ) (h : I s) (ds : List (ι × ι × Real)) (hS : ∀ d ∈ ds, S d) :
    ∀ v ∈ trace call get s ds, Y v := by
  induction ds generalizing s with
  | nil => simp [trace]
  | cons d ds ih =>
    obtain ⟨i, j, dt⟩ := d
    intro v hv
    obtain ⟨h1, h2, h3⟩ := hp s i j dt (hS _ (List.mem_cons_self ..)) h
    obtain ⟨h4, h5⟩ := h3 h2
    simp only [trace, List.mem_cons] at hv
    rcases hv with rfl | rfl | hv
    · exact h1
    · exact h4
    · exact ih _ h5 (fun d hd => hS d (List.mem_cons_of_mem _ hd)) v hv

/-- Constant input: a controller whose states satisfy `I` in each stage reports a constant. -/
theorem trace_const {σ ι : Type} (call : σ → ι → Real → Stage → σ) (get : σ → Real)
    (I : Stage → σ → Prop) (y : Real) (i : ι)
    (hp : ∀ st s dt, I st s → get (call s i dt st) = y ∧ I .predictor (call s i dt st) ∧
      I .corrector (call s i dt st))
    (s : σ) (h : I .predictor s) (dts : List Real) : ∀ v ∈ trace call get s (constant i dts), v = y := by
  apply trace_inv call get (I .predictor) (I .corrector) (fun v => v = y)
    (fun d => d.1 = i ∧ d.2.1 = i) _ s h
  · intro d hd
    obtain ⟨dt, _, rfl⟩ := List.mem_map.mp hd
    exact ⟨rfl, rfl⟩
  · rintro s i' j dt ⟨h1, h2⟩ hI
    have h1 : i' = i := h1
    have h2 : j = i := h2
    subst h1 h2
    obtain ⟨k1, _, h3⟩ := hp .predictor s dt hI
    refine ⟨k1, h3, fun h4 => ?_⟩
    obtain ⟨g1, g2, _⟩ := hp .corrector _ dt h4
    exact ⟨g1, g2⟩

end GridPACK.Cblock
