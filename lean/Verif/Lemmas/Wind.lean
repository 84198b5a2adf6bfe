import Verif.Model.Wind
import Verif.Props.Cblock
import Mathlib.Tactic.Linarith
import Mathlib.Tactic.FieldSimp
import Mathlib.Tactic.Ring

/-! Lemmas about blocks at rest and about the converter and the wind turbine. -/
namespace GridPACK.Wind
open GridPACK.Cblock GridPACK.Dblock

/-- The block is at rest in the state `x` under the input `u` and answers `y`. -/
structure Hold (b : Block) (u x y : Real) : Prop where
  st : b.x = x
  rate : b.A * x + b.B * u = 0
  lo : b.xmin ≤ x
  hi : x ≤ b.xmax
  dlo : b.dxmin ≤ 0
  dhi : 0 ≤ b.dxmax
  out : clamp b.ymin b.ymax (b.C * x + b.D * u) = y

/-- The predictor has seen rest. -/
def Armed (b : Block) (x : Real) : Prop := b.dxdt = 0 ∧ b.xhat = x

theorem hold_pred {b : Block} {u x y : Real} (dt : Real) (h : Hold b u x y) :
    Hold (getoutput b u dt .predictor true).1 u x y ∧ Armed (getoutput b u dt .predictor true).1 x ∧
    (getoutput b u dt .predictor true).2 = y := by
  have hd : clamp b.dxmin b.dxmax (getderivative b b.x u) = 0 := by
    unfold getderivative
    rw [h.st, h.rate]
    exact clamp_of_mem _ _ _ h.dlo h.dhi
  have hx : clamp b.xmin b.xmax (b.x + dt * clamp b.dxmin b.dxmax (getderivative b b.x u)) = x := by
    rw [hd, mul_zero, add_zero, h.st]
    exact clamp_of_mem _ _ _ h.lo h.hi
  refine ⟨⟨h.st, h.rate, h.lo, h.hi, h.dlo, h.dhi, h.out⟩, ⟨hd, hx⟩, ?_⟩
  show clamp b.ymin b.ymax (b.C * b.x + b.D * u) = y
  rw [h.st]
  exact h.out

theorem hold_corr {b : Block} {u x y : Real} (dt : Real) (h : Hold b u x y) (ha : Armed b x) :
    Hold (getoutput b u dt .corrector true).1 u x y ∧ (getoutput b u dt .corrector true).2 = y := by
  have hd : clamp b.dxmin b.dxmax (1 / 2 * (b.dxdt + getderivative b b.xhat u)) = 0 := by
    unfold getderivative
    rw [ha.1, ha.2, h.rate, add_zero, mul_zero]
    exact clamp_of_mem _ _ _ h.dlo h.dhi
  have hx : clamp b.xmin b.xmax (b.x + dt *
      clamp b.dxmin b.dxmax (1 / 2 * (b.dxdt + getderivative b b.xhat u))) = x := by
    rw [hd, mul_zero, add_zero, h.st]
    exact clamp_of_mem _ _ _ h.lo h.hi
  refine ⟨⟨hx, h.rate, h.lo, h.hi, h.dlo, h.dhi, h.out⟩, ?_⟩
  show clamp b.ymin b.ymax (b.C * b.xhat + b.D * u) = y
  rw [ha.2]
  exact h.out

/-- The same for the variant with limits in the call; limits of the block as in the calls of the converter. -/
theorem hold_pred_rate {b : Block} {u x y : Real} (dt hi r : Real) (h : Hold b u x y) (h1 : b.xmin = -1000)
    (h2 : b.ymin = -1000) (h3 : b.ymax = 1000) (hhi : x ≤ hi) (hr : 0 ≤ r) :
    Hold (getoutputRate b u dt (-1000) hi (-1000) r (-1000) 1000 .predictor true).1 u x y ∧
    Armed (getoutputRate b u dt (-1000) hi (-1000) r (-1000) 1000 .predictor true).1 x ∧
    (getoutputRate b u dt (-1000) hi (-1000) r (-1000) 1000 .predictor true).2 = y := by
  have hd : clamp (-1000) r (getderivative b b.x u) = 0 := by
    unfold getderivative
    rw [h.st, h.rate]
    exact clamp_of_mem _ _ _ (by norm_num) hr
  have hx : clamp (-1000) hi (b.x + dt * clamp (-1000) r (getderivative b b.x u)) = x := by
    rw [hd, mul_zero, add_zero, h.st]
    exact clamp_of_mem _ _ _ (h1 ▸ h.lo) hhi
  refine ⟨⟨h.st, h.rate, h.lo, h.hi, ?_, hr, h.out⟩, ⟨hd, hx⟩, ?_⟩
  · show (-1000 : Real) ≤ 0
    norm_num
  · show clamp (-1000) 1000 (b.C * b.x + b.D * u) = y
    rw [h.st, ← h.out, h2, h3]

theorem hold_corr_rate {b : Block} {u x y : Real} (dt hi r : Real) (h : Hold b u x y) (ha : Armed b x)
    (h1 : b.xmin = -1000) (h2 : b.ymin = -1000) (h3 : b.ymax = 1000) (hhi : x ≤ hi) (hr : 0 ≤ r) :
    Hold (getoutputRate b u dt (-1000) hi (-1000) r (-1000) 1000 .corrector true).1 u x y ∧
    (getoutputRate b u dt (-1000) hi (-1000) r (-1000) 1000 .corrector true).2 = y := by
  have hd : clamp (-1000) r (1 / 2 * (b.dxdt + getderivative b b.xhat u)) = 0 := by
    unfold getderivative
    rw [ha.1, ha.2, h.rate, add_zero, mul_zero]
    exact clamp_of_mem _ _ _ (by norm_num) hr
  have hx : clamp (-1000) hi (b.x + dt *
      clamp (-1000) r (1 / 2 * (b.dxdt + getderivative b b.xhat u))) = x := by
    rw [hd, mul_zero, add_zero, h.st]
    exact clamp_of_mem _ _ _ (h1 ▸ h.lo) hhi
  refine ⟨⟨hx, h.rate, h.lo, h.hi, ?_, hr, h.out⟩, ?_⟩
  · show (-1000 : Real) ≤ 0
    norm_num
  · show clamp (-1000) 1000 (b.C * b.xhat + b.D * u) = y
    rw [ha.2, ← h.out, h2, h3]

/-! ### Blocks as loaded -/

theorem filter_eq (raw : Block) (K T : Real) (hT : T ≠ 0) : filter raw K T =
    some (defaultLimits { raw with A := -1 / T, B := K / T - 1 * 0 / (T * T), C := 1, D := 0 / T }) := by
  unfold filter setcoeffs
  rw [if_neg hT]
  rfl

theorem integrator_eq (raw : Block) (T : Real) (hT : T ≠ 0) : integrator raw T =
    some (setylimits (setxlimits
      { raw with A := -0 / T, B := 1 / T - 0 * 0 / (T * T), C := 1, D := 0 / T } (-1000) 1000) (-1000) 1000) := by
  unfold integrator setcoeffs
  rw [if_neg hT]
  rfl

theorem eps_le_inv {T : Real} (h0 : 0 < T) (h1 : T ≤ 1000) : eps ≤ |-1 / T| := by
  rw [abs_div, abs_neg, abs_one, abs_of_pos h0]
  unfold eps
  rw [div_le_div_iff₀ (by positivity) h0]
  linarith

theorem rot_norm (vm va : Real) : startVt vm va = vm := by
  unfold startVt rotRe
  rw [Real.cos_neg, Real.sin_neg]
  have := Real.cos_sq_add_sin_sq va
  have e : vm * Real.cos va * Real.cos va - vm * Real.sin va * -Real.sin va =
      vm * (Real.cos va ^ 2 + Real.sin va ^ 2) := by ring
  rw [e, this, mul_one]

/-- The rotation as multiplication with `v/|v|`, and the power of the rotated current. -/
theorem power_rot (v : ℂ) (x y k : Real) :
    v * (starRingEnd ℂ) ⟨rotRe x y v.arg * k, rotIm x y v.arg * k⟩ = ⟨‖v‖ * x * k, -(‖v‖ * y * k)⟩ := by
  have h1 : v.re = ‖v‖ * Real.cos v.arg := by
    rw [Complex.norm_mul_cos_arg]
  have h2 : v.im = ‖v‖ * Real.sin v.arg := by
    rw [Complex.norm_mul_sin_arg]
  have hs := Real.cos_sq_add_sin_sq v.arg
  apply Complex.ext
  · simp only [Complex.mul_re, Complex.conj_re, Complex.conj_im, rotRe, rotIm]
    rw [h1, h2]
    have : ‖v‖ * Real.cos v.arg * ((x * Real.cos v.arg - y * Real.sin v.arg) * k) -
        ‖v‖ * Real.sin v.arg * -((x * Real.sin v.arg + y * Real.cos v.arg) * k) =
        ‖v‖ * x * k * (Real.cos v.arg ^ 2 + Real.sin v.arg ^ 2) := by ring
    rw [this, hs, mul_one]
  · simp only [Complex.mul_im, Complex.conj_re, Complex.conj_im, rotRe, rotIm]
    rw [h1, h2]
    have : ‖v‖ * Real.cos v.arg * -((x * Real.sin v.arg + y * Real.cos v.arg) * k) +
        ‖v‖ * Real.sin v.arg * ((x * Real.cos v.arg - y * Real.sin v.arg) * k) =
        -(‖v‖ * y * k * (Real.cos v.arg ^ 2 + Real.sin v.arg ^ 2)) := by ring
    rw [this, hs, mul_one]

/-- The power a converter feeds in at the voltage `v`. -/
theorem power_of (c : Conv) (v : ℂ) :
    v * (starRingEnd ℂ) (iNorton (setVoltage c v)) =
      ⟨‖v‖ * ipOut (setVoltage c v) * (c.mbase / c.r.sbase),
       -(‖v‖ * iqOut (setVoltage c v) * (c.mbase / c.r.sbase))⟩ :=
  power_rot v _ _ _

theorem slope_full (u0 u1 y0 y1 ya yb u : Real) (h0 : u0 + tol ≤ u) (h1 : u1 ≤ u) :
    (Slope.setparams u0 u1 y0 y1 ya yb).output u = yb := by
  unfold Slope.output Slope.setparams
  have ht : 0 < tol := by unfold tol; positivity
  simp only
  rw [if_neg (by linarith), if_pos (by linarith)]

theorem slope_unit (u0 u1 u : Real) :
    0 ≤ (Slope.setparams u0 u1 0 1 0 1).output u ∧ (Slope.setparams u0 u1 0 1 0 1).output u ≤ 1 := by
  unfold Slope.output Slope.setparams
  have ht : 0 < tol := by unfold tol; positivity
  simp only
  split_ifs with a b
  · exact ⟨le_refl _, zero_le_one⟩
  · exact ⟨zero_le_one, le_refl _⟩
  · have hp : 0 < u1 - u0 := by linarith
    rw [zero_add, sub_zero, one_div, inv_mul_eq_div]
    constructor
    · apply div_nonneg <;> linarith
    · rw [div_le_one hp]
      linarith

theorem slope_zero (u0 u1 u : Real) (h : u < u0 + tol) : (Slope.setparams u0 u1 0 1 0 1).output u = 0 := by
  unfold Slope.output Slope.setparams
  simp only
  rw [if_pos (by linarith)]


/-! ### Blocks of the converter -/

/-- Coefficients and limits of a loaded filter. -/
structure IsFilter (b : Block) (K T : Real) : Prop where
  a : b.A = -1 / T
  bb : b.B = K / T
  c : b.C = 1
  d : b.D = 0
  xlo : b.xmin = -1000
  xhi : b.xmax = 1000
  ylo : b.ymin = -1000
  yhi : b.ymax = 1000

theorem filter_is {raw b : Block} {K T : Real} (h : filter raw K T = some b) :
    T ≠ 0 ∧ IsFilter b K T ∧ b.dxmin = -1000 ∧ b.dxmax = 1000 := by
  have hT : T ≠ 0 := by
    intro h0
    unfold filter setcoeffs at h
    rw [if_pos h0] at h
    cases h
  rw [filter_eq raw K T hT] at h
  cases h
  refine ⟨hT, ⟨rfl, ?_, rfl, ?_, rfl, rfl, rfl, rfl⟩, rfl, rfl⟩
  · show K / T - 1 * 0 / (T * T) = K / T
    rw [mul_zero, zero_div, sub_zero]
  · show (0 : Real) / T = 0
    exact zero_div T

theorem clamp_1000 {y : Real} (h : |y| ≤ 1000) : clamp (-1000) 1000 y = y :=
  clamp_of_mem _ _ _ (abs_le.mp h).1 (abs_le.mp h).2

theorem filter_initY {b : Block} {K T y : Real} (h : IsFilter b K T) (hK : K ≠ 0) (h0 : 0 < T)
    (h1 : T ≤ 1000) (hy : |y| ≤ 1000) (hd : b.dxmin ≤ 0 ∧ 0 ≤ b.dxmax) :
    Hold (initGivenY b y).1 (initGivenY b y).2 y y ∧ IsFilter (initGivenY b y).1 K T := by
  have hT : T ≠ 0 := ne_of_gt h0
  have hg : b.D - b.C * b.B / b.A = K := by
    rw [h.a, h.bb, h.c, h.d]
    field_simp
    ring
  have hx : -b.B / b.A * (y / (b.D - b.C * b.B / b.A)) = y := by
    rw [hg, h.a, h.bb]
    field_simp
  have e : initGivenY b y = ({ b with x := -b.B / b.A * (y / (b.D - b.C * b.B / b.A)) },
      y / (b.D - b.C * b.B / b.A)) := by
    unfold initGivenY
    rw [if_neg (not_lt.mpr (by rw [h.a]; exact eps_le_inv h0 h1))]
  rw [e]
  have hb := abs_le.mp hy
  refine ⟨⟨hx, ?_, ?_, ?_, hd.1, hd.2, ?_⟩, ⟨h.a, h.bb, h.c, h.d, h.xlo, h.xhi, h.ylo, h.yhi⟩⟩
  · show b.A * y + b.B * (y / (b.D - b.C * b.B / b.A)) = 0
    rw [hg, h.a, h.bb]
    field_simp
    ring
  · show b.xmin ≤ y
    rw [h.xlo]
    exact hb.1
  · show y ≤ b.xmax
    rw [h.xhi]
    exact hb.2
  · show clamp b.ymin b.ymax (b.C * y + b.D * _) = y
    rw [h.ylo, h.yhi, h.c, h.d, one_mul, zero_mul, add_zero]
    exact clamp_1000 hy

theorem filter_initU {b : Block} {T u : Real} (h : IsFilter b 1 T) (h0 : 0 < T) (h1 : T ≤ 1000)
    (hu : |u| ≤ 1000) (hd : b.dxmin ≤ 0 ∧ 0 ≤ b.dxmax) : Hold (initGivenU b u).1 u u u := by
  have hT : T ≠ 0 := ne_of_gt h0
  have e1 : eps ≤ |b.A| := by rw [h.a]; exact eps_le_inv h0 h1
  have e2 : eps ≤ |b.B| := by
    have := eps_le_inv h0 h1
    rw [h.bb]
    rwa [neg_div, abs_neg] at this
  have hx : -b.B / b.A * u = u := by
    rw [h.a, h.bb]
    field_simp
  unfold initGivenU
  rw [if_neg (not_lt.mpr e2), if_neg (not_lt.mpr e1)]
  have hb := abs_le.mp hu
  refine ⟨hx, ?_, ?_, ?_, hd.1, hd.2, ?_⟩
  · show b.A * u + b.B * u = 0
    rw [h.a, h.bb]
    ring
  · show b.xmin ≤ u
    rw [h.xlo]
    exact hb.1
  · show u ≤ b.xmax
    rw [h.xhi]
    exact hb.2
  · show clamp b.ymin b.ymax (b.C * u + b.D * u) = u
    rw [h.ylo, h.yhi, h.c, h.d, one_mul, zero_mul, add_zero]
    exact clamp_1000 hu

/-- What `load` leaves. -/
structure IsLoaded (r : Record) (c : Conv) : Prop where
  data : c.r = r
  base : c.mbase = machineBase r
  tg : r.tg ≠ 0
  tf : r.tfltr ≠ 0
  pB : IsFilter c.ipBlk 1 r.tg
  pd : c.ipBlk.dxmin = -1000 ∧ c.ipBlk.dxmax = 1000
  qB : IsFilter c.iqBlk (-1) r.tg
  qd : (0 < r.qg → c.iqBlk.dxmin = -1000 ∧ c.iqBlk.dxmax = r.iqrmax) ∧
    (r.qg ≤ 0 → c.iqBlk.dxmin = r.iqrmin ∧ c.iqBlk.dxmax = 1000)
  vB : IsFilter c.vtBlk 1 r.tfltr
  vd : c.vtBlk.dxmin = -1000 ∧ c.vtBlk.dxmax = 1000
  pl : c.lvpl = Slope.setparams r.zerox r.brkpt 0 r.lvpl1 0 1000
  pn : c.lvpnt = Slope.setparams r.lvpnt0 r.lvpnt1 0 1 0 1
  ll : c.lowlim = GainLimiter.setparams 1 r.lolim 1000 0 0

theorem loaded {raw : Block} {r : Record} {c : Conv} (h : loadConv raw r = some c) : IsLoaded r c := by
  unfold loadConv at h
  split at h
  · rename_i p q v hp hq hv
    obtain ⟨t1, p1, p2⟩ := filter_is hp
    obtain ⟨_, q1, q2, q3⟩ := filter_is hq
    obtain ⟨t2, v1, v2⟩ := filter_is hv
    cases h
    refine ⟨rfl, rfl, t1, t2, p1, p2, ?_, ?_, v1, v2, rfl, rfl, rfl⟩
    · show IsFilter (if r.qg > 0 then setdxlimits q (-1000) r.iqrmax else setdxlimits q r.iqrmin 1000) _ _
      split
      · exact ⟨q1.a, q1.bb, q1.c, q1.d, q1.xlo, q1.xhi, q1.ylo, q1.yhi⟩
      · exact ⟨q1.a, q1.bb, q1.c, q1.d, q1.xlo, q1.xhi, q1.ylo, q1.yhi⟩
    · constructor
      · intro hq
        show (if r.qg > 0 then setdxlimits q (-1000) r.iqrmax else setdxlimits q r.iqrmin 1000).dxmin = _ ∧
          (if r.qg > 0 then setdxlimits q (-1000) r.iqrmax else setdxlimits q r.iqrmin 1000).dxmax = _
        rw [if_pos hq]
        exact ⟨rfl, rfl⟩
      · intro hq
        show (if r.qg > 0 then setdxlimits q (-1000) r.iqrmax else setdxlimits q r.iqrmin 1000).dxmin = _ ∧
          (if r.qg > 0 then setdxlimits q (-1000) r.iqrmax else setdxlimits q r.iqrmin 1000).dxmax = _
        rw [if_neg (not_lt.mpr hq)]
        exact ⟨rfl, rfl⟩
  · cases h

/-! ### Parts that no call changes -/

/-- Parameters of a converter. -/
def Same (c d : Conv) : Prop :=
  d.r = c.r ∧ d.mbase = c.mbase ∧ d.lvpl = c.lvpl ∧ d.lvpnt = c.lvpnt ∧ d.lowlim = c.lowlim

theorem same_run (dt : Real) (is : List (CallIn × CallIn)) (c : Conv) : Same c (convRun dt c is) := by
  induction is generalizing c with
  | nil => exact ⟨rfl, rfl, rfl, rfl, rfl⟩
  | cons i is ih =>
    have h := ih (convStep dt c i)
    obtain ⟨a, b, d, e, f⟩ := h
    exact ⟨a, b, d, e, f⟩

/-- The power fed in depends on the two currents and the parameters only. -/
theorem feed_eq (c d : Conv) (v : ℂ) (h : Same c d) (hp : d.ip = c.ip) (hq : d.iq = c.iq) :
    iNorton (setVoltage d v) = iNorton (setVoltage c v) := by
  obtain ⟨a, b, e, f, g⟩ := h
  unfold iNorton ipOut iqOut overCurrent setVoltage
  simp only [a, b, f, g, hp, hq]

end GridPACK.Wind
