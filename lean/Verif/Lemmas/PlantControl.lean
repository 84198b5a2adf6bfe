import Verif.Lemmas.GridForming
import Verif.Spec.PlantControl

/-! Lemmas about the plant controller. -/
namespace GridPACK.PlantControl
open GridPACK.Cblock GridPACK.Dblock
open GridPACK.Wind (Hold Armed hold_call IsFilter IsPi filter_is filter_initY filter_initU eps_le_inv pi_is pi_initY
  clamp_1000 lt_clamp clamp_le le_clamp)

/-- Coefficients and limits of the lead-lag block. -/
structure IsLead (b : Block) (ta tb : Real) : Prop where
  a : b.A = -1 / tb
  bb : b.B = 1 / tb - ta / (tb * tb)
  c : b.C = 1
  d : b.D = ta / tb
  xlo : b.xmin = -1000
  xhi : b.xmax = 1000
  dlo : b.dxmin = -1000
  dhi : b.dxmax = 1000
  ylo : b.ymin = -1000
  yhi : b.ymax = 1000

theorem lead_is {raw b : Block} {ta tb : Real} (h : leadLag raw ta tb = some b) : IsLead b ta tb := by
  unfold leadLag setcoeffs at h
  by_cases h0 : tb = 0
  · rw [if_pos h0] at h
    cases h
  rw [if_neg h0] at h
  cases h
  refine ⟨rfl, ?_, rfl, rfl, rfl, rfl, rfl, rfl, rfl, rfl⟩
  show 1 / tb - 1 * ta / (tb * tb) = _
  rw [one_mul]

theorem lead_initY {b : Block} {ta tb y : Real} (h : IsLead b ta tb) (h0 : 0 < tb) (h1 : tb ≤ 1000)
    (hy : |y| ≤ 1000) (hx : |(1 - ta / tb) * y| ≤ 1000) :
    (initGivenY b y).2 = y ∧ Hold (initGivenY b y).1 y ((1 - ta / tb) * y) y := by
  have hT : tb ≠ 0 := ne_of_gt h0
  have hg : b.D - b.C * b.B / b.A = 1 := by
    rw [h.a, h.bb, h.c, h.d]
    field_simp
    ring
  have hxe : -b.B / b.A * y = (1 - ta / tb) * y := by
    rw [h.a, h.bb]
    field_simp
  have e : initGivenY b y = ({ b with x := (1 - ta / tb) * y }, y) := by
    unfold initGivenY
    rw [if_neg (not_lt.mpr (by rw [h.a]; exact eps_le_inv h0 h1)), hg, div_one, hxe]
  rw [e]
  have hb := abs_le.mp hx
  refine ⟨rfl, ⟨rfl, ?_, ?_, ?_, ?_, ?_, ?_⟩⟩
  · show b.A * ((1 - ta / tb) * y) + b.B * y = 0
    rw [h.a, h.bb]
    field_simp
    ring
  · exact h.xlo.le.trans hb.1
  · exact hb.2.trans h.xhi.ge
  · exact h.dlo.le.trans (by norm_num)
  · exact le_trans (by norm_num) h.dhi.ge
  · show clamp b.ymin b.ymax (b.C * ((1 - ta / tb) * y) + b.D * y) = y
    rw [h.c, h.d, h.ylo, h.yhi]
    have : 1 * ((1 - ta / tb) * y) + ta / tb * y = y := by ring
    rw [this]
    exact clamp_1000 hy

theorem filter_start {b : Block} {T y : Real} (h : IsFilter b 1 T) (hd : b.dxmin = -1000 ∧ b.dxmax = 1000)
    (h0 : 0 < T) (h1 : T ≤ 1000) (hy : |y| ≤ 1000) :
    (initGivenY b y).2 = y ∧ Hold (initGivenY b y).1 y y y := by
  obtain ⟨j1, _⟩ := filter_initY (y := y) h one_ne_zero h0 h1 hy ⟨by rw [hd.1]; norm_num, by rw [hd.2]; norm_num⟩
  have hu : (initGivenY b y).2 = y := by
    unfold initGivenY
    rw [if_neg (not_lt.mpr (by rw [h.a]; exact eps_le_inv h0 h1))]
    show y / (b.D - b.C * b.B / b.A) = y
    have hT := ne_of_gt h0
    rw [h.a, h.bb, h.c, h.d]
    field_simp
    ring
  rw [hu] at j1
  exact ⟨hu, j1⟩

theorem filter_startU {b : Block} {T y : Real} (h : IsFilter b 1 T) (hd : b.dxmin = -1000 ∧ b.dxmax = 1000)
    (h0 : 0 < T) (h1 : T ≤ 1000) (hy : |y| ≤ 1000) : (initGivenU b y).2 = y ∧ Hold (initGivenU b y).1 y y y := by
  have j := filter_initU (u := y) h h0 h1 hy ⟨by rw [hd.1]; norm_num, by rw [hd.2]; norm_num⟩
  refine ⟨?_, j⟩
  have e1 : eps ≤ |b.A| := by rw [h.a]; exact eps_le_inv h0 h1
  have e2 : eps ≤ |b.B| := by
    have := eps_le_inv h0 h1
    rw [h.bb]
    rwa [neg_div, abs_neg] at this
  have hT : T ≠ 0 := ne_of_gt h0
  unfold initGivenU
  rw [if_neg (not_lt.mpr e2), if_neg (not_lt.mpr e1)]
  show b.C * (-b.B / b.A * y) + b.D * y = y
  rw [h.a, h.bb, h.c, h.d]
  field_simp
  ring

theorem pi_start {b : Block} {kp ki lo hi y : Real} (h : IsPi b kp ki lo hi) (h1 : lo ≤ y) (h2 : y ≤ hi)
    (hy : |y| ≤ 1000) : Hold (initGivenY b y).1 0 y y := by
  rw [pi_initY y h]
  refine ⟨rfl, ?_, ?_, ?_, ?_, ?_, ?_⟩
  · show b.A * y + b.B * 0 = 0
    rw [h.a]
    ring
  · exact h.xlo.le.trans h1
  · exact h2.trans h.xhi.ge
  · exact h.dlo.le.trans (by norm_num)
  · exact le_trans (by norm_num) h.dhi.ge
  · show clamp b.ymin b.ymax (b.C * y + b.D * 0) = y
    rw [h.c, h.ylo, h.yhi, one_mul, mul_zero, add_zero]
    exact clamp_1000 hy

/-- Coefficients of a lag at the value `y`. -/
structure Lag (b : Block) (T y : Real) : Prop where
  a : b.A = -1 / T
  bb : b.B = 1 / T
  c : b.C = 1
  d : b.D = 0
  xlo : b.xmin = -1000
  xhi : b.xmax = 1000
  dlo : b.dxmin = -1000
  dhi : b.dxmax = 1000
  ylo : b.ymin = -1000
  yhi : b.ymax = 1000
  st : b.x = y

theorem lag_rises {b : Block} {T y u u2 dt : Real} (h : Lag b T y) (h0 : 0 < T) (hdt : 0 < dt) (hy : y < 1000)
    (hu : y < u) :
    y < (getoutput (getoutput b u dt .predictor true).1 u2 dt .corrector true).2 := by
  have hd : 0 < clamp b.dxmin b.dxmax (getderivative b b.x u) := by
    rw [h.dlo, h.dhi]
    refine lt_clamp (by norm_num) ?_
    unfold getderivative
    rw [h.a, h.bb, h.st]
    have : -1 / T * y + 1 / T * u = (u - y) / T := by ring
    rw [this]
    exact div_pos (by linarith) h0
  have hx : y < clamp b.xmin b.xmax (b.x + dt * clamp b.dxmin b.dxmax (getderivative b b.x u)) := by
    rw [h.xlo, h.xhi]
    refine lt_clamp hy ?_
    rw [h.st] at hd ⊢
    have := mul_pos hdt hd
    linarith
  show y < clamp b.ymin b.ymax (b.C * clamp b.xmin b.xmax (b.x + dt * clamp b.dxmin b.dxmax (getderivative b b.x u)) +
    b.D * u2)
  rw [h.ylo, h.yhi, h.c, h.d, one_mul, zero_mul, add_zero]
  exact lt_clamp hy hx

theorem clamp_lt {lo hi x b : Real} (h1 : lo < b) (h2 : x < b) : clamp lo hi x < b :=
  max_lt h1 (lt_of_le_of_lt (min_le_left _ _) h2)

theorem lag_falls {b : Block} {T y u u2 dt : Real} (h : Lag b T y) (h0 : 0 < T) (hdt : 0 < dt) (hy : -1000 < y)
    (hu : u < y) :
    (getoutput (getoutput b u dt .predictor true).1 u2 dt .corrector true).2 < y := by
  have hd : clamp b.dxmin b.dxmax (getderivative b b.x u) < 0 := by
    rw [h.dlo, h.dhi]
    refine clamp_lt (by norm_num) ?_
    unfold getderivative
    rw [h.a, h.bb, h.st]
    have : -1 / T * y + 1 / T * u = (u - y) / T := by ring
    rw [this]
    exact div_neg_of_neg_of_pos (by linarith) h0
  have hx : clamp b.xmin b.xmax (b.x + dt * clamp b.dxmin b.dxmax (getderivative b b.x u)) < y := by
    rw [h.xlo, h.xhi]
    refine clamp_lt hy ?_
    rw [h.st] at hd ⊢
    have := mul_neg_of_pos_of_neg hdt hd
    linarith
  show clamp b.ymin b.ymax (b.C * clamp b.xmin b.xmax (b.x + dt * clamp b.dxmin b.dxmax (getderivative b b.x u)) +
    b.D * u2) < y
  rw [h.ylo, h.yhi, h.c, h.d, one_mul, zero_mul, add_zero]
  exact clamp_lt hy hx

/-- Blocks as loaded. -/
structure Loaded (r : Record) (c : Plant) : Prop where
  data : c.r = r
  vF : IsFilter c.vF 1 r.tfltr ∧ c.vF.dxmin = -1000 ∧ c.vF.dxmax = 1000
  qF : IsFilter c.qF 1 r.tfltr ∧ c.qF.dxmin = -1000 ∧ c.qF.dxmax = 1000
  qPi : IsPi c.qPi r.kp r.ki r.qmin r.qmax
  lead : IsLead c.lead r.tft r.tfv
  pF : IsFilter c.pF 1 r.tp ∧ c.pF.dxmin = -1000 ∧ c.pF.dxmax = 1000
  pPi : IsPi c.pPi r.kpg r.kig r.pmin r.pmax
  gF : IsFilter c.gF 1 r.tg ∧ c.gF.dxmin = -1000 ∧ c.gF.dxmax = 1000

theorem loaded {raw : Block} {r : Record} {c : Plant} (h : load raw r = some c) : Loaded r c := by
  unfold load at h
  split at h
  · rename_i f a l p b g h1 h2 h3 h4 h5 h6
    cases h
    exact ⟨rfl, (filter_is h1).2, (filter_is h1).2, pi_is h2, lead_is h3, (filter_is h4).2, pi_is h5,
      (filter_is h6).2⟩
  · cases h

end GridPACK.PlantControl
