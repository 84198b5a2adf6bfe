import Verif.Lemmas.CblockRest
import Mathlib.Analysis.SpecificLimits.Basic

/-! Exact time steps of filter and lead-lag blocks while no limiter acts, and their convergence. -/
namespace GridPACK.Cblock

theorem mix {a b l u w : Real} (ha : l ≤ a ∧ a ≤ u) (hb : l ≤ b ∧ b ≤ u) (h0 : 0 ≤ w) (h1 : w ≤ 1) :
    l ≤ a + w * (b - a) ∧ a + w * (b - a) ≤ u := by
  have e : a + w * (b - a) = (1 - w) * a + w * b := by ring
  have h2 : 0 ≤ 1 - w := by linarith
  have m1 := mul_le_mul_of_nonneg_left ha.1 h2
  have m2 := mul_le_mul_of_nonneg_left ha.2 h2
  have m3 := mul_le_mul_of_nonneg_left hb.1 h0
  have m4 := mul_le_mul_of_nonneg_left hb.2 h0
  rw [e]
  constructor <;> linarith

theorem mix3 {a b c l u p q r : Real} (ha : l ≤ a ∧ a ≤ u) (hb : l ≤ b ∧ b ≤ u) (hc : l ≤ c ∧ c ≤ u)
    (hp : 0 ≤ p) (hq : 0 ≤ q) (hr : 0 ≤ r) (hs : p + q + r = 1) :
    l ≤ p * a + q * b + r * c ∧ p * a + q * b + r * c ≤ u := by
  have m1 := mul_le_mul_of_nonneg_left ha.1 hp
  have m2 := mul_le_mul_of_nonneg_left ha.2 hp
  have m3 := mul_le_mul_of_nonneg_left hb.1 hq
  have m4 := mul_le_mul_of_nonneg_left hb.2 hq
  have m5 := mul_le_mul_of_nonneg_left hc.1 hr
  have m6 := mul_le_mul_of_nonneg_left hc.2 hr
  have t : r = 1 - p - q := by linarith
  subst t
  constructor <;> linarith

theorem heun_weight {z : Real} (h0 : 0 ≤ z) (h1 : z ≤ 1) : 0 ≤ z - z ^ 2 / 2 ∧ z - z ^ 2 / 2 ≤ 1 := by
  constructor <;> nlinarith

theorem heun_weights {z : Real} (h0 : 0 ≤ z) (h1 : z ≤ 1) :
    0 ≤ 1 - z + z ^ 2 / 2 ∧ 0 ≤ z / 2 - z ^ 2 / 2 ∧ 0 ≤ z / 2 := by
  refine ⟨?_, ?_, ?_⟩ <;> nlinarith

theorem scale_bounds {k L U T : Real} (h0 : 0 ≤ k) (h1 : k ≤ 1) (hL : -1000 ≤ L) (hU : U ≤ 1000) (hLU : L ≤ U)
    (hs : U - L ≤ 1000 * T) : -1000 ≤ k * L ∧ k * U ≤ 1000 ∧ k * U - k * L ≤ 1000 * T := by
  refine ⟨?_, ?_, ?_⟩ <;> nlinarith

/-- Coefficients and limits of a lead-lag block with the default limits. -/
structure IsLeadLag (b : Block) (TA TB : Real) : Prop where
  hA : b.A = -1 / TB
  hB : b.B = 1 / TB - TA / (TB * TB)
  hC : b.C = 1
  hD : b.D = TA / TB
  hx : b.xmin = -1000 ∧ b.xmax = 1000
  hy : b.ymin = -1000 ∧ b.ymax = 1000
  hd : b.dxmin = -1000 ∧ b.dxmax = 1000

theorem isLeadLag_of {b b' : Block} {TA TB : Real} (h : leadLag b TA TB = some b') :
    IsLeadLag b' TA TB := by
  obtain ⟨_, e⟩ := leadLag_coeffs h
  subst e
  exact ⟨rfl, rfl, rfl, rfl, ⟨rfl, rfl⟩, ⟨rfl, rfl⟩, ⟨rfl, rfl⟩⟩

/-- Coefficients and limits of a filter with gain 1 and state limits. -/
structure IsLag (b : Block) (T L U : Real) : Prop where
  hA : b.A = -1 / T
  hB : b.B = 1 / T
  hC : b.C = 1
  hD : b.D = 0
  hx : b.xmin = L ∧ b.xmax = U
  hy : b.ymin = -1000 ∧ b.ymax = 1000
  hd : b.dxmin = -1000 ∧ b.dxmax = 1000

theorem isLag_of {b b' : Block} {T L U : Real}
    (h : withLimits (filter b 1 T) L U (-1000) 1000 = some b') : IsLag b' T L U := by
  obtain ⟨b0, h0, e⟩ := withLimits_some h
  obtain ⟨_, e0⟩ := filter_coeffs h0
  subst e e0
  exact ⟨rfl, rfl, rfl, rfl, ⟨rfl, rfl⟩, ⟨rfl, rfl⟩, ⟨rfl, rfl⟩⟩

theorem IsLag.step {b : Block} {T L U : Real} (h : IsLag b T L U) (u dt : Real) (s : Stage) :
    IsLag (getoutput b u dt s true).1 T L U := by
  obtain ⟨h1, h2, h3, h4, h5, h6, h7⟩ := h
  cases s <;> exact ⟨h1, h2, h3, h4, h5, h6, h7⟩

theorem IsLeadLag.step {b : Block} {TA TB : Real} (h : IsLeadLag b TA TB) (u dt : Real) (s : Stage) :
    IsLeadLag (getoutput b u dt s true).1 TA TB := by
  obtain ⟨h1, h2, h3, h4, h5, h6, h7⟩ := h
  cases s <;> exact ⟨h1, h2, h3, h4, h5, h6, h7⟩

/-- A limited lag: whatever the inputs, states and outputs stay within the limits. -/
theorem IsLag.bounds {b : Block} {T L U : Real} (h : IsLag b T L U) (hL : -1000 ≤ L) (hU : U ≤ 1000)
    (hLU : L ≤ U) (hx : L ≤ b.x ∧ b.x ≤ U) (up uc dt : Real) :
    let p := getoutput b up dt .predictor true
    let c := getoutput p.1 uc dt .corrector true
    p.2 = b.x ∧ c.2 = p.1.xhat ∧ (L ≤ p.1.xhat ∧ p.1.xhat ≤ U) ∧ (L ≤ c.1.x ∧ c.1.x ≤ U) := by
  intro p c
  have hp := h.step up dt .predictor
  have hhat : L ≤ p.1.xhat ∧ p.1.xhat ≤ U := by
    have : p.1.xhat = clamp b.xmin b.xmax _ := rfl
    rw [this, h.hx.1, h.hx.2]
    exact clamp_mem _ _ _ hLU
  refine ⟨?_, ?_, hhat, ?_⟩
  · show clamp b.ymin b.ymax (b.C * b.x + b.D * up) = b.x
    rw [h.hC, h.hD, h.hy.1, h.hy.2, one_mul, zero_mul, add_zero]
    exact clamp_of_mem _ _ _ (by linarith) (by linarith)
  · show clamp p.1.ymin p.1.ymax (p.1.C * p.1.xhat + p.1.D * uc) = p.1.xhat
    rw [hp.hC, hp.hD, hp.hy.1, hp.hy.2, one_mul, zero_mul, add_zero]
    exact clamp_of_mem _ _ _ (by linarith) (by linarith)
  · have : c.1.x = clamp p.1.xmin p.1.xmax _ := rfl
    rw [this, hp.hx.1, hp.hx.2]
    exact clamp_mem _ _ _ hLU

/-- Exact step of a lag under constant input inside the limits. -/
theorem IsLag.exact {b : Block} {T L U : Real} (h : IsLag b T L U) (hL : -1000 ≤ L) (hU : U ≤ 1000)
    (hx : L ≤ b.x ∧ b.x ≤ U) (u dt : Real) (hu : L ≤ u ∧ u ≤ U) (hT : 0 < T) (hdt : 0 ≤ dt) (hdt' : dt ≤ T)
    (hrate : U - L ≤ 1000 * T) :
    let p := getoutput b u dt .predictor true
    let c := getoutput p.1 u dt .corrector true
    p.2 = b.x ∧ p.1.xhat = b.x + dt / T * (u - b.x) ∧ c.2 = p.1.xhat ∧
      c.1.x - u = (1 - dt / T + (dt / T) ^ 2 / 2) * (b.x - u) := by
  intro p c
  have hLU : L ≤ U := le_trans hu.1 hu.2
  obtain ⟨h1, h2, _, _⟩ := h.bounds hL hU hLU hx u u dt
  have hz0 : 0 ≤ dt / T := div_nonneg hdt hT.le
  have hz1 : dt / T ≤ 1 := (div_le_one hT).mpr hdt'
  have hder : getderivative b b.x u = (u - b.x) / T := by
    unfold getderivative; rw [h.hA, h.hB]; ring
  have hb : ∀ v, |v| ≤ U - L → -1000 ≤ v / T ∧ v / T ≤ 1000 := by
    intro v hv
    rw [abs_le] at hv
    constructor
    · rw [le_div_iff₀ hT]; linarith
    · rw [div_le_iff₀ hT]; linarith
  have hab : |u - b.x| ≤ U - L := by rw [abs_le]; constructor <;> linarith [hx.1, hx.2, hu.1, hu.2]
  obtain ⟨r1, r2⟩ := hb _ hab
  have e1 : clamp b.dxmin b.dxmax (getderivative b b.x u) = (u - b.x) / T := by
    rw [hder, h.hd.1, h.hd.2]; exact clamp_of_mem _ _ _ r1 r2
  generalize hz : dt / T = z at hz0 hz1
  have hdz : dt * ((u - b.x) / T) = z * (u - b.x) := by rw [← hz]; ring
  have hin : L ≤ b.x + z * (u - b.x) ∧ b.x + z * (u - b.x) ≤ U := mix hx hu hz0 hz1
  have e2 : p.1.xhat = b.x + z * (u - b.x) := by
    show clamp b.xmin b.xmax (b.x + dt * clamp b.dxmin b.dxmax (getderivative b b.x u)) = _
    rw [e1, h.hx.1, h.hx.2, hdz]
    exact clamp_of_mem _ _ _ hin.1 hin.2
  refine ⟨h1, e2, h2, ?_⟩
  have hd1 : p.1.dxdt = (u - b.x) / T := e1
  have hder2 : getderivative p.1 p.1.xhat u = (1 - z) * (u - b.x) / T := by
    have : getderivative p.1 p.1.xhat u = b.A * p.1.xhat + b.B * u := rfl
    rw [this, e2, h.hA, h.hB]; ring
  have e3 : 1 / 2 * (p.1.dxdt + getderivative p.1 p.1.xhat u) = (1 - z / 2) * (u - b.x) / T := by
    rw [hd1, hder2]; ring
  have hab2 : |(1 - z / 2) * (u - b.x)| ≤ U - L := by
    rw [abs_mul, abs_of_nonneg (by linarith)]
    calc (1 - z / 2) * |u - b.x| ≤ 1 * |u - b.x| :=
          mul_le_mul_of_nonneg_right (by linarith) (abs_nonneg _)
      _ ≤ U - L := by rw [one_mul]; exact hab
  obtain ⟨r3, r4⟩ := hb _ hab2
  have hdz2 : dt * ((1 - z / 2) * (u - b.x) / T) = (z - z ^ 2 / 2) * (u - b.x) := by
    rw [← hz]; ring
  have hin2 : L ≤ b.x + (z - z ^ 2 / 2) * (u - b.x) ∧ b.x + (z - z ^ 2 / 2) * (u - b.x) ≤ U :=
    mix hx hu (heun_weight hz0 hz1).1 (heun_weight hz0 hz1).2
  have e4 : c.1.x = b.x + (z - z ^ 2 / 2) * (u - b.x) := by
    show clamp b.xmin b.xmax (b.x + dt * clamp b.dxmin b.dxmax
      (1 / 2 * (p.1.dxdt + getderivative p.1 p.1.xhat u))) = _
    rw [e3, h.hd.1, h.hd.2, clamp_of_mem _ _ _ r3 r4, hdz2, h.hx.1, h.hx.2]
    exact clamp_of_mem _ _ _ hin2.1 hin2.2
  rw [e4]
  ring

/-- Exact step of a lead-lag with lag time not below the lead time whose inputs stay in `[L, U]`. -/
theorem IsLeadLag.exact {b : Block} {TA TB : Real} (h : IsLeadLag b TA TB) {L U : Real} (hL : -1000 ≤ L)
    (hU : U ≤ 1000) (hTA : 0 ≤ TA) (hAB : TA ≤ TB) (hTB : 0 < TB)
    (hx : (1 - TA / TB) * L ≤ b.x ∧ b.x ≤ (1 - TA / TB) * U) (up uc dt : Real)
    (hp : L ≤ up ∧ up ≤ U) (hc : L ≤ uc ∧ uc ≤ U) (hdt : 0 ≤ dt) (hdt' : dt ≤ TB)
    (hrate : U - L ≤ 1000 * TB) :
    let k := 1 - TA / TB
    let z := dt / TB
    let p := getoutput b up dt .predictor true
    let c := getoutput p.1 uc dt .corrector true
    p.2 = b.x + TA / TB * up ∧ c.2 = b.x + z * (k * up - b.x) + TA / TB * uc ∧
      c.1.x = (1 - z + z ^ 2 / 2) * b.x + (z / 2 - z ^ 2 / 2) * (k * up) + z / 2 * (k * uc) ∧
      (L ≤ p.2 ∧ p.2 ≤ U) ∧ (L ≤ c.2 ∧ c.2 ≤ U) ∧ (k * L ≤ c.1.x ∧ c.1.x ≤ k * U) := by
  intro k z p c
  have hLU : L ≤ U := le_trans hp.1 hp.2
  have hr0 : 0 ≤ TA / TB := div_nonneg hTA hTB.le
  have hr1 : TA / TB ≤ 1 := (div_le_one hTB).mpr hAB
  have hk0 : 0 ≤ k := by show 0 ≤ 1 - TA / TB; linarith
  have hk1 : k ≤ 1 := by show 1 - TA / TB ≤ 1; linarith
  have hkr : TA / TB = 1 - k := by show TA / TB = 1 - (1 - TA / TB); ring
  have hx : k * L ≤ b.x ∧ b.x ≤ k * U := hx
  have hz0 : 0 ≤ z := div_nonneg hdt hTB.le
  have hz1 : z ≤ 1 := (div_le_one hTB).mpr hdt'
  -- products with k
  have hkp : k * L ≤ k * up ∧ k * up ≤ k * U :=
    ⟨mul_le_mul_of_nonneg_left hp.1 hk0, mul_le_mul_of_nonneg_left hp.2 hk0⟩
  have hkc : k * L ≤ k * uc ∧ k * uc ≤ k * U :=
    ⟨mul_le_mul_of_nonneg_left hc.1 hk0, mul_le_mul_of_nonneg_left hc.2 hk0⟩
  have hjp : (1 - k) * L ≤ (1 - k) * up ∧ (1 - k) * up ≤ (1 - k) * U :=
    ⟨mul_le_mul_of_nonneg_left hp.1 (by linarith), mul_le_mul_of_nonneg_left hp.2 (by linarith)⟩
  have hjc : (1 - k) * L ≤ (1 - k) * uc ∧ (1 - k) * uc ≤ (1 - k) * U :=
    ⟨mul_le_mul_of_nonneg_left hc.1 (by linarith), mul_le_mul_of_nonneg_left hc.2 (by linarith)⟩
  obtain ⟨hkL, hkU, hspan⟩ := scale_bounds hk0 hk1 hL hU hLU hrate
  have hder : ∀ x u, getderivative b x u = (k * u - x) / TB := by
    intro x u
    show b.A * x + b.B * u = (((1 : Real) - TA / TB) * u - x) / TB
    rw [h.hA, h.hB]
    field_simp
    ring
  have hb : ∀ v, -(k * U - k * L) ≤ v → v ≤ k * U - k * L → -1000 ≤ v / TB ∧ v / TB ≤ 1000 := by
    intro v hv1 hv2
    constructor
    · rw [le_div_iff₀ hTB]; linarith
    · rw [div_le_iff₀ hTB]; linarith
  obtain ⟨r1, r2⟩ := hb (k * up - b.x) (by linarith) (by linarith)
  have e1 : clamp b.dxmin b.dxmax (getderivative b b.x up) = (k * up - b.x) / TB := by
    rw [hder, h.hd.1, h.hd.2]; exact clamp_of_mem _ _ _ r1 r2
  have hdz : ∀ v, dt * (v / TB) = z * v := by
    intro v; show dt * (v / TB) = dt / TB * v; ring
  have hhat : k * L ≤ b.x + z * (k * up - b.x) ∧ b.x + z * (k * up - b.x) ≤ k * U := mix hx hkp hz0 hz1
  have e2 : p.1.xhat = b.x + z * (k * up - b.x) := by
    show clamp b.xmin b.xmax (b.x + dt * clamp b.dxmin b.dxmax (getderivative b b.x up)) = _
    rw [e1, h.hx.1, h.hx.2, hdz]
    exact clamp_of_mem _ _ _ (by linarith [hhat.1]) (by linarith [hhat.2])
  have o1 : p.2 = b.x + TA / TB * up := by
    show clamp b.ymin b.ymax (b.C * b.x + b.D * up) = _
    rw [h.hC, h.hD, h.hy.1, h.hy.2, one_mul]
    apply clamp_of_mem
    · rw [hkr]; linarith [hx.1, hjp.1]
    · rw [hkr]; linarith [hx.2, hjp.2]
  have o2 : c.2 = b.x + z * (k * up - b.x) + TA / TB * uc := by
    show clamp b.ymin b.ymax (b.C * p.1.xhat + b.D * uc) = _
    rw [h.hC, h.hD, h.hy.1, h.hy.2, one_mul, e2]
    apply clamp_of_mem
    · rw [hkr]; linarith [hhat.1, hjc.1]
    · rw [hkr]; linarith [hhat.2, hjc.2]
  have hd1 : p.1.dxdt = (k * up - b.x) / TB := e1
  have hder2 : getderivative p.1 p.1.xhat uc = (k * uc - p.1.xhat) / TB := hder p.1.xhat uc
  have e3 : 1 / 2 * (p.1.dxdt + getderivative p.1 p.1.xhat uc) =
      (1 / 2 * (k * up - b.x) + 1 / 2 * (k * uc - (b.x + z * (k * up - b.x)))) / TB := by
    rw [hd1, hder2, e2]; ring
  obtain ⟨r3, r4⟩ := hb (1 / 2 * (k * up - b.x) + 1 / 2 * (k * uc - (b.x + z * (k * up - b.x))))
    (by linarith [hhat.2, hx.2, hkp.1, hkc.1]) (by linarith [hhat.1, hx.1, hkp.2, hkc.2])
  have hnew : b.x + z * (1 / 2 * (k * up - b.x) + 1 / 2 * (k * uc - (b.x + z * (k * up - b.x)))) =
      (1 - z + z ^ 2 / 2) * b.x + (z / 2 - z ^ 2 / 2) * (k * up) + z / 2 * (k * uc) := by ring
  have hin : k * L ≤ (1 - z + z ^ 2 / 2) * b.x + (z / 2 - z ^ 2 / 2) * (k * up) + z / 2 * (k * uc) ∧
      (1 - z + z ^ 2 / 2) * b.x + (z / 2 - z ^ 2 / 2) * (k * up) + z / 2 * (k * uc) ≤ k * U := by
    obtain ⟨w1, w2, w3⟩ := heun_weights hz0 hz1
    exact mix3 hx hkp hkc w1 w2 w3 (by ring)
  have e4 : c.1.x = (1 - z + z ^ 2 / 2) * b.x + (z / 2 - z ^ 2 / 2) * (k * up) + z / 2 * (k * uc) := by
    show clamp b.xmin b.xmax (b.x + dt * clamp b.dxmin b.dxmax
      (1 / 2 * (p.1.dxdt + getderivative p.1 p.1.xhat uc))) = _
    rw [e3, h.hd.1, h.hd.2, clamp_of_mem _ _ _ r3 r4, hdz, hnew, h.hx.1, h.hx.2]
    exact clamp_of_mem _ _ _ (by linarith [hin.1]) (by linarith [hin.2])
  refine ⟨o1, o2, e4, ?_, ?_, ?_⟩
  · rw [o1, hkr]; constructor <;> linarith [hx.1, hx.2, hjp.1, hjp.2]
  · rw [o2, hkr]; constructor <;> linarith [hhat.1, hhat.2, hjc.1, hjc.2]
  · rw [e4]; exact hin

theorem leadLag_init {b : Block} {TA TB : Real} (h : IsLeadLag b TA TB) (hT : TB ≠ 0) (hT' : |TB| ≤ 10 ^ 10)
    (y : Real) : initGivenY b y = ({ b with x := (1 - TA / TB) * y }, y) := by
  unfold initGivenY
  rw [if_neg (by rw [h.hA]; exact not_lt.mpr (eps_le_inv hT hT')), h.hA, h.hB, h.hC, h.hD]
  have e1 : TA / TB - 1 * (1 / TB - TA / (TB * TB)) / (-1 / TB) = 1 := by field_simp; ring
  have e2 : -(1 / TB - TA / (TB * TB)) / (-1 / TB) = 1 - TA / TB := by field_simp
  rw [e1, e2, div_one]

/-- A stable linear cascade goes to zero. -/
theorem cascade_tendsto (a b : Nat → Real) (r s c : Real) (hr0 : 0 ≤ r) (hr1 : r < 1) (hs0 : 0 ≤ s)
    (hs1 : s < 1) (ha : ∀ n, a (n + 1) = r * a n) (hb : ∀ n, b (n + 1) = s * b n + c * a n) :
    Filter.Tendsto a Filter.atTop (nhds 0) ∧ Filter.Tendsto b Filter.atTop (nhds 0) := by
  obtain ⟨M, hM⟩ : ∃ M, M = 2 * (|c| + 1) / (1 - r) := ⟨_, rfl⟩
  have h1r : 0 < 1 - r := by linarith
  have hc0 := abs_nonneg c
  have hMpos : 0 < M := by rw [hM]; apply div_pos <;> linarith
  have hcM : |c| ≤ M * ((1 - r) / 2) := by
    rw [hM]; field_simp; linarith
  obtain ⟨q, hq⟩ : ∃ q, q = max s ((1 + r) / 2) := ⟨_, rfl⟩
  have hq1 : q < 1 := by rw [hq]; exact max_lt hs1 (by linarith)
  have hqs : s ≤ q := by rw [hq]; exact le_max_left _ _
  have hqr : (1 + r) / 2 ≤ q := by rw [hq]; exact le_max_right _ _
  have hq0 : 0 ≤ q := le_trans hs0 hqs
  have key : ∀ n, |b n| + M * |a n| ≤ q ^ n * (|b 0| + M * |a 0|) := by
    intro n
    induction n with
    | zero => simp
    | succ n ih =>
      have e1 : |a (n + 1)| = r * |a n| := by rw [ha, abs_mul, abs_of_nonneg hr0]
      have e2 : |b (n + 1)| ≤ s * |b n| + |c| * |a n| := by
        rw [hb]
        refine le_trans (abs_add_le _ _) ?_
        rw [abs_mul, abs_mul, abs_of_nonneg hs0]
      have ka := abs_nonneg (a n)
      have kb := abs_nonneg (b n)
      have m1 : s * |b n| ≤ q * |b n| := mul_le_mul_of_nonneg_right hqs kb
      have m2 : |c| * |a n| ≤ M * ((1 - r) / 2) * |a n| := mul_le_mul_of_nonneg_right hcM ka
      have m3 : M * ((1 + r) / 2) * |a n| ≤ M * q * |a n| :=
        mul_le_mul_of_nonneg_right (mul_le_mul_of_nonneg_left hqr hMpos.le) ka
      have m4 : q * (|b n| + M * |a n|) ≤ q * (q ^ n * (|b 0| + M * |a 0|)) :=
        mul_le_mul_of_nonneg_left ih hq0
      have e3 : |b (n + 1)| + M * |a (n + 1)| ≤ q * (|b n| + M * |a n|) := by
        rw [e1]; nlinarith
      calc _ ≤ _ := e3
        _ ≤ _ := m4
        _ = _ := by ring
  have hpow : Filter.Tendsto (fun n : Nat => q ^ n * (|b 0| + M * |a 0|)) Filter.atTop (nhds 0) := by
    have := (tendsto_pow_atTop_nhds_zero_of_lt_one hq0 hq1).mul_const (|b 0| + M * |a 0|)
    rwa [zero_mul] at this
  have sq : ∀ (f g : Nat → Real), (∀ n, |f n| ≤ g n) → Filter.Tendsto g Filter.atTop (nhds 0) →
      Filter.Tendsto f Filter.atTop (nhds 0) := by
    intro f g h hg
    have hn : Filter.Tendsto (fun n => -g n) Filter.atTop (nhds 0) := by
      have := hg.neg
      rwa [neg_zero] at this
    exact tendsto_of_tendsto_of_tendsto_of_le_of_le hn hg (fun n => (abs_le.mp (h n)).1)
      (fun n => (abs_le.mp (h n)).2)
  constructor
  · have hpow' : Filter.Tendsto (fun n : Nat => q ^ n * (|b 0| + M * |a 0|) / M) Filter.atTop (nhds 0) := by
      have := hpow.div_const M
      rwa [zero_div] at this
    refine sq _ _ (fun n => ?_) hpow'
    rw [le_div_iff₀ hMpos]
    have := key n
    have kb := abs_nonneg (b n)
    linarith
  · refine sq _ _ (fun n => ?_) hpow
    have := key n
    have ka := mul_nonneg hMpos.le (abs_nonneg (a n))
    linarith

end GridPACK.Cblock
