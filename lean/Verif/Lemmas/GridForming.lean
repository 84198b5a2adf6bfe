import Verif.Props.Wind
import Verif.Spec.GridForming

/-! Lemmas about the grid-forming inverter. -/
namespace GridPACK.GridForming
open GridPACK.Cblock GridPACK.Dblock
open GridPACK.Wind (Hold Armed hold_call IsFilter filter_is filter_initY filter_eq IsIntegrator integrator_is
  integrator_initY integrator_eq clamp_le le_clamp)

theorem clamp_low {t : Real} (h : 0 ≤ t) : clamp (-1000) 0 t = 0 := by
  unfold clamp
  rw [min_eq_right h]
  norm_num

theorem clamp_high {t : Real} (h : t ≤ 0) : clamp 0 1000 t = 0 := by
  unfold clamp
  exact max_eq_left (le_trans (min_le_left _ _) h)

/-- The controller of an upper limit that is not reached. -/
structure Low (b : Block) (u : Real) : Prop where
  a : b.A = 0
  bb : 0 ≤ b.B
  c : b.C = 1
  d : 0 ≤ b.D
  xlo : b.xmin = -1000
  xhi : b.xmax = 0
  ylo : b.ymin = -1000
  yhi : b.ymax = 0
  dlo : b.dxmin = -1000
  dhi : b.dxmax = 1000
  st : b.x = 0
  inp : 0 ≤ u

def LowArmed (b : Block) : Prop := 0 ≤ b.dxdt ∧ b.xhat = 0

theorem low_call {b : Block} {u dt : Real} (s : Stage) (h : Low b u) (hdt : 0 ≤ dt)
    (ha : s = .corrector → LowArmed b) :
    Low (getoutput b u dt s true).1 u ∧ (s = .predictor → LowArmed (getoutput b u dt s true).1) ∧
    (getoutput b u dt s true).2 = 0 := by
  have hd : ∀ x, 0 ≤ getderivative b x u := by
    intro x
    unfold getderivative
    rw [h.a, zero_mul, zero_add]
    exact mul_nonneg h.bb h.inp
  have ho : ∀ x, x = 0 → clamp b.ymin b.ymax (b.C * x + b.D * u) = 0 := by
    intro x hx
    rw [hx, mul_zero, zero_add, h.ylo, h.yhi]
    exact clamp_low (mul_nonneg h.d h.inp)
  have hc : ∀ t, 0 ≤ t → 0 ≤ clamp b.dxmin b.dxmax t := by
    intro t ht
    rw [h.dlo, h.dhi]
    exact le_clamp (by norm_num) ht
  have hx : ∀ t, 0 ≤ t → clamp b.xmin b.xmax (b.x + dt * t) = 0 := by
    intro t ht
    rw [h.xlo, h.xhi, h.st, zero_add]
    exact clamp_low (mul_nonneg hdt ht)
  cases s with
  | predictor =>
    refine ⟨⟨h.a, h.bb, h.c, h.d, h.xlo, h.xhi, h.ylo, h.yhi, h.dlo, h.dhi, h.st, h.inp⟩, fun _ => ?_, ?_⟩
    · exact ⟨hc _ (hd _), hx _ (hc _ (hd _))⟩
    · exact ho _ h.st
  | corrector =>
    obtain ⟨a1, a2⟩ := ha rfl
    refine ⟨⟨h.a, h.bb, h.c, h.d, h.xlo, h.xhi, h.ylo, h.yhi, h.dlo, h.dhi, ?_, h.inp⟩,
      fun h => Stage.noConfusion h, ho _ a2⟩
    refine hx _ (hc _ ?_)
    have := hd b.xhat
    linarith

/-- The controller of a lower limit that is not reached. -/
structure High (b : Block) (u : Real) : Prop where
  a : b.A = 0
  bb : 0 ≤ b.B
  c : b.C = 1
  d : 0 ≤ b.D
  xlo : b.xmin = 0
  xhi : b.xmax = 1000
  ylo : b.ymin = 0
  yhi : b.ymax = 1000
  dlo : b.dxmin = -1000
  dhi : b.dxmax = 1000
  st : b.x = 0
  inp : u ≤ 0

def HighArmed (b : Block) : Prop := b.dxdt ≤ 0 ∧ b.xhat = 0

theorem high_call {b : Block} {u dt : Real} (s : Stage) (h : High b u) (hdt : 0 ≤ dt)
    (ha : s = .corrector → HighArmed b) :
    High (getoutput b u dt s true).1 u ∧ (s = .predictor → HighArmed (getoutput b u dt s true).1) ∧
    (getoutput b u dt s true).2 = 0 := by
  have hd : ∀ x, getderivative b x u ≤ 0 := by
    intro x
    unfold getderivative
    rw [h.a, zero_mul, zero_add]
    exact mul_nonpos_of_nonneg_of_nonpos h.bb h.inp
  have ho : ∀ x, x = 0 → clamp b.ymin b.ymax (b.C * x + b.D * u) = 0 := by
    intro x hx
    rw [hx, mul_zero, zero_add, h.ylo, h.yhi]
    exact clamp_high (mul_nonpos_of_nonneg_of_nonpos h.d h.inp)
  have hc : ∀ t, t ≤ 0 → clamp b.dxmin b.dxmax t ≤ 0 := by
    intro t ht
    rw [h.dlo, h.dhi]
    exact clamp_le (by norm_num) ht
  have hx : ∀ t, t ≤ 0 → clamp b.xmin b.xmax (b.x + dt * t) = 0 := by
    intro t ht
    rw [h.xlo, h.xhi, h.st, zero_add]
    exact clamp_high (mul_nonpos_of_nonneg_of_nonpos hdt ht)
  cases s with
  | predictor =>
    refine ⟨⟨h.a, h.bb, h.c, h.d, h.xlo, h.xhi, h.ylo, h.yhi, h.dlo, h.dhi, h.st, h.inp⟩, fun _ => ?_, ?_⟩
    · exact ⟨hc _ (hd _), hx _ (hc _ (hd _))⟩
    · exact ho _ h.st
  | corrector =>
    obtain ⟨a1, a2⟩ := ha rfl
    refine ⟨⟨h.a, h.bb, h.c, h.d, h.xlo, h.xhi, h.ylo, h.yhi, h.dlo, h.dhi, ?_, h.inp⟩,
      fun h => Stage.noConfusion h, ho _ a2⟩
    refine hx _ (hc _ ?_)
    have := hd b.xhat
    linarith

/-- The voltage controller at rest. -/
structure EHold (b : Block) (e : Real) : Prop where
  a : b.A = 0
  c : b.C = 1
  dlo : b.dxmin = -1000
  dhi : b.dxmax = 1000
  st : b.x = e

def EArmed (b : Block) (e : Real) : Prop := b.dxdt = 0 ∧ b.xhat = e

theorem e_call {b : Block} {e lo hi : Real} (dt : Real) (s : Stage) (h : EHold b e) (h1 : lo ≤ e) (h2 : e ≤ hi)
    (h3 : |e| ≤ 1000) (ha : s = .corrector → EArmed b e) :
    EHold (getoutputLim b 0 dt (-1000) 1000 lo hi s true).1 e ∧
    (s = .predictor → EArmed (getoutputLim b 0 dt (-1000) 1000 lo hi s true).1 e) ∧
    (getoutputLim b 0 dt (-1000) 1000 lo hi s true).2 = e := by
  have hd : ∀ x, getderivative b x 0 = 0 := by
    intro x
    unfold getderivative
    rw [h.a, zero_mul, zero_add, mul_zero]
  have hc : clamp b.dxmin b.dxmax 0 = 0 := by
    rw [h.dlo, h.dhi]
    exact clamp_of_mem _ _ _ (by norm_num) (by norm_num)
  have ho : ∀ x, x = e → clamp lo hi (b.C * x + b.D * 0) = e := by
    intro x hx
    rw [hx, h.c, one_mul, mul_zero, add_zero]
    exact clamp_of_mem _ _ _ h1 h2
  have hx : ∀ t, t = 0 → clamp (-1000) 1000 (b.x + dt * t) = e := by
    intro t ht
    rw [ht, mul_zero, add_zero, h.st]
    exact clamp_of_mem _ _ _ (abs_le.mp h3).1 (abs_le.mp h3).2
  cases s with
  | predictor =>
    have e1 : clamp b.dxmin b.dxmax (getderivative b b.x 0) = 0 := by rw [hd, hc]
    exact ⟨⟨h.a, h.c, h.dlo, h.dhi, h.st⟩, fun _ => ⟨e1, hx _ e1⟩, ho _ h.st⟩
  | corrector =>
    obtain ⟨a1, a2⟩ := ha rfl
    have e1 : clamp b.dxmin b.dxmax (1 / 2 * (b.dxdt + getderivative b b.xhat 0)) = 0 := by
      rw [hd, a1, add_zero, mul_zero, hc]
    exact ⟨⟨h.a, h.c, h.dlo, h.dhi, hx _ e1⟩, fun h => Stage.noConfusion h, ho _ a2⟩

/-- A filter at rest, if it is used. -/
def FHold (b : Option Block) (u : Real) : Prop := ∀ c, b = some c → Hold c u u u

def FArmed (b : Option Block) (u : Real) : Prop := ∀ c, b = some c → Armed c u

theorem f_call {b : Option Block} {u : Real} (dt : Real) (s : Stage) (h : FHold b u)
    (ha : s = .corrector → FArmed b u) :
    FHold (useFilter b u dt s).1 u ∧ (s = .predictor → FArmed (useFilter b u dt s).1 u) ∧
    (useFilter b u dt s).2 = u := by
  cases b with
  | none => exact ⟨fun c hc => (by cases hc), fun _ c hc => (by cases hc), rfl⟩
  | some b =>
    obtain ⟨h1, h2, h3⟩ := hold_call dt s (h b rfl) (fun hs => ha hs b rfl)
    refine ⟨fun c hc => ?_, fun hs c hc => ?_, h3⟩
    · cases hc
      exact h1
    · cases hc
      exact h2 hs

theorem f_init {raw : Block} {T y : Real} (hT : UsableT T) (hy : |y| ≤ 1000) :
    FHold (initFilter (mkFilter raw T) y) y := by
  intro c hc
  unfold mkFilter at hc
  split_ifs at hc with h
  · cases hc
  · rcases hT with h' | ⟨h0, h1⟩
    · exact absurd h' h
    · rw [filter_eq raw 1 T (ne_of_gt h0)] at hc
      obtain ⟨_, i1, i2, i3⟩ := filter_is (filter_eq raw 1 T (ne_of_gt h0))
      cases hc
      obtain ⟨j1, j2⟩ := filter_initY (y := y) i1 one_ne_zero h0 h1 hy ⟨by rw [i2]; norm_num, by rw [i3]; norm_num⟩
      have hu : ∀ b : Block, IsFilter b 1 T → (initGivenY b y).2 = y := by
        intro b i
        unfold initGivenY
        rw [if_neg (not_lt.mpr (by rw [i.a]; exact GridPACK.Wind.eps_le_inv h0 h1))]
        show y / (b.D - b.C * b.B / b.A) = y
        have hT := ne_of_gt h0
        rw [i.a, i.bb, i.c, i.d]
        field_simp
        ring
      rw [hu _ i1] at j1
      exact j1

theorem pi_low {raw : Block} {kp ki u : Real} (hp : 0 ≤ kp) (hi : 0 ≤ ki) (hu : 0 ≤ u) :
    Low (initGivenY (mkPi raw kp ki (-1000) 0) 0).1 u := by
  have ha : (mkPi raw kp ki (-1000) 0).A = 0 := by
    unfold mkPi withLimits piControl setcoeffs
    rw [if_neg one_ne_zero]
    show -0 / 1 = (0 : Real)
    simp
  have e : (initGivenY (mkPi raw kp ki (-1000) 0) 0).1 = { mkPi raw kp ki (-1000) 0 with x := 0 } := by
    unfold initGivenY
    rw [if_pos (by rw [ha, abs_zero]; exact eps_pos)]
  rw [e]
  unfold mkPi withLimits piControl setcoeffs
  rw [if_neg one_ne_zero]
  refine ⟨?_, ?_, rfl, ?_, rfl, rfl, rfl, rfl, rfl, rfl, rfl, hu⟩
  · show -0 / 1 = (0 : Real)
    simp
  · show 0 ≤ ki / 1 - 0 * kp / (1 * 1)
    simpa using hi
  · show 0 ≤ kp / 1
    simpa using hp

theorem pi_high {raw : Block} {kp ki u : Real} (hp : 0 ≤ kp) (hi : 0 ≤ ki) (hu : u ≤ 0) :
    High (initGivenY (mkPi raw kp ki 0 1000) 0).1 u := by
  have ha : (mkPi raw kp ki 0 1000).A = 0 := by
    unfold mkPi withLimits piControl setcoeffs
    rw [if_neg one_ne_zero]
    show -0 / 1 = (0 : Real)
    simp
  have e : (initGivenY (mkPi raw kp ki 0 1000) 0).1 = { mkPi raw kp ki 0 1000 with x := 0 } := by
    unfold initGivenY
    rw [if_pos (by rw [ha, abs_zero]; exact eps_pos)]
  rw [e]
  unfold mkPi withLimits piControl setcoeffs
  rw [if_neg one_ne_zero]
  refine ⟨?_, ?_, rfl, ?_, rfl, rfl, rfl, rfl, rfl, rfl, rfl, hu⟩
  · show -0 / 1 = (0 : Real)
    simp
  · show 0 ≤ ki / 1 - 0 * kp / (1 * 1)
    simpa using hi
  · show 0 ≤ kp / 1
    simpa using hp

theorem pi_e {raw : Block} {kp ki : Real} (y : Real) :
    (initGivenY ((piControl raw kp ki).getD raw) y).2 = 0 ∧
    EHold (initGivenY ((piControl raw kp ki).getD raw) y).1 y := by
  have ha : ((piControl raw kp ki).getD raw).A = 0 := by
    unfold piControl setcoeffs
    rw [if_neg one_ne_zero]
    show -0 / 1 = (0 : Real)
    simp
  have e : initGivenY ((piControl raw kp ki).getD raw) y =
      ({ (piControl raw kp ki).getD raw with x := y }, 0) := by
    unfold initGivenY
    rw [if_pos (by rw [ha, abs_zero]; exact eps_pos)]
  rw [e]
  refine ⟨rfl, ⟨ha, ?_, ?_, ?_, rfl⟩⟩ <;>
  · unfold piControl setcoeffs
    rw [if_neg one_ne_zero]
    rfl

theorem int_hold {b : Block} (i : IsIntegrator b 1) {y : Real} (hy : |y| ≤ 1000) :
    Hold (initGivenY b y).1 0 y y := by
  rw [integrator_initY y i]
  have hb := abs_le.mp hy
  refine ⟨rfl, ?_, ?_, ?_, ?_, ?_, ?_⟩
  · show b.A * y + b.B * 0 = 0
    rw [i.a]
    ring
  · exact i.xlo.le.trans hb.1
  · exact hb.2.trans i.xhi.ge
  · exact i.dlo.le.trans (by norm_num)
  · exact le_trans (by norm_num) i.dhi.ge
  · show clamp b.ymin b.ymax (b.C * y + b.D * 0) = y
    rw [i.c, i.d, i.ylo, i.yhi, one_mul, mul_zero, add_zero]
    exact clamp_of_mem _ _ _ hb.1 hb.2

theorem delta_hold {raw : Block} (hc : Constructed raw) {y : Real} (hy : |y| ≤ 1000) :
    Hold (initGivenY ((integrator raw 1).getD raw) y).1 0 y y := by
  have e := integrator_eq raw 1 one_ne_zero
  obtain ⟨_, i⟩ := integrator_is hc e
  rw [e]
  exact int_hold i hy

end GridPACK.GridForming
