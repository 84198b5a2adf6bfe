import Verif.Model.AngleWrap
import Mathlib.Algebra.Order.Archimedean.Real.Basic
import Mathlib.Tactic.Linarith
import Mathlib.Tactic.Ring
import Mathlib.Tactic.FieldSimp

/-! C52: exchanged angles. -/
namespace GridPACK.AngleWrap

theorem fmod_nonneg (x y : ℝ) (hy : 0 < y) (hx : 0 ≤ x) :
    ∃ k : ℤ, fmod x y = x - k * y ∧ 0 ≤ fmod x y ∧ fmod x y < y := by
  have hq : 0 ≤ x / y := div_nonneg hx hy.le
  refine ⟨⌊x / y⌋, ?_, ?_, ?_⟩
  · unfold fmod; rw [if_pos hq]
  · unfold fmod; rw [if_pos hq]
    have := Int.floor_le (x / y)
    have h2 : (⌊x / y⌋ : ℝ) * y ≤ x / y * y := mul_le_mul_of_nonneg_right this hy.le
    rw [div_mul_cancel₀ x hy.ne'] at h2
    linarith
  · unfold fmod; rw [if_pos hq]
    have := Int.lt_floor_add_one (x / y)
    have h2 : x / y * y < ((⌊x / y⌋ : ℝ) + 1) * y := mul_lt_mul_of_pos_right this hy
    rw [div_mul_cancel₀ x hy.ne'] at h2
    linarith

theorem fmod_neg (x y : ℝ) (hy : 0 < y) (hx : x < 0) :
    ∃ k : ℤ, fmod x y = x - k * y ∧ -y < fmod x y ∧ fmod x y ≤ 0 := by
  have hq : ¬ 0 ≤ x / y := by
    rw [not_le]; exact div_neg_of_neg_of_pos hx hy
  refine ⟨⌈x / y⌉, ?_, ?_, ?_⟩
  · unfold fmod; rw [if_neg hq]
  · unfold fmod; rw [if_neg hq]
    have := Int.ceil_lt_add_one (x / y)
    have h2 : (⌈x / y⌉ : ℝ) * y < (x / y + 1) * y := mul_lt_mul_of_pos_right this hy
    rw [add_mul, div_mul_cancel₀ x hy.ne'] at h2
    linarith
  · unfold fmod; rw [if_neg hq]
    have := Int.le_ceil (x / y)
    have h2 : x / y * y ≤ (⌈x / y⌉ : ℝ) * y := mul_le_mul_of_nonneg_right this hy.le
    rw [div_mul_cancel₀ x hy.ne'] at h2
    linarith

/-- C52.  For every real angle the exchanged angle lies in [-π, π] and differs from it by a whole number of
turns. -/
theorem C52_normalised (a : ℝ) :
    -Real.pi ≤ exchanged a ∧ exchanged a ≤ Real.pi ∧ ∃ k : ℤ, exchanged a = a + k * (2 * Real.pi) := by
  have hpi := Real.pi_pos
  unfold exchanged
  by_cases h : a ≥ 0
  · rw [if_pos h]
    obtain ⟨k, h1, h2, h3⟩ := fmod_nonneg (a + Real.pi) (2 * Real.pi) (by linarith) (by linarith)
    refine ⟨by linarith, by linarith, -k, ?_⟩
    rw [h1]; push_cast; ring
  · rw [if_neg h]
    rw [not_le] at h
    obtain ⟨k, h1, h2, h3⟩ := fmod_neg (a - Real.pi) (2 * Real.pi) (by linarith) (by linarith)
    refine ⟨by linarith, by linarith, -k, ?_⟩
    rw [h1]; push_cast; ring

/-- C52, consequence: neighbours that use the exchanged angle compute the same sine and cosine. -/
theorem C52_same_direction (a b : ℝ) :
    Real.cos (exchanged a - exchanged b) = Real.cos (a - b) ∧
    Real.sin (exchanged a - exchanged b) = Real.sin (a - b) := by
  obtain ⟨-, -, k, hk⟩ := C52_normalised a
  obtain ⟨-, -, m, hm⟩ := C52_normalised b
  have : exchanged a - exchanged b = (a - b) + ((k - m : ℤ) : ℝ) * (2 * Real.pi) := by
    rw [hk, hm]; push_cast; ring
  rw [this]
  exact ⟨Real.cos_add_int_mul_two_pi _ _, Real.sin_add_int_mul_two_pi _ _⟩

/-- C52: an angle that is already inside the range is exchanged unchanged. -/
theorem C52_unchanged (a : ℝ) (h1 : -Real.pi < a) (h2 : a < Real.pi) : exchanged a = a := by
  obtain ⟨g1, g2, k, hk⟩ := C52_normalised a
  have hpi := Real.pi_pos
  have hk0 : k = 0 := by
    have hu : (k : ℝ) < 1 := by
      by_contra hc
      rw [not_lt] at hc
      have : (1 : ℝ) * (2 * Real.pi) ≤ k * (2 * Real.pi) := mul_le_mul_of_nonneg_right hc (by linarith)
      linarith
    have hl : (-1 : ℝ) < k := by
      by_contra hc
      rw [not_lt] at hc
      have : (k : ℝ) * (2 * Real.pi) ≤ -1 * (2 * Real.pi) := mul_le_mul_of_nonneg_right hc (by linarith)
      linarith
    have hu' : k < 1 := by exact_mod_cast hu
    have hl' : -1 < k := by exact_mod_cast hl
    omega
  rw [hk, hk0]; simp

/-- An angle of 3π/2 is exchanged as an angle in the range, one turn less. -/
example : ∃ k : ℤ, exchanged (3 * Real.pi / 2) = 3 * Real.pi / 2 + k * (2 * Real.pi) ∧
    exchanged (3 * Real.pi / 2) ≠ 3 * Real.pi / 2 := by
  obtain ⟨-, h, k, hk⟩ := C52_normalised (3 * Real.pi / 2)
  have := Real.pi_pos
  exact ⟨k, hk, by intro hc; linarith⟩

end GridPACK.AngleWrap
