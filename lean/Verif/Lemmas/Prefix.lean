import Mathlib.Tactic.Linarith

/-! Prefix sums and the decomposition of positions into (block, offset inside the block). -/
namespace GridPACK.Prefix

/-- Sum of the first `k` block sizes. -/
def off (s : Nat → Nat) (k : Nat) : Nat := ((List.range k).map s).sum

@[simp] theorem off_zero (s : Nat → Nat) : off s 0 = 0 := rfl

theorem off_succ (s : Nat → Nat) (k : Nat) : off s (k + 1) = off s k + s k := by
  unfold off
  rw [List.range_succ, List.map_append, List.sum_append]
  simp

theorem off_mono (s : Nat → Nat) {i j : Nat} (h : i ≤ j) : off s i ≤ off s j := by
  induction j with
  | zero => have : i = 0 := by omega
            subst this; exact Nat.le_refl _
  | succ j ih =>
    rw [off_succ]
    by_cases hj : i = j + 1
    · subst hj; rw [off_succ]
    · have := ih (by omega); omega

theorem off_block (s : Nat → Nat) {i j : Nat} (h : i < j) : off s i + s i ≤ off s j := by
  rw [← off_succ]; exact off_mono s h

theorem off_congr (s t : Nat → Nat) (k : Nat) (h : ∀ i, i < k → s i = t i) : off s k = off t k := by
  induction k with
  | zero => rfl
  | succ k ih =>
    rw [off_succ, off_succ, ih (fun i hi => h i (by omega)), h k (by omega)]

/-- A position determines its block and the place inside the block. -/
theorem decomp_unique (s : Nat → Nat) {i j a b : Nat} (ha : a < s i) (hb : b < s j)
    (h : off s i + a = off s j + b) : i = j ∧ a = b := by
  rcases Nat.lt_trichotomy i j with hij | hij | hij
  · have := off_block s hij; omega
  · subst hij; exact ⟨rfl, by omega⟩
  · have := off_block s hij; omega

/-- Every position below the total belongs to some block. -/
theorem decomp_exists (s : Nat → Nat) (n r : Nat) (h : r < off s n) :
    ∃ i, i < n ∧ ∃ a, a < s i ∧ r = off s i + a := by
  induction n with
  | zero => rw [off_zero] at h; omega
  | succ n ih =>
    by_cases hr : r < off s n
    · obtain ⟨i, hi, a, ha, e⟩ := ih hr
      exact ⟨i, by omega, a, ha, e⟩
    · rw [off_succ] at h
      exact ⟨n, by omega, r - off s n, by omega, by omega⟩

theorem decomp_lt (s : Nat → Nat) {i n a : Nat} (hi : i < n) (ha : a < s i) :
    off s i + a < off s n := by
  have := off_block s hi; omega

theorem off_add (s : Nat → Nat) (m n : Nat) :
    off s (m + n) = off s m + ((List.range' m n).map s).sum := by
  induction n with
  | zero => simp
  | succ n ih =>
    rw [← Nat.add_assoc, off_succ, ih, List.range'_concat]
    simp; omega

end GridPACK.Prefix
