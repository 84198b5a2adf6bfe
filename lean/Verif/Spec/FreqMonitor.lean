import Verif.Model.FreqMonitor

/-! Specification for C239–C241: samples at times `t 0, t 1, ...` with frequencies `f 0, f 1, ...`. -/
namespace GridPACK.FreqMonitor

/-- From sample `i` to sample `n` the frequency is above 61 Hz and grows from sample to sample. -/
def Rising (f : ℕ → ℝ) (i n : ℕ) : Prop := 61 < f i ∧ ∀ k, i < k → k ≤ n → 61 < f k ∧ f (k - 1) < f k

/-- From sample `i` to sample `n` the frequency is below 59 Hz and falls from sample to sample. -/
def Falling (f : ℕ → ℝ) (i n : ℕ) : Prop := f i < 59 ∧ ∀ k, i < k → k ≤ n → f k < 59 ∧ f k < f (k - 1)

/-- At sample `n` the frequency has drifted away for at least half a second. -/
def Drift (t f : ℕ → ℝ) (n : ℕ) : Prop := ∃ i < n, (Rising f i n ∨ Falling f i n) ∧ 1 / 2 ≤ t n - t i

/-- The same, half a second counted from the second sample of the drift. -/
def LateDrift (t f : ℕ → ℝ) (n : ℕ) : Prop := ∃ i, i + 1 < n ∧ (Rising f i n ∨ Falling f i n) ∧ 1 / 2 ≤ t n - t (i + 1)

end GridPACK.FreqMonitor
