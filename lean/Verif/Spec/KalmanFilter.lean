import Verif.Model.KalmanFilter

/-! Specification of the ensemble Kalman filter. -/
namespace GridPACK.KalmanFilter
open Matrix

/-- The mean of a sample. -/
noncomputable def sampleMean {N : ℕ} (x : Fin N → ℝ) : ℝ := (∑ k, x k) / (N : ℝ)

/-- The covariance of two samples. -/
noncomputable def covariance {n m N : ℕ} (X : Matrix (Fin n) (Fin N) ℝ) (Z : Matrix (Fin m) (Fin N) ℝ) :
    Matrix (Fin n) (Fin m) ℝ :=
  fun i j => (∑ k, (X i k - sampleMean (X i)) * (Z j k - sampleMean (Z j))) / ((N : ℝ) - 1)

/-- The covariance of the forecast measurements plus that of the measurement noise. -/
noncomputable def innovationCov {m N : ℕ} (noise : ℝ) (HX : Matrix (Fin m) (Fin N) ℝ) : Matrix (Fin m) (Fin m) ℝ :=
  covariance HX HX + noise ^ 2 • (1 : Matrix (Fin m) (Fin m) ℝ)

/-- The Kalman gain. -/
noncomputable def gain {n m N : ℕ} (noise : ℝ) (X : Matrix (Fin n) (Fin N) ℝ) (HX : Matrix (Fin m) (Fin N) ℝ) :
    Matrix (Fin n) (Fin m) ℝ := covariance X HX * (innovationCov noise HX)⁻¹

/-- A solver for matrix right-hand sides. -/
def Solves {N : ℕ} (solve : Matrix (Fin N) (Fin N) ℝ → Matrix (Fin N) (Fin N) ℝ → Matrix (Fin N) (Fin N) ℝ) : Prop :=
  ∀ Q Z, IsUnit Q.det → Q * solve Q Z = Z

/-- The fault is on at time `t`. -/
def On (f : Fault) (t : ℝ) : Prop := f.start ≤ t ∧ t < f.stop

end GridPACK.KalmanFilter
