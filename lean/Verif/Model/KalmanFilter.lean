import Mathlib.LinearAlgebra.Matrix.NonsingularInverse
import Mathlib.Data.Real.Basic
import Mathlib.Algebra.Order.Round
import Mathlib.Algebra.Order.Floor.Ring
import Mathlib.Algebra.Order.Archimedean.Real.Basic
import Verif.Model.Random

/-! Model of the ensemble Kalman filter of the dynamic state estimation (src/applications/modules/kalman_ds/kds_app_module.cpp
360-395, 420-800; src/applications/components/kds_matrix/kds_components.cpp 351-500, 832-890).

Matrices have real entries: the slabs are complex, but `Perturbation`, `Measurements`, `HX` and `HA` put real numbers into them,
and only the real part of the increment is used.  `n` counts states, `m` measurements, `N` members of the ensemble.  The solver
of the library is a function `solve` with `Q * solve Q Z = Z` for an invertible `Q`.  Numbers are real: rounding is left out. -/
namespace GridPACK.KalmanFilter
open Matrix

/-- `p_Rm1` (373). -/
noncomputable def rm1 (noise : ℝ) : ℝ := 1 / (noise * noise)

/-- `p_N_inv` (379-383). -/
noncomputable def nInv (N : ℕ) : ℝ := if 1 < N then 1 / ((N : ℝ) - 1) else 0

/-- `p_Rm1n` (378-382). -/
noncomputable def rm1n (noise : ℝ) (N : ℕ) : ℝ := if 1 < N then rm1 noise / ((N : ℝ) - 1) else 0

/-- The increment of the states of the ensemble (kds_app_module.cpp 690-776): `A` are the deviations of the forecast states,
`HA` those of the forecast measurements, `D` the measurements, `HX` the forecast measurements. -/
noncomputable def increment {n m N : ℕ}
    (solve : Matrix (Fin N) (Fin N) ℝ → Matrix (Fin N) (Fin N) ℝ → Matrix (Fin N) (Fin N) ℝ)
    (noise : ℝ) (A : Matrix (Fin n) (Fin N) ℝ) (HA D HX : Matrix (Fin m) (Fin N) ℝ) : Matrix (Fin n) (Fin N) ℝ :=
  let Y := D + (-1 : ℝ) • HX
  let H1 := rm1n noise N • (HAᵀ * HA)
  let Q := H1 + 1
  let Z1 := rm1 noise • (HAᵀ * Y)
  let W := solve Q Z1
  let Z2 := (-1 : ℝ) • (H1 * W) + Z1
  nInv N • (A * Z2)

/-- The mean of a row over the ensemble (kds_components.cpp 431-439, 1020-1026). -/
noncomputable def mean {N : ℕ} (x : Fin N → ℝ) : ℝ := (∑ k, x k) / (N : ℝ)

/-- Deviations of every row from its mean: mode `HA` (442-445) and `p_delta_diff`, `p_omega_diff` (1027-1030). -/
noncomputable def deviations {n N : ℕ} (X : Matrix (Fin n) (Fin N) ℝ) : Matrix (Fin n) (Fin N) ℝ :=
  fun i k => X i k - mean (X i)

/-- One analysis: forecast states `X3` and forecast measurements `HX` to the states kept on the buses
(kds_app_module.cpp 668-780, `X_INC` in kds_components.cpp 475-487). -/
noncomputable def analysis {n m N : ℕ}
    (solve : Matrix (Fin N) (Fin N) ℝ → Matrix (Fin N) (Fin N) ℝ → Matrix (Fin N) (Fin N) ℝ)
    (noise : ℝ) (X3 : Matrix (Fin n) (Fin N) ℝ) (D HX : Matrix (Fin m) (Fin N) ℝ) : Matrix (Fin n) (Fin N) ℝ :=
  X3 + increment solve noise (deviations X3) (deviations HX) D HX

/-! ### Random numbers -/

/-- The first `k` numbers of `grand` of a `Random` object `r`, each with at most `fuel` passes of its loop. -/
noncomputable def numbers {G : Type} (L : Random.Lib G) (fuel : ℕ) : ℕ → Random.Rand G → Option (List ℝ)
  | 0, _ => some []
  | k + 1, r => (Random.grand L fuel r).bind (fun a => (numbers L fuel k a.2).map (a.1 :: ·))

/-- What `initialize` does with the configured seed on a process (390-392): an object of its own is seeded and then
destroyed; the result is only this object. -/
def initializeRandom {G : Type} (L : Random.Lib G) (rank : ℕ) (seed : ℤ) : Random.Rand G :=
  Random.seed L rank seed (Random.new L)

/-- The numbers drawn on a bus by `createEnsemble` or by `slabGetValues` (kds_components.cpp 355, 387-391, 835, 879-884): a
`Random` object is constructed in the function.  `count` is how many numbers the function takes.  The argument `seeded` is the
object of `initialize`, which the function cannot see. -/
noncomputable def busNumbers {G : Type} (L : Random.Lib G) (fuel count : ℕ) (_seeded : Random.Rand G) : Option (List ℝ) :=
  numbers L fuel count (Random.new L)

/-- Measurements of a bus given to the members (386-392): angle and magnitude of the series with noise. -/
noncomputable def measured (noise d1 d2 : ℝ) (N : ℕ) (z : List ℝ) : List ℝ × List ℝ :=
  ((z.take N).map (fun x => d1 + noise * x), ((z.drop N).take N).map (fun x => d2 + noise * x))

/-- Initial angles and speeds of one generator of the ensemble (879-884). -/
noncomputable def ensemble (sigma d0 : ℝ) (N : ℕ) (z : List ℝ) : List ℝ × List ℝ :=
  ((z.take N).map (fun x => d0 * (1 + sigma * x)), ((z.drop N).take N).map (fun x => 1 * (1 + sigma * x)))

/-! ### Steps -/

/-- A fault of the configuration: times in seconds, step, ends of the branch. -/
structure Fault where
  start : ℝ
  stop : ℝ
  step : ℝ
  deriving Inhabited

/-- `t_step[0]`, `steps1` (559-571, 577): `round((start-0)/timeStep)`. -/
noncomputable def steps1 (timeStep : ℝ) (f : Fault) : ℤ := round ((f.start - 0) / timeStep)

/-- `steps2` (571, 576). -/
noncomputable def steps2 (timeStep : ℝ) (f : Fault) : ℤ := steps1 timeStep f + round ((f.stop - f.start) / f.step)

/-- `simu_k` (570-574). -/
noncomputable def simuK (timeStep simTime : ℝ) (nsteps : ℤ) (f : Fault) : ℤ :=
  min (steps2 timeStep f + round ((simTime - f.stop) / timeStep) + 1) nsteps

/-- `flagF` (595-605). -/
def flagF (s1 s2 i : ℤ) : ℕ :=
  if i ≤ s1 ∨ i > s2 + 1 then 0
  else if i > s1 + 1 ∧ i ≤ s2 then 1
  else if i = s1 + 1 then 2
  else if i = s2 + 1 then 3
  else 0

/-- The network of the first evaluation in pass `i` is the one with the fault (607-619). -/
def firstFaulted (known : Bool) (s1 s2 i : ℤ) : Bool := known && (flagF s1 s2 i == 1 || flagF s1 s2 i == 3)

/-- The network of the second evaluation, and of the forecast measurements (640-652, 682). -/
def secondFaulted (known : Bool) (s1 s2 i : ℤ) : Bool := known && (flagF s1 s2 i == 1 || flagF s1 s2 i == 2)

/-- The time loop as far as the series of measurements is concerned (583, 785, 799): for every pass the pass, the index in
the series of the measurements in `D` that it uses, and the index at which the series are read at its end for the next. -/
def passes (offset : ℕ) : List ℕ → ℕ → List (ℕ × ℕ × ℕ)
  | [], _ => []
  | i :: is, cur => (i, cur, offset + i) :: passes offset is (offset + i)

/-- The passes of `solve` for a given `simu_k`: `I_Steps` from 2 to `simu_k - 1`, with `D` filled at index `offset + 1`
before (535-536). -/
def runPasses (offset simuk : ℕ) : List (ℕ × ℕ × ℕ) := passes offset (List.range' 2 (simuk - 2)) (offset + 1)

/-- All indices at which the series of a bus are read: once before the loop and once at the end of every pass. -/
def readsAt (offset simuk : ℕ) : List ℕ := (offset + 1) :: (runPasses offset simuk).map (·.2.2)

end GridPACK.KalmanFilter
