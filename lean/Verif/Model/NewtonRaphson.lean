import Mathlib.Data.Real.Basic

/-! Model of `NewtonRaphsonSolverImplementation::p_solve`
(src/math/newton_raphson_solver_implementation.hpp 134-166).

Vectors are elements of a type with addition and negation; function, linear solve with the Jacobian at the
current point, and norm are parameters. -/
namespace GridPACK.NewtonRaphson

structure Problem (V : Type) where
  /-- `p_function` -/
  f : V → V
  /-- `p_linear_solver->solve` with the Jacobian at the first argument -/
  solve : V → V → V
  /-- `norm2` -/
  norm : V → ℝ

/-- Locals of `p_solve`: `*p_X`, `stol`, `iter`. -/
structure St (V : Type) where
  x : V
  stol : ℝ
  iter : Nat

variable {V : Type} [Add V] [Neg V]

/-- Body of the loop (142-153). -/
def body (p : Problem V) (s : St V) : St V :=
  let fx := p.f s.x
  let rhs := -fx
  let dx := p.solve s.x rhs
  ⟨s.x + dx, p.norm dx, s.iter + 1⟩

open Classical in
/-- The loop (141); `fuel` is at least `maxIter - iter`. -/
noncomputable def loop (p : Problem V) (tol : ℝ) (maxIter : Nat) : Nat → St V → St V
  | 0, s => s
  | fuel + 1, s => if s.stol > tol ∧ s.iter < maxIter then loop p tol maxIter fuel (body p s) else s

/-- `p_solve` (134-166): `stol` starts at 1.0e+30. -/
noncomputable def solve (p : Problem V) (tol : ℝ) (maxIter : Nat) (x0 : V) : St V :=
  loop p tol maxIter maxIter ⟨x0, 10 ^ 30, 0⟩

end GridPACK.NewtonRaphson
