import Mathlib.Data.List.Basic

/-! Model of the linear solver object (src/math/linear_solver_implementation.hpp,
src/math/petsc/petsc_linear_solver_implementation.hpp): solving with one right hand side, solving again, solving
for all the columns of a matrix, the serial mode (`ForceSerial`), and the tolerances.  The Krylov solver of PETSc is
a parameter (`ksp`: matrix, right hand side and, unless the guess is taken to be zero, initial guess; `none` is
divergence, which the code reports by an exception).  Every process of the serial mode does the same work on the same
data, so one copy of the collected objects stands for all processes. -/
namespace GridPACK.LinSolve

/-- The settings read by `p_configure` (linear_solver_implementation.hpp 142-157). -/
structure Cfg where
  /-- `p_doSerial` -/
  serial : Bool
  /-- `p_constSerialMatrix` -/
  constMatrix : Bool
  /-- `p_guessZero` -/
  guessZero : Bool

/-- `p_configure` (142-157): the defaults (56-66) and the serial mode only with several processes. -/
def configure (forceSerial serialMatrixConstant initialGuessZero : Option Bool) (nproc : Nat) : Cfg :=
  { serial := forceSerial.getD false && decide (1 < nproc)
    constMatrix := serialMatrixConstant.getD false
    guessZero := initialGuessZero.getD false }

/-- What the PETSc solver was given by `KSPSetOperators`: nothing, the matrix of the caller (whatever its values are
at the time of the solve), or a collected copy. -/
inductive Oper (M : Type) where
  | unset
  | live
  | copy (a : M)

/-- The mutable members (`p_serialMatrix`, `p_serialRHS`, `p_serialSolution`, `p_matrixSet`, the operator of
`p_KSP`). -/
structure State (M R : Type) where
  serialMatrix : Option M
  rhs : Option (List R)
  sol : Option (List R)
  matrixSet : Bool
  oper : Oper M

/-- A new solver. -/
def State.start (M R : Type) : State M R := ⟨none, none, none, false, .unset⟩

section
variable {M R : Type}

/-- `p_setElementRange` (vector_implementation.hpp 105-110): the `hi - lo` entries from `lo` are overwritten. -/
def setRange (v : List R) (lo hi : Nat) (x : List R) : List R :=
  v.mapIdx (fun i a => if lo ≤ i ∧ i < hi then x.getD (i - lo) a else a)

/-- `p_getElementRange` (vector_implementation.hpp 121-126). -/
def getRange (v : List R) (lo hi : Nat) : List R := (v.drop lo).take (hi - lo)

/-- The collected right hand side (linear_solver_implementation.hpp 197-203): a copy the first time, later the
range from 0 to `b.size() - 1` is overwritten. -/
def prepRhs (old : Option (List R)) (b : List R) : List R :=
  match old with
  | none => b
  | some o => setRange o 0 (b.length - 1) b

/-- The collected guess (205-217). -/
def prepSol (cfg : Cfg) (old : Option (List R)) (rhs x : List R) : List R :=
  match old with
  | none => if cfg.guessZero then rhs else x
  | some o => if cfg.guessZero then o else setRange o 0 (x.length - 1) x

/-- `p_serialSolutionDist` (221-229): every process copies its range of the solution. -/
def distribute (own : List (Nat × Nat)) (sol x : List R) : List R :=
  own.foldl (fun v p => setRange v p.1 p.2 (getRange sol p.1 p.2)) x

/-- `KSPSolve` with the operator set before (`p_resolveImpl`, petsc_linear_solver_implementation.hpp 138-172); `a` is the present
content of the caller's matrix.  Without an operator PETSc fails. -/
def kspSolve (ksp : M → List R → Option (List R) → Option (List R)) (cfg : Cfg) (op : Oper M) (a : M)
    (b x : List R) : Option (List R) :=
  match op with
  | .unset => none
  | .live => ksp a b (if cfg.guessZero then none else some x)
  | .copy c => ksp c b (if cfg.guessZero then none else some x)

/-- The serial solve with the operator `op` (`p_serialSolvePrep`, the solution and `p_serialSolutionDist`: 245-254 of
`p_solve`, 269-278 of `p_resolve`). -/
def serialRun (ksp : M → List R → Option (List R) → Option (List R)) (cfg : Cfg) (own : List (Nat × Nat))
    (st : State M R) (a : M) (b x : List R) : State M R × Option (List R) :=
  let rhs := prepRhs st.rhs b
  let sol := prepSol cfg st.sol rhs x
  match kspSolve ksp cfg st.oper a rhs sol with
  | none => ({ st with rhs := some rhs, sol := some sol }, none)
  | some r => ({ st with rhs := some rhs, sol := some r }, some (distribute own r x))

/-- `p_solve` (linear_solver_implementation.hpp 232-262) with `p_solveImpl`
(petsc_linear_solver_implementation.hpp 115-135): `a` is the present content of the matrix, `b` the right hand side,
`x` the initial estimate; the result is the new content of `x`. -/
def solve (ksp : M → List R → Option (List R) → Option (List R)) (cfg : Cfg) (own : List (Nat × Nat))
    (st : State M R) (a : M) (b x : List R) : State M R × Option (List R) :=
  if cfg.serial then
    let sm := match st.serialMatrix with
      | none => a
      | some o => if cfg.constMatrix then o else a
    let op := if st.matrixSet && cfg.constMatrix then st.oper else .copy sm
    serialRun ksp cfg own { st with serialMatrix := some sm, matrixSet := true, oper := op } a b x
  else
    let op := if st.matrixSet && cfg.constMatrix then st.oper else .live
    ({ st with matrixSet := true, oper := op }, kspSolve ksp cfg op a b x)

/-- `p_resolve` (265-285). -/
def resolve (ksp : M → List R → Option (List R) → Option (List R)) (cfg : Cfg) (own : List (Nat × Nat))
    (st : State M R) (a : M) (b x : List R) : State M R × Option (List R) :=
  if cfg.serial then serialRun ksp cfg own st a b x
  else (st, kspSolve ksp cfg st.oper a b x)

/-- The remaining columns of `p_solve(B)` (303-315): each is solved again from a zero estimate; an exception ends
the call. -/
def columnsFrom (ksp : M → List R → Option (List R) → Option (List R)) (cfg : Cfg) (own : List (Nat × Nat))
    (a : M) (zero : List R) : State M R → List (List R) → State M R × Option (List (List R))
  | st, [] => (st, some [])
  | st, b :: bs =>
    match resolve ksp cfg own st a b zero with
    | (st', none) => (st', none)
    | (st', some r) =>
      match columnsFrom ksp cfg own a zero st' bs with
      | (st'', none) => (st'', none)
      | (st'', some rs) => (st'', some (r :: rs))

/-- `p_solve(const MatrixType& B)` (288-319): the first column is solved, the others are solved again; the columns of
the result are the solutions. -/
def solveColumns (ksp : M → List R → Option (List R) → Option (List R)) (cfg : Cfg) (own : List (Nat × Nat))
    (st : State M R) (a : M) (zero : List R) (cols : List (List R)) : State M R × Option (List (List R)) :=
  match cols with
  | [] => (st, some [])
  | b :: bs =>
    match solve ksp cfg own st a b zero with
    | (st', none) => (st', none)
    | (st', some r) =>
      match columnsFrom ksp cfg own a zero st' bs with
      | (st'', none) => (st'', none)
      | (st'', some rs) => (st'', some (r :: rs))

end

/-! ### Tolerances -/

/-- `p_solutionTolerance`, `p_relativeTolerance` and `p_maxIterations`, and the values handed to PETSc by
`KSPSetTolerances` when the solver is built. -/
structure Tol (R : Type) where
  solution : R
  relative : R
  maxIt : Int
  ksp : Option (R × R × Int)

/-- Calls about the tolerances. -/
inductive TolCall (R : Type) where
  /-- `tolerance(tol)` (166-169) -/
  | tolerance (t : R)
  /-- `maximumIterations(n)` (178-181) -/
  | maxIterations (n : Int)
  /-- `configure` with the values found in the input (142-147), which also builds the PETSc solver
  (petsc_linear_solver_implementation.hpp 86-113, 176-180) -/
  | configure (solution relative : Option R) (maxIt : Option Int)

/-- The effect of a call. -/
def Tol.step {R : Type} (s : Tol R) : TolCall R → Tol R
  | .tolerance t => { s with solution := t }
  | .maxIterations n => { s with maxIt := n }
  | .configure a r n =>
    let sol := a.getD s.solution
    let rel := r.getD s.relative
    let it := n.getD s.maxIt
    ⟨sol, rel, it, some (rel, sol, it)⟩

end GridPACK.LinSolve
