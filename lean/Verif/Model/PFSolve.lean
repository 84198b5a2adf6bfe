import Mathlib.Data.Real.Basic

/-! Model of the iteration in `PFAppModule::solve`
(src/applications/modules/powerflow/pf_app_module.cpp 314-561).

The network (all buses, on all processes) is an abstract state.  Timers, printing and `clearViolations` are left
out.  Doubles are real numbers. -/
namespace GridPACK.PFSolve

/-- What the loop uses of the network and of the linear solver. -/
structure Problem (σ ξ : Type) where
  /-- `setYBus`, `setSBus` at the beginning of a pass (345, 370) -/
  prepare : σ → σ
  /-- `PQ->normInfinity()` after mapping the mismatch of the current voltages (385-391, 470-476) -/
  mismatch : σ → ℝ
  /-- `solver.solve(*PQ, *X)` with the Jacobian of the current voltages; `none` = exception (429-446, 492-508) -/
  solve : σ → Option ξ
  /-- `vMap.mapToBus(X); updateBuses()` (461-468, 548-556) -/
  push : σ → ξ → σ
  /-- `checkQlimViolations()` (537): changed network, true if there was no violation -/
  qcheck : σ → σ × Bool
  /-- `p_tolerance`, `p_max_iteration`, `p_qlim ≠ 0` -/
  tolerance : ℝ
  maxIter : Int
  qlim : Bool

/-- How the inner loop (457-527) ends. -/
inductive Inner (σ ξ : Type)
  | failed (s : σ)
  | done (s : σ) (x : ξ) (iter : Int) (diverged : Bool)

open Classical in
/-- Inner loop 457-527 from iteration `iter`; `n` is the number of iterations left, `p_max_iteration - iter`.
`x` is the solution for the current voltages. -/
noncomputable def inner {σ ξ : Type} (P : Problem σ ξ) (org : ℝ) : Nat → Int → σ → ξ → ℝ → Inner σ ξ
  | 0, iter, s, x, _ => .done s x iter false
  | n + 1, iter, s, x, tol =>
    if tol > P.tolerance then
      let s := P.push s x
      match P.solve s with
      | none => .failed s
      | some x =>
        let tol := P.mismatch s
        if tol > 100 * org then .done s x (iter + 1) true
        else inner P org n (iter + 1) s x tol
    else .done s x iter false

/-- Outer loop 331-557 with `ret`; `none` = the number of passes given is not enough. -/
noncomputable def passes {σ ξ : Type} (P : Problem σ ξ) : Nat → Bool → σ → Option (σ × Bool)
  | 0, _, _ => none
  | k + 1, ret, s =>
    let s := P.prepare s
    let org := P.mismatch s
    match P.solve s with
    | none => some (s, false)
    | some x =>
      match inner P org P.maxIter.toNat 0 s x org with
      | .failed s => some (s, false)
      | .done s x iter diverged =>
        let ret := if diverged then false else ret
        let ret := if iter ≥ P.maxIter then false else ret
        if P.qlim = false then some (P.push s x, ret)
        else
          let q := P.qcheck s
          if q.2 then some (P.push q.1 x, ret)
          else passes P k ret (P.push q.1 x)

/-- `solve()` with at most `k` passes. -/
noncomputable def solve {σ ξ : Type} (P : Problem σ ξ) (k : Nat) (s : σ) : Option (σ × Bool) := passes P k true s

end GridPACK.PFSolve
