/-!
Model of the standard client loop `while (taskmgr.nextTask(&id)) { work }`
(e.g. /repo/src/applications/contingency_analysis/ca_driver.cpp:455) on top of
`TaskManager::nextTask`, /repo/src/parallel/task_manager.hpp:98-110, including the
barrier `GA_Pgroup_sync(p_grp)` (line 107) that a process enters when it finds no
more tasks.

Simplification: the counter is an unbounded natural number (32-bit wrap-around is
treated in `Verif.Model.TaskManager`).
-/
namespace GridPACK.TaskLoop

/-- Where a process is in its loop. -/
inductive Loc where
  /-- about to call `nextTask` -/
  | calling
  /-- got `false` from the counter and waits in `GA_Pgroup_sync` -/
  | atBarrier
  /-- left the loop -/
  | done
deriving DecidableEq, Repr

/-- Whole system: counter, number of tasks, location of each process
(`procs[i]` is process `i`), and the log of (process, task) pairs executed. -/
structure Sys where
  counter : Nat
  ntasks : Nat
  procs : List Loc
  log : List (Nat × Nat)
deriving DecidableEq, Repr

/-- State right after `set(n)` on `np` processes (task_manager.hpp:84-89). -/
def init (n np : Nat) : Sys :=
  { counter := 0, ntasks := n, procs := List.replicate np .calling, log := [] }

/-- Process `p` reads the counter (task_manager.hpp:101-109).  Only a process that
is about to call can do so. -/
def call (s : Sys) (p : Nat) : Option Sys :=
  match s.procs[p]? with
  | some .calling =>
      if s.counter < s.ntasks then
        some { s with counter := s.counter + 1, log := s.log ++ [(p, s.counter)] }
      else
        some { s with counter := s.counter + 1, procs := s.procs.set p .atBarrier }
  | _ => none

/-- The barrier opens when all processes of the group are in it
(task_manager.hpp:107); `nextTask` then returns `false` everywhere. -/
def release (s : Sys) : Option Sys :=
  if s.procs ≠ [] ∧ (∀ l ∈ s.procs, l = Loc.atBarrier) then
    some { s with procs := s.procs.map (fun _ => Loc.done) }
  else none

/-- The transition relation: some process calls, or the barrier opens. -/
def Step (s t : Sys) : Prop := (∃ p, call s p = some t) ∨ release s = some t

/-- States reachable from `s`. -/
inductive Reach (s : Sys) : Sys → Prop
  | refl : Reach s s
  | tail {t u : Sys} : Reach s t → Step t u → Reach s u

end GridPACK.TaskLoop
