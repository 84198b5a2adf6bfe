/-!
Model of `gridpack::parallel::TaskManager`, /repo/src/parallel/task_manager.hpp.

One shared Global Array cell of type `C_INT` is used as counter.  `NGA_Read_inc`
is atomic, so an execution of all processes is a list of operations in the order
in which they reach the counter; every interleaving is such a list.

Simplifications: `set` is collective (all processes pass the same value, and no
request is outstanding while it runs), so `p_ntasks` is one value instead of one
copy per process.  The barrier inside a failing `nextTask` is left out here; it is
modelled in `Verif.Model.TaskLoop`.
-/
namespace GridPACK.TaskManager

/-- Value of a 32-bit two's complement cell (`C_INT`, task_manager.hpp:44). -/
def wrap32 (x : Int) : Int := Int.bmod x 4294967296

/-- State: the shared counter cell (`p_GAcounter`), `p_ntasks`, and `p_task_count`
of every process (task_manager.hpp:179-182). -/
structure Pool where
  counter : Int
  ntasks : Int
  count : Nat → Nat

/-- What a caller of `nextTask` observes: its rank, the returned flag and `*next`. -/
structure Reply where
  proc : Nat
  ok : Bool
  next : Int
deriving DecidableEq, Repr

/-- Operations on the shared pool.  `next p`: process `p` calls `nextTask(int*)`.
`groupNext ms`: the processes `ms` (rank 0 of the sub-communicator first) call
`nextTask(comm, int*)` together.  `cancel p`: process `p` calls `cancel()`.
`set n`: all processes call `set(n)`. -/
inductive Op where
  | set (n : Int)
  | next (p : Nat)
  | groupNext (ms : List Nat)
  | cancel (p : Nat)
deriving DecidableEq, Repr

/-- The decision after the counter has been read: task_manager.hpp:102-109 and
134-141. -/
def answer (ntasks v : Int) (p : Nat) : Reply :=
  if v < ntasks then { proc := p, ok := true, next := v }
  else { proc := p, ok := false, next := -1 }

/-- `p_task_count++` on success (task_manager.hpp:103 and 135). -/
def bump (count : Nat → Nat) (r : Reply) : Nat → Nat :=
  fun q => if r.ok ∧ q = r.proc then count q + 1 else count q

/-- Contribution of the member with position `i` in the sub-communicator to the
global sum: rank 0 contributes the counter value, all others 0
(task_manager.hpp:126-130). -/
def contribution (v : Int) (i : Nat) : Int := if i = 0 then v else 0

/-- `GA_Pgroup_igop(.., "+")` (task_manager.hpp:133): every member obtains the sum
of the contributions of all members. -/
def igopSum (v : Int) (size : Nat) : Int :=
  ((List.range size).map (contribution v)).foldl (· + ·) 0

/-- One operation and the replies seen by callers.
`set`: task_manager.hpp:84-89.  `next`: 98-110.  `groupNext`: 122-142 (an empty
group makes no call).  `cancel`: 150-153 (adds `p_ntasks` to the counter). -/
def step (s : Pool) : Op → Pool × List Reply
  | .set n => ({ counter := 0, ntasks := n, count := fun _ => 0 }, [])
  | .next p =>
      let r := answer s.ntasks s.counter p
      ({ s with counter := wrap32 (s.counter + 1), count := bump s.count r }, [r])
  | .groupNext ms =>
      if ms = [] then (s, []) else
      let v := igopSum s.counter ms.length
      let rs := ms.map (answer s.ntasks v)
      ({ s with counter := wrap32 (s.counter + 1), count := rs.foldl bump s.count }, rs)
  | .cancel _ => ({ s with counter := wrap32 (s.counter + s.ntasks) }, [])

/-- Final state of an execution. -/
def exec (s : Pool) (ops : List Op) : Pool :=
  ops.foldl (fun s o => (step s o).1) s

/-- Replies of an execution, one list per operation, in order. -/
def replies (s : Pool) : List Op → List (List Reply)
  | [] => []
  | o :: os => (step s o).2 :: replies (step s o).1 os

end GridPACK.TaskManager
