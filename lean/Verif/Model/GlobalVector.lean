/-! Model of `GlobalVector` (src/parallel/global_vector.hpp).

All processes call `upload` together.  Between two synchronisations the actions of the processes are interleaved in
any way (`Interleaved`).  `GA_Zero`, `GA_Allocate` and `GA_Destroy` synchronise; `NGA_Scatter`, `NGA_Scatter_acc`,
`NGA_Access` and `memset` do not.  A scatter is a sequence of single-element writes; `own i` is the process that
holds element `i` (`NGA_Distribution`), an arbitrary function here.  `zero` is the value all bytes of which are 0. -/
namespace GridPACK.GlobalVector

variable {V : Type}

/-- An element added on a process: index and value (`addElements`, 71-84; unequal lengths add nothing). -/
abbrev Added (V : Type) := Int × V

/-- What a process does to the two arrays in `upload`. -/
inductive Act (V : Type)
  /-- add 1 to the use count of an index (172) -/
  | acc (i : Nat)
  /-- look for counts above 1 in the own part (179-193) -/
  | check
  /-- set the own part of the data array to zero (204-211) -/
  | clear
  /-- write an element (222) -/
  | put (i : Nat) (v : V)

/-- The counting actions of a process (149-193). -/
def countProg (l : List (Added V)) : List (Act V) := l.map (fun x => .acc x.1.toNat) ++ [.check]

/-- The writing actions of a process (203-223). -/
def writeProg (l : List (Added V)) : List (Act V) := .clear :: l.map (fun x => .put x.1.toNat x.2)

/-- An execution of `n` processes: each process performs its own actions in order. -/
def Interleaved (n : Nat) (prog : Nat → List (Act V)) (sched : List (Nat × Act V)) : Prop :=
  (∀ a ∈ sched, a.1 < n) ∧
  ∀ p, p < n → (sched.filter (fun a => decide (a.1 = p))).map (·.2) = prog p

/-- Use counts, and which processes have thrown. -/
structure Counts where
  count : Nat → Nat
  thrown : Nat → Bool

open Classical in
/-- Effect of an action on the counts.  (A process that throws takes no further part.) -/
noncomputable def countStep (own : Nat → Nat) (numElems : Nat) (s : Counts) (a : Nat × Act V) : Counts :=
  match a.2 with
  | .acc i => { s with count := fun j => if j = i then s.count j + 1 else s.count j }
  | .check =>
    if ∃ i, i < numElems ∧ own i = a.1 ∧ s.count i > 1 then
      { s with thrown := fun q => if q = a.1 then true else s.thrown q }
    else s
  | _ => s

/-- Effect of an action on the data array. -/
def writeStep (own : Nat → Nat) (zero : V) (g : Nat → V) (a : Nat × Act V) : Nat → V :=
  match a.2 with
  | .clear => fun i => if own i = a.1 then zero else g i
  | .put i v => fun j => if j = i then v else g j
  | _ => g

/-- The counts after an execution of the counting phase; `GA_Zero` (163) comes first. -/
noncomputable def counting (own : Nat → Nat) (numElems : Nat) (sched : List (Nat × Act V)) : Counts :=
  sched.foldl (countStep own numElems) ⟨fun _ => 0, fun _ => false⟩

/-- The data array after an execution of the writing phase, from arbitrary content. -/
def writing (own : Nat → Nat) (zero : V) (garbage : Nat → V) (sched : List (Nat × Act V)) : Nat → V :=
  sched.foldl (writeStep own zero) garbage

/-- `p_numElems` (126-140): one more than the largest index on any process. -/
def numElems (n : Nat) (adds : Nat → List (Added V)) : Int :=
  ((List.range n).flatMap adds).foldl (fun m x => if x.1 > m then x.1 else m) (-1) + 1

/-- `getData` (278-306); `none` = exception. -/
def getData (num : Int) (g : Nat → V) (idx : List Int) : Option (List V) :=
  if idx.any (fun i => decide (i < 0 ∨ i ≥ num)) then none else some (idx.map (fun i => g i.toNat))

/-- `resetElements` (91-115) on an uploaded vector: the elements kept for `reload`. -/
def resetElements (num : Int) (l : List (Added V)) : List (Added V) :=
  l.filter (fun x => !decide (x.1 ≥ num))

/-- `reload` (238-270): the writes of all processes in any order (`ws`); `none` if an index passed to `NGA_Scatter`
is outside the array. -/
def reload (num : Int) (g : Nat → V) (ws : List (Added V)) : Option (Nat → V) :=
  if ws.any (fun x => decide (x.1 < 0 ∨ x.1 ≥ num)) then none
  else some (ws.foldl (fun g x => fun j => if j = x.1.toNat then x.2 else g j) g)

end GridPACK.GlobalVector
