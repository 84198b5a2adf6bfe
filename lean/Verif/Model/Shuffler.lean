/-! Model of `Shuffler::operator()` (src/parallel/shuffler.hpp:79-169).

All processes run the function together.  `inp p` is the list of (thing, destination) pairs of
process `p` (the C++ code has two vectors of equal length, asserted at line 81).  The result is
the content of `locthings` of each process; `none` = some process indexes `tosend` outside its
bounds (undefined behaviour). -/
namespace GridPACK.Shuffler

variable {α : Type}

/-- src/parallel/shuffler.hpp:98-113: sort own items into `locthings` and `tosend`. -/
def sortOut (nprocs me : Nat) (items : List (α × Int)) : Option (List α × (Nat → List α)) :=
  items.foldl (fun (acc : Option (List α × (Nat → List α))) (it : α × Int) =>
    match acc with
    | none => none
    | some (loc, tosend) =>
      if it.2 = (me : Int) then some (loc ++ [it.1], tosend)
      else if 0 ≤ it.2 ∧ it.2 < (nprocs : Int) then
        some (loc, fun d => if d = it.2.toNat then tosend d ++ [it.1] else tosend d)
      else none)
    (some ([], fun _ => []))

/-- src/parallel/shuffler.hpp:135-144: sizes of the messages of the current source, obtained by
an all-reduce in which only the source contributes. -/
def tsizes (nprocs src : Nat) (tosend : Nat → Nat → List α) (i : Nat) : Nat :=
  ((List.range nprocs).map (fun p => if src = p then (tosend p i).length else 0)).sum

/-- src/parallel/shuffler.hpp:127-168: the receive loop of process `me`.  A message of size
greater than zero is sent by the source exactly when it is received (both test the same
all-reduced size). -/
def receive (nprocs me : Nat) (tosend : Nat → Nat → List α) (loc : List α) : List α :=
  (List.range nprocs).foldl (fun loc src =>
    let tmp :=
      if me = src then tosend src me
      else if tsizes nprocs src tosend me > 0 then tosend src me else []
    loc ++ tmp) loc

/-- src/parallel/shuffler.hpp:79-169. -/
def shuffle (nprocs : Nat) (inp : Nat → List (α × Int)) : Option (Nat → List α) :=
  if nprocs ≤ 1 then some (fun p => (inp p).map (·.1))
  else if ((List.range nprocs).map (fun p => (inp p).length)).sum = 0 then
    some (fun p => (inp p).map (·.1))
  else if (List.range nprocs).all (fun p => (sortOut nprocs p (inp p)).isSome) then
    some (fun p => receive nprocs p
      (fun src d => ((sortOut nprocs src (inp src)).map (fun r => r.2 d)).getD [])
      (((sortOut nprocs p (inp p)).map (·.1)).getD []))
  else none

end GridPACK.Shuffler
