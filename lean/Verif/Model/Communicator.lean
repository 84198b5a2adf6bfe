/-! Model of `Communicator::divide` and `Communicator::split`
(src/parallel/communicator.cpp, src/parallel/communicator.hpp). -/
namespace GridPACK.Communicator

/-- src/parallel/communicator.cpp:190-199: number of communicators of full size.  C++ integer
division truncates towards zero (`Int.tdiv`).  The caller guarantees `nsize ≠ 0`. -/
def nlarge (nprocs nsize : Int) : Int :=
  let ngrp := nprocs.tdiv nsize
  let ngrp := if ngrp * nsize < nprocs then ngrp + 1 else ngrp
  let nl := if ngrp * nsize > nprocs then nprocs - (ngrp * nsize - nprocs) else nprocs
  let nl := nl.tdiv nsize
  if nprocs - nl * nsize > nsize then nl + 1 else nl

/-- src/parallel/communicator.cpp:205-209: one pass of the colour loop.  `none` = remainder by
zero (undefined behaviour in C++). -/
def colorStep (nprocs nsize : Int) (color : Option Nat) (i : Nat) : Option Nat :=
  match color with
  | none => none
  | some c =>
    let nl := nlarge nprocs nsize
    if (i : Int) < nl * nsize then
      if (i : Int).tmod nsize = 0 then some (c + 1) else some c
    else if nsize - 1 = 0 then none
    else if ((i : Int) - nl * nsize).tmod (nsize - 1) = 0 then some (c + 1) else some c

/-- src/parallel/communicator.cpp:185-210: the colour computed by rank `me`; `none` = division
by zero. -/
def color (nprocs nsize : Int) (me : Nat) : Option Nat :=
  if nsize = 0 then none
  else (List.range (me + 1)).foldl (colorStep nprocs nsize) (some 0)

/-- src/parallel/communicator.cpp:211 (`return this->split(color)`): the members of the new
communicator of rank `me`, listed by new rank.  `MPI_Comm_split` with equal keys (semantics of
the MPI standard): all ranks with the same colour, in old rank order. -/
def divide (nprocs nsize : Nat) (me : Nat) : List Nat :=
  (List.range nprocs).filter (fun r => color nprocs nsize r = color nprocs nsize me)

end GridPACK.Communicator
