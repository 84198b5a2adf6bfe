import Verif.Model.Exchange

/-! Model of `GlobalIndexHashMap` (src/parallel/index_hash.cpp, the build without
`HASH_WITH_MPI`, which is the one compiled because line 24 is commented out).

The integer-key and the pair-key members are textually the same except for the key type and the
record length, so they are modelled once, generic in the key type `K` and the hash.  A record of
two, three or four C `int`s (strides `2*`, `3*`, `4*` in the code) is one cell in the model.
32-bit overflow in `pairHashValue` is not modelled. -/
namespace GridPACK.IndexHash
open GridPACK.Exchange

/-- src/parallel/index_hash.cpp:1163-1166 (`%` truncates towards zero). -/
def hashValue (nprocs : Nat) (key : Int) : Int := key.tmod nprocs

/-- src/parallel/index_hash.cpp:1172-1178. -/
def pairHashValue (nprocs : Nat) (key : Int × Int) : Int := (key.2 * 1009 + key.1).tmod nprocs

/-- The interleaving of one exchange: order of the reservations and order of the writes. -/
structure Sched where
  reserve : List (Nat × Nat)
  write : List (Nat × Nat)

variable {K V : Type} [DecidableEq K]

/-- Does this hash index the arrays of length `nprocs` legally? -/
def legal (nprocs : Nat) (h : Int) : Bool := decide (0 ≤ h ∧ h < nprocs)

/-- src/parallel/index_hash.cpp:51-231 and 236-418, run by all processes.  `old` is the map held
by each process before the call, `pairs p` the argument on process `p`.  A multimap is the list
of its entries in insertion order.  `none` = array access out of bounds (hash of a negative key)
or read of uninitialised data. -/
def addPairs (nprocs : Nat) (hash : K → Int) (sch : Sched) (old : Nat → List (K × V))
    (pairs : Nat → List (K × V)) : Option (Nat → List (K × V)) :=
  if (List.range nprocs).all (fun p => (pairs p).all (fun kv => legal nprocs (hash kv.1))) then
    let send := fun p d => packed (fun kv : K × V => (hash kv.1).toNat) (pairs p) d
    let totalVals := base (offsets (fun p d => (send p d).length) sch.reserve).counter nprocs
    if totalVals = 0 then some old
    else exchange nprocs send sch.reserve sch.write
  else none

/-- src/parallel/index_hash.cpp:656-673: answers of one home process to the requests it received:
`find` followed by iteration up to `upper_bound` visits the entries with that key in insertion
order. -/
def answers (umap : List (K × V)) (reqs : List (K × Nat)) : List (K × Nat × V) :=
  reqs.flatMap (fun r => (umap.filter (fun kv => decide (kv.1 = r.1))).map
    (fun kv => (r.1, r.2, kv.2)))

/-- src/parallel/index_hash.cpp:424-779 and 785-1155, run by all processes.  `keys p` and
`vals p` are the arguments on process `p`; the result is the pair of both vectors on every
process. -/
def getValues (nprocs : Nat) (hash : K → Int) (s1 s2 : Sched) (umap : Nat → List (K × V))
    (keys : Nat → List K) (vals : Nat → List V) : Option (Nat → List K × List V) :=
  if (List.range nprocs).all (fun p => (keys p).all (fun k => legal nprocs (hash k))) then
    let send1 := fun p d => packed (fun r : K × Nat => (hash r.1).toNat)
        ((keys p).map (fun k => (k, p))) d
    let totalVals := base (offsets (fun p d => (send1 p d).length) s1.reserve).counter nprocs
    if totalVals = 0 then some (fun p => (keys p, vals p))
    else
      match exchange nprocs send1 s1.reserve s1.write with
      | none => none
      | some reqs =>
        let send2 := fun d p => (packed (fun a : K × Nat × V => a.2.1)
            (answers (umap d) (reqs d)) p).map (fun a => (a.1, a.2.2))
        match exchange nprocs send2 s2.reserve s2.write with
        | none => none
        | some out => some (fun p => ((out p).map (·.1), (out p).map (·.2)))
  else none

end GridPACK.IndexHash
