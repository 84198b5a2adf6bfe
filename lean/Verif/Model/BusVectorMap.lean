/-! Model of `BusVectorMap` (src/mapper/bus_vector_map.hpp).

A process holds a list of buses.  `size` is the answer of `vectorSize` (`none` = returns false) and
`vals` what `vectorValues` writes.  Simplifications: `vectorSize` gives the same answer whenever it
is asked (the mapper asks several times), `vectorValues` fills all `size` entries, timers are left
out, real and complex versions are the same code and are one definition over any value type.  The
`GA_Pgroup_igop` sum is the exact sum.  The math vector is a function from positions to values; as
in PETSc, `addElements` calls of different processes may take effect in any order. -/
namespace GridPACK.BusVectorMap

structure Bus (V : Type) where
  active : Bool
  size : Option Nat
  vals : Nat → V

abbrev Proc (V : Type) := List (Bus V)

variable {V : Type}

/-- The test of the loops of `contributions` (367-405): active and `vectorSize` returns true; the
value is the number of elements. -/
def contribution (b : Bus V) : Option Nat := if b.active then b.size else none

/-- First loop of `contributions` (375-391): `p_LocOffsets` (−1 = `none`), `p_LocSize`, and the
running `p_numValues`. -/
def locLoop : Nat → List (Bus V) → List (Option Nat × Nat)
  | _, [] => []
  | n, b :: bs =>
    match contribution b with
    | some s => (some n, s) :: locLoop (n + s) bs
    | none => (none, 0) :: locLoop n bs

/-- Second loop of `contributions` (395-404): contributing buses with `p_ISize`. -/
def contributing (p : Proc V) : List (Bus V × Nat) :=
  p.filterMap (fun b => (contribution b).map (fun s => (b, s)))

/-- `p_numValues` (line 382). -/
def numValues (p : Proc V) : Nat := (p.map (fun b => (contribution b).getD 0)).sum

/-- `offset` of `setBusIndexArrays` (414-432): sum of the value counts of the lower ranks. -/
def base (ps : List (Proc V)) (me : Nat) : Nat := ((ps.map numValues).take me).sum

/-- `p_Offsets` (440-442). -/
def offsetLoop : Nat → List Nat → List Nat
  | _, [] => []
  | jcnt, n :: l => jcnt :: offsetLoop (jcnt + n) l

/-- `p_Indices` (443-446): one counter runs over all values. -/
def indices (offset : Nat) (sizes : List Nat) : List Nat := List.range' offset sizes.sum

/-- Indices and values of one bus in `loadBusData` (293-302). -/
def busWrites (e : Bus V × Nat) (idx : Nat) : List (Nat × V) :=
  (List.range e.2).map (fun j => (idx + j, e.1.vals j))

/-- The index/value buffers of `loadBusData` of process `me` (291-308). -/
def writes (offset : Nat) (p : Proc V) : List (Nat × V) :=
  ((contributing p).zip (offsetLoop offset ((contributing p).map (·.2)))).flatMap
    (fun e => busWrites e.1 e.2)

/-- All `addElements` data. -/
def allWrites (ps : List (Proc V)) : List (Nat × V) :=
  ps.zipIdx.flatMap (fun e => writes (base ps e.2) e.1)

/-- Length of the vector created by `Vector(comm, p_numValues)` (line 76). -/
def total (ps : List (Proc V)) : Nat := (ps.map numValues).sum

/-- `addElements` of one element. -/
def addElement [Add V] (v : Nat → V) (w : Nat × V) : Nat → V :=
  fun r => if r = w.1 then v r + w.2 else v r

/-- The vector after `zero()` and the additions in the order `ws` (`mapToVector`, 73-90,
145-160). -/
def assemble [Zero V] [Add V] (ws : List (Nat × V)) : Nat → V := ws.foldl addElement (fun _ => 0)

/-- `mapToBus` (203-224): values are fetched at `p_Indices`; each contributing bus gets the pointer
to its part.  Result: the values seen by each contributing bus (its first `isize` values). -/
def mapToBusLoop : List V → List (Bus V × Nat) → List (List V)
  | _, [] => []
  | vptr, e :: l => vptr.take e.2 :: mapToBusLoop (vptr.drop e.2) l

def mapToBus (offset : Nat) (v : Nat → V) (p : Proc V) : List (List V) :=
  mapToBusLoop ((indices offset ((contributing p).map (·.2))).map v) (contributing p)

end GridPACK.BusVectorMap
