import Verif.Model.Shuffler

/-! Model of `GraphPartitionerImplementation::partition`
(src/partition/graph_partitioner_implementation.cpp:121-493) and of the data movement in
`BaseNetwork::partition` (src/network/base_network.hpp:1046-1234). -/
namespace GridPACK.Partition
open GridPACK.Shuffler

/-- The part of `BusData` (src/network/base_network.hpp) that matters here. -/
structure Bus where
  gid : Nat
  orig : Int
  active : Bool
deriving DecidableEq, Repr

/-- The part of `BranchData` that matters here; `g1`, `g2` are the global bus indices recovered
from the adjacency list (src/network/base_network.hpp:1080-1088). -/
structure Branch where
  gid : Nat
  g1 : Nat
  g2 : Nat
  active : Bool
deriving DecidableEq, Repr

/-- src/partition/graph_partitioner_implementation.cpp:228-235: destination of an edge: that of
its lower numbered end.  `nd` is the node destination array filled by the underlying partitioner
(`p_partition`, line 177) and made global by scatter/gather (lines 189-209). -/
def edgeDest (nd : Nat → Nat) (e : Branch) : Nat := nd (min e.g1 e.g2)

/-- src/partition/graph_partitioner_implementation.cpp:260-268. -/
def ghostEdgeDest (nd : Nat → Nat) (e : Branch) : Nat := nd (max e.g1 e.g2)

/-- src/partition/graph_partitioner_implementation.cpp:431-436: append a destination to the row
of node `nid` in the two-dimensional array with `cap` columns; `none` = column out of bounds. -/
def pushRow (cap : Nat) (rows : Nat → List Nat) (nid dest : Nat) : Option (Nat → List Nat) :=
  if (rows nid).length < cap then
    some (fun i => if i = nid then rows i ++ [dest] else rows i)
  else none

/-- src/partition/graph_partitioner_implementation.cpp:413-445: one edge. -/
def ghostRowStep (cap : Nat) (nd : Nat → Nat) (rows : Option (Nat → List Nat)) (e : Branch) :
    Option (Nat → List Nat) :=
  match rows with
  | none => none
  | some rows =>
    if edgeDest nd e ≠ ghostEdgeDest nd e then
      match pushRow cap rows (min e.g1 e.g2) (ghostEdgeDest nd e) with
      | none => none
      | some rows => pushRow cap rows (max e.g1 e.g2) (edgeDest nd e)
    else some rows

/-- src/partition/graph_partitioner_implementation.cpp:407-450: the processes take turns, each
going through its local edges. -/
def ghostRows (n cap : Nat) (nd : Nat → Nat) (branches : Nat → List Branch) :
    Option (Nat → List Nat) :=
  ((List.range n).flatMap branches).foldl (ghostRowStep cap nd) (some (fun _ => []))

/-- Remove adjacent duplicates. -/
def dedupAdj : List Nat → List Nat
  | [] => []
  | [a] => [a]
  | a :: b :: l => if a = b then dedupAdj (b :: l) else a :: dedupAdj (b :: l)

/-- src/partition/graph_partitioner_implementation.cpp:476-484: `stable_sort` followed by
`std::unique` *without* `erase`: the vector keeps its length; behind the distinct values there
are left-over values.  (The standard leaves those unspecified; libstdc++ and libc++ leave the old
contents for `int`s, which is modelled here.) -/
def sortUnique (row : List Nat) : List Nat :=
  if row.length > 1 then
    let s := row.mergeSort (fun a b => decide (a ≤ b))
    dedupAdj s ++ s.drop (dedupAdj s).length
  else row

/-- Network part held by one process. -/
structure Local where
  buses : List Bus
  branches : List Branch

/-- src/network/base_network.hpp:1110-1122. -/
def ghostBuses (rows : Nat → List Nat) (buses : List Bus) : List (Bus × Int) :=
  buses.flatMap (fun b => (sortUnique (rows b.gid)).map (fun (d : Nat) => (b, Int.ofNat d)))

/-- src/network/base_network.hpp:1130-1140. -/
def ghostBranches (nd : Nat → Nat) (branches : List Branch) : List (Branch × Int) :=
  branches.filterMap (fun e =>
    if edgeDest nd e ≠ ghostEdgeDest nd e then
      some ({ e with active := false }, (ghostEdgeDest nd e : Int)) else none)

/-- src/network/base_network.hpp:1046-1179: distribute active and ghost buses and branches. -/
def partition (n cap : Nat) (nd : Nat → Nat) (buses : Nat → List Bus)
    (branches : Nat → List Branch) : Option (Nat → Local) :=
  match ghostRows n cap nd branches with
  | none => none
  | some rows =>
    match shuffle n (fun p => (buses p).map (fun b => (b, (nd b.gid : Int)))),
      shuffle n (fun p => (branches p).map (fun e => (e, (edgeDest nd e : Int)))),
      shuffle n (fun p => ghostBuses rows (buses p)),
      shuffle n (fun p => ghostBranches nd (branches p)) with
    | some ab, some ae, some gb, some ge => some (fun p =>
        ⟨ab p ++ (gb p).map (fun b => { b with active := false }), ae p ++ ge p⟩)
    | _, _, _, _ => none

/-- src/network/base_network.hpp:1188-1194, 1204-1210: the map from global to local bus index;
later entries overwrite earlier ones, and a missing key yields 0 (`operator[]`). -/
def localIndex (buses : List Bus) (g : Nat) : Nat :=
  (buses.zipIdx.foldl (fun (acc : Option Nat) bi => if bi.1.gid = g then some bi.2 else acc)
    none).getD 0

end GridPACK.Partition
