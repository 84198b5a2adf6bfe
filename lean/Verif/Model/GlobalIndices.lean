import Verif.Model.IndexHash

/-! Model of `BaseNetwork::resetGlobalIndices` (src/network/base_network.hpp:1452-1606).

The bus half (lines 1461-1528, key = original bus number) and the branch half (lines 1530-1605,
key = pair of original bus numbers) are the same up to the key type; they are modelled once,
generic in the key type `K` and the hash used by `GlobalIndexHashMap`.  C `int`s are unbounded
integers here.  `printf` diagnostics are left out. -/
namespace GridPACK.GlobalIndices
open GridPACK.IndexHash

/-- The part of `BusData`/`BranchData` that matters here: original number(s), global index,
active flag. -/
structure Comp (K : Type) where
  key : K
  gid : Int
  active : Bool
deriving DecidableEq, Repr

variable {K : Type} [DecidableEq K]

/-- src/network/base_network.hpp:1463-1466 (1536-1539 for branches). -/
def countActive (l : List (Comp K)) : Nat := l.countP (·.active)

/-- src/network/base_network.hpp:1467-1471: `idx_buf` holds, after the global sum, the count of
every process (each process contributes only to its own slot); the offset is the sum over lower
ranks. -/
def offset (comps : Nat → List (Comp K)) (me : Nat) : Nat :=
  ((List.range me).map (fun i => countActive (comps i))).sum

/-- src/network/base_network.hpp:1473-1479 (1547-1553). -/
def numberActive : Nat → List (Comp K) → List (Comp K)
  | _, [] => []
  | c, x :: l =>
    if x.active then { x with gid := (c : Int) } :: numberActive (c + 1) l
    else x :: numberActive c l

/-- src/network/base_network.hpp:1508-1514 (1584-1591): `std::map`, first insertion wins; the
table is searched at 1518 (1596). -/
def lookup (keys : List K) (values : List Int) (k : K) : Option Int :=
  ((List.zip keys values).find? (fun kv => decide (kv.1 = k))).map (·.2)

/-- src/network/base_network.hpp:1516-1528 (1593-1605). -/
def assignGhosts (keys : List K) (values : List Int) (l : List (Comp K)) : List (Comp K) :=
  l.map (fun x => if x.active then x else
    match lookup keys values x.key with
    | some g => { x with gid := g }
    | none => x)

/-- The whole call on all processes.  `s0`, `s1`, `s2` are the interleavings inside the
distributed hash map. -/
def resetGlobalIndices (n : Nat) (hash : K → Int) (s0 s1 s2 : Sched) (flag : Bool)
    (comps : Nat → List (Comp K)) : Option (Nat → List (Comp K)) :=
  let numbered := fun p => if flag then numberActive (offset comps p) (comps p) else comps p
  let pairs := fun p => ((numbered p).filter (fun x => x.active)).map (fun x => (x.key, x.gid))
  let keys := fun p => ((numbered p).filter (fun x => !x.active)).map (fun x => x.key)
  match addPairs n hash s0 (fun _ => []) pairs with
  | none => none
  | some umap =>
    match getValues n hash s1 s2 umap keys (fun _ => []) with
    | none => none
    | some kv => some (fun p => assignGhosts (kv p).1 (kv p).2 (numbered p))

end GridPACK.GlobalIndices
