/-! Model of `BaseNetwork::clean` (src/network/base_network.hpp:1266-1385).  The release of the
exchange buffers at its start (lines 1272-1318) is modelled in `Verif.Model.ExchangeBuffers`. -/
namespace GridPACK.NetworkClean

/-- `BusData` (src/network/base_network.hpp:60-130): `data` stands for the component pointer and
the data collection pointer. -/
structure BusRec (β : Type) where
  active : Bool
  orig : Int
  gid : Int
  nbrs : List Int
  data : β
deriving DecidableEq, Repr

/-- `BranchData` (src/network/base_network.hpp:203-227); `l1`, `l2` are the local indices of the
end buses. -/
structure BranchRec (γ : Type) where
  active : Bool
  o1 : Int
  o2 : Int
  gid : Int
  l1 : Int
  l2 : Int
  data : γ
deriving DecidableEq, Repr

structure Net (β γ : Type) where
  buses : List (BusRec β)
  branches : List (BranchRec γ)
  refBus : Int

/-- `std::map::find` on the index maps built below. -/
def find (m : List (Int × Int)) (k : Int) : Option Int :=
  (m.find? (fun e => decide (e.1 = k))).map (·.2)

/-- One iteration of the compaction loop, src/network/base_network.hpp:1323-1329 (branches) and
1339-1345 (buses): the element is copied down *in place* and the index map is extended. -/
def compactStep {α : Type} (act : α → Bool) (st : List α × Nat × List (Int × Int)) (i : Nat) :
    List α × Nat × List (Int × Int) :=
  match st.1[i]? with
  | none => st
  | some x =>
    if act x then (st.1.set st.2.1 x, st.2.1 + 1, st.2.2 ++ [((i : Int), (st.2.1 : Int))]) else st

/-- src/network/base_network.hpp:1321-1334 and 1337-1350: the loop followed by `pop_back` for the
surplus elements. -/
def compact {α : Type} (act : α → Bool) (l : List α) : List α × List (Int × Int) :=
  let st := (List.range l.length).foldl (compactStep act) (l, 0, [])
  (st.1.take (l.length - (l.length - st.2.1)), st.2.2)

variable {β γ : Type}

/-- src/network/base_network.hpp:1355-1367. -/
def relocate (busMap : List (Int × Int)) (b : BranchRec γ) : BranchRec γ :=
  { b with l1 := (find busMap b.l1).getD (-1), l2 := (find busMap b.l2).getD (-1) }

/-- src/network/base_network.hpp:1371-1381. -/
def renumber (branchMap : List (Int × Int)) (b : BusRec β) : BusRec β :=
  { b with nbrs := b.nbrs.filterMap (find branchMap) }

/-- src/network/base_network.hpp:1320-1385.  Line 1383 uses `operator[]`, which yields 0 for a
missing key. -/
def clean (net : Net β γ) : Net β γ :=
  let br := compact (·.active) net.branches
  let bu := compact (·.active) net.buses
  { buses := bu.1.map (renumber br.2)
    branches := br.1.map (relocate bu.2)
    refBus := if net.refBus ≠ -1 then (find bu.2 net.refBus).getD 0 else net.refBus }

end GridPACK.NetworkClean
