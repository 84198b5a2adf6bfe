import Verif.Model.NetworkLookup

/-! Model of copying a network to one with other components (`BaseNetwork::clone`, src/network/base_network.hpp
1395-1444) with the functions it calls, of `clear` (1611-1708), of the reference bus (485-508) and of
`getConnectedBuses` (985-1014).  The values of a data collection are one value `δ`, copied by the assignment of
src/component/data_collection.cpp 27-39; the components themselves are not copied.  The release of the exchange
buffers in `clear` is in `Verif.Model.ExchangeBuffers`.  Exceptions are `none`. -/
namespace GridPACK.NetworkClone

/-- `BusData` (51-138) without the component. -/
structure Bus (δ : Type) where
  active : Bool
  orig : Int
  gid : Int
  nbrs : List Int
  data : δ
  refFlag : Bool

/-- `BranchData` (140-238) without the component. -/
structure Branch (δ : Type) where
  active : Bool
  gid : Int
  o1 : Int
  o2 : Int
  g1 : Int
  g2 : Int
  l1 : Int
  l2 : Int
  data : δ

/-- The members of `BaseNetwork` concerned; `maps` holds `p_busMap` and `p_branchMap`. -/
structure Net (δ : Type) where
  buses : List (Bus δ)
  branches : List (Branch δ)
  refBus : Int
  netData : δ
  busMap : List (Int × Nat)
  branchMap : List ((Int × Int) × Nat)

variable {δ : Type}

/-- `clear` (1611-1708): the maps and the data of the network stay. -/
def Net.clear (n : Net δ) : Net δ := { n with buses := [], branches := [], refBus := -1 }

/-- `addBus` (401-407); `e` is an empty data collection. -/
def Net.addBus (n : Net δ) (e : δ) (idx : Int) : Net δ :=
  { n with buses := n.buses ++ [⟨true, idx, -1, [], e, false⟩] }

/-- `addBranch` (415-423). -/
def Net.addBranch (n : Net δ) (e : δ) (idx1 idx2 : Int) : Net δ :=
  { n with branches := n.branches ++ [⟨true, -1, idx1, idx2, -1, -1, -1, -1, e⟩] }

/-- The setters of buses (518-570, 662-717) with a valid index; otherwise they do nothing. -/
def Net.modBus (n : Net δ) (i : Nat) (f : Bus δ → Bus δ) : Net δ := { n with buses := n.buses.modify i f }

/-- The setters of branches (542-655, 678-686). -/
def Net.modBranch (n : Net δ) (i : Nat) (f : Branch δ → Branch δ) : Net δ :=
  { n with branches := n.branches.modify i f }

/-- `setReferenceBus` (485-498). -/
def Net.setReferenceBus (n : Net δ) (idx : Int) : Net δ :=
  let n := { n with refBus := idx }
  if 0 ≤ idx ∧ idx < n.buses.length then n.modBus idx.toNat (fun b => { b with refFlag := true }) else n

/-- `getGlobalBusIndex` (788-802). -/
def Net.getGlobalBusIndex (n : Net δ) (idx : Int) : Option Int :=
  if idx < 0 then none else (n.buses[idx.toNat]?).map (·.gid)

/-- `setMap` (2477-2492). -/
def Net.setMap (n : Net δ) : Net δ :=
  let m := NetworkLookup.setMap ⟨n.buses.map (·.orig), n.branches.map (fun b => (b.o1, b.o2)), n.busMap, n.branchMap⟩
  { n with busMap := m.busMap, branchMap := m.branchMap }

/-- `getLocalBusIndices` (2500-2511). -/
def Net.getLocalBusIndices (n : Net δ) (idx : Int) : List Nat :=
  NetworkLookup.collect NetworkLookup.ltInt idx n.busMap

/-- `getConnectedBuses` (985-1014): reading a branch outside the list is `none`. -/
def Net.getConnectedBuses (n : Net δ) (idx : Nat) : Option (List Int) := do
  let b ← n.buses[idx]?
  b.nbrs.mapM (fun j => do
    let br ← if j < 0 then none else n.branches[j.toNat]?
    pure (if br.l1 ≠ (idx : Int) then br.l1 else br.l2))

/-- One bus of `clone` (1404-1418). -/
def cloneBus (src : Net δ) (e : δ) (n : Net δ) (i : Nat) : Option (Net δ) := do
  let b ← src.buses[i]?
  let n := n.addBus e b.orig
  let n := n.modBus i (fun c => { c with gid := b.gid })
  let n := n.modBus i (fun c => { c with data := b.data })
  let n := n.modBus i (fun c => { c with active := b.active })
  pure (b.nbrs.foldl (fun n j => n.modBus i (fun c => { c with nbrs := c.nbrs ++ [j] })) n)

/-- One branch of `clone` (1424-1439). -/
def cloneBranch (src : Net δ) (e : δ) (n : Net δ) (i : Nat) : Option (Net δ) := do
  let b ← src.branches[i]?
  let n := n.addBranch e b.o1 b.o2
  let n := n.modBranch i (fun c => { c with gid := b.gid })
  let n := n.modBranch i (fun c => { c with data := b.data })
  let n := n.modBranch i (fun c => { c with active := b.active })
  let n := n.modBranch i (fun c => { c with l1 := b.l1 })
  let n := n.modBranch i (fun c => { c with l2 := b.l2 })
  let g1 ← src.getGlobalBusIndex b.l1
  let n := n.modBranch i (fun c => { c with g1 := g1 })
  let g2 ← src.getGlobalBusIndex b.l2
  pure (n.modBranch i (fun c => { c with g2 := g2 }))

/-- `clone` (1395-1444) into the existing network `new`. -/
def clone (src : Net δ) (e : δ) (new : Net δ) : Option (Net δ) := do
  let n ← (List.range src.buses.length).foldlM (cloneBus src e) new.clear
  let n := if src.refBus ≠ -1 then n.setReferenceBus src.refBus else n
  let n ← (List.range src.branches.length).foldlM (cloneBranch src e) n
  pure ({ n with netData := src.netData }).setMap

end GridPACK.NetworkClone
