/-! Model of `NetworkAnalytics` (src/analysis/network_analytics.hpp), of the analytics interface of the
components (src/component/base_analytics_intfc.cpp) and of the queries of `BaseNetwork` that they use
(src/network/base_network.hpp).

The ranks of the communicator are the positions of a list; a collective call is a function of the
parts of the network held by all ranks.  `Communicator::sum` and `any` are taken as the sum and the
disjunction over the ranks, `boost::mpi::broadcast` as handing the value of the root to every rank.
The 32 bit limit of `int` is not modelled.  `none` as the result of a collective call: some rank
throws an exception (the others then wait in the reduction), or the root of the broadcast is not a
rank.  The data collection is modelled in `Verif.Model.DataCollection`; here it is a function from
name and optional index to the stored value.  The global number of a component is the one set by
`BaseFactory::setComponents` (src/factory/base_factory.hpp:120-146), i.e. that of the network. -/
namespace GridPACK.NetworkAnalytics

/-- A data collection: the integer entries and the entries of the type `V` that is queried. -/
structure Data (V : Type) where
  int : String → Option Int → Option Int
  val : String → Option Int → Option V

/-- A bus on a rank (src/network/base_network.hpp:100-116). -/
structure Bus (V : Type) where
  active : Bool
  orig : Int
  gid : Int
  nbrs : List Int
  data : Data V

/-- A branch on a rank (src/network/base_network.hpp:203-227): original numbers of the end buses,
global number, local positions of the end buses. -/
structure Branch (V : Type) where
  active : Bool
  o1 : Int
  o2 : Int
  gid : Int
  l1 : Int
  l2 : Int
  data : Data V

/-- The part of the network held by one rank. -/
structure Local (V : Type) where
  buses : List (Bus V)
  branches : List (Branch V)

variable {V : Type}

/-- One pass of the loop below. -/
def countUnit (stat : String) (d : Data V) (cnt : Int) (i : Nat) : Int :=
  match d.int stat (some (i : Int)) with
  | some istat => if istat > 0 then cnt + 1 else cnt
  | none => cnt + 1

/-- The loop shared by `numGenerators`, `numLoads` and `numLines`
(src/component/base_analytics_intfc.cpp:51-68, 73-90, 134-150). -/
def countUnits (num stat : String) (d : Data V) : Int :=
  let n := (d.int num none).getD 0
  (List.range n.toNat).foldl (countUnit stat d) 0

/-- `BaseBusAnalyticsInterface::numGenerators` (src/component/base_analytics_intfc.cpp:51-68). -/
def busGenerators (d : Data V) : Int := countUnits "GENERATOR_NUMBER" "GENERATOR_STAT" d

/-- `BaseBusAnalyticsInterface::numLoads` (src/component/base_analytics_intfc.cpp:73-90). -/
def busLoads (d : Data V) : Int := countUnits "LOAD_NUMBER" "LOAD_STATUS" d

/-- `BaseBranchAnalyticsInterface::numLines` (src/component/base_analytics_intfc.cpp:134-150). -/
def branchLines (d : Data V) : Int := countUnits "BRANCH_NUM_ELEMENTS" "BRANCH_STATUS" d

/-- The loop over the local components and the sum over the ranks, shared by the global counts
(src/analysis/network_analytics.hpp:70-82, 106-118, 144-156, 181-193) and by `totalBuses`,
`totalBranches` (src/network/base_network.hpp:438-451, 466-479). -/
def total {α : Type} (act : α → Bool) (f : α → Int) (parts : List (List α)) : Int :=
  (parts.map fun l => l.foldl (fun r x => if act x then r + f x else r) 0).sum

/-- `numGenerators()` (src/analysis/network_analytics.hpp:70-82). -/
def numGenerators (w : List (Local V)) : Int :=
  total (·.active) (fun b => busGenerators b.data) (w.map (·.buses))

/-- `numLoads()` (src/analysis/network_analytics.hpp:106-118). -/
def numLoads (w : List (Local V)) : Int :=
  total (·.active) (fun b => busLoads b.data) (w.map (·.buses))

/-- `numLines()` (src/analysis/network_analytics.hpp:181-193). -/
def numLines (w : List (Local V)) : Int :=
  total (·.active) (fun b => branchLines b.data) (w.map (·.branches))

/-- `totalBuses()` (src/analysis/network_analytics.hpp:222-225, src/network/base_network.hpp:438-451). -/
def totalBuses (w : List (Local V)) : Int := total (·.active) (fun _ => 1) (w.map (·.buses))

/-- `totalBranches()` (src/network/base_network.hpp:466-479). -/
def totalBranches (w : List (Local V)) : Int := total (·.active) (fun _ => 1) (w.map (·.branches))

/-- `p_localFromGlobalBusIndex` and `p_localFromGlobalBranchIndex`
(src/analysis/network_analytics.hpp:379-392, 402-415): the last active component with the number;
`none` is the value -1. -/
def localFromGlobal {α : Type} (act : α → Bool) (gid : α → Int) (l : List α) (g : Int) :
    Option Nat :=
  l.zipIdx.foldl (fun r x => if gid x.1 = g then (if act x.1 then some x.2 else r) else r) none

/-- The shape of `numGenerators(bus_idx)`, `numLoads(bus_idx)`, `numLines(branch_idx)`
(src/analysis/network_analytics.hpp:88-100, 125-137, 200-213). -/
def countAt {α : Type} (act : α → Bool) (gid : α → Int) (f : α → Int) (parts : List (List α))
    (g : Int) : Int :=
  (parts.map fun l =>
    match localFromGlobal act gid l g with
    | some i => match l[i]? with
      | some x => f x
      | none => 0
    | none => 0).sum

/-- `numGenerators(bus_idx)` (src/analysis/network_analytics.hpp:88-100). -/
def numGeneratorsAt (w : List (Local V)) (g : Int) : Int :=
  countAt (·.active) (·.gid) (fun b => busGenerators b.data) (w.map (·.buses)) g

/-- `numLoads(bus_idx)` (src/analysis/network_analytics.hpp:125-137). -/
def numLoadsAt (w : List (Local V)) (g : Int) : Int :=
  countAt (·.active) (·.gid) (fun b => busLoads b.data) (w.map (·.buses)) g

/-- `numLines(branch_idx)` (src/analysis/network_analytics.hpp:200-213). -/
def numLinesAt (w : List (Local V)) (g : Int) : Int :=
  countAt (·.active) (·.gid) (fun b => branchLines b.data) (w.map (·.branches)) g

/-- The value that one rank finds (src/analysis/network_analytics.hpp:309-321, 346-358): `none` when
the component is not here or has no such entry.  A negative device index means: no index. -/
def infoOnRank {α : Type} (act : α → Bool) (gid : α → Int) (data : α → Data V) (l : List α) (g : Int)
    (field : String) (dev : Int) : Option V :=
  match localFromGlobal act gid l g with
  | some i => match l[i]? with
    | some x => if dev < 0 then (data x).val field none else (data x).val field (some dev)
    | none => none
  | none => none

/-- `getBusInfo`, `getBranchInfo` (src/analysis/network_analytics.hpp:300-330, 337-367).  `some none`:
the call returns false and leaves the caller's variable alone; `some (some v)`: it returns true and
`v` is in the variable, on every rank. -/
def info {α : Type} (act : α → Bool) (gid : α → Int) (data : α → Data V) (parts : List (List α))
    (g : Int) (field : String) (dev : Int) : Option (Option V) :=
  let found := parts.map fun l => infoOnRank act gid data l g field dev
  if found.any (·.isSome) then
    let root := (found.zipIdx.map fun x => if x.1.isSome then (x.2 : Int) else 0).sum
    match found[root.toNat]? with
    | some (some v) => some (some v)
    | _ => none
  else some none

/-- `getBusInfo` (src/analysis/network_analytics.hpp:300-330). -/
def getBusInfo (w : List (Local V)) (g : Int) (field : String) (dev : Int) : Option (Option V) :=
  info (·.active) (·.gid) (·.data) (w.map (·.buses)) g field dev

/-- `getBranchInfo` (src/analysis/network_analytics.hpp:337-367). -/
def getBranchInfo (w : List (Local V)) (g : Int) (field : String) (dev : Int) : Option (Option V) :=
  info (·.active) (·.gid) (·.data) (w.map (·.branches)) g field dev

/-- Access by an `int` position; `none` is the exception for an illegal position
(e.g. src/network/base_network.hpp:963-978). -/
def at? {α : Type} (l : List α) (i : Int) : Option α := if 0 ≤ i then l[i.toNat]? else none

/-- The part of `getConnectedBranches` before the reduction
(src/analysis/network_analytics.hpp:251-263) on one rank: outer `none` an exception, inner `none` the
bus is not active here.  The *original* number of the bus is passed to
`BaseNetwork::getConnectedBranches` (src/network/base_network.hpp:963-978), which takes a local
position. -/
def connectedOnRank (l : Local V) (g : Int) : Option (Option (List Int)) :=
  match localFromGlobal (·.active) (·.gid) l.buses g with
  | none => some none
  | some i => match l.buses[i]? with
    | none => none
    | some b => match at? l.buses b.orig with
      | none => none
      | some c => (c.nbrs.mapM fun k => (at? l.branches k).map (·.gid)).map some

/-- `getConnectedBranches` (src/analysis/network_analytics.hpp:246-270).  When no rank holds the bus
the root is rank 0 with an empty list. -/
def getConnectedBranches (w : List (Local V)) (g : Int) : Option (List Int) :=
  match w.mapM (fun l => connectedOnRank l g) with
  | none => none
  | some r =>
    let root := (r.zipIdx.map fun x => if x.1.isSome then (x.2 : Int) else 0).sum
    match r[root.toNat]? with
    | some res => some (res.getD [])
    | none => none

/-- The part of `getBranchEndpoints` before the reduction (src/analysis/network_analytics.hpp:280-288)
on one rank.  `BaseNetwork::getOriginalBranchIndex` (src/network/base_network.hpp:768-783) takes a
local position and gives a global number; the result is used as a local position. -/
def endpointsOnRank (l : Local V) (g : Int) : Option (Int × Int) :=
  match at? l.branches g with
  | none => none
  | some b =>
    if 0 ≤ b.gid then
      match at? l.branches b.gid with
      | none => none
      | some c => if c.active then some (c.o1, c.o2) else some (0, 0)
    else some (0, 0)

/-- `getBranchEndpoints` (src/analysis/network_analytics.hpp:278-294). -/
def getBranchEndpoints (w : List (Local V)) (g : Int) : Option (Int × Int) :=
  match w.mapM (fun l => endpointsOnRank l g) with
  | none => none
  | some r => some ((r.map (·.1)).sum, (r.map (·.2)).sum)

end GridPACK.NetworkAnalytics
