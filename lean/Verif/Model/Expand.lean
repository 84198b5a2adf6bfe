import Verif.Model.StringUtils

/-! Model of `BasePTIParser::expandBusModels` (src/parser/base_pti_parser.hpp 151-287) and `Cmldblu1Parser::expandModel`
(src/parser/parser_classes/cmldblu1.hpp 3489-3529): composite loads become a transformer, a low side bus, a feeder and a load bus.

Numbers are unbounded integers.  The parameters copied to the new buses and branches are not part of this model (see
Composite.lean); the renumbering at the end is the subject of GlobalIndices.lean, the lookup maps made by `setComponents` that of
NetworkLookup.lean.  `BUS_NUMBER` of the data of a bus is its original number. -/
namespace GridPACK.Expand
open GridPACK.StringUtils (Str)

/-- A local bus: its number, whether the process owns it, the value of LOAD_MODEL of each of its loads (none for a load without
dynamic model), its local branches. -/
structure Bus where
  number : Int
  active : Bool
  models : List (Option Str)
  nbrs : List Nat
deriving DecidableEq, Repr

/-- A local branch: numbers of its ends, local indices of its ends. -/
structure Branch where
  frm : Int
  tob : Int
  l1 : Nat
  l2 : Nat
  active : Bool
deriving DecidableEq, Repr

structure Proc where
  buses : List Bus
  branches : List Branch
deriving DecidableEq, Repr

/-- The name of the model of composite loads (186). -/
def composite : Str := "CMLDBLU1".toList

/-- Largest number of the buses of a process (155-166). -/
def localMax (p : Proc) : Int :=
  p.buses.foldl (fun m b => if b.active && decide (m < b.number) then b.number else m) (-1)

/-- `communicator().max` (167). -/
def maxIdx (procs : List Proc) : Int := (procs.map localMax).foldl max (-1)

/-- `comp_buses` (178-202): the local index of the bus, for each composite load. -/
def comps (p : Proc) : List Nat :=
  p.buses.zipIdx.flatMap (fun b =>
    if b.1.active then (b.1.models.filter (fun m => m == some composite)).map (fun _ => b.2) else [])

/-- `added_buses` (215-225): two for each composite load. -/
def added (p : Proc) : Nat := 2 * (comps p).length

/-- `offset[me]` (227-231). -/
def offset (procs : List Proc) (me : Nat) : Nat := ((procs.take me).map added).sum

/-- The new buses (233-251); `base` is `offset[me]+max_idx+1`.  The load bus has four loads (cmldblu1.hpp 3153), without name of a
model. -/
def newBuses (p : Proc) (base : Int) : List Bus :=
  (comps p).zipIdx.flatMap (fun c =>
    [⟨base + 2 * c.2, true, [], []⟩, ⟨base + 2 * c.2 + 1, true, [none, none, none, none], []⟩])

/-- `BUS_NUMBER` of the bus at a local index. -/
def numberOf (p : Proc) (i : Nat) : Int := ((p.buses[i]?).map (·.number)).getD 0

/-- The new branches (257-275): from the bus of the load to the low side bus, and from there to the load bus. -/
def newBranches (p : Proc) (base : Int) : List Branch :=
  (comps p).zipIdx.flatMap (fun c =>
    [⟨numberOf p c.1, base + 2 * c.2, c.1, p.buses.length + 2 * c.2, true⟩,
      ⟨base + 2 * c.2, base + 2 * c.2 + 1, p.buses.length + 2 * c.2, p.buses.length + 2 * c.2 + 1, true⟩])

/-- `addBranchNeighbor` (base_network.hpp 709-718). -/
def addNbr (bs : List Bus) (i k : Nat) : List Bus := bs.modify i (fun b => { b with nbrs := b.nbrs ++ [k] })

/-- `addBranchNeighbor` for both ends of the new branches (271-272). -/
def linkAll (bs : List Bus) (l : List (Branch × Nat)) : List Bus :=
  l.foldl (fun bs e => addNbr (addNbr bs e.1.l1 e.2) e.1.l2 e.2) bs

/-- `expandBusModels` on one process. -/
def expandOn (procs : List Proc) (me : Nat) (p : Proc) : Proc :=
  ⟨linkAll (p.buses ++ newBuses p (offset procs me + maxIdx procs + 1))
      ((newBranches p (offset procs me + maxIdx procs + 1)).zipIdx p.branches.length),
    p.branches ++ newBranches p (offset procs me + maxIdx procs + 1)⟩

/-- `expandBusModels` on all processes; nothing happens without composite loads (203-208). -/
def expand (procs : List Proc) : List Proc :=
  if ((procs.map (fun p => (comps p).length)).sum = 0) then procs
  else procs.zipIdx.map (fun p => expandOn procs p.2 p.1)

end GridPACK.Expand
