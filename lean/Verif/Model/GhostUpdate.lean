import Verif.Model.GlobalIndices

/-! Models of the ghost update (`BaseNetwork::initBusUpdate`, `updateBuses`,
src/network/base_network.hpp:1995-2182; the branch versions at 2188-2375 have the same structure),
of the component numbering in `BaseFactory::setComponents`
(src/factory/base_factory.hpp:148-235), of the collective tests `checkTrue`,
`checkTrueSomewhere` (src/factory/base_factory.hpp:409-451) and of the buffer set-up in
`BaseFactory::setExchange` (src/factory/base_factory.hpp:291-327).

A Global Array is a function from positions to cells.  `NGA_Scatter` by all processes between two
synchronisations is a list of single-element writes in an arbitrary order: the parameter `ws` of
the models, which the theorems only assume to be *some* permutation of all the writes issued. -/
namespace GridPACK.GhostUpdate

/-- A network component with its exchange buffer. -/
structure XComp (K β : Type) where
  key : K
  gid : Int
  active : Bool
  buf : β
deriving DecidableEq, Repr

variable {K β : Type}

/-- src/network/base_network.hpp:2029-2040, 2046-2061: total number of active components. -/
def busTotal (n : Nat) (net : Nat → List (XComp K β)) : Nat :=
  ((List.range n).map (fun p => (net p).countP (·.active))).sum

/-- src/network/base_network.hpp:2098 and 2111: `initBusUpdate` throws on any other index. -/
def initOk (n : Nat) (net : Nat → List (XComp K β)) : Bool :=
  (List.range n).all (fun p => (net p).all (fun x => decide (0 ≤ x.gid ∧ x.gid < busTotal n net)))

/-- One element write of `NGA_Scatter`. -/
def put (ga : Nat → Option β) (w : Int × β) : Nat → Option β :=
  fun i => if i = w.1.toNat then some w.2 else ga i

/-- src/network/base_network.hpp:2095-2096, 2141-2159: the writes issued by one process: the
`icnt`-th active index with the `icnt`-th send buffer. -/
def writes (l : List (XComp K β)) : List (Int × β) :=
  List.zip ((l.filter (·.active)).map (·.gid)) ((l.filter (·.active)).map (·.buf))

/-- src/network/base_network.hpp:2161-2163: gather; `none` = a cell nobody wrote (the array is
not initialised). -/
def gather (ga : Nat → Option β) : List Int → Option (List β)
  | [] => some []
  | i :: is =>
    match ga i.toNat, gather ga is with
    | some v, some vs => some (v :: vs)
    | _, _ => none

/-- src/network/base_network.hpp:2167-2180: unpack the receive buffer into the ghosts. -/
def unpack : List (XComp K β) → List β → Option (List (XComp K β))
  | [], _ => some []
  | x :: l, rs =>
    if x.active then (unpack l rs).map (x :: ·)
    else match rs with
      | [] => none
      | r :: rs => (unpack l rs).map ({ x with buf := r } :: ·)

/-- One process after the scatter. -/
def receive (ga : Nat → Option β) (l : List (XComp K β)) : Option (List (XComp K β)) :=
  match gather ga ((l.filter (fun x => !x.active)).map (·.gid)) with
  | none => none
  | some rs => unpack l rs

/-- `initBusUpdate` followed by `updateBuses` on all processes.  The number and order of the
buses must not change between the two calls (not modelled). -/
def updateAll (n : Nat) (ws : List (Int × β)) (net : Nat → List (XComp K β)) :
    Option (Nat → Option (List (XComp K β))) :=
  if initOk n net then some (fun p => receive (ws.foldl put (fun _ => none)) (net p)) else none

/-! ### setComponents -/

/-- src/factory/base_factory.hpp:192-202: the values scattered by one process: consecutive
numbers from `offset`. -/
def numberWrites (offset : Nat) (l : List (XComp K β)) : List (Int × Int) :=
  List.zip ((l.filter (·.active)).map (·.gid))
    ((List.range (l.countP (·.active))).map (fun (icnt : Nat) => ((offset + icnt : Nat) : Int)))

/-- src/factory/base_factory.hpp:174-179. -/
def compOffset (net : Nat → List (XComp K β)) (me : Nat) : Nat :=
  ((List.range me).map (fun p => (net p).countP (·.active))).sum

/-- `NGA_Scatter`/`NGA_Gather` fail on a subscript outside the array of length `ntot`. -/
def inRange (ntot : Nat) (l : List (XComp K β)) : Bool :=
  l.all (fun x => decide (0 ≤ x.gid ∧ x.gid < ntot))

/-- src/factory/base_factory.hpp:171-228: new matrix-vector index of every local bus; the array
is zeroed first (line 189). -/
def matVecIndices (n : Nat) (ws : List (Int × Int)) (net : Nat → List (XComp K β)) :
    Option (Nat → List Int) :=
  if (List.range n).all (fun p => inRange (busTotal n net) (net p)) then
    some (fun p => (net p).map (fun x => (ws.foldl put (fun _ => some 0) x.gid.toNat).getD 0))
  else none

/-- src/factory/base_factory.hpp:230-235: a branch copies the indices of the buses at its local
ends (`getBus` throws outside the range, src/network/base_network.hpp:811). -/
def branchIndices (idx : List Int) (ends : Int × Int) : Option (Int × Int) :=
  if 0 ≤ ends.1 ∧ 0 ≤ ends.2 then
    match idx[ends.1.toNat]?, idx[ends.2.toNat]? with
    | some a, some b => some (a, b)
    | _, _ => none
  else none

/-! ### Collective tests -/

/-- src/factory/base_factory.hpp:409-426. -/
def checkTrue (n : Nat) (flag : Nat → Bool) : Bool :=
  decide (((List.range n).map (fun p => if flag p then (1 : Int) else 0)).sum = n)

/-- src/factory/base_factory.hpp:434-451. -/
def checkTrueSomewhere (n : Nat) (flag : Nat → Bool) : Bool :=
  decide (((List.range n).map (fun p => if flag p then (1 : Int) else 0)).sum > 0)

/-! ### Exchange set-up -/

/-- Collective Global Array calls. -/
inductive Coll
  | sync | sum | allocate
deriving DecidableEq, Repr

/-- src/factory/base_factory.hpp:307-316 with src/network/base_network.hpp:1744-1752 (allocXCBus)
and 1800-1803 (allocXCBusPointers): the buffer size remembered by a process with `nbus` local
buses of exchange size `size`. -/
def xcBufSize (nbus size : Nat) : Nat := if nbus > 0 then size else 0

/-- src/network/base_network.hpp:1999-2126: the collective calls of the first `initBusUpdate` on a
process with the given buffer size. -/
def initCollectives (bufSize : Nat) : List Coll :=
  [.sync] ++ (if bufSize > 0 then [.sum, .allocate] else []) ++ [.sync]

end GridPACK.GhostUpdate
