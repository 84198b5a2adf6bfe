/-! Model of the exchange buffer bookkeeping of `BaseNetwork`
(src/network/base_network.hpp:1713-1989): `allocXCBus`, `freeXCBus`, `allocXCBusPointers`,
`setXCBusBuffer`, `getXCBusBuffer` and their branch counterparts, together with the index checks
of the ordinary accessors (lines 518-1036).

Memory is modelled explicitly: the pointer array is null, live or freed, and every entry of a live
array is uninitialised, a buffer owned by the network, or a buffer supplied by the caller.  Any
access outside a live array, any use of a null or freed array, any read or deletion of an
uninitialised entry and any deletion of a caller's buffer is the outcome `ub`. -/
namespace GridPACK.ExchangeBuffers

/-- Bus buffers or branch buffers; the code of the two differs in `alloc`. -/
inductive Kind
  | bus | branch
deriving DecidableEq, Repr

inductive Cell
  | uninit | own | ext
deriving DecidableEq, Repr

inductive Ptr
  | null
  | live (cells : List Cell)
  | freed
deriving DecidableEq, Repr

/-- `count` = number of local buses (branches); `leaked` counts buffers that were lost without
being deleted (not in the code; for the statement of the property). -/
structure St where
  count : Nat := 0
  bufSize : Nat := 0
  ptr : Ptr := .null
  allocated : Bool := false
  external : Bool := false
  leaked : Nat := 0
deriving DecidableEq, Repr

inductive Outcome
  | ok (s : St)
  | throws (s : St)
  | ub
deriving DecidableEq, Repr

/-- The loop `for(i=0; i<nsize; i++) delete [] p_busXCBuffers[i]`: fine iff the first `count`
entries exist and are owned buffers. -/
def canDelete (count : Nat) (cells : List Cell) : Bool :=
  decide (count ≤ cells.length) && (cells.take count).all (fun c => decide (c = .own))

/-- The clean-up block common to alloc, free and allocPointers (lines 1731-1742, 1761-1775,
1787-1798; branches 1870-1882, 1900-1914, 1947-1958), up to the assignment of `p_external`.
Deleting the pointer array leaves the pointer dangling. -/
def cleanup (s : St) : Option St :=
  if s.bufSize ≠ 0 ∧ s.ptr ≠ .null then
    match s.ptr with
    | .live cells =>
      if s.allocated ∧ ¬ s.external then
        if canDelete s.count cells then
          some { s with allocated := false, ptr := .freed, bufSize := 0,
                        leaked := s.leaked + (cells.drop s.count).countP (fun c => decide (c = .own)) }
        else none
      else
        some { s with allocated := false, ptr := .freed, bufSize := 0,
                      leaked := s.leaked + cells.countP (fun c => decide (c = .own)) }
    | _ => none
  else some s

/-- Was the clean-up block entered? -/
def entered (s : St) : Bool := decide (s.bufSize ≠ 0) && decide (s.ptr ≠ .null)

/-- `allocXCBranch` sets `p_external_branch` to true in its clean-up block (1881); `allocXCBus`
does not touch the flag there. -/
def markExternal (k : Kind) (before s : St) : St :=
  { s with external := if k = .branch ∧ entered before = true then true else s.external }

/-- The allocation proper (1743-1752, 1883-1891); only the bus version resets the flag
`p_external_bus`. -/
def allocNew (k : Kind) (s : St) (size : Int) : St :=
  if size > 0 ∧ s.count > 0 then
    { s with ptr := .live (List.replicate s.count .own), bufSize := size.toNat, allocated := true,
             external := if k = .bus then false else s.external }
  else s

/-- `allocXCBus` (1717-1753) and `allocXCBranch` (1856-1892). A negative size throws before
anything else. -/
def alloc (k : Kind) (s : St) (size : Int) : Outcome :=
  if size < 0 then .throws s
  else match cleanup s with
    | none => .ub
    | some s' => .ok (allocNew k (markExternal k s s') size)

/-- `freeXCBus` (1758-1776), `freeXCBranch` (1897-1915). -/
def free (s : St) : Outcome :=
  match cleanup s with
  | none => .ub
  | some s' => .ok (if entered s then { s' with external := false } else s')

/-- `allocXCBusPointers` (1782-1805), `allocXCBranchPointers` (1942-1965). -/
def allocPointers (s : St) (size : Int) : Outcome :=
  match cleanup s with
  | none => .ub
  | some s' =>
    .ok (if size > 0 then
      { s' with ptr := .live (List.replicate s'.count .uninit), bufSize := size.toNat,
                external := true }
    else { s' with external := true })

/-- `setXCBusBuffer` (1812-1829), `setXCBranchBuffer` (1972-1989). -/
def setBuffer (s : St) (idx : Int) : Outcome :=
  if s.ptr ≠ .null ∧ 0 ≤ idx ∧ idx < s.count then
    match s.ptr with
    | .live cells => if idx.toNat < cells.length then
        .ok { s with ptr := .live (cells.set idx.toNat .ext) } else .ub
    | _ => .ub
  else .throws s

/-- `getXCBusBuffer` (1836-1850), `getXCBranchBuffer` (1922-1936): note `idx > size`, not
`idx >= size`. -/
def getBuffer (s : St) (idx : Int) : Outcome :=
  if idx < 0 ∨ idx > s.count then .throws s
  else match s.ptr with
    | .live cells =>
      match cells[idx.toNat]? with
      | some .uninit => .ub
      | some _ => .ok s
      | none => .ub
    | _ => .ub

inductive Op
  | add
  | alloc (size : Int)
  | free
  | allocPointers (size : Int)
  | set (idx : Int)
  | get (idx : Int)
deriving DecidableEq, Repr

/-- One call; `add` is `addBus`/`addBranch` (lines 401-423). -/
def step (k : Kind) (s : St) : Op → Outcome
  | .add => .ok { s with count := s.count + 1 }
  | .alloc n => alloc k s n
  | .free => free s
  | .allocPointers n => allocPointers s n
  | .set i => setBuffer s i
  | .get i => getBuffer s i

/-- A history of calls; an exception leaves the object usable, `none` = undefined behaviour. -/
def run (k : Kind) : St → List Op → Option St
  | s, [] => some s
  | s, op :: ops =>
    match step k s op with
    | .ok s' => run k s' ops
    | .throws s' => run k s' ops
    | .ub => none

/-! ### Ordinary accessors -/

/-- Shape of `getActiveBus`, `getOriginalBusIndex`, `getGlobalBusIndex`, `getBus`, `getBusData`,
`getConnectedBranches`, `getActiveBranch`, `getGlobalBranchIndex`, `getBranch`, `getBranchData`,
`getOriginalBranchEndpoints`, `getBranchEndpoints` (lines 726-1036): the value read, `none` = an
exception.  Reading the array past its end would be the inner `none`. -/
def checkedGet {α β : Type} (arr : List α) (f : α → β) (idx : Int) : Option (Option β) :=
  if idx < 0 ∨ idx ≥ arr.length then none else some ((arr[idx.toNat]?).map f)

/-- Shape of the setters (lines 518-717): new array and returned flag. -/
def checkedSet {α : Type} (arr : List α) (f : α → α) (idx : Int) : List α × Bool :=
  if idx < 0 ∨ idx ≥ arr.length then (arr, false) else (arr.modify idx.toNat f, true)

end GridPACK.ExchangeBuffers
