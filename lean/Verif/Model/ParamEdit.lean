import Verif.Model.DataCollection
import Verif.Model.StringUtils

/-! Model of the functions that change and read input parameters of the network: `modifyDataCollectionGenParam`,
`...LoadParam`, `...BusParam`, `...BranchParam` and `getDataCollection...Param` of `PFAppModule`
(src/applications/modules/powerflow/pf_app_module.hpp 488-860, pf_app_module.cpp 1258-1421), on one process.  The functions of
`DSFullApp` (dsf_app_module.hpp 850-965, dsf_app_module.cpp 4611-4667) are the same except that the identifier is cleaned
once, and those of `HADRECAppModule` (hadrec_app_module.cpp 680-843) pass on to these.

`getLocalBusIndices(id)` gives the local buses with this original number in local order (C18).  Indices of elements with more
than seven digits, for which the data collection has undefined behaviour, count as missing. -/
namespace GridPACK.ParamEdit
open GridPACK.DataCollection (Ty Coll Key mapKey find setValue getValue)
open GridPACK.StringUtils (Str clean2Char)

/-- Values of each type; `R` stands for the floating point numbers. -/
abbrev Val (R : Type) : Ty → Type
  | .int => Int
  | .long => Int
  | .bool => Bool
  | .string => Str
  | .float => R
  | .double => R
  | .complex => R × R

/-- The two overloads of each function: `double` and `int`. -/
inductive Num where
  | int | double
deriving DecidableEq

/-- Type of the data collection used by the overload. -/
def Num.ty : Num → Ty
  | .int => .int
  | .double => .double

/-- A local bus or branch: original number(s), ownership, data. -/
structure Item (K R : Type) where
  key : K
  active : Bool
  data : Coll (Val R)

/-- Names of the entries with the number and the identifiers of elements: `GENERATOR_NUMBER`, `GENERATOR_ID`; `LOAD_NUMBER`,
`LOAD_ID`; `BRANCH_NUM_ELEMENTS`, `BRANCH_CKT`. -/
inductive Kind where
  | gen | load | branch
deriving DecidableEq

def Kind.number : Kind → Str
  | .gen => "GENERATOR_NUMBER".toList
  | .load => "LOAD_NUMBER".toList
  | .branch => "BRANCH_NUM_ELEMENTS".toList

def Kind.ids : Kind → Str
  | .gen => "GENERATOR_ID".toList
  | .load => "LOAD_ID".toList
  | .branch => "BRANCH_CKT".toList

/-- Entry of a data collection. -/
def entry (c : Coll (Val R)) (t : Ty) (k : Key) : Option (Val R t) := (mapKey k).bind (find (c t))

/-- The search for the element (pf_app_module.hpp 504-519, 557-570, 635-649, 691-707, ...). -/
def elemIndex (k : Kind) (c : Coll (Val R)) (tag : Str) : Option Nat :=
  match entry c .int ⟨k.number, none⟩ with
  | none => none
  | some n => (List.range (Int.toNat n)).find? (fun j => decide (entry c .string ⟨k.ids, some (j : Int)⟩ = some tag))

/-- `data->setValue(param,value,i)` with the flag. -/
def setAt (c : Coll (Val R)) (t : Num) (key : Key) (v : Val R t.ty) : Coll (Val R) × Bool :=
  match setValue c t.ty key v with
  | some r => r
  | none => (c, false)

/-- `data->getValue(param,value,i)` with the flag. -/
def getAt (c : Coll (Val R)) (t : Num) (key : Key) (old : Val R t.ty) : Bool × Val R t.ty :=
  match getValue c t.ty key old with
  | some r => r
  | none => (false, old)

/-- Body of the loop of the `modify` functions for elements. -/
def setElem (k : Kind) (tag param : Str) (t : Num) (v : Val R t.ty) (c : Coll (Val R)) : Coll (Val R) × Bool :=
  match elemIndex k c tag with
  | none => (c, false)
  | some i => setAt c t ⟨param, some (i : Int)⟩ v

/-- Body of the loop of the `get` functions for elements. -/
def getElem (k : Kind) (tag param : Str) (t : Num) (c : Coll (Val R)) (old : Val R t.ty) : Bool × Val R t.ty :=
  match elemIndex k c tag with
  | none => (false, old)
  | some i => getAt c t ⟨param, some (i : Int)⟩ old

/-- Loop over the selected local buses or branches, copies of other processes included (500-529). -/
def modifyWith (sel : K → Bool) (f : Coll (Val R) → Coll (Val R) × Bool) (items : List (Item K R)) : List (Item K R) × Bool :=
  (items.map (fun it => if sel it.key then { it with data := (f it.data).1 } else it),
    items.any (fun it => sel it.key && (f it.data).2))

/-- Loop over the selected local buses or branches that the process owns (679-714). -/
def getWith {β : Type} (sel : K → Bool) (g : Coll (Val R) → β → Bool × β) (items : List (Item K R)) (old : β) : Bool × β :=
  items.foldl (fun acc it => if sel it.key && it.active then (acc.1 || (g it.data acc.2).1, (g it.data acc.2).2) else acc)
    (false, old)

/-- `modifyDataCollectionGenParam`, `modifyDataCollectionLoadParam`: the identifier is cleaned here (pf_app_module.cpp
1262-1296) and in the template (pf_app_module.hpp 493-495).  `none`: exception of `clean2Char`. -/
def modifyElem (k : Kind) (items : List (Item Int R)) (bus : Int) (id param : Str) (t : Num) (v : Val R t.ty) :
    Option (List (Item Int R) × Bool) :=
  match clean2Char id with
  | .ok id1 => match clean2Char id1 with
    | .ok tag => some (modifyWith (fun o => decide (o = bus)) (setElem k tag param t v) items)
    | _ => none
  | _ => none

/-- `getDataCollectionGenParam`, `getDataCollectionLoadParam` (664-770): the identifier is cleaned once. -/
def readElem (k : Kind) (items : List (Item Int R)) (bus : Int) (id param : Str) (t : Num) (old : Val R t.ty) :
    Option (Bool × Val R t.ty) :=
  match clean2Char id with
  | .ok tag => some (getWith (fun o => decide (o = bus)) (getElem k tag param t) items old)
  | _ => none

/-- `modifyDataCollectionBusParam` (590-609). -/
def modifyBus (items : List (Item Int R)) (bus : Int) (param : Str) (t : Num) (v : Val R t.ty) : List (Item Int R) × Bool :=
  modifyWith (fun o => decide (o = bus)) (fun c => setAt c t ⟨param, none⟩ v) items

/-- `getDataCollectionBusParam` (781-802). -/
def readBus (items : List (Item Int R)) (bus : Int) (param : Str) (t : Num) (old : Val R t.ty) : Bool × Val R t.ty :=
  getWith (fun o => decide (o = bus)) (fun c => getAt c t ⟨param, none⟩) items old

/-- `getLocalBranchIndices(bus1,bus2)` (base_network.hpp 2519-2542): the branches from `i` to `j`, if there are none those from
`j` to `i`. -/
def branchSel (items : List (Item (Int × Int) R)) (i j : Int) : Int × Int → Bool :=
  if items.any (fun it => decide (it.key = (i, j))) then fun o => decide (o = (i, j)) else fun o => decide (o = (j, i))

/-- `modifyDataCollectionBranchParam` (621-662). -/
def modifyBranch (items : List (Item (Int × Int) R)) (i j : Int) (ckt param : Str) (t : Num) (v : Val R t.ty) :
    Option (List (Item (Int × Int) R) × Bool) :=
  match clean2Char ckt with
  | .ok tag => some (modifyWith (branchSel items i j) (setElem .branch tag param t v) items)
  | _ => none

/-- `getDataCollectionBranchParam` (814-857). -/
def readBranch (items : List (Item (Int × Int) R)) (i j : Int) (ckt param : Str) (t : Num) (old : Val R t.ty) :
    Option (Bool × Val R t.ty) :=
  match clean2Char ckt with
  | .ok tag => some (getWith (branchSel items i j) (getElem .branch tag param t) items old)
  | _ => none

end GridPACK.ParamEdit
