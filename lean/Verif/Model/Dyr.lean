import Verif.Model.RawBus
import Verif.Model.HashDistr

/-! Model of reading a .dyr file (parameters of the devices of a dynamic simulation): src/parser/base_pti_parser.hpp
`find_ds_par` (1520-1767; the parameters are put into the data collections at once, in the following "direct") and
`find_ds_vector` (1769-1966) with `getDSExternal` (1016-1260; the parameters are put into structs on process 0,
distributed and then put into the data collections, "external").  The functions `parse`, `store` and `extract` of
the classes in src/parser/parser_classes are lists of steps of the same form; this file says what a step does, the
lists are in DyrTables.lean.

Simplifications: the steps start from the tokens of a record (`splitPSSELine` is modelled in BlockParser); `atoi`,
`atof`, `clean2Char`, `trimQuotes` with `toUpper` and the conversion of a double to an int are functions; a struct
is a function from member names to values, an uninitialised one an arbitrary such function; `char` arrays are
strings of any length; an access outside a vector is `none`. -/
namespace GridPACK.Dyr
open StringUtils DataCollection
open RawBus (Val Data)

/-- `atoi`, `atof`, `clean2Char`, `trimQuotes` followed by `toUpper`, `trimQuotes` alone, and the conversion from
double to int. -/
structure Conv where
  atoi : Str → Int
  atof : Str → ℝ
  tag : Str → Str
  name : Str → Str
  plain : Str → Str
  trunc : ℝ → Int

/-- A value with its type. -/
abbrev AnyVal := Σ t : Ty, Val t

/-- What `parse` and `store` make from the tokens: `atoi(split_line[n])`, `atof(split_line[n])`, `atof` stored in an
int, the model name, the two-character name, `true`. -/
inductive Src where
  | int (n : Nat)
  | dbl (n : Nat)
  | trunc (n : Nat)
  | name (n : Nat)
  | tag (n : Nat)
  | yes
deriving DecidableEq

/-- The type of the value. -/
def Src.ty : Src → Ty
  | .int _ => .int
  | .dbl _ => .double
  | .trunc _ => .int
  | .name _ => .string
  | .tag _ => .string
  | .yes => .bool

/-- The value; `none` if there is no such token. -/
def Src.eval (cv : Conv) (ts : List Str) : Src → Option AnyVal
  | .int n => ts[n]?.map (fun t => ⟨.int, cv.atoi t⟩)
  | .dbl n => ts[n]?.map (fun t => ⟨.double, cv.atof t⟩)
  | .trunc n => ts[n]?.map (fun t => ⟨.int, cv.trunc (cv.atof t)⟩)
  | .name n => ts[n]?.map (fun t => ⟨.string, cv.name t⟩)
  | .tag n => ts[n]?.map (fun t => ⟨.string, cv.tag t⟩)
  | .yes => some ⟨.bool, true⟩

/-- What `extract` takes from the struct: a member, or `true`. -/
inductive FSrc where
  | field (t : Ty) (f : String)
  | yes
deriving DecidableEq

/-- The type of the value. -/
def FSrc.ty : FSrc → Ty
  | .field t _ => t
  | .yes => .bool

/-- The structs `gen_params`, `bus_relay_params`, `branch_relay_params`, `load_params` (base_pti_parser.hpp
399-1008): member `f` of type `t` is `s t f`. -/
abbrev Struct := (t : Ty) → String → Val t

/-- The value. -/
def FSrc.eval (s : Struct) : FSrc → AnyVal
  | .field t f => ⟨t, s t f⟩
  | .yes => ⟨.bool, true⟩

/-- A step of `parse` or `extract`:
`if (nstr > guard) { if (!data->getValue(probeKey,&var,idx)) data->addValue(addKey, add, idx);
else data->setValue(setKey, set, idx); }` with a variable of type `probe`; there may be no guard. -/
structure Entry (α : Type) where
  guard : Option Nat
  probeKey : String
  probe : Ty
  addKey : String
  add : α
  setKey : String
  set : α

/-- A step of `store`: `if (nstr > guard) data.field = src;`. -/
structure SEntry where
  guard : Option Nat
  field : String
  src : Src

/-- `nstr > guard`. -/
def passes (nstr : Nat) : Option Nat → Bool
  | none => true
  | some g => g < nstr

/-- One step of `parse` or `extract`. -/
def runEntry {α : Type} (val : α → Option AnyVal) (nstr : Nat) (idx : Option Int) (e : Entry α) (c : Data) :
    Option Data :=
  if passes nstr e.guard then
    match (mapKey ⟨e.probeKey.toList, idx⟩).map (fun s => (DataCollection.find (c e.probe) s).isSome) with
    | none => none
    | some false => (val e.add).bind (fun v => addValue c v.1 ⟨e.addKey.toList, idx⟩ v.2)
    | some true => (val e.set).bind (fun v => (setValue c v.1 ⟨e.setKey.toList, idx⟩ v.2).map (·.1))
  else some c

/-- `parse` or `extract`. -/
def runEntries {α : Type} (val : α → Option AnyVal) (nstr : Nat) (idx : Option Int) :
    List (Entry α) → Data → Option Data
  | [], c => some c
  | e :: es, c => (runEntry val nstr idx e c).bind (runEntries val nstr idx es)

/-- Assignment to a member. -/
def Struct.put (s : Struct) (f : String) (v : AnyVal) : Struct :=
  fun t g => if h : v.1 = t ∧ g = f then h.1 ▸ v.2 else s t g

/-- `store`. -/
def runStore (cv : Conv) (ts : List Str) : List SEntry → Struct → Option Struct
  | [], s => some s
  | e :: es, s =>
    if passes ts.length e.guard then
      (e.src.eval cv ts).bind (fun v => runStore cv ts es (s.put e.field v))
    else runStore cv ts es s

/-- One class of src/parser/parser_classes. -/
structure Kind where
  parse : List (Entry Src)
  store : List SEntry
  extract : List (Entry FSrc)

/-- `parse(split_line, data, idx)`. -/
def Kind.runParse (k : Kind) (cv : Conv) (ts : List Str) (idx : Option Int) (c : Data) : Option Data :=
  runEntries (Src.eval cv ts) ts.length idx k.parse c

/-- `extract(data_struct, data, idx)`. -/
def Kind.runExtract (k : Kind) (s : Struct) (idx : Option Int) (c : Data) : Option Data :=
  runEntries (fun f => some (FSrc.eval s f)) 0 idx k.extract c

/-! Steps of the usual form. -/

def pFlag (k : String) : Entry Src := ⟨none, k, .bool, k, .yes, k, .yes⟩
def pInt (k : String) (n : Nat) : Entry Src := ⟨some n, k, .int, k, .int n, k, .int n⟩
def pDbl (k : String) (n : Nat) : Entry Src := ⟨some n, k, .double, k, .dbl n, k, .dbl n⟩
def pName (k : String) (n : Nat) : Entry Src := ⟨none, k, .string, k, .name n, k, .name n⟩
def pNameG (k : String) (n : Nat) : Entry Src := ⟨some n, k, .string, k, .name n, k, .name n⟩
def pTag (k : String) (n : Nat) : Entry Src := ⟨none, k, .string, k, .tag n, k, .tag n⟩
def pTagG (k : String) (n : Nat) : Entry Src := ⟨some n, k, .string, k, .tag n, k, .tag n⟩
def eFlag (k : String) : Entry FSrc := ⟨none, k, .bool, k, .yes, k, .yes⟩
def eInt (k f : String) : Entry FSrc := ⟨none, k, .int, k, .field .int f, k, .field .int f⟩
def eDbl (k f : String) : Entry FSrc := ⟨none, k, .double, k, .field .double f, k, .field .double f⟩
def eStr (k f : String) : Entry FSrc := ⟨none, k, .string, k, .field .string f, k, .field .string f⟩
def sInt (f : String) (n : Nat) : SEntry := ⟨some n, f, .int n⟩
def sDbl (f : String) (n : Nat) : SEntry := ⟨some n, f, .dbl n⟩

end GridPACK.Dyr
