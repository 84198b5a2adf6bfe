import Verif.Model.StringUtils
import Verif.Model.NetworkLookup

/-! Model of reading generators, branches and generator costs from a MATPOWER file: `MAT_parser` (src/parser/MAT_parser.hpp),
functions `parse_generators` (281-374), `parse_branches` (376-488), `parse_gen_costs` (512-576) and `get_char_id` (737-752).

The model starts from rows whose words have been converted to numbers; the values that are copied to the data collection under
the index of the element are one value of an arbitrary type.  The rows in front of the line with `];` are given as a list. -/
namespace GridPACK.MatPower
open GridPACK.StringUtils (Str clean2Char)
open GridPACK.NetworkLookup (ltInt)

/-- Character before cleaning (739-750). -/
def rawId (idx : Nat) : Str :=
  if idx < 10 then [Char.ofNat (48 + idx)]
  else if idx < 36 then [Char.ofNat (65 + idx - 10)]
  else if idx < 100 then [Char.ofNat (48 + idx / 10), Char.ofNat (48 + idx % 10)]
  else []

/-- `get_char_id` (737-752); `none`: exception of `clean2Char`. -/
def charId (idx : Nat) : Option Str :=
  match clean2Char (rawId idx) with
  | .ok s => some s
  | _ => none

/-- A row of the generator block. -/
structure GenRow (α : Type) where
  bus : Int
  vals : α

/-- A generator stored with a bus: number of the bus, index of the element, identifier, values. -/
structure GenEntry (α : Type) where
  bus : Int
  idx : Nat
  id : Str
  vals : α

/-- `genmap`, the stored generators (also `p_gen_bus`, `p_gen_dev`), `GENERATOR_NUMBER` of each bus. -/
structure GenState (α : Type) where
  genmap : List (Int × Nat)
  entries : List (GenEntry α)
  number : Int → Option Nat

/-- The count of the entries from the first one for the bus to the end of the multimap (303-308). -/
def devIndex (m : List (Int × Nat)) (b : Int) : Nat :=
  match m.dropWhile (fun e => ltInt e.1 b) with
  | [] => 0
  | e :: l => if e.1 = b then (e :: l).length else 0

/-- `GENERATOR_NUMBER` (361-366): `addValue` for the first generator, `setValue` for others. -/
def setNumber (old : Option Nat) (n : Nat) : Option Nat :=
  if n = 0 then (match old with
    | some x => some x
    | none => some (n + 1))
  else old.map (fun _ => n + 1)

/-- One row (288-370); rows for buses that are not in the file are skipped. -/
def readGen (known : Int → Bool) (st : GenState α) (r : GenRow α) : Option (GenState α) :=
  if known r.bus then
    (charId (devIndex st.genmap r.bus + 1)).map (fun id =>
      { genmap := NetworkLookup.insert ltInt r.bus (devIndex st.genmap r.bus) st.genmap
        entries := st.entries ++ [⟨r.bus, devIndex st.genmap r.bus, id, r.vals⟩]
        number := fun b => if b = r.bus then setNumber (st.number b) (devIndex st.genmap r.bus) else st.number b })
  else some st

/-- `parse_generators`. -/
def parseGens (known : Int → Bool) (rows : List (GenRow α)) : Option (GenState α) :=
  rows.foldlM (readGen known) ⟨[], [], fun _ => none⟩

/-- A row of the branch block. -/
structure BrRow (α : Type) where
  frm : Int
  tob : Int
  vals : α

/-- An element of a branch: `BRANCH_SWITCHED`, `BRANCH_CKT`, the other values. -/
structure BrElem (α : Type) where
  switched : Bool
  ckt : Str
  vals : α

/-- A branch: `BRANCH_FROMBUS`, `BRANCH_TOBUS`, `BRANCH_INDEX`, elements. -/
structure Branch (α : Type) where
  frm : Int
  tob : Int
  index : Nat
  elems : List (BrElem α)

/-- `p_branchData`, `p_branchMap`, `index`. -/
structure BrState (α : Type) where
  branches : List (Branch α)
  map : List ((Int × Int) × Nat)
  index : Nat

/-- Where the element goes (393-421): an existing branch, the same in the other direction, or a new one. -/
def place (st : BrState α) (r : BrRow α) : BrState α × Nat × Bool :=
  match st.map.lookup (r.frm, r.tob) with
  | some n => (st, n, false)
  | none => match st.map.lookup (r.tob, r.frm) with
    | some n => (st, n, true)
    | none => ({ branches := st.branches ++ [⟨r.frm, r.tob, st.index, []⟩], map := st.map ++ [((r.frm, r.tob), st.index)],
                 index := st.index + 1 }, st.branches.length, false)

/-- One row (386-486).  `none`: access outside of `p_branchData` or exception. -/
def readBranch (st : BrState α) (r : BrRow α) : Option (BrState α) :=
  match (place st r).1.branches[(place st r).2.1]? with
  | none => none
  | some b => (charId (b.elems.length + 1)).map (fun ckt =>
      { (place st r).1 with
        branches := (place st r).1.branches.modify (place st r).2.1
          (fun b => { b with elems := b.elems ++ [⟨(place st r).2.2, ckt, r.vals⟩] }) })

/-- `parse_branches` with the map the parser has at the beginning: `parse` clears `p_busData`, `p_branchData` and `p_busMap`
(76-78) and not `p_branchMap`. -/
def parseBranches (map : List ((Int × Int) × Nat)) (rows : List (BrRow α)) : Option (BrState α) :=
  rows.foldlM readBranch ⟨[], map, 0⟩

/-- A row of the cost block: model, number of parameters, parameters. -/
structure CostRow (α : Type) where
  model : Int
  npar : Nat
  pars : List α

/-- A cost row attached to a generator (bus, index), active or reactive part. -/
structure CostEntry (α : Type) where
  gen : Int × Nat
  reactive : Bool
  row : CostRow α

/-- What can happen in the cost block: the entries, no end (the `continue` statements 530, 538, 545, 554, 562, 569 do not read
another line), access outside of `p_gen_bus`. -/
inductive Costs (α : Type) where
  | done (l : List (CostEntry α))
  | endless
  | outside

/-- Model 1 has pairs, model 2 coefficients; there must be enough of them. -/
def CostRow.good (r : CostRow α) : Bool :=
  (decide (r.model = 1) && decide (2 * r.npar ≤ r.pars.length)) || (decide (r.model = 2) && decide (r.npar ≤ r.pars.length))

/-- `parse_gen_costs` from row number `gcnt` on; `gens` are `p_gen_bus` and `p_gen_dev`. -/
def parseCosts (gens : List (Int × Nat)) : Nat → List (CostRow α) → Costs α
  | _, [] => .done []
  | gcnt, r :: rs =>
    match gens[if gcnt < gens.length then gcnt else gcnt - gens.length]? with
    | none => .outside
    | some g => if r.good then
        match parseCosts gens (gcnt + 1) rs with
        | .done l => .done (⟨g, decide (gens.length ≤ gcnt), r⟩ :: l)
        | .endless => .endless
        | .outside => .outside
      else .endless

end GridPACK.MatPower
