import Verif.Model.RawBus
import Verif.Model.RawBranch
import Verif.Model.BusTable

/-! Model of reading a PSS/E RAW file of version 23: src/parser/PTI23_parser.hpp (`getCase` 102-188, `find_case`
190-229, `find_buses` 231-347, `find_generators` 349-496, `find_branches` 498-632, `find_transformer` 637-848,
`find_area` 850-881, `find_shunt` 915-1098; `cleanComment` of src/parser/base_pti_parser.hpp 2061-2086 has the text
modelled in BlockParser), and of the first line of a file of version 33 to 35
(src/parser/block_parsers/case_parser33.cpp 42-88, the same text in case_parser34.cpp).

Simplifications: the model starts from the tokens of the lines of the blocks (`splitPSSELine`, comments and the end
of a block are modelled in BlockParser and RawRecords); `atoi`, `atof` and `clean2Char` are functions on tokens; an
access outside a vector is `none`; `p_check_v23` and what is printed are left out; of the values of a branch those
kept as they are in the file (ratings) are left out; the values `TRANSFORMER_...` of an element are the tokens of
the first transformer line for it (`addValue` keeps the first value of a key). -/
namespace GridPACK.Raw23
open StringUtils BlockParser DataCollection RawBus

/-- `find_case` (190-229): case number and base power; the line is split at blanks only, with
`token_compress_on` (`BusTable.split`). -/
def header (cv : Conv) (line : Str) : Option (Int × ℝ) :=
  match BusTable.split (cleanComment line) with
  | a :: b :: _ => some (cv.atoi a, cv.atof b)
  | _ => none

/-- `CaseParser33::parse` (case_parser33.cpp 49-68): the line is split at commas only. -/
def header33 (cv : Conv) (line : Str) : Option (Int × ℝ) :=
  match splitComma (cleanComment line) with
  | a :: b :: _ => some (cv.atoi a, cv.atof b)
  | _ => none

/-! ### Buses -/

/-- The name of a bus (260-265): trimmed when it contains a quote. -/
def busName (t : Str) : Str := if '\'' ∈ t then trim t else t

/-- Values of a bus (251-308) without index. -/
def busFields (sbase : ℝ) (caseId : Int) : List Field :=
  [intAt "BUS_NUMBER" 0, ⟨"CASE_SBASE".toList, .double, fun _ _ _ _ => some sbase⟩,
    ⟨"CASE_ID".toList, .int, fun _ _ _ _ => some caseId⟩,
    ⟨"BUS_NAME".toList, .string, fun _ _ _ ts => ts[9]?.map busName⟩,
    dblAt "BUS_BASEKV" 10, intAt "BUS_TYPE" 1, intAt "BUS_ZONE" 11, intAt "BUS_AREA" 6,
    dblAt "BUS_VOLTAGE_MAG" 7, dblAt "BUS_VOLTAGE_ANG" 8, intAt "BUS_OWNER" 6]

/-- A constant. -/
def intC (name : String) (n : Int) : Field := ⟨name.toList, .int, fun _ _ _ _ => some n⟩
def dblC (name : String) (x : ℝ) : Field := ⟨name.toList, .double, fun _ _ _ _ => some x⟩
def strC (name : String) (s : Str) : Field := ⟨name.toList, .string, fun _ _ _ _ => some s⟩

/-- Values of the shunt of a bus (284-293): without index, and with index 0. -/
def shuntPlain : List Field :=
  [dblAt "BUS_SHUNT_GL" 4, dblAt "BUS_SHUNT_BL" 5, busField "SHUNT_BUSNUMBER", intC "SHUNT_NUMBER" 1]

def shuntIdx : List Field := [dblAt "BUS_SHUNT_GL" 4, dblAt "BUS_SHUNT_BL" 5, strC "SHUNT_ID" "1 ".toList]

/-- Values of the load of a bus (321-338). -/
def loadPlain : List Field := [intC "LOAD_NUMBER" 1, busField "LOAD_BUSNUMBER"]

def loadIdx : List Field :=
  [dblAt "LOAD_PL" 2, dblAt "LOAD_QL" 3, dblC "LOAD_IP" 0, dblC "LOAD_IQ" 0, dblC "LOAD_YP" 0, dblC "LOAD_YQ" 0,
    strC "LOAD_ID" "1 ".toList, intC "LOAD_STATUS" 1]

/-- A value of the record, 0 if there is no such token (`gl`, `bl`, `pl`, `ql`: 274-283, 311-320). -/
def dblOr (cv : Conv) (ts : List Str) (n : Nat) : ℝ :=
  match ts[n]? with
  | some t => cv.atof t
  | none => 0

/-- The data collection of one line of the bus block (249-338). -/
noncomputable def busData (cv : Conv) (sbase : ℝ) (caseId : Int) (o : Int) (ts : List Str) : Option Data :=
  (addFields cv o 0 ts none (busFields sbase caseId) empty).bind (fun c =>
    (open Classical in if dblOr cv ts 4 ≠ 0 ∨ dblOr cv ts 5 ≠ 0 then
      (addFields cv o 0 ts none shuntPlain c).bind (addFields cv o 0 ts (some 0) shuntIdx)
    else some c).bind (fun c =>
      open Classical in if dblOr cv ts 2 ≠ 0 ∨ dblOr cv ts 3 ≠ 0 then
        (addFields cv o 0 ts (some 0) loadIdx c).bind (addFields cv o 0 ts none loadPlain)
      else some c))

/-- One line of the bus block (241-342): `split_line[9]` is used without a check. -/
noncomputable def readBus (cv : Conv) (sbase : ℝ) (caseId : Int) (t : Tables) (ts : List Str) : Option Tables :=
  match ts with
  | [] => none
  | a :: _ =>
    if ts.length < 10 then none
    else (busData cv sbase caseId (cv.atoi a) ts).map (fun c =>
      { t with
        bus := t.bus ++ [c]
        busMap := t.busMap ++ [(cv.atoi a, t.bus.length)] })

/-- `find_buses`. -/
noncomputable def readBuses (cv : Conv) (sbase : ℝ) (caseId : Int) (t : Tables) : List (List Str) → Option Tables
  | [] => some t
  | r :: rs => (readBus cv sbase caseId t r).bind (fun t => readBuses cv sbase caseId t rs)

/-! ### Generators -/

/-- Values of a generator (381-479). -/
def genKind : Kind where
  count := "GENERATOR_NUMBER".toList
  need := 2
  skipNeg := false
  plain := []
  fields := [intAt "GENERATOR_BUSNUMBER" 0, tagAt "GENERATOR_ID" 1, dblAt "GENERATOR_PG" 2,
    dblAt "GENERATOR_QG" 3, dblAt "GENERATOR_QMAX" 4, dblAt "GENERATOR_QMIN" 5, dblAt "GENERATOR_VS" 6,
    intAt "GENERATOR_IREG" 7, dblAt "GENERATOR_MBASE" 8, cplxAt "GENERATOR_ZSOURCE" 9,
    cplxAt "GENERATOR_XTRAN" 11, dblAt "GENERATOR_RT" 11, dblAt "GENERATOR_XT" 12, dblAt "GENERATOR_GTAP" 13,
    intAt "GENERATOR_STAT" 14, dblAt "GENERATOR_RMPCT" 15, dblAt "GENERATOR_PMAX" 16, dblAt "GENERATOR_PMIN" 17,
    dblAt "GENERATOR_REACTANCE" 18, dblAt "GENERATOR_RESISTANCE" 19, dblAt "GENERATOR_TRANSIENT_REACTANCE" 20,
    dblAt "GENERATOR_SUBTRANSIENT_REACTANCE" 21, dblAt "GENERATOR_INERTIA_CONSTANT_H" 22,
    dblAt "GENERATOR_DAMPING_COEFFICIENT_0" 23]

/-- One line of the generator block (357-491): a complex value takes its second part without a check. -/
def readGen (cv : Conv) (t : Tables) (ts : List Str) : Option Tables :=
  match ts with
  | [] => none
  | s :: _ =>
    match lookup t.busMap (cv.atoi s) with
    | none => some t
    | some l =>
      if ts.length < 2 ∨ ts.length = 10 ∨ ts.length = 12 then none
      else
        match t.bus[l]? with
        | none => none
        | some c => (addDev cv genKind (cv.atoi s) c ts).map (fun c => { t with bus := t.bus.set l c })

/-- `find_generators`. -/
def readGens (cv : Conv) (t : Tables) : List (List Str) → Option Tables
  | [] => some t
  | r :: rs => (readGen cv t r).bind (fun t => readGens cv t rs)

/-! ### Switched shunts -/

/-- Values of a switched shunt (940-1094), all without index. -/
def swFields : List Field :=
  [intAt "SWSHUNT_BUSNUMBER" 0, intAt "SHUNT_MODSW" 1, dblAt "SHUNT_VSWHI" 2, dblAt "SHUNT_VSWLO" 3,
    intAt "SHUNT_SWREM" 4, dblAt "SHUNT_BINIT" 5,
    intAt "SHUNT_N1" 6, intAt "SHUNT_N2" 8, intAt "SHUNT_N3" 10, intAt "SHUNT_N4" 12, intAt "SHUNT_N5" 14,
    intAt "SHUNT_N6" 16, intAt "SHUNT_N7" 18, intAt "SHUNT_N8" 20, dblAt "SHUNT_B1" 7, dblAt "SHUNT_B2" 9,
    dblAt "SHUNT_B3" 11, dblAt "SHUNT_B4" 13, dblAt "SHUNT_B5" 15, dblAt "SHUNT_B6" 17, dblAt "SHUNT_B7" 19,
    dblAt "SHUNT_B8" 21]

/-- One line of the switched shunt block (920-1097): seven tokens are used without a check. -/
def readSw (cv : Conv) (t : Tables) (ts : List Str) : Option Tables :=
  match ts with
  | [] => none
  | s :: _ =>
    match lookup t.busMap (cv.atoi s) with
    | none => some t
    | some l =>
      if ts.length < 7 then none
      else
        match t.bus[l]? with
        | none => none
        | some c => (addFields cv 0 0 ts none swFields c).map (fun c => { t with bus := t.bus.set l c })

/-- `find_shunt`. -/
def readSws (cv : Conv) (t : Tables) : List (List Str) → Option Tables
  | [] => some t
  | r :: rs => (readSw cv t r).bind (fun t => readSws cv t rs)

/-! ### Areas -/

/-- Values of an area (862-875). -/
def areaFields : List Field :=
  [intAt "AREAINTG_NUMBER" 0, intAt "AREAINTG_ISW" 1, dblAt "AREAINTG_PDES" 2, dblAt "AREAINTG_PTOL" 3,
    ⟨"AREAINTG_NAME".toList, .string, fun _ _ _ ts => ts[4]?⟩]

/-- The loop of `find_area` (857-880): `n` is `ncnt`; five tokens are used without a check. -/
def readAreas (cv : Conv) : Int → Data → List (List Str) → Option Data
  | n, c, [] => addValue c .int ⟨"AREA_TOTAL".toList, none⟩ n
  | n, c, ts :: rs =>
    if ts.length < 5 then none
    else (addFields cv 0 0 ts (some n) areaFields c).bind (fun c => readAreas cv (n + 1) c rs)

/-! ### Branches -/

open RawBranch in
/-- The element made of a line of the branch block (567-627): sixteen tokens are used without a check. -/
def lineEl (cv : Conv) (switched : Bool) (ts : List Str) : Option El :=
  match ts with
  | _ :: _ :: ckt :: r :: x :: b :: _ :: _ :: _ :: tap :: shift :: g1 :: b1 :: g2 :: b2 :: status :: _ =>
    some ⟨cv.tag ckt, some (cv.atof r), some (cv.atof x), some (cv.atof b), some (cv.atof tap),
      some (cv.atof shift), some (cv.atof g1), some (cv.atof b1), some (cv.atof g2), some (cv.atof b2),
      some (cv.atoi status), some switched⟩
  | _ => none

/-- The two buses of a line (513-518): the sign is dropped. -/
def ends (cv : Conv) (ts : List Str) : Int × Int :=
  (|cv.atoi (ts.headD [])|, |cv.atoi (ts.tail.headD [])|)

open RawBranch in
/-- One line of the branch block (507-631). -/
def readLine (cv : Conv) (st : St) (ts : List Str) : Option St :=
  let k := ends cv ts
  match find st.map k with
  | some n =>
    match st.branches[n]?, lineEl cv false ts with
    | some _, some e => some { st with branches := addEl st.branches n e }
    | _, _ => none
  | none =>
    match find st.map (k.2, k.1) with
    | some n =>
      match st.branches[n]?, lineEl cv true ts with
      | some _, some e => some { st with branches := addEl st.branches n e }
      | _, _ => none
    | none =>
      (lineEl cv false ts).map (fun e =>
        { st with
          branches := st.branches ++ [⟨k.1, k.2, st.index, [e]⟩]
          map := insert st.map k st.index
          index := st.index + 1 })

/-- `find_branches`. -/
def readLines (cv : Conv) (st : RawBranch.St) : List (List Str) → Option RawBranch.St
  | [] => some st
  | l :: ls => (readLine cv st l).bind (fun s => readLines cv s ls)

/-! ### Transformers -/

/-- What has been stored for elements of branches: position of the branch, of the element, tokens of the line. -/
abbrev Adj := List ((Nat × Nat) × List Str)

/-- One pass of the loop of `find_transformer` (647-847): the new values and whether the next line has been read.
Two tokens are used without a check before the branch is found, three before the circuit is, ten afterwards. -/
def xfPass (cv : Conv) (st : RawBranch.St) (adj : Adj) (ts : List Str) : Option (Adj × Bool) :=
  if ts.length < 2 then none
  else
    match RawBranch.find st.map (ends cv ts) with
    | none => some (adj, true)
    | some l =>
      match ts[2]?, st.branches[l]? with
      | some ckt, some b =>
        match b.elems.findIdx? (fun e => e.ckt = cv.tag ckt) with
        | none => some (adj, false)
        | some i => if ts.length < 10 then none else some (adj ++ [((l, i), ts)], true)
      | _, _ => none

/-- Values stored for an element by a transformer line (700-743). -/
def xfFields : List Field :=
  [intAt "TRANSFORMER_CONTROL" 3, dblAt "TRANSFORMER_RMA" 4, dblAt "TRANSFORMER_RMI" 5, dblAt "TRANSFORMER_VMA" 6,
    dblAt "TRANSFORMER_VMI" 7, dblAt "TRANSFORMER_STEP" 8, dblAt "TRANSFORMER_TABLE" 9]

/-- `getValue` of such a value of element `i` of branch `l`. -/
def xfInt (cv : Conv) (adj : Adj) (l i : Nat) (name : String) : Option Int :=
  xfFields.findSome? (fun f =>
    if h : f.ty = .int ∧ f.name = name.toList then
      (lookup adj (l, i)).bind (fun ts => (f.value cv 0 0 ts).map (fun v => (cast (by rw [h.1]; rfl) v : Int)))
    else none)

def xfDbl (cv : Conv) (adj : Adj) (l i : Nat) (name : String) : Option ℝ :=
  xfFields.findSome? (fun f =>
    if h : f.ty = .double ∧ f.name = name.toList then
      (lookup adj (l, i)).bind (fun ts => (f.value cv 0 0 ts).map (fun v => (cast (by rw [h.1]; rfl) v : ℝ)))
    else none)

/-- How a loop ends. -/
inductive Run (α : Type)
  | done (a : α)
  | running
  | undefined

/-- At most `n` passes of the loop of `find_transformer`. -/
def readXfs (cv : Conv) (st : RawBranch.St) : Nat → Adj → List (List Str) → Run Adj
  | _, adj, [] => .done adj
  | 0, _, _ :: _ => .running
  | n + 1, adj, ts :: rs =>
    match xfPass cv st adj ts with
    | none => .undefined
    | some (adj, true) => readXfs cv st n adj rs
    | some (adj, false) => readXfs cv st n adj (ts :: rs)

/-! ### A file -/

/-- The blocks of a file. -/
structure File where
  sbase : ℝ
  caseId : Int
  buses : List (List Str)
  gens : List (List Str)
  lines : List (List Str)
  xfs : List (List Str)
  areas : List (List Str)
  switched : List (List Str)

/-- What is read. -/
structure Case where
  buses : List Data
  branches : List RawBranch.BrData
  adj : Adj
  net : Data

/-- `getCase` (102-136): `p_busData`, `p_branchData` and `p_busMap` are cleared, `p_branchMap` keeps what was read
before (`old`); `net` is the data collection of the network.  At most `n` passes are made in the transformer
block. -/
noncomputable def getCase (cv : Conv) (n : Nat) (old : List ((Int × Int) × Nat)) (net : Data) (f : File) :
    Run (Case × List ((Int × Int) × Nat)) :=
  match (readBuses cv f.sbase f.caseId ⟨[], [], []⟩ f.buses).bind (fun t => readGens cv t f.gens),
      readLines cv ⟨[], old, 0, 0, []⟩ f.lines with
  | some t, some st =>
    match readXfs cv st n [] f.xfs with
    | .done adj =>
      match readAreas cv 0 net f.areas, readSws cv t f.switched with
      | some net, some t => .done (⟨t.bus, st.branches, adj, net⟩, st.map)
      | _, _ => .undefined
    | .running => .running
    | .undefined => .undefined
  | _, _ => .undefined

end GridPACK.Raw23
