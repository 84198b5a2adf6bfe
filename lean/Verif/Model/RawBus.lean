import Verif.Model.BlockParser
import Verif.Model.DataCollection
import Mathlib.Data.Real.Basic

/-! Model of reading the buses of a PSS/E RAW file (version 33) and the devices at them, and of loading the
shunt of a bus: src/parser/block_parsers/bus_parser33.cpp, load_parser33.cpp, fixed_shunt_parser33.cpp,
generator_parser33.cpp, switched_shunt_parser33.cpp, `getBusIndex` (base_block_parser.cpp 242-258), the parts of
src/parser/PTI33_parser.hpp `getCase` (199-298) that call them, and `YMBus::load`
(src/applications/components/y_matrix/ymatrix_components.cpp 143-166).

Simplifications: the model starts from the tokens of the lines (`splitPSSELine` and comments are modelled in
BlockParser and RawRecords); `atoi`, `atof` and `clean2Char` are functions on tokens; a `std::map` is a list of
pairs whose first pair for a key counts; an access outside a vector and undefined behaviour are `none`; the values
of one record are added in another order (they have different keys). -/
namespace GridPACK.RawBus
open StringUtils BlockParser DataCollection

/-- C++ types of the values of a data collection; doubles are real numbers. -/
def Val : Ty → Type
  | .int => Int
  | .long => Int
  | .bool => Bool
  | .string => Str
  | .float => ℝ
  | .double => ℝ
  | .complex => ℝ × ℝ

/-- `atoi`, `atof` and `clean2Char`. -/
structure Conv where
  atoi : Str → Int
  atof : Str → ℝ
  tag : Str → Str

/-- The data collection of a bus. -/
abbrev Data := Coll Val

/-- What a record stores under a name: `value` gets the bus number, the owner of the bus and the tokens, and is
`none` when the record is too short for it. -/
structure Field where
  name : Str
  ty : Ty
  value : Conv → Int → Int → List Str → Option (Val ty)

/-- `addValue(name, atoi(split_line[n].c_str()))` if there is such a token. -/
def intAt (name : String) (n : Nat) : Field := ⟨name.toList, .int, fun cv _ _ ts => ts[n]?.map cv.atoi⟩

/-- `addValue(name, atof(split_line[n].c_str()))` if there is such a token. -/
def dblAt (name : String) (n : Nat) : Field := ⟨name.toList, .double, fun cv _ _ ts => ts[n]?.map cv.atof⟩

/-- Complex number from two tokens. -/
def cplxAt (name : String) (n : Nat) : Field :=
  ⟨name.toList, .complex, fun cv _ _ ts =>
    match ts[n]?, ts[n + 1]? with
    | some a, some b => some (cv.atof a, cv.atof b)
    | _, _ => none⟩

/-- The two-character name of a device. -/
def tagAt (name : String) (n : Nat) : Field := ⟨name.toList, .string, fun cv _ _ ts => ts[n]?.map cv.tag⟩

/-- The bus number as `getBusIndex` gave it. -/
def busField (name : String) : Field := ⟨name.toList, .int, fun _ o _ _ => some o⟩

/-- An owner (generator_parser33.cpp 146-154, 163-170): a blank token means the owner of the bus (`own`) or 0. -/
def ownerAt (name : String) (n : Nat) (own : Bool) : Field :=
  ⟨name.toList, .int, fun cv _ owner ts =>
    ts[n]?.map (fun t => if isBlank t then (if own then owner else (0 : Int)) else cv.atoi t)⟩

/-- The fraction of an owner (155-161, 171-177): stored when the token of the owner is there; `d` unless there is
a token that is not blank. -/
def fracAt (name : String) (n : Nat) (d : ℝ) : Field :=
  ⟨name.toList, .double, fun cv _ _ ts =>
    ts[n - 1]?.map (fun _ =>
      match ts[n]? with
      | some t => if isBlank t then d else cv.atof t
      | none => d)⟩

/-- A block of devices: the name of their number, how many tokens are used without a check, whether a negative bus
index is skipped at once, the values stored without index for the first device, and the values of a device. -/
structure Kind where
  count : Str
  need : Nat
  skipNeg : Bool
  plain : List Field
  fields : List Field

/-- load_parser33.cpp 46-141. -/
def loadKind : Kind where
  count := "LOAD_NUMBER".toList
  need := 1
  skipNeg := true
  plain := [dblAt "LOAD_PL" 5, dblAt "LOAD_QL" 6]
  fields := [busField "LOAD_BUSNUMBER", tagAt "LOAD_ID" 1, intAt "LOAD_STATUS" 2, intAt "LOAD_AREA" 3,
    intAt "LOAD_ZONE" 4, dblAt "LOAD_PL" 5, dblAt "LOAD_QL" 6, dblAt "LOAD_IP" 7, dblAt "LOAD_IQ" 8,
    dblAt "LOAD_YP" 9, dblAt "LOAD_YQ" 10]

/-- fixed_shunt_parser33.cpp 46-115. -/
def shuntKind : Kind where
  count := "SHUNT_NUMBER".toList
  need := 1
  skipNeg := false
  plain := [dblAt "BUS_SHUNT_GL" 3, dblAt "BUS_SHUNT_BL" 4]
  fields := [busField "SHUNT_BUSNUMBER", tagAt "SHUNT_ID" 1, intAt "SHUNT_STATUS" 2, dblAt "BUS_SHUNT_GL" 3,
    dblAt "BUS_SHUNT_BL" 4]

/-- generator_parser33.cpp 46-233. -/
def genKind : Kind where
  count := "GENERATOR_NUMBER".toList
  need := 2
  skipNeg := false
  plain := []
  fields := [busField "GENERATOR_BUSNUMBER", tagAt "GENERATOR_ID" 1, dblAt "GENERATOR_PG" 2,
    dblAt "GENERATOR_QG" 3, dblAt "GENERATOR_QMAX" 4, dblAt "GENERATOR_QMIN" 5, dblAt "GENERATOR_VS" 6,
    intAt "GENERATOR_IREG" 7, dblAt "GENERATOR_MBASE" 8, cplxAt "GENERATOR_ZSOURCE" 9,
    cplxAt "GENERATOR_XTRAN" 11, dblAt "GENERATOR_GTAP" 13, intAt "GENERATOR_STAT" 14,
    dblAt "GENERATOR_RMPCT" 15, dblAt "GENERATOR_PMAX" 16, dblAt "GENERATOR_PMIN" 17,
    ownerAt "GENERATOR_OWNER1" 18 true, fracAt "GENERATOR_OFRAC1" 19 1,
    ownerAt "GENERATOR_OWNER2" 20 false, fracAt "GENERATOR_OFRAC2" 21 0,
    ownerAt "GENERATOR_OWNER3" 22 false, fracAt "GENERATOR_OFRAC3" 23 0,
    ownerAt "GENERATOR_OWNER4" 24 false, fracAt "GENERATOR_OFRAC4" 25 0,
    intAt "GENERATOR_WMOD" 26, dblAt "GENERATOR_WPF" 27]

/-- Adding the values of one record under an index or without. -/
def addFields (cv : Conv) (o owner : Int) (ts : List Str) (idx : Option Int) : List Field → Data → Option Data
  | [], c => some c
  | f :: fs, c =>
    match f.value cv o owner ts with
    | none => addFields cv o owner ts idx fs c
    | some v => (addValue c f.ty ⟨f.name, idx⟩ v).bind (addFields cv o owner ts idx fs)

/-- `getValue(name, &ival)` with `ival` 0 before (also where the code sets it to 0 when the value is missing). -/
def intVal (c : Data) (name : Str) : Int :=
  match getValue c .int ⟨name, none⟩ (0 : Int) with
  | some r => r.2
  | none => 0

/-- Adding a device to a bus (load_parser33.cpp 74-139 and the like). -/
def addDev (cv : Conv) (k : Kind) (o : Int) (c : Data) (ts : List Str) : Option Data :=
  let n := intVal c k.count
  let owner := intVal c "BUS_OWNER".toList
  (addFields cv o owner ts (some n) k.fields c).bind (fun c =>
    (if n = 0 then addFields cv o owner ts none k.plain c else some c).bind (fun c =>
      if n = 0 then addValue c .int ⟨k.count, none⟩ (1 : Int)
      else (setValue c .int ⟨k.count, none⟩ (n + 1)).map (fun r => r.1)))

/-- `p_busData`, `p_busMap` and `p_nameMap`. -/
structure Tables where
  bus : List Data
  busMap : List (Int × Nat)
  nameMap : List (Str × Int)

/-- `std::map::find`. -/
def lookup {κ α : Type} [DecidableEq κ] (m : List (κ × α)) (k : κ) : Option α :=
  (m.find? (fun e => e.1 = k)).map (fun e => e.2)

/-- `getBusIndex` (base_block_parser.cpp 242-258). -/
def getBusIndex (cv : Conv) (names : List (Str × Int)) (s : Str) : Option Int :=
  match checkString s with
  | .ok (true, s) =>
    match lookup names (parseBusName s).1 with
    | some n => some n
    | none => some (-1)
  | .ok (false, s) => some |cv.atoi s|
  | _ => none

/-- One record of a block of devices. -/
def readDev (cv : Conv) (k : Kind) (t : Tables) (ts : List Str) : Option Tables :=
  match ts with
  | [] => none
  | s :: _ =>
    match getBusIndex cv t.nameMap s with
    | none => none
    | some o =>
      if k.skipNeg ∧ o < 0 then some t
      else
        match lookup t.busMap o with
        | none => some t
        | some l =>
          if ts.length < k.need then none
          else
            match t.bus[l]? with
            | none => none
            | some c => (addDev cv k o c ts).map (fun c => { t with bus := t.bus.set l c })

/-- A block of devices. -/
def readDevs (cv : Conv) (k : Kind) (t : Tables) : List (List Str) → Option Tables
  | [] => some t
  | r :: rs => (readDev cv k t r).bind (fun t => readDevs cv k t rs)

/-- The values of a bus (bus_parser33.cpp 73-119); the name is stored as `check_string` left it. -/
def busFields (sbase : ℝ) (caseId : Int) (name : Str) : List Field :=
  [intAt "BUS_NUMBER" 0, ⟨"CASE_SBASE".toList, .double, fun _ _ _ _ => some sbase⟩,
    ⟨"CASE_ID".toList, .int, fun _ _ _ _ => some caseId⟩,
    ⟨"BUS_NAME".toList, .string, fun _ _ _ _ => some name⟩,
    dblAt "BUS_BASEKV" 2, intAt "BUS_TYPE" 3, intAt "BUS_AREA" 4, intAt "BUS_ZONE" 5, intAt "BUS_OWNER" 6,
    dblAt "BUS_VOLTAGE_MAG" 7, dblAt "BUS_VOLTAGE_ANG" 8, dblAt "BUS_VOLTAGE_MAX" 9, dblAt "BUS_VOLTAGE_MIN" 10]

/-- One line of the bus block (bus_parser33.cpp 55-123); the local `index` is the length of `p_busData`. -/
def readBus (cv : Conv) (sbase : ℝ) (caseId : Int) (t : Tables) (ts : List Str) : Option Tables :=
  match ts with
  | a :: b :: _ =>
    match checkString b with
    | .ok (_, name) =>
      (addFields cv 0 0 ts none (busFields sbase caseId name) empty).map (fun c =>
        { bus := t.bus ++ [c]
          busMap := t.busMap ++ [(cv.atoi a, t.bus.length)]
          nameMap := t.nameMap ++ [(name, |cv.atoi a|)] })
    | _ => none
  | _ => none

/-- The bus block. -/
def readBuses (cv : Conv) (sbase : ℝ) (caseId : Int) (t : Tables) : List (List Str) → Option Tables
  | [] => some t
  | r :: rs => (readBus cv sbase caseId t r).bind (fun t => readBuses cv sbase caseId t rs)

/-- The values of a switched shunt (switched_shunt_parser33.cpp 75-236), all without index. -/
def swFields : List Field :=
  [intAt "SWSHUNT_BUSNUMBER" 0, intAt "SHUNT_MODSW" 1, intAt "SHUNT_ADJM" 2, intAt "SHUNT_SWCH_STAT" 3,
    dblAt "SHUNT_VSWHI" 4, dblAt "SHUNT_VSWLO" 5, intAt "SHUNT_SWREM" 6, dblAt "SHUNT_RMPCT" 7,
    ⟨"SHUNT_RMIDNT".toList, .string, fun _ _ _ ts => ts[8]?⟩, dblAt "SHUNT_BINIT" 9,
    intAt "SHUNT_N1" 10, intAt "SHUNT_N2" 12, intAt "SHUNT_N3" 14, intAt "SHUNT_N4" 16, intAt "SHUNT_N5" 18,
    intAt "SHUNT_N6" 20, intAt "SHUNT_N7" 22, intAt "SHUNT_N8" 24, dblAt "SHUNT_B1" 11, dblAt "SHUNT_B2" 13,
    dblAt "SHUNT_B3" 15, dblAt "SHUNT_B4" 17, dblAt "SHUNT_B5" 19, dblAt "SHUNT_B6" 21, dblAt "SHUNT_B7" 23,
    dblAt "SHUNT_B8" 25]

/-- One line of the switched shunt block (switched_shunt_parser33.cpp 50-239): ten tokens are used without a
check, the bus is `atoi` of the first. -/
def readSw (cv : Conv) (t : Tables) (ts : List Str) : Option Tables :=
  match ts with
  | [] => none
  | s :: _ =>
    match lookup t.busMap (cv.atoi s) with
    | none => some t
    | some l =>
      if ts.length < 10 then none
      else
        match t.bus[l]? with
        | none => none
        | some c => (addFields cv 0 0 ts none swFields c).map (fun c => { t with bus := t.bus.set l c })

/-- The switched shunt block. -/
def readSws (cv : Conv) (t : Tables) : List (List Str) → Option Tables
  | [] => some t
  | r :: rs => (readSw cv t r).bind (fun t => readSws cv t rs)

/-- The blocks of a file that concern buses, as tokens. -/
structure File where
  sbase : ℝ
  caseId : Int
  buses : List (List Str)
  loads : List (List Str)
  shunts : List (List Str)
  gens : List (List Str)
  switched : List (List Str)

/-- `getCase` (PTI33_parser.hpp 199-298): `p_busData` and `p_busMap` are cleared, `p_nameMap` keeps the names of
the files read before (`names`). -/
def getCase (cv : Conv) (names : List (Str × Int)) (f : File) : Option Tables :=
  (readBuses cv f.sbase f.caseId ⟨[], [], names⟩ f.buses).bind (fun t =>
    (readDevs cv loadKind t f.loads).bind (fun t =>
      (readDevs cv shuntKind t f.shunts).bind (fun t =>
        (readDevs cv genKind t f.gens).bind (fun t => readSws cv t f.switched))))

/-- `getValue` of a double: flag and value, `old` the value before. -/
def dblVal (c : Data) (key : Key) (old : ℝ) : Bool × ℝ :=
  match getValue c .double key old with
  | some r => r
  | none => (false, old)

/-- `YMBus::load` (ymatrix_components.cpp 143-160): `p_shunt`, `p_shunt_gs`, `p_shunt_bs` of a new object, for which
the constructor sets the numbers to 0. -/
noncomputable def loadShunt (c : Data) : Bool × ℝ × ℝ :=
  let sbase := (dblVal c ⟨"CASE_SBASE".toList, none⟩ 0).2
  let g := dblVal c ⟨"BUS_SHUNT_GL".toList, some 0⟩ 0
  let b := if g.1 then dblVal c ⟨"BUS_SHUNT_BL".toList, some 0⟩ 0 else (false, 0)
  let binit := dblVal c ⟨"SHUNT_BINIT".toList, none⟩ 0
  (b.1 || binit.1, g.2 / sbase, if binit.1 then binit.2 / sbase else b.2 / sbase)

end GridPACK.RawBus
