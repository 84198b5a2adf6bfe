import Verif.Model.Raw23
import Verif.Props.RawBranch
import Verif.Props.RawBus

/-! Specification for files of version 23. -/
namespace GridPACK.Raw23
open StringUtils BlockParser DataCollection RawBus RawBranch

/-! ### First line -/

/-- Numbers are read from the start of a text: blanks before and text from a blank or comma on do not matter. -/
def Reads (cv : Conv) : Prop :=
  ∀ (k : ℕ) (b x : Str), b ≠ [] → ' ' ∉ b → ',' ∉ b → (x = [] ∨ x.head? = some ' ' ∨ x.head? = some ',') →
    cv.atof (List.replicate k ' ' ++ b ++ x) = cv.atof b

/-- A text that can be a number: not empty, no separator, comment or quote. -/
def Plain (a : Str) : Prop :=
  a ≠ [] ∧ ∀ c ∈ a, c ≠ ' ' ∧ c ≠ ',' ∧ c ≠ '/' ∧ c ≠ '\'' ∧ c ≠ '"'

/-- What follows the second value: nothing, or text after a blank or comma, without quotes or comments. -/
def Tail (x : Str) : Prop :=
  (x = [] ∨ x.head? = some ' ' ∨ x.head? = some ',') ∧ ∀ c ∈ x, c ≠ '/' ∧ c ≠ '\'' ∧ c ≠ '"'

/-! ### Buses -/

/-- `I, IDE, PL, QL, GL, BL, IA, VM, VA, 'NAME', BASKV, ZONE`. -/
def busInts : List (String × ℕ) := [("BUS_NUMBER", 0), ("BUS_TYPE", 1), ("BUS_AREA", 6), ("BUS_ZONE", 11)]

def busDbls : List (String × ℕ) := [("BUS_VOLTAGE_MAG", 7), ("BUS_VOLTAGE_ANG", 8), ("BUS_BASEKV", 10)]

/-- A user finds the values of the bus. -/
structure TellsBus (cv : Conv) (f : File) (c : Data) (r : List Str) : Prop where
  sbase : ∀ old : ℝ, getValue c .double ⟨"CASE_SBASE".toList, none⟩ old = some (true, f.sbase)
  caseId : ∀ old : Int, getValue c .int ⟨"CASE_ID".toList, none⟩ old = some (true, f.caseId)
  ints : ∀ p ∈ busInts, ∀ old : Int, getValue c .int ⟨p.1.toList, none⟩ old = answer (r[p.2]?.map cv.atoi) old
  dbls : ∀ p ∈ busDbls, ∀ old : ℝ, getValue c .double ⟨p.1.toList, none⟩ old = answer (r[p.2]?.map cv.atof) old

/-- A column as a number. -/
def colOf (cv : Conv) (r : List Str) (n : ℕ) : ℝ := cv.atof (r.getD n [])

/-- A user finds the load of the bus line: one of constant power in service, or none if both powers are 0. -/
structure TellsLoad (cv : Conv) (c : Data) (r : List Str) : Prop where
  absent : colOf cv r 2 = 0 → colOf cv r 3 = 0 →
    ∀ old : Int, getValue c .int ⟨"LOAD_NUMBER".toList, none⟩ old = some (false, old)
  count : (colOf cv r 2 ≠ 0 ∨ colOf cv r 3 ≠ 0) →
    ∀ old : Int, getValue c .int ⟨"LOAD_NUMBER".toList, none⟩ old = some (true, (1 : Int))
  status : (colOf cv r 2 ≠ 0 ∨ colOf cv r 3 ≠ 0) →
    ∀ old : Int, getValue c .int ⟨"LOAD_STATUS".toList, some 0⟩ old = some (true, (1 : Int))
  power : (colOf cv r 2 ≠ 0 ∨ colOf cv r 3 ≠ 0) → ∀ old : ℝ,
    getValue c .double ⟨"LOAD_PL".toList, some 0⟩ old = some (true, colOf cv r 2) ∧
    getValue c .double ⟨"LOAD_QL".toList, some 0⟩ old = some (true, colOf cv r 3)
  other : (colOf cv r 2 ≠ 0 ∨ colOf cv r 3 ≠ 0) →
    ∀ name ∈ ["LOAD_IP", "LOAD_IQ", "LOAD_YP", "LOAD_YQ"], ∀ old : ℝ,
      getValue c .double ⟨name.toList, some 0⟩ old = some (true, (0 : ℝ))

/-- A user finds the shunt of the bus line, or none if both admittances are 0. -/
structure TellsShunt (cv : Conv) (c : Data) (r : List Str) : Prop where
  absent : colOf cv r 4 = 0 → colOf cv r 5 = 0 →
    (∀ old : Int, getValue c .int ⟨"SHUNT_NUMBER".toList, none⟩ old = some (false, old)) ∧
    ∀ name ∈ ["BUS_SHUNT_GL", "BUS_SHUNT_BL"], ∀ old : ℝ,
      getValue c .double ⟨name.toList, some 0⟩ old = some (false, old)
  count : (colOf cv r 4 ≠ 0 ∨ colOf cv r 5 ≠ 0) →
    ∀ old : Int, getValue c .int ⟨"SHUNT_NUMBER".toList, none⟩ old = some (true, (1 : Int))
  values : (colOf cv r 4 ≠ 0 ∨ colOf cv r 5 ≠ 0) → ∀ old : ℝ,
    getValue c .double ⟨"BUS_SHUNT_GL".toList, some 0⟩ old = some (true, colOf cv r 4) ∧
    getValue c .double ⟨"BUS_SHUNT_BL".toList, some 0⟩ old = some (true, colOf cv r 5)

/-- `I, ID, PG, QG, QT, QB, VS, IREG, MBASE, ZR, ZX, RT, XT, GTAP, STAT, RMPCT, PT, PB`, and the columns GridPACK
adds for dynamic simulation. -/
def genColumns : Columns :=
  ⟨"GENERATOR_NUMBER", "GENERATOR_ID", [("GENERATOR_IREG", 7), ("GENERATOR_STAT", 14)],
    [("GENERATOR_PG", 2), ("GENERATOR_QG", 3), ("GENERATOR_QMAX", 4), ("GENERATOR_QMIN", 5), ("GENERATOR_VS", 6),
      ("GENERATOR_MBASE", 8), ("GENERATOR_RT", 11), ("GENERATOR_XT", 12), ("GENERATOR_GTAP", 13),
      ("GENERATOR_RMPCT", 15), ("GENERATOR_PMAX", 16), ("GENERATOR_PMIN", 17), ("GENERATOR_REACTANCE", 18),
      ("GENERATOR_RESISTANCE", 19), ("GENERATOR_TRANSIENT_REACTANCE", 20),
      ("GENERATOR_SUBTRANSIENT_REACTANCE", 21), ("GENERATOR_INERTIA_CONSTANT_H", 22),
      ("GENERATOR_DAMPING_COEFFICIENT_0", 23)],
    [("GENERATOR_ZSOURCE", 9), ("GENERATOR_XTRAN", 11)]⟩

/-- `I, MODSW, VSWHI, VSWLO, SWREM, BINIT, N1, B1, ..., N8, B8`. -/
def swInts : List (String × ℕ) :=
  [("SWSHUNT_BUSNUMBER", 0), ("SHUNT_MODSW", 1), ("SHUNT_SWREM", 4), ("SHUNT_N1", 6), ("SHUNT_N2", 8),
    ("SHUNT_N3", 10), ("SHUNT_N4", 12), ("SHUNT_N5", 14), ("SHUNT_N6", 16), ("SHUNT_N7", 18), ("SHUNT_N8", 20)]

def swDbls : List (String × ℕ) :=
  [("SHUNT_VSWHI", 2), ("SHUNT_VSWLO", 3), ("SHUNT_BINIT", 5), ("SHUNT_B1", 7), ("SHUNT_B2", 9), ("SHUNT_B3", 11),
    ("SHUNT_B4", 13), ("SHUNT_B5", 15), ("SHUNT_B6", 17), ("SHUNT_B7", 19), ("SHUNT_B8", 21)]

/-- A user finds the values of the only switched shunt of a bus, and none if there is none. -/
structure TellsSw (cv : Conv) (c : Data) (devs : List (List Str)) : Prop where
  absent : devs = [] → ∀ p ∈ swDbls, ∀ old : ℝ, getValue c .double ⟨p.1.toList, none⟩ old = some (false, old)
  ints : ∀ r, devs = [r] → ∀ p ∈ swInts, ∀ old : Int,
    getValue c .int ⟨p.1.toList, none⟩ old = answer (r[p.2]?.map cv.atoi) old
  dbls : ∀ r, devs = [r] → ∀ p ∈ swDbls, ∀ old : ℝ,
    getValue c .double ⟨p.1.toList, none⟩ old = answer (r[p.2]?.map cv.atof) old

/-! ### Areas -/

/-- `I, ISW, PDES, PTOL, 'ARNAM'`. -/
structure TellsAreas (cv : Conv) (c : Data) (areas : List (List Str)) : Prop where
  total : ∀ old : Int, getValue c .int ⟨"AREA_TOTAL".toList, none⟩ old = some (true, (areas.length : Int))
  ints : ∀ (j : ℕ) r, areas[j]? = some r → ∀ p ∈ [("AREAINTG_NUMBER", 0), ("AREAINTG_ISW", 1)], ∀ old : Int,
    getValue c .int ⟨p.1.toList, some (j : Int)⟩ old = answer (r[p.2]?.map cv.atoi) old
  dbls : ∀ (j : ℕ) r, areas[j]? = some r → ∀ p ∈ [("AREAINTG_PDES", 2), ("AREAINTG_PTOL", 3)], ∀ old : ℝ,
    getValue c .double ⟨p.1.toList, some (j : Int)⟩ old = answer (r[p.2]?.map cv.atof) old
  name : ∀ (j : ℕ) r, areas[j]? = some r → ∀ old : Str,
    getValue c .string ⟨"AREAINTG_NAME".toList, some (j : Int)⟩ old = answer (r[4]?) old

/-- The collection has no areas yet. -/
def NoAreas (c : Data) : Prop :=
  ∀ name ∈ ["AREA_TOTAL", "AREAINTG_NUMBER", "AREAINTG_ISW", "AREAINTG_PDES", "AREAINTG_PTOL", "AREAINTG_NAME"],
    ∀ u idx (old v : Val u), getValue c u ⟨name.toList, idx⟩ old ≠ some (true, v)

/-! ### Branches -/

/-- A line or transformer `I, J, CKT, R, X, B, RATEA, RATEB, RATEC, RATIO, ANGLE, GI, BI, GJ, BJ, ST`: series
admittance and half the charging at each end, behind an ideal transformer at the first bus if a ratio is given, and
a shunt at each end.  The sign of a bus number only tells the metered end. -/
noncomputable def link (cv : Conv) (ts : List Str) : Link :=
  let v := colOf cv ts
  let P := YMatrix.twoPort (1 / ⟨v 3, v 4⟩) (v 5) (open Classical in if v 9 = 0 then 1 else polar (v 9) (v 10))
  ⟨|cv.atoi (ts.getD 0 [])|, |cv.atoi (ts.getD 1 [])|,
    if cv.atoi (ts.getD 15 []) = 0 then ⟨0, 0, 0, 0⟩
    else ⟨P.ff + ⟨v 11, v 12⟩, P.ft, P.tf, P.tt + ⟨v 13, v 14⟩⟩⟩

/-- The shunts at the two ends are the same. -/
def SameShunts (cv : Conv) (ts : List Str) : Prop :=
  colOf cv ts 11 = colOf cv ts 13 ∧ colOf cv ts 12 = colOf cv ts 14

/-- A line of the block between the buses of `x` in the opposite direction. -/
def Opposite (cv : Conv) (x y : List Str) : Prop :=
  (link cv y).a = (link cv x).b ∧ (link cv y).b = (link cv x).a

/-! ### Transformers -/

/-- `I, J, CKT, ICONT, RMA, RMI, VMA, VMI, STEP, TABLE`. -/
def xfDbls : List (String × ℕ) :=
  [("TRANSFORMER_RMA", 4), ("TRANSFORMER_RMI", 5), ("TRANSFORMER_VMA", 6), ("TRANSFORMER_VMI", 7),
    ("TRANSFORMER_STEP", 8), ("TRANSFORMER_TABLE", 9)]

/-- Same buses in the same direction, and same circuit. -/
def SameCircuit (cv : Conv) (x y : List Str) : Prop :=
  (link cv x).a = (link cv y).a ∧ (link cv x).b = (link cv y).b ∧ cv.tag (x.getD 2 []) = cv.tag (y.getD 2 [])

/-- A file whose lines are long enough and whose bus numbers are different. -/
structure Good (cv : Conv) (f : File) : Prop where
  buses : ∀ r ∈ f.buses, 10 ≤ r.length
  distinct : (f.buses.map (num cv)).Nodup
  gens : ∀ r ∈ f.gens, 2 ≤ r.length ∧ r.length ≠ 10 ∧ r.length ≠ 12
  few : f.gens.length ≤ 9999999 ∧ f.areas.length ≤ 9999999
  switched : ∀ r ∈ f.switched, 7 ≤ r.length
  areas : ∀ r ∈ f.areas, 5 ≤ r.length
  lines : ∀ r ∈ f.lines, 16 ≤ r.length
  xfs : ∀ x ∈ f.xfs, 10 ≤ x.length ∧ ∃ l ∈ f.lines, SameCircuit cv x l
  direction : ∀ x ∈ f.xfs, ∀ l ∈ f.lines, ¬ Opposite cv x l

end GridPACK.Raw23
