import Verif.Spec.DyrRead

/-! What a file with sequence data means.  After a first line there are eight sections of rows, each ended by a line
with a zero: impedances of generators (positive, negative and zero sequence), shunts of buses (negative and zero
sequence), lines, mutual impedances and transformers (zero sequence).  A row consists of words separated by commas. -/
namespace GridPACK.SeqParser
open StringUtils DataCollection
open Dyr (Conv Struct)
open RawBus (Data get)
open DyrSpec (count deviceName)

/-- A row by its words. -/
abbrev Row := List Str

/-- The line of a row. -/
def rowText (ws : Row) : Str := List.intercalate [','] ws

/-- Words that can be separated by commas. -/
def Words (ws : Row) : Prop := ws ≠ [] ∧ ∀ w ∈ ws, w ≠ [] ∧ ',' ∉ w

/-- A row of at least `m` words; its first character other than a blank is not a zero. -/
structure RowOk (m : Nat) (ws : Row) : Prop where
  words : Words ws
  full : m ≤ ws.length
  start : ∃ blanks c rest, ws.head? = some (List.replicate blanks ' ' ++ c :: rest) ∧ c ≠ ' ' ∧ c ≠ '0'

/-- A line that ends a section: it starts with a zero, or with a zero after blanks and before a blank or the end. -/
def IsEnd (line : Str) : Prop :=
  (∃ rest, line = '0' :: rest) ∨
    ∃ blanks rest, line = List.replicate blanks ' ' ++ '0' :: rest ∧ (rest = [] ∨ rest.head? = some ' ')

/-- The rows of a file. -/
structure File where
  pos : List Row
  neg : List Row
  zero : List Row
  negShunts : List Row
  zeroShunts : List Row
  lines : List Row
  mutuals : List Row
  xforms : List Row

/-- The rows of generators in sequence `q`. -/
inductive Sequence | pos | neg | zero
deriving DecidableEq

def File.gens (f : File) : Sequence → List Row
  | .pos => f.pos
  | .neg => f.neg
  | .zero => f.zero

/-- All rows have their words: two for the generator and two values; one for the bus and two values; three for the
line and seven values; for a transformer eleven words if it has two windings, else at least fifteen. -/
structure File.Ok (f : File) : Prop where
  gens : ∀ q, ∀ r ∈ f.gens q, RowOk 4 r
  negShunts : ∀ r ∈ f.negShunts, RowOk 3 r
  zeroShunts : ∀ r ∈ f.zeroShunts, RowOk 3 r
  lines : ∀ r ∈ f.lines, RowOk 10 r
  mutuals : ∀ r ∈ f.mutuals, RowOk 1 r
  xforms : ∀ r ∈ f.xforms, RowOk 11 r ∧ (r.length = 11 ∨ 15 ≤ r.length)

/-- The lines of the file with the first line `head`, the lines `e 0`, ... `e 7` that end the sections, and `rest`
after them. -/
def File.text (f : File) (head : Str) (e : Nat → Str) (rest : List Str) : List Str :=
  head :: (f.pos.map rowText ++ e 0 :: (f.neg.map rowText ++ e 1 :: (f.zero.map rowText ++ e 2 ::
    (f.negShunts.map rowText ++ e 3 :: (f.zeroShunts.map rowText ++ e 4 :: (f.lines.map rowText ++ e 5 ::
      (f.mutuals.map rowText ++ e 6 :: (f.xforms.map rowText ++ e 7 :: rest))))))))

/-- The row is for generator `tag` of bus `b`. -/
def ForGen (cv : Conv) (b : Int) (tag : Str) (r : Row) : Prop :=
  ∃ t0 t1, r[0]? = some t0 ∧ r[1]? = some t1 ∧ cv.atoi t0 = b ∧ cv.tag t1 = tag

/-- The row is for bus `b`. -/
def ForBus (cv : Conv) (b : Int) (r : Row) : Prop := ∃ t0, r[0]? = some t0 ∧ cv.atoi t0 = b

/-- The row is for the branch `tag` from bus `e.1` to bus `e.2`; its name is in word `n`. -/
def ForBranch (cv : Conv) (n : Nat) (e : Int × Int) (tag : Str) (r : Row) : Prop :=
  ∃ t0 t1 t, r[0]? = some t0 ∧ r[1]? = some t1 ∧ r[n]? = some t ∧ cv.atoi t0 = e.1 ∧ cv.atoi t1 = e.2 ∧ cv.tag t = tag

/-- `r` is the last of the rows with a property. -/
def Last (P : Row → Prop) (rows : List Row) (r : Row) : Prop :=
  ∃ pre post, rows = pre ++ r :: post ∧ P r ∧ ∀ x ∈ post, ¬ P x

/-- Element `g` of a bus or branch is the first one with the name `tag`. -/
def IsElement (cv : Conv) (c : Data) (num id : String) (g : Nat) (tag : Str) : Prop :=
  (g : Int) < count c num ∧ cv.tag (deviceName c id g) = tag ∧ ∀ j < g, cv.tag (deviceName c id j) ≠ tag

/-- Under the name `key` with index `idx` there is the number in word `n` of the row. -/
def Number (cv : Conv) (c : Data) (idx : Option Int) (r : Row) (key : String) (n : Nat) : Prop :=
  ∃ t, r[n]? = some t ∧ get c .double ⟨key.toList, idx⟩ = some (cv.atof t)

/-- The same for an integer. -/
def Whole (cv : Conv) (c : Data) (idx : Option Int) (r : Row) (key : String) (n : Nat) : Prop :=
  ∃ t, r[n]? = some t ∧ get c .int ⟨key.toList, idx⟩ = some (cv.atoi t)

/-- The names of the two values of a generator. -/
def genNames : Sequence → String × String
  | .pos => ("GENERATOR_SEQ_ZRPOS", "GENERATOR_SEQ_ZXPOS")
  | .neg => ("GENERATOR_SEQ_ZRNEG", "GENERATOR_SEQ_ZXNEG")
  | .zero => ("GENERATOR_SEQ_RZERO", "GENERATOR_SEQ_XZERO")

/-- The values of a line: name and word. -/
def lineFormat : List (String × Nat) :=
  [("BRANCH_SEQ_RLINZ", 3), ("BRANCH_SEQ_XLINZ", 4), ("BRANCH_SEQ_BCHZ", 5), ("BRANCH_SEQ_GI", 6),
    ("BRANCH_SEQ_BI", 7), ("BRANCH_SEQ_GJ", 8), ("BRANCH_SEQ_BJ", 9)]

/-- The values of a transformer that are numbers. -/
def xformFormat : List (String × Nat) :=
  [("TRANSFORMER_SEQ_RG", 5), ("TRANSFORMER_SEQ_XG", 6), ("TRANSFORMER_SEQ_R1", 7), ("TRANSFORMER_SEQ_X1", 8)]

/-- Those of one with two windings, in a row of eleven words. -/
def twoFormat : List (String × Nat) := [("TRANSFORMER_SEQ_RG2", 9), ("TRANSFORMER_SEQ_XG2", 10)]

/-- Those of one with three windings, in a row of at least fifteen words. -/
def threeFormat : List (String × Nat) :=
  [("TRANSFORMER_SEQ_R2", 11), ("TRANSFORMER_SEQ_X2", 12), ("TRANSFORMER_SEQ_R3", 13), ("TRANSFORMER_SEQ_X3", 14)]

/-- The bus and branch connection of a transformer: bus of the third winding and connection code. -/
def xformWhole : List (String × Nat) := [("TRANSFORMER_SEQ_K", 2), ("TRANSFORMER_SEQ_CC", 4)]

/-- The index under which the values of element `tag` are found: its own, or -1 if there is no such element. -/
def Index (cv : Conv) (c : Data) (num id : String) (tag : Str) (idx : Option Int) : Prop :=
  (∃ g : Nat, idx = some (g : Int) ∧ IsElement cv c num id g tag) ∨
    (idx = some (-1) ∧ ∀ g, ¬ IsElement cv c num id g tag)

/-- The entries of bus `b` (with data `c`) that the file may change. -/
inductive BusEntry (cv : Conv) (f : File) (b : Int) (c : Data) : Key → Prop
  | gen {q : Sequence} {r : Row} {tag : Str} {name : String} {idx : Option Int} : r ∈ f.gens q → ForGen cv b tag r →
      (name = (genNames q).1 ∨ name = (genNames q).2) →
      Index cv c "GENERATOR_NUMBER" "GENERATOR_ID" tag idx → BusEntry cv f b c ⟨name.toList, idx⟩
  | shunt {r : Row} {name : String} : r ∈ f.negShunts ++ f.zeroShunts → ForBus cv b r →
      (name = "BUS_SEQ_GNEG" ∨ name = "BUS_SEQ_BNEG") → BusEntry cv f b c ⟨name.toList, none⟩

/-- The entries of branch `e` (with data `c`) that the file may change. -/
inductive BranchEntry (cv : Conv) (f : File) (e : Int × Int) (c : Data) : Key → Prop
  | line {r : Row} {tag : Str} {name : String} {n : Nat} {idx : Option Int} : r ∈ f.lines → ForBranch cv 2 e tag r →
      (name, n) ∈ lineFormat → Index cv c "BRANCH_NUM_ELEMENTS" "BRANCH_CKT" tag idx →
      BranchEntry cv f e c ⟨name.toList, idx⟩
  | xform {r : Row} {tag : Str} {name : String} {n : Nat} {idx : Option Int} : r ∈ f.xforms → ForBranch cv 3 e tag r →
      (name, n) ∈ xformWhole ++ xformFormat ++ (if r.length = 11 then twoFormat else threeFormat) →
      Index cv c "BRANCH_NUM_ELEMENTS" "BRANCH_CKT" tag idx → BranchEntry cv f e c ⟨name.toList, idx⟩

/-- A file with the rows `f` is read on `n` processes (`recs`: its lines, each with whatever the memory of its struct
held before); this process holds the buses `busNo` and the branches `ends` with the data `bus` and `branch`. -/
structure Setting (n : Nat) (bound : Nat → Nat → Nat) (puts : List Nat) (f : File) (recs : List (Struct × Str))
    (busNo : List Int) (ends : List (Int × Int)) (bus branch : List Data) : Prop where
  procs : 0 < n
  bounds : ∀ total, HashDistr.BoundOk n total (bound total)
  order : puts.Perm (List.range n)
  rows : f.Ok
  text : ∃ first e rest, Words first ∧ (∀ j, IsEnd (e j)) ∧ recs.map (·.2) = f.text (rowText first) e rest
  buses : busNo.length = bus.length
  branches : ends.length = branch.length
  usableBuses : ∀ c ∈ bus, count c "GENERATOR_NUMBER" ≤ 10000000
  usableBranches : ∀ c ∈ branch, count c "BRANCH_NUM_ELEMENTS" ≤ 10000000

end GridPACK.SeqParser
