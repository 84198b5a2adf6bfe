import Verif.Model.BusTable
import Verif.Props.StringUtils

/-! Specification of tables of bus data. -/
namespace GridPACK.BusTable
open GridPACK.StringUtils

/-- A word: not empty, no white space in it. -/
def IsWord (w : Str) : Prop := w ≠ [] ∧ ∀ c ∈ w, white c = false

/-- Words on a line, with `k + 1` blanks before each. -/
def spaced (ws : List (Nat × Str)) : Str := ws.flatMap fun w => List.replicate (w.1 + 1) ' ' ++ w.2

/-- A line of the table: the word for the bus number, the word for the tag with the identifier it
stands for, the words for the values, and the numbers of blanks. -/
structure TextRow where
  lead : Nat
  bus : Str
  tagGap : Nat
  tag : Str
  id : Str
  vals : List (Nat × Str)
  trail : Nat

/-- The text of the line. -/
def TextRow.text (r : TextRow) : Str :=
  List.replicate r.lead ' ' ++ (r.bus ++ spaced ((r.tagGap, r.tag) :: r.vals)) ++
    List.replicate r.trail ' '

/-- A proper line with `nval` values: the tag is an identifier of one or two characters, possibly in
quotes. -/
structure TextRow.Ok (nval : Nat) (r : TextRow) : Prop where
  bus : IsWord r.bus
  noComment : r.bus.head? ≠ some '#'
  tag : IsWord r.tag
  id : IsId r.id
  quoted : r.tag = r.id ∨ ∃ q, isQuote q ∧ r.tag = [q] ++ r.id ++ [q]
  vals : ∀ v ∈ r.vals, IsWord v.2
  count : r.vals.length = nval

/-- A file with comment lines followed by lines of data, all ended by a newline. -/
def fileOf (comments : List Str) (rows : List TextRow) : File :=
  ⟨comments.map ('#' :: ·) ++ rows.map TextRow.text, []⟩

/-- The entries of column `col` that a rank holding the buses `orig` shall see: for every line and every
local bus with its number, the position of the bus, the tag in its two-character form, the value. -/
def expected {D : Type} (atoi : Str → Int) (atof : Str → D) (rows : List TextRow) (orig : List Int)
    (col : Nat) : List (Nat × Str × D) :=
  rows.flatMap fun r => ((List.range orig.length).filter fun i => orig[i]? = some (atoi r.bus)).flatMap
    fun i => (r.vals[col]?).toList.map fun v => (i, padded r.id, atof v.2)

/-- What a rank sees of column `col`. -/
def Sees {D : Type} (t : Table D) (col : Nat) (l : List (Nat × Str × D)) : Prop :=
  ∃ vs, t.values col = some vs ∧ vs.length = t.localIndices.length ∧ t.tags.length = vs.length ∧
    (t.localIndices.zip (t.tags.zip vs)).Perm l

end GridPACK.BusTable
