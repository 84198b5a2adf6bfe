import Verif.Model.StringUtils
import Init.Data.List.SplitOn.Lemmas

/-! What a .dyr file means: lines that are blank or comments, and records.  A record reaches over any number of lines
up to a slash; what follows the slash on its line is not part of it.  Its tokens are separated by blanks, by the ends
of the lines or by commas; nothing between two commas stands for `0`. -/
namespace GridPACK.DyrRecords
open StringUtils

/-- The words of a text without commas. -/
def words (s : Str) : List Str := (s.splitOnP (· = ' ')).filter (· ≠ [])

/-- The tokens of what is between two commas. -/
def fieldTokens (f : Str) : List Str := if words f = [] then [['0']] else words f

/-- The tokens of a text. -/
def tokens (s : Str) : List Str := (s.splitOnP (· = ',')).flatMap fieldTokens

/-- A token: a section in quotes or a word not beginning with a quote. -/
def TokenOk (w : Str) : Prop :=
  (∃ q body, (q = '\'' ∨ q = '"') ∧ q ∉ body ∧ w = q :: (body ++ [q])) ∨
    (∃ c w', c ≠ '\'' ∧ c ≠ '"' ∧ w = c :: w')

/-- A record: the lines before the one with the slash, the part of the last line before the slash, the part behind. -/
structure Rec where
  lines : List Str
  last : Str
  behind : Str

/-- The lines of the file it occupies. -/
def Rec.file (r : Rec) : List Str := r.lines ++ [r.last ++ '/' :: r.behind]

/-- Its lines without slash and what is behind it. -/
def Rec.parts (r : Rec) : List Str := r.lines ++ [r.last]

/-- Its text, with the ends of the lines as blanks. -/
def Rec.text (r : Rec) : Str := [' '].intercalate r.parts

/-- Between two lines there is a blank or a comma at the end of the first or the begin of the second. -/
def Apart (a b : Str) : Prop :=
  a.getLast? = some ' ' ∨ a.getLast? = some ',' ∨ b.head? = some ' ' ∨ b.head? = some ','

/-- So it is between all lines; the slash may have a line of its own. -/
def Joined : List Str → Prop
  | a :: b :: l => (Apart a b ∨ (b = [] ∧ l = [])) ∧ Joined (b :: l)
  | _ => True

/-- The form of a record: only blanks, commas and visible characters before the slash, the first line not blank,
quotes around whole words, and a blank or comma at each end of a line. -/
structure Rec.Ok (r : Rec) : Prop where
  chars : ∀ l ∈ r.parts, ∀ c ∈ l, c ≠ '/' ∧ c ≠ '\t' ∧ c ≠ '\r'
  first : ∃ l, r.parts.head? = some l ∧ ∃ c ∈ l, c ≠ ' '
  quotes : ∀ w ∈ tokens r.text, TokenOk w
  apart : Joined r.parts

/-- The parts of a file: blank lines, empty lines with the line ends of other systems, comments, records. -/
inductive Item where
  | blank (n : Nat)
  | returns (n : Nat)
  | comment (indent : Nat) (c : Char) (text : Str)
  | record (r : Rec)

/-- The lines of a part. -/
def Item.file : Item → List Str
  | .blank n => [List.replicate n ' ']
  | .returns n => [List.replicate n '\r']
  | .comment n c t => [List.replicate n ' ' ++ '/' :: '/' :: c :: t]
  | .record r => r.file

/-- The tokens of the record, if it is one. -/
def Item.meaning : Item → List (List Str)
  | .record r => [tokens r.text]
  | _ => []

/-- Records in the right form. -/
def Item.Ok : Item → Prop
  | .record r => r.Ok
  | _ => True

/-- Only blank lines and records. -/
def Item.Simple : Item → Prop
  | .blank _ => True
  | .record _ => True
  | _ => False

end GridPACK.DyrRecords
