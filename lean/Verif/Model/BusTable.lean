import Verif.Model.HashDistr
import Verif.Model.StringUtils

/-! Model of `BusTable` (src/parser/bus_table.hpp).

A file is the list of its lines that end in a newline, and the text after the last newline (usually
empty).  `std::getline(…).eof()` holds when the end of the file was met before a newline.  `atoi` and
`atof` are parameters: any functions from a word to a number.  The distribution of the lines over the
ranks is `Verif.Model.HashDistr`.  The table is read into a fresh object.

Outcome `none`: undefined behaviour (a word that is missing is used, memory outside a buffer is read), an
exception from `clean2Char`, or an endless loop. -/
namespace GridPACK.BusTable
open GridPACK.StringUtils GridPACK.Exchange

/-- A text file. -/
structure File where
  lines : List Str
  rest : Str

/-- Prefix the first word. -/
def consHead (c : Char) : List Str → List Str
  | [] => [[c]]
  | t :: ts => (c :: t) :: ts

/-- `boost::split` at blanks with `token_compress_on`; the flag tells that the previous character was a
blank. -/
def splitAux : Bool → Str → List Str
  | _, [] => [[]]
  | b, c :: s =>
    if c = ' ' then (if b then splitAux true s else [] :: splitAux true s)
    else consHead c (splitAux false s)

def split (s : Str) : List Str := splitAux false s

/-- `line[0] == '#'`. -/
def isComment (line : Str) : Bool := line.head? == some '#'

/-- src/parser/bus_table.hpp:90-91. -/
def header (line : Str) : Str := trim (' ' :: line.tail)

/-- The comment loop of the first pass (src/parser/bus_table.hpp:87-94): headers, and the first line that
is no comment with the lines after it (`none`: end of the file).  Text after the last newline that is
itself a comment would be appended to the headers; this is not modelled. -/
def skipComments : Str → List Str → List Str → List Str × Option (Str × List Str)
  | line, [], hs => if isComment line then (hs ++ [header line], none) else (hs, some (line, []))
  | line, next :: more, hs =>
    if isComment line then skipComments next more (hs ++ [header line])
    else (hs, some (line, next :: more))

/-- Result of the first pass (src/parser/bus_table.hpp:71-120): headers, number of values per line,
number of lines; `none`: nothing found. -/
def pass1 (f : File) : Option (List Str × Int × Nat) :=
  match f.lines with
  | [] => none
  | first :: more =>
    match skipComments (trim first) more [] with
    | (hs, none) => some (hs, 0, 0)
    | (hs, some (line, rest)) =>
      let nval : Int := ((split (trim line)).length : Int) - 2
      if nval > 0 then some (hs, nval, 1 + rest.length) else none

/-- A line of the table as kept on rank 0: bus number, tag, values. -/
structure Row (D : Type) where
  bus : Int
  tag : Str
  vals : List D

variable {D : Type}

/-- src/parser/bus_table.hpp:211-226: one line.  The tag is cut to two characters. -/
def readRow (atoi : Str → Int) (atof : Str → D) (nval : Nat) (line : Str) : Option (Row D) :=
  let w := split (trim line)
  match w[1]? with
  | none => none
  | some tag =>
    match clean2Char tag with
    | .ok t =>
      match w[0]?, allSome ((List.range nval).map fun i => (w[i + 2]?).map atof) with
      | some b, some vs => some ⟨atoi b, t.take 2, vs⟩
      | _, _ => none
    | _ => none

/-- The second pass (src/parser/bus_table.hpp:205-236).  The inner loop that skips comments does not look
at the end of the file: after a comment at the end the text behind the last newline is taken as a
line. -/
def pass2 (atoi : Str → Int) (atof : Str → D) (nval : Nat) (rest : Str) :
    List Str → Option (List (Row D))
  | [] => some []
  | line :: more =>
    if isComment line then
      match more with
      | [] => if isComment rest then none else (readRow atoi atof nval rest).map fun r => [r]
      | _ :: _ => pass2 atoi atof nval rest more
    else
      match readRow atoi atof nval line, pass2 atoi atof nval rest more with
      | some r, some rs => some (r :: rs)
      | _, _ => none

/-- `NUM_SLICES` (src/parser/bus_table.hpp:30). -/
def numSlices : Nat := 10

/-- State of the loop that fills the global array: the array, the number of lines, the start of the
slice, the values in the buffer. -/
structure Fill (D : Type) where
  mem : Nat → Option D
  ncnt : Nat
  lo : Nat
  pend : List D

/-- src/parser/bus_table.hpp:224-235. -/
def fillStep (nval : Nat) (s : Fill D) (vals : List D) : Fill D :=
  let pend := s.pend ++ vals
  let ncnt := s.ncnt + 1
  if ncnt % numSlices = 0 then ⟨put s.mem s.lo pend, ncnt, ncnt * nval, []⟩
  else ⟨s.mem, ncnt, s.lo, pend⟩

/-- src/parser/bus_table.hpp:198-242: the content of the global array.  The last slice is written up to
the end of the array; what lies in the buffer behind the values read is left over from before (modelled
as unknown), and the buffer has room for `numSlices` lines. -/
def fill (nval nline : Nat) (rows : List (List D)) : Option (Nat → Option D) :=
  let s := rows.foldl (fillStep nval) ⟨fun _ => none, 0, 0, []⟩
  if s.ncnt % numSlices ≠ 0 then
    if nline * nval - s.lo ≤ numSlices * nval then
      some (fun i => if s.lo ≤ i ∧ i < nline * nval then s.pend[i - s.lo]? else s.mem i)
    else none
  else some s.mem

/-- The table on one rank: the global array and its size, the number of columns, and for every entry
the local position of the bus, the tag and the number of the line. -/
structure Table (D : Type) where
  mem : Nat → Option D
  cells : Nat
  nvals : Nat
  entries : List (Nat × Str × Nat)

/-- src/parser/bus_table.hpp:258-264: the tag is cleaned once more. -/
def toEntry (e : Nat × (Str × Nat)) : Option (Nat × Str × Nat) :=
  match clean2Char e.2.1 with
  | .ok t => some (e.1, t, e.2.2)
  | _ => none

/-- `readTable` (src/parser/bus_table.hpp:62-270) on rank `me` of `n`; `orig` are the numbers of the buses
held by the rank.  `some none`: the call returns false.  `bound` and `puts` as in
`Verif.Model.HashDistr`. -/
def readTable (atoi : Str → Int) (atof : Str → D) (n : Nat) (bound : Nat → Nat → Nat) (puts : List Nat)
    (f : File) (orig : List Int) (me : Nat) : Option (Option (Table D)) :=
  match pass1 f with
  | none => some none
  | some (_, nval, nline) =>
    if nval > 0 ∧ nline > 0 then
      match pass2 atoi atof nval.toNat f.rest f.lines with
      | none => none
      | some rows =>
        match fill nval.toNat nline (rows.map (·.vals)) with
        | none => none
        | some mem =>
          match HashDistr.distribute n (bound rows.length)
              (fun p => if p = 0 then rows.zipIdx.map (fun r => (r.1.bus, (r.1.tag, r.2))) else [])
              puts orig me with
          | none => none
          | some out => match allSome (out.map toEntry) with
            | none => none
            | some es => some (some ⟨mem, nline * nval.toNat, nval.toNat, es⟩)
    else some (some ⟨fun _ => none, 0, nval.toNat, []⟩)

/-- `getLocalIndices` (src/parser/bus_table.hpp:276-283). -/
def Table.localIndices (t : Table D) : List Nat := t.entries.map (·.1)

/-- `getTags` (src/parser/bus_table.hpp:289-296). -/
def Table.tags (t : Table D) : List Str := t.entries.map (·.2.1)

/-- `getValues` (src/parser/bus_table.hpp:305-330). -/
def Table.values (t : Table D) (col : Nat) : Option (List D) :=
  allSome (t.entries.map fun e =>
    if t.nvals * e.2.2 + col < t.cells then t.mem (t.nvals * e.2.2 + col) else none)

/-- The headers of rank `me` (src/parser/bus_table.hpp:146-178).  Rank 0 keeps the texts; the other ranks
receive the characters in an array without a terminating zero and make a string of it, i.e. read on
until a zero is met in the memory behind the array, `behind i` for the i-th header. -/
def headersOn (behind : Nat → Str) (hs : List Str) (me : Nat) : List Str :=
  if me = 0 then hs else hs.zipIdx.map fun h => (h.1 ++ behind h.2).takeWhile (· ≠ '\x00')

end GridPACK.BusTable
