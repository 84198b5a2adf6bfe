/-! Model of `InputStream` (src/stream/input_stream.cpp).

A file is its sequence of characters.  `std::getline` follows the C++ standard: on a stream that is not
good nothing is read and the string keeps its contents; otherwise characters up to the newline are
taken, and reaching the end of the file sets the eof state. -/
namespace GridPACK.InputStream

/-- File source: remaining characters, `good()` state. -/
structure FileSrc where
  rest : List Char
  good : Bool
deriving DecidableEq, Repr

/-- A newly opened file (`openFile` 34-45). -/
def openFile (content : List Char) : FileSrc := ⟨content, true⟩

/-- `ret = std::getline(p_fout, line).good()` (nextLine 86): new state, line, result. -/
def nextLine (st : FileSrc) (line : List Char) : FileSrc × List Char × Bool :=
  if st.good then
    match st.rest.span (· ≠ '\n') with
    | (l, _ :: rest) => (⟨rest, true⟩, l, true)
    | (l, []) => (⟨[], false⟩, l, false)
  else (st, line, false)

/-- The loop `while (stream.nextLine(line)) use(line)` with which all parsers consume their input; the
result is the list of lines used (`none`: fuel exhausted). -/
def readAll : Nat → FileSrc → List Char → Option (List (List Char))
  | 0, _, _ => none
  | fuel + 1, st, line =>
    if (nextLine st line).2.2 then
      (readAll fuel (nextLine st line).1 (nextLine st line).2.1).map ((nextLine st line).2.1 :: ·)
    else some []

/-- Vector source: the strings and `p_fileIterator`; `openStringVector` (51-58) never assigns the
iterator, so it is `none` (a default-constructed iterator). -/
structure VecSrc where
  lines : List (List Char)
  it : Option Nat
deriving DecidableEq, Repr

/-- `openStringVector`: `false` for an empty vector. -/
def openStringVector (old : VecSrc) (v : List (List Char)) : VecSrc × Bool :=
  if v.length = 0 then (old, false) else ({ old with lines := v }, true)

/-- Outcome of `nextLine` on a vector source (88-95); `none`: comparing or dereferencing an iterator that
does not belong to the vector. -/
def nextLineVec (st : VecSrc) : Option (VecSrc × List Char × Bool) :=
  match st.it with
  | none => none
  | some i =>
    match st.lines[i]? with
    | some l => some ({ st with it := some (i + 1) }, l, true)
    | none => some (st, [], false)

end GridPACK.InputStream
