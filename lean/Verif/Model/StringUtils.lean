/-! Model of `StringUtils` (src/utilities/string_utils.hpp).

Strings are lists of characters.  Positions are integers as in the code, `-1` standing for
`std::string::npos` converted to `int`.  `boost::trim` removes the characters for which `isspace` holds
in the classic locale.  `boost::to_lower` is modelled on ASCII letters.  Loops carry a fuel argument;
the theorems show that a fuel of `length + 1` is never used up. -/
namespace GridPACK.StringUtils

abbrev Str := List Char

/-- Outcome of a call. `throws`: `std::out_of_range` from `substr`; `undefined`: a character outside the
string is read. -/
inductive R (α : Type)
  | ok (a : α)
  | throws
  | undefined
  | outOfFuel
deriving DecidableEq, Repr

def slen (s : Str) : Int := (s.length : Int)

/-- `s.find(c, pos)` stored in an `int`; a negative `pos` becomes a huge unsigned one. -/
def find (c : Char) (s : Str) (pos : Int) : Int :=
  if pos < 0 then -1 else
    match (s.drop pos.toNat).findIdx? (fun x => x = c) with
    | none => -1
    | some i => pos + (i : Int)

/-- `s.find_first_not_of(c, pos)`. -/
def findNot (c : Char) (s : Str) (pos : Int) : Int :=
  if pos < 0 then -1 else
    match (s.drop pos.toNat).findIdx? (fun x => x ≠ c) with
    | none => -1
    | some i => pos + (i : Int)

/-- `s.substr(pos, n)`: throws when `pos` is beyond the end; a negative `n` is huge. -/
def substr (s : Str) (pos n : Int) : Option Str :=
  if pos < 0 ∨ pos > slen s then none
  else if n < 0 then some (s.drop pos.toNat) else some ((s.drop pos.toNat).take n.toNat)

/-- `if (ntok2 == npos) ntok2 = s.length()`. -/
def endOr (s : Str) (n : Int) : Int := if n = -1 then slen s else n

/-! ### trim (47-71) -/

/-- One of the three replacement loops (51-56 etc.): overwrite every `c` at or after `ntok`. -/
def replaceLoop (c : Char) : Nat → Str → Int → Str
  | 0, s, _ => s
  | fuel + 1, s, ntok =>
    if ntok = -1 then s
    else replaceLoop c fuel (s.set ntok.toNat ' ') (find c (s.set ntok.toNat ' ') (ntok + 1))

def replace (c : Char) (s : Str) : Str := replaceLoop c (s.length + 1) s (find c s 0)

/-- `isspace` in the classic locale. -/
def isSpace (c : Char) : Bool :=
  c == ' ' || c == '\t' || c == '\n' || c == '\r' || c == '\x0b' || c == '\x0c'

/-- `boost::trim`. -/
def boostTrim (s : Str) : Str := ((s.dropWhile isSpace).reverse.dropWhile isSpace).reverse

def trim (s : Str) : Str := boostTrim (replace '\r' (replace '\t' (replace '\n' s)))

/-! ### clean2Char (97-142) and trimQuotes (150-182) -/

/-- Start position found by the quote search (101-114); the flag tells whether a double quote was
found (`sngl_qt == false`).  In the no-quote case `sngl_qt` keeps its initial value `true`, so the
`else if (no_qt)` branch (119-120) is never taken. -/
def quoteStart (tag : Str) : Int × Bool :=
  if find '\'' tag 0 = -1 then
    if find '"' tag 0 = -1 then (findNot ' ' tag 0, false) else (find '"' tag 0, true)
  else (find '\'' tag 0, false)

/-- Text between quotes (115-125): `substr(ntok1, ntok2-ntok1)`. -/
def between (tag : Str) (q : Char) (start : Int) : Option Str :=
  substr tag (findNot q tag start)
    (endOr tag (find q tag (findNot q tag start)) - findNot q tag start)

def unquote (tag : Str) : Option Str :=
  between tag (if (quoteStart tag).2 then '"' else '\'') (quoteStart tag).1

/-- First blank-delimited word (127-130). -/
def firstWord (s : Str) : Option Str :=
  substr s (findNot ' ' s 0) (endOr s (find ' ' s (findNot ' ' s 0)) - findNot ' ' s 0)

/-- Padding and carriage return treatment (131-141). -/
def pad2 (tag : Str) : Str :=
  match tag with
  | [c] => [c, ' ']
  | [c, d] => if d = '\r' then [c, ' '] else [c, d]
  | t => t

def clean2Char (string : Str) : R Str :=
  match unquote string with
  | none => .throws
  | some t => match firstWord t with
    | none => .throws
    | some w => .ok (pad2 w)

def trimQuotes (str : Str) : R Str :=
  match unquote str with
  | none => .throws
  | some t => .ok (trim t)

/-! ### charTokenizer (255-271) -/

def charLoop (sep : Char) (s : Str) : Nat → Int → Int → List Str → R (List Str)
  | 0, _, _, _ => .outOfFuel
  | fuel + 1, ntok1, ntok2, ret =>
    if ntok2 < slen s - 1 ∧ ntok1 ≠ -1 then
      if findNot sep s ntok2 ≤ endOr s (find sep s (findNot sep s ntok2)) then
        match substr s (findNot sep s ntok2)
            (endOr s (find sep s (findNot sep s ntok2)) - findNot sep s ntok2) with
        | none => .throws
        | some t => charLoop sep s fuel (findNot sep s ntok2)
            (endOr s (find sep s (findNot sep s ntok2))) (ret ++ [t])
      else charLoop sep s fuel (findNot sep s ntok2)
            (endOr s (find sep s (findNot sep s ntok2))) ret
    else .ok ret

def charTokenizer (s : Str) (sep : Char) : R (List Str) :=
  if findNot sep s 0 ≤ endOr s (find sep s (findNot sep s 0)) then
    match substr s (findNot sep s 0)
        (endOr s (find sep s (findNot sep s 0)) - findNot sep s 0) with
    | none => .throws
    | some t => charLoop sep s (s.length + 1) (findNot sep s 0)
        (endOr s (find sep s (findNot sep s 0))) [t]
  else charLoop sep s (s.length + 1) (findNot sep s 0)
        (endOr s (find sep s (findNot sep s 0))) []

/-! ### blankTokenizer (191-245) -/

def tabToBlank (c : Char) : Char := if c = '\t' then ' ' else c

/-- Character at a position; `none` outside the string (position `length` is the terminator). -/
def charAt (s : Str) (pos : Int) : Option Char :=
  if pos < 0 then none else if pos = slen s then some '\x00' else s[pos.toNat]?

/-- End of the first token (203-214); an unterminated quote gives `-1 + 1 = 0`. -/
def firstEnd (s : Str) (n1 : Int) (c : Char) : Int :=
  if c = '\'' then find '\'' s (n1 + 1) + 1
  else if c = '"' then find '"' s (n1 + 1) + 1
  else endOr s (find ' ' s n1)

/-- End of a later token (219-237). -/
def nextEnd (s : Str) (n1 : Int) (c : Char) : Int :=
  if c = '\'' then (if find '\'' s (n1 + 1) ≠ -1 then find '\'' s (n1 + 1) + 1 else slen s)
  else if c = '"' then (if find '"' s (n1 + 1) ≠ -1 then find '"' s (n1 + 1) + 1 else slen s)
  else endOr s (find ' ' s n1)

/-- Fields kept by the loop (240-242). -/
def keep (field : Str) : Bool := findNot ' ' field 0 ≠ -1 ∧ findNot '\r' field 0 ≠ -1

def blankLoop (s : Str) : Nat → Int → Int → List Str → R (List Str)
  | 0, _, _, _ => .outOfFuel
  | fuel + 1, ntok1, ntok2, ret =>
    if ntok2 < slen s - 1 ∧ ntok1 ≠ -1 then
      if findNot ' ' s ntok2 = -1 then blankLoop s fuel (-1) ntok2 ret
      else
        match charAt s (findNot ' ' s ntok2) with
        | none => .undefined
        | some c =>
          match substr s (findNot ' ' s ntok2)
              (nextEnd s (findNot ' ' s ntok2) c - findNot ' ' s ntok2) with
          | none => .throws
          | some f => blankLoop s fuel (findNot ' ' s ntok2) (nextEnd s (findNot ' ' s ntok2) c)
              (if keep f then ret ++ [f] else ret)
    else .ok ret

/-- The copy with tabs replaced is scanned; reading `strcpy[-1]` (202) of a blank line is outside the
string. -/
def blankScan (s : Str) : R (List Str) :=
  match charAt s (findNot ' ' s 0) with
  | none => .undefined
  | some c =>
    match substr s (findNot ' ' s 0) (firstEnd s (findNot ' ' s 0) c - findNot ' ' s 0) with
    | none => .throws
    | some t => blankLoop s (s.length + 2) (findNot ' ' s 0) (firstEnd s (findNot ' ' s 0) c) [t]

def blankTokenizer (str : Str) : R (List Str) := blankScan (str.map tabToBlank)

/-! ### getBool (279-305) -/

def lower (c : Char) : Char :=
  if 'A'.toNat ≤ c.toNat ∧ c.toNat ≤ 'Z'.toNat then Char.ofNat (c.toNat + 32) else c

def getBool (str : Str) : Bool :=
  let t := (trim str).map lower
  if t = "true".toList then true
  else if t = "yes".toList then true
  else if t = "t".toList then true
  else if t = "y".toList then true
  else if t = "1".toList then true
  else if t = "false".toList then false
  else if t = "no".toList then false
  else if t = "f".toList then false
  else if t = "n".toList then false
  else if t = "0".toList then false
  else false

end GridPACK.StringUtils
