import Verif.Model.StringUtils

/-! Model of the line helpers of `BaseBlockParser` (src/parser/block_parsers/base_block_parser.cpp) and
of the block reading loop shared by the block parsers (e.g. bus_parser33.cpp:53-125). -/
namespace GridPACK.BlockParser
open StringUtils

/-- `test_end` (71-95): `false` ends the block.  `str[0]` of an empty string is the terminator. -/
def testEnd (str : Str) : Bool :=
  if str.head? = some '0' then false
  else
    match str.dropWhile (· = ' ') with
    | [] => true
    | c :: r =>
      if c ≠ '0' then true
      else
        match r with
        | [] => false
        | d :: _ => if d = ' ' ∨ d = '\\' then false else true

/-- The scan `while (str[ntok2] == ' ') ntok2--` of `remove_blanks` (58-64); running below position 0
reads outside the string. -/
def removeBlanks (str : Str) : R Str :=
  if str.all (· = ' ') then .undefined
  else .ok ((str.dropWhile (· = ' ')).reverse.dropWhile (· = ' ')).reverse

/-- `check_string` (103-128): flag and new contents of the string.  The comparison
`str.length()-1 - ntok1 > 1` is unsigned: it wraps when the string is a single quote mark; then the
substring is empty as well. -/
def quotedPart (str : Str) : Str :=
  let ntok1 := findNot ' ' str 0 + 1
  let ntok2 := find '\'' str ntok1
  if ntok2 - ntok1 > 1 ∧ ntok2 ≠ -1 then (substr str ntok1 (ntok2 - ntok1)).getD []
  else if ntok2 = -1 ∧ slen str - 1 - ntok1 > 1 then (substr str ntok1 (slen str - ntok1)).getD []
  else []

def checkString (str : Str) : R (Bool × Str) :=
  if findNot ' ' str 0 ≠ -1 ∧ charAt str (findNot ' ' str 0) = some '\'' then
    if quotedPart str = [] then .ok (true, [])
    else match removeBlanks (quotedPart str) with
      | .ok s => .ok (true, s)
      | .throws => .throws
      | .undefined => .undefined
      | .outOfFuel => .outOfFuel
  else match removeBlanks str with
    | .ok s => .ok (false, s)
    | .throws => .throws
    | .undefined => .undefined
    | .outOfFuel => .outOfFuel

/-- First quote position and its kind in `cleanComment` (169-174). -/
def commentQuote (s : Str) : Int × Char :=
  if find '\'' s 0 = -1 then
    if find '"' s 0 ≠ -1 then (find '"' s 0, '"') else (-1, '\'')
  else (find '\'' s 0, '\'')

/-- Second quote position (175-182). -/
def commentQuote2 (s : Str) : Int :=
  if (commentQuote s).1 ≠ -1 ∧ slen s > (commentQuote s).1 + 1 then
    find (commentQuote s).2 s ((commentQuote s).1 + 1)
  else (commentQuote s).1

/-- `cleanComment` (164-189). -/
def cleanComment (s : Str) : Str :=
  if find '/' s 0 = -1 then s
  else if (commentQuote s).1 ≠ -1 ∧ commentQuote2 s ≠ -1 ∧ (commentQuote s).1 < find '/' s 0 ∧
      find '/' s 0 < commentQuote2 s then s
  else s.take (find '/' s 0).toNat

/-- `boost::algorithm::split` on commas without compression. -/
def splitComma : Str → List Str
  | [] => [[]]
  | c :: s =>
    if c = ',' then [] :: splitComma s
    else match splitComma s with
      | [] => [[c]]
      | f :: fs => (c :: f) :: fs

/-- `isBlank` (230-235). -/
def isBlank (s : Str) : Bool := findNot ' ' s 0 = -1

/-- Body of the loop of `splitPSSELine` (210-221). -/
def psseStep (acc : R (List Str)) (field : Str) : R (List Str) :=
  match acc with
  | .ok ret =>
    if isBlank field then .ok (ret ++ ["0".toList])
    else match blankTokenizer field with
      | .ok tokens => .ok (ret ++ tokens)
      | .throws => .throws
      | .undefined => .undefined
      | .outOfFuel => .outOfFuel
  | e => e

/-- `splitPSSELine` (197-223). -/
def splitPSSELine (line : Str) : R (List Str) := (splitComma line).foldl psseStep (.ok [])

/-- Position of the first three consecutive blanks (`string.find("   ",0)`). -/
def findTriple : Str → Option Nat
  | ' ' :: ' ' :: ' ' :: _ => some 0
  | _ :: s => (findTriple s).map (· + 1)
  | [] => none

/-- `parseBusName` (138-157): name and the text handed to `atof` (`none`: voltage stays 0). -/
def parseBusName (string : Str) : Str × Option Str :=
  if string.length > 12 then
    match findTriple string with
    | none => (string, none)
    | some n =>
      (string.take n,
        if (string.drop n).all (· = ' ') then none else some ((string.drop n).dropWhile (· = ' ')))
  else (string, none)

/-- The reading loop of a block parser (bus_parser33.cpp:51-124): the first line is read, and while
`test_end` holds the line is processed and `stream.nextLine(line)` is called without looking at its
result.  At the end of the input `line` keeps its last contents (`std::getline` on an exhausted stream)
or becomes empty (if the input ends with a newline); `eof` gives that content.  The result is the list
of processed lines; `none`: the fuel is used up. -/
def readBlock (eof : Str → Str) : Nat → Str → List Str → Option (List Str)
  | 0, _, _ => none
  | fuel + 1, line, rest =>
    if testEnd line then
      match rest with
      | [] => (readBlock eof fuel (eof line) []).map (line :: ·)
      | next :: rest => (readBlock eof fuel next rest).map (line :: ·)
    else some []

end GridPACK.BlockParser
