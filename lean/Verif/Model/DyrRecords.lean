import Verif.Model.BlockParser

/-! Model of how the readers of .dyr files make records of the lines (src/parser/base_pti_parser.hpp: find_ds_par
1520-1539 for the reader working on its own data, find_ds_vector 1775-1797 for the reader on one process that hands
the records out) and of `splitPSSELine` there (120-144), which is the same text as the one of
base_block_parser.cpp modelled in `Verif/Model/BlockParser.lean`.

A file is the list of its lines as `std::getline` delivers them.  Inside a record the result of `std::getline` is not
looked at; at the end of the file `line` keeps its contents or becomes empty (`eof`), as in `BlockParser.readBlock`.
The positions are ints, `std::string::npos` is −1. -/
namespace GridPACK.DyrRecords
open StringUtils BlockParser

/-- find_ds_par 1525-1526: lines passed over between records. -/
def skipDirect (line : Str) : Bool := findNot ' ' line 0 = -1

/-- find_ds_vector 1781-1789: lines passed over between records. -/
def skipShared (line : Str) : Bool :=
  findNot ' ' line 0 = -1 ∨ findNot '\r' line 0 = -1 ∨
    (charAt line (findNot ' ' line 0) = some '/' ∧ slen line > findNot ' ' line 0 + 2 ∧
      charAt line (findNot ' ' line 0 + 1) = some '/')

/-- 1529-1534, 1791-1796: lines are appended up to one with a slash; the record and the lines left. -/
def gather (eof : Str → Str) : Nat → Str → Str → List Str → Option (Str × List Str)
  | 0, _, _, _ => none
  | fuel + 1, line, record, rest =>
    if find '/' line 0 = -1 then
      match rest with
      | [] => gather eof fuel (eof line) (record ++ eof line) []
      | next :: rest => gather eof fuel next (record ++ next) rest
    else some (record, rest)

/-- 1535-1536, 1797-1798: the text from the first slash on is erased. -/
def cut (record : Str) : Str := if find '/' record 0 ≠ -1 then record.take (find '/' record 0).toNat else record

/-- The loop over the lines: the texts of the records.  `none`: the fuel is used up. -/
def records (skip : Str → Bool) (eof : Str → Str) : Nat → List Str → Option (List Str)
  | 0, _ => none
  | _ + 1, [] => some []
  | fuel + 1, line :: rest =>
    if skip line then records skip eof fuel rest
    else match gather eof fuel line line rest with
      | none => none
      | some (record, rest) => (records skip eof fuel rest).map (cut record :: ·)

/-- The loop with `splitPSSELine` (1537-1538, 1799-1800): the tokens of the records. -/
def read (skip : Str → Bool) (eof : Str → Str) (fuel : Nat) (lines : List Str) : Option (List (R (List Str))) :=
  (records skip eof fuel lines).map (·.map splitPSSELine)

end GridPACK.DyrRecords
