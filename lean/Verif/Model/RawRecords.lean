import Verif.Model.BlockParser

/-! Model of how the transformer block is cut into records of several lines
(src/parser/block_parsers/transformer_parser33.cpp 67-349, 696-698) and of `check_comment`
(base_block_parser.cpp 41-52).

Simplifications: whether a first line belongs to two or three windings and whether a three-winding
transformer is skipped are given by functions of the lines (`three`, `skip`); a record is the list of its
lines; a three-winding record cut off by a comment is dropped, while the code leaves a bus and up to three
branches without data behind; the end of the input is `none`. -/
namespace GridPACK.RawRecords

open GridPACK.StringUtils GridPACK.BlockParser

/-- `check_comment` (41-52). -/
def checkComment (s : Str) : Bool :=
  match s.dropWhile (· = ' ') with
  | '/' :: '/' :: _ => true
  | '@' :: '!' :: _ => true
  | _ => false

/-- Reading the continuation lines of a record. -/
inductive Cont
  /-- all lines read -/
  | full (ls : List Str) (rest : List Str)
  /-- a comment was met: `stream.nextLine(line); continue` -/
  | cut (rest : List Str)
  /-- no more lines -/
  | eof

/-- `n` times `stream.nextLine(line); if (check_comment(line)) {stream.nextLine(line); continue;}`
(332-355, 82-87, 211-216, 249-254, 287-292). -/
def cont : Nat → List Str → Cont
  | 0, rest => .full [] rest
  | _ + 1, [] => .eof
  | n + 1, l :: rest =>
    if checkComment l then .cut rest
    else
      match cont n rest with
      | .full ls rest => .full (l :: ls) rest
      | .cut rest => .cut rest
      | .eof => .eof

/-- The loop (67-698): `line` is the first element of the input; `fuel` bounds the number of passes. -/
def records (three : Str → Bool) (skip : Str → Str → Bool) : Nat → List Str → Option (List (List Str))
  | 0, _ => none
  | _ + 1, [] => none
  | fuel + 1, line :: rest =>
    if testEnd line then
      if checkComment line then records three skip fuel rest
      else if three line then
        match cont 1 rest with
        | .eof => none
        | .cut rest => records three skip fuel rest
        | .full l2 rest =>
          if skip line l2.flatten then
            -- four `nextLine`: the last one reads the first line of the next record
            records three skip fuel (rest.drop 3)
          else
            match cont 3 rest with
            | .eof => none
            | .cut rest => records three skip fuel rest
            | .full ls rest => (records three skip fuel rest).map ((line :: (l2 ++ ls)) :: ·)
      else
        match cont 3 rest with
        | .eof => none
        | .cut rest => records three skip fuel rest
        | .full ls rest => (records three skip fuel rest).map ((line :: ls) :: ·)
    else some []

end GridPACK.RawRecords
