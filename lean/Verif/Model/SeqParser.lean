import Verif.Model.DyrFile

/-! Model of reading a file with the sequence data of a fault study: src/parser/PSSE_seq_parser.hpp.  Process 0 reads
the file (`getSeqData` 97-131) into structs of generators, buses and branches, one struct for all the rows of a
component (the maps `p_genIDs`, `p_busIDs`, `p_branchIDs`); the structs are distributed to the processes holding the
components and put into their data collections (`sortSeqData` 525-799).

The steps are written in the form used for the .dyr files (`Verif/Model/Dyr.lean`): a struct is a function from members
to values with arbitrary contents before, `atoi`, `atof` and `clean2Char` are functions, an access outside a vector or
an exception is `none`.  A file is the list of its lines up to the last newline (`InputStream`); the row of each line
comes with the memory that a new struct for it would have.  The array `gen_id` of three characters holds the result
of `clean2Char`, which has at most two.  Not modelled: `getExtension` (a file with another extension is not read) and
a file that cannot be opened (nothing changes). -/
namespace GridPACK.SeqParser
open StringUtils DataCollection Dyr
open RawBus (Val Data)

/-- 805-829 `test_end`: false if the line ends a section.  The character at the end of a string is the terminator. -/
def testEnd (str : Str) : Bool :=
  if str.head? = some '0' then false
  else
    match str.dropWhile (· = ' ') with
    | [] => true
    | c :: r =>
      if c ≠ '0' then true
      else match r with
        | [] => false
        | d :: _ => if d = ' ' ∨ d = '\\' then false else true

/-- A vector of structs (`p_gen_data` etc., 842-844) and the map from the identifications to the places in it
(847-849). -/
structure Table (K : Type) where
  data : List Struct
  ids : List (K × Nat)

/-- `find` in the map. -/
def Table.place {K : Type} [DecidableEq K] (t : Table K) (k : K) : Option Nat :=
  (t.ids.find? (fun p => p.1 = k)).map (·.2)

/-- What is done with the rows of a section: the identification; the flags set and the members assigned for a
component that has a struct already; the same for a new one. -/
structure Sec (K : Type) where
  key : Conv → List Str → Option K
  oldFlags : List Str → List (String × Bool)
  old : List Str → List SEntry
  newFlags : List Str → List (String × Bool)
  new : List Str → List SEntry

/-- Assignments without a test of the length: `data.f = atoi(split_line[n])`, `atof`, `clean2Char`. -/
def aInt (f : String) (n : Nat) : SEntry := ⟨none, f, .int n⟩
def aDbl (f : String) (n : Nat) : SEntry := ⟨none, f, .dbl n⟩
def aTag (f : String) (n : Nat) : SEntry := ⟨none, f, .tag n⟩

/-- Flags set. -/
def setFlags (fs : List (String × Bool)) (s : Struct) : Struct :=
  fs.foldl (fun s f => s.put f.1 ⟨.bool, f.2⟩) s

/-- The loop bodies (224-251 and the others): one row `r.2`, with the memory `r.1` of the struct `data`.  Flags are
set before the other members, which makes no difference. -/
def Sec.step {K : Type} [DecidableEq K] (sec : Sec K) (cv : Conv) (t : Table K) (r : Struct × List Str) :
    Option (Table K) :=
  (sec.key cv r.2).bind (fun k =>
    match t.place k with
    | some i =>
      (t.data[i]?).bind (fun s =>
        (runStore cv r.2 (sec.old r.2) (setFlags (sec.oldFlags r.2) s)).map
          (fun s => { t with data := t.data.set i s }))
    | none =>
      (runStore cv r.2 (sec.new r.2) (setFlags (sec.newFlags r.2) r.1)).map
        (fun s => ⟨t.data ++ [s], t.ids ++ [(k, t.data.length)]⟩))

/-- The loops `while(nextLine(line) && test_end(line))`: the table afterwards and the lines left. -/
def Sec.read {K : Type} [DecidableEq K] (sec : Sec K) (cv : Conv) :
    List (Struct × Str) → Table K → Option (Table K × List (Struct × Str))
  | [], t => some (t, [])
  | r :: rs, t =>
    if testEnd r.2 then
      match charTokenizer r.2 ',' with
      | .ok ts => (sec.step cv t (r.1, ts)).bind (sec.read cv rs)
      | _ => none
    else some (t, rs)

/-- 442-448 `findZeroSeqMutualImpData`: the lines left after the section, which is ignored. -/
def skip : List (Struct × Str) → List (Struct × Str)
  | [] => []
  | r :: rs => if testEnd r.2 then skip rs else rs

/-! ### Generators (221-324) -/

/-- 228-230: bus and name. -/
def genKey (cv : Conv) (ts : List Str) : Option (Int × Str) :=
  match ts[0]?, ts[1]? with
  | some b, some g => some (cv.atoi b, cv.tag g)
  | _, _ => none

/-- 221-252 `findPosSeqImpData`. -/
def posSec : Sec (Int × Str) where
  key := genKey
  oldFlags := fun _ => [("use_pos", true)]
  old := fun _ => [aDbl "zrpos" 2, aDbl "zxpos" 3]
  newFlags := fun _ => [("use_pos", true), ("use_neg", false), ("use_zero", false)]
  new := fun _ => [aInt "bus_id" 0, aTag "gen_id" 1, aDbl "zrpos" 2, aDbl "zxpos" 3]

/-- 257-288 `findNegSeqImpData`. -/
def negSec : Sec (Int × Str) where
  key := genKey
  oldFlags := fun _ => [("use_neg", true)]
  old := fun _ => [aDbl "zrneg" 2, aDbl "zxneg" 3]
  newFlags := fun _ => [("use_pos", false), ("use_neg", true), ("use_zero", false)]
  new := fun _ => [aInt "bus_id" 0, aTag "gen_id" 1, aDbl "zrneg" 2, aDbl "zxneg" 3]

/-- 293-324 `findZeroSeqImpData`. -/
def zeroSec : Sec (Int × Str) where
  key := genKey
  oldFlags := fun _ => [("use_zero", true)]
  old := fun _ => [aDbl "rzero" 2, aDbl "xzero" 3]
  newFlags := fun _ => [("use_pos", false), ("use_neg", false), ("use_zero", true)]
  new := fun _ => [aInt "bus_id" 0, aTag "gen_id" 1, aDbl "rzero" 2, aDbl "xzero" 3]

/-! ### Buses (329-386) -/

/-- 336: the bus. -/
def busKey (cv : Conv) (ts : List Str) : Option Int := ts[0]?.map cv.atoi

/-- 329-355 `findNegSeqShuntData`. -/
def negShunt : Sec Int where
  key := busKey
  oldFlags := fun _ => [("use_neg", true)]
  old := fun _ => [aDbl "gneg" 1, aDbl "bneg" 2]
  newFlags := fun _ => [("use_neg", true), ("use_zero", false)]
  new := fun _ => [aInt "bus_id" 0, aDbl "gneg" 1, aDbl "bneg" 2]

/-- 360-386 `findZeroSeqShuntData`.  Line 371 is the expression `p_bus_data[idx].use_zero;`, which does nothing. -/
def zeroShunt : Sec Int where
  key := busKey
  oldFlags := fun _ => []
  old := fun _ => [aDbl "gzero" 1, aDbl "bzero" 2]
  newFlags := fun _ => [("use_neg", true), ("use_zero", false)]
  new := fun _ => [aInt "bus_id" 0, aDbl "gzero" 1, aDbl "bzero" 2]

/-! ### Branches (391-523) -/

/-- 398-402, 466-470: buses, and the name in word `n`. -/
def branchKey (n : Nat) (cv : Conv) (ts : List Str) : Option ((Int × Int) × Str) :=
  match ts[0]?, ts[1]?, ts[n]? with
  | some a, some b, some t => some ((cv.atoi a, cv.atoi b), cv.tag t)
  | _, _, _ => none

/-- 406-431: the members of a line. -/
def lineStore : List SEntry :=
  [aInt "from_bus" 0, aInt "to_bus" 1, aTag "branch_id" 2, aDbl "rlinz" 3, aDbl "xlinz" 4, aDbl "bchz" 5, aDbl "gi" 6,
    aDbl "bi" 7, aDbl "gj" 8, aDbl "bj" 9]

/-- 391-437 `findZeroSeqNonTransformerData`. -/
def lineSec : Sec ((Int × Int) × Str) where
  key := branchKey 2
  oldFlags := fun _ => [("is_xform", false)]
  old := fun _ => lineStore
  newFlags := fun _ => [("is_xform", false)]
  new := fun _ => lineStore

/-- 460-464: a row that has not 11 words is for a transformer with three windings. -/
def three (ts : List Str) : Bool := !(ts.length == 11)

/-- 474-517: the members of a transformer. -/
def xformStore (ts : List Str) : List SEntry :=
  [aInt "from_bus" 0, aInt "to_bus" 1, aTag "branch_id" 3, aInt "k" 2, aInt "cc" 4, aDbl "rg" 5, aDbl "xg" 6,
    aDbl "r1" 7, aDbl "x1" 8] ++
  if three ts then [aDbl "r2" 11, aDbl "x2" 12, aDbl "r3" 13, aDbl "x3" 14] else [aDbl "rg2" 9, aDbl "xg2" 10]

/-- 453-523 `findZeroSeqTransformerData`. -/
def xformSec : Sec ((Int × Int) × Str) where
  key := branchKey 3
  oldFlags := fun ts => [("is_xform", true), ("three_winding", three ts)]
  old := xformStore
  newFlags := fun ts => [("is_xform", true), ("three_winding", three ts)]
  new := xformStore

/-! ### The whole file -/

/-- The tables of a parser. -/
structure Tables where
  gens : Table (Int × Str)
  buses : Table Int
  branches : Table ((Int × Int) × Str)

/-- A new parser. -/
def fresh : Tables := ⟨⟨[], []⟩, ⟨[], []⟩, ⟨[], []⟩⟩

/-- 97-131 `getSeqData` on process 0.  The first line is split, and its first word is used (109-114). -/
def readFile (cv : Conv) (lines : List (Struct × Str)) (t : Tables) : Option Tables :=
  match charTokenizer ((lines.map (·.2)).headD []) ',' with
  | .ok (_ :: _) =>
    (posSec.read cv lines.tail t.gens).bind (fun g1 =>
      (negSec.read cv g1.2 g1.1).bind (fun g2 =>
        (zeroSec.read cv g2.2 g2.1).bind (fun g3 =>
          (negShunt.read cv g3.2 t.buses).bind (fun b1 =>
            (zeroShunt.read cv b1.2 b1.1).bind (fun b2 =>
              (lineSec.read cv b2.2 t.branches).bind (fun l1 =>
                (xformSec.read cv (skip l1.2) l1.1).map (fun l2 => ⟨g3.1, b2.1, l2.1⟩)))))))
  | _ => none

/-! ### Storing (525-799) -/

/-- A flag of the struct. -/
def flag (s : Struct) (f : String) : Bool := s .bool f

/-- `if (getValue(..)) setValue(..) else addValue(..)` for some members under a condition. -/
def putIf (cond : Bool) (s : Struct) (idx : Option Int) (es : List (Entry FSrc)) (c : Data) : Option Data :=
  if cond then runEntries (fun f => some (FSrc.eval s f)) 0 idx es c else some c

/-- 547-565, 670-687: the index of the device with this name, -1 if there is none. -/
def seqIndex (cv : Conv) (c : Data) (num id : String) (tag : Str) : Int :=
  match (List.range (RawBus.intVal c num.toList).toNat).find? (fun j => cv.tag (strVal c id j) = tag) with
  | some j => (j : Int)
  | none => -1

/-- 543-606: a generator. -/
def putGen (cv : Conv) (s : Struct) (c : Data) : Option Data :=
  let idx := some (seqIndex cv c "GENERATOR_NUMBER" "GENERATOR_ID" (s .string "gen_id"))
  (putIf (flag s "use_pos") s idx [eDbl "GENERATOR_SEQ_ZRPOS" "zrpos", eDbl "GENERATOR_SEQ_ZXPOS" "zxpos"] c).bind
    (fun c => (putIf (flag s "use_neg") s idx
        [eDbl "GENERATOR_SEQ_ZRNEG" "zrneg", eDbl "GENERATOR_SEQ_ZXNEG" "zxneg"] c).bind
      (putIf (flag s "use_zero") s idx [eDbl "GENERATOR_SEQ_RZERO" "rzero", eDbl "GENERATOR_SEQ_XZERO" "xzero"]))

/-- 631-662: a bus. -/
def putBus (s : Struct) (c : Data) : Option Data :=
  (putIf (flag s "use_neg") s none [eDbl "BUS_SEQ_GNEG" "gneg", eDbl "BUS_SEQ_BNEG" "bneg"] c).bind
    (putIf (flag s "use_zero") s none [eDbl "BUS_SEQ_GZERO" "gzero", eDbl "BUS_SEQ_BZERO" "bzero"])

/-- 690-727: the members of a line. -/
def lineExtract : List (Entry FSrc) :=
  [eDbl "BRANCH_SEQ_RLINZ" "rlinz", eDbl "BRANCH_SEQ_XLINZ" "xlinz", eDbl "BRANCH_SEQ_BCHZ" "bchz",
    eDbl "BRANCH_SEQ_GI" "gi", eDbl "BRANCH_SEQ_BI" "bi", eDbl "BRANCH_SEQ_GJ" "gj", eDbl "BRANCH_SEQ_BJ" "bj"]

/-- 728-760: those of a transformer. -/
def xformExtract : List (Entry FSrc) :=
  [eInt "TRANSFORMER_SEQ_K" "k", eInt "TRANSFORMER_SEQ_CC" "cc", eDbl "TRANSFORMER_SEQ_RG" "rg",
    eDbl "TRANSFORMER_SEQ_XG" "xg", eDbl "TRANSFORMER_SEQ_R1" "r1", eDbl "TRANSFORMER_SEQ_X1" "x1"]

/-- 762-772: with two windings. -/
def twoExtract : List (Entry FSrc) := [eDbl "TRANSFORMER_SEQ_RG2" "rg2", eDbl "TRANSFORMER_SEQ_XG2" "xg2"]

/-- 773-796: with three windings. -/
def threeExtract : List (Entry FSrc) :=
  [eDbl "TRANSFORMER_SEQ_R2" "r2", eDbl "TRANSFORMER_SEQ_X2" "x2", eDbl "TRANSFORMER_SEQ_R3" "r3",
    eDbl "TRANSFORMER_SEQ_X3" "x3"]

/-- 666-798: a branch. -/
def putBranch (cv : Conv) (s : Struct) (c : Data) : Option Data :=
  let idx := some (seqIndex cv c "BRANCH_NUM_ELEMENTS" "BRANCH_CKT" (s .string "branch_id"))
  if flag s "is_xform" then
    (putIf true s idx xformExtract c).bind
      (if flag s "three_winding" then putIf true s idx threeExtract else putIf true s idx twoExtract)
  else putIf true s idx lineExtract c

/-- The data with which a vector is given to the distribution (528-533, 609-619). -/
def genVec (t : Tables) : List (Int × Struct) := t.gens.data.map (fun s => (s .int "bus_id", s))
def busVec (t : Tables) : List (Int × Struct) := t.buses.data.map (fun s => (s .int "bus_id", s))
def branchVec (t : Tables) : List ((Int × Int) × Struct) :=
  t.branches.data.map (fun s => ((s .int "from_bus", s .int "to_bus"), s))

/-- 525-799 `sortSeqData` of a new parser on process `me` after process 0 has read `t`: the data of its buses `busNo`
and branches `ends` afterwards. -/
def sortData (cv : Conv) (n : Nat) (bound : Nat → Nat → Nat) (puts : List Nat) (me : Nat) (t : Tables)
    (busNo : List Int) (ends : List (Int × Int)) (bus branch : List Data) : Option (List Data × List Data) :=
  (spread n bound puts me (putGen cv) (genVec t) busNo bus).bind (fun bus =>
    (spread n bound puts me putBus (busVec t) busNo bus).bind (fun bus =>
      (spread n bound puts me (putBranch cv) (branchVec t) ends branch).map (fun branch => (bus, branch))))

/-- 66-75 `parse` of a new parser, seen on process `me`. -/
def parse (cv : Conv) (n : Nat) (bound : Nat → Nat → Nat) (puts : List Nat) (me : Nat) (lines : List (Struct × Str))
    (busNo : List Int) (ends : List (Int × Int)) (bus branch : List Data) : Option (List Data × List Data) :=
  (readFile cv lines fresh).bind (fun t => sortData cv n bound puts me t busNo ends bus branch)

/-- The generators of the parser on process 0 after `parse`: `distributeBusValues` replaces the vector by the structs
delivered to this process (535-539), the map stays. -/
def gensAfter (n : Nat) (bound : Nat → Nat → Nat) (puts : List Nat) (t : Tables) (busNo : List Int) :
    Option (Table (Int × Str)) :=
  (HashDistr.distribute n (bound (genVec t).length) (fun p => if p = 0 then genVec t else []) puts busNo 0).map
    (fun out => ⟨out.map (·.2), t.gens.ids⟩)

end GridPACK.SeqParser
