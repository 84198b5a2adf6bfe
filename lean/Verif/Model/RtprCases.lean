import Verif.Model.CaDriver
import Verif.Model.GlobalVector

/-! Model of the lists from which the path rating works and of its verdict about a rating
(src/applications/rtpr/rtpr_driver.cpp 156-604, 933-956, 1176-1535, 1606-1697): contingencies created for an area or
zone, tie lines, watched generators, conversion of contingencies to faults of the dynamic simulation, evaluation of all
contingencies.

A process has the list of its buses and branches.  Every bus has an area and a zone (all parsers store them), so that
the variables `iarea`, `izone` never keep the value of the bus before.  The lists of the processes are joined with
`GlobalVector`, whose model is used; `zero` of the type `char2` is the empty string.  A copy with `strncpy(...,2)` keeps
two characters.  The solution of the power flow and of the dynamic simulation are parameters: the outcome of a case
does not depend on which process works on it.  Printed output and statistics are left out. -/
namespace GridPACK.RtprCases

open StringUtils GlobalVector
open GridPACK.CaDriver (Event bind)

/-- A generator in the data collection of a bus: `GENERATOR_STAT` (missing: `none`) and `GENERATOR_ID`. -/
structure Gen where
  status : Option Int
  id : Str

/-- A bus on a process: owned here, original index, `BUS_AREA`, `BUS_ZONE`, generators (`none`: no
`GENERATOR_NUMBER`). -/
structure Bus where
  active : Bool
  orig : Int
  area : Int
  zone : Int
  gens : Option (List Gen)

/-- A line in the data collection of a branch: `BRANCH_STATUS`, `BRANCH_CKT`. -/
structure Line where
  status : Option Int
  ckt : Str

/-- A branch on a process: owned here, original indices of its ends, area and zone of the two end buses, lines
(`none`: no `BRANCH_NUM_ELEMENTS`). -/
structure Branch where
  active : Bool
  from' : Int
  to' : Int
  area1 : Int
  zone1 : Int
  area2 : Int
  zone2 : Int
  lines : Option (List Line)

/-! ### Local lists -/

/-- Loop over the generators of a bus (193-208, 550-565). -/
def genEntries (orig : Int) : List Gen → R (List (Int × Str))
  | [] => .ok []
  | g :: gs =>
    if g.status.getD 0 ≠ 0 then
      bind (clean2Char g.id) (fun t => bind (genEntries orig gs) (fun r => .ok ((orig, t.take 2) :: r)))
    else genEntries orig gs

/-- Loop over the buses in `createGeneratorContingencies` (179-212) and `findWatchedGenerators` (536-569). -/
def genLocal (area zone : Int) : List Bus → R (List (Int × Str))
  | [] => .ok []
  | b :: bs =>
    if b.active then
      let izone := if zone > 0 then b.zone else zone
      if b.area = area ∧ izone = zone then
        bind (genEntries b.orig (b.gens.getD [])) (fun e => bind (genLocal area zone bs) (fun r => .ok (e ++ r)))
      else genLocal area zone bs
    else genLocal area zone bs

/-- Loop over the lines of a branch (294-311). -/
def lineEntries (frm too : Int) : List Line → R (List (Int × Int × Str))
  | [] => .ok []
  | l :: ls =>
    if l.status.getD 0 ≠ 0 then
      bind (clean2Char l.ckt) (fun t => bind (lineEntries frm too ls) (fun r => .ok ((frm, too, t.take 2) :: r)))
    else lineEntries frm too ls

/-- Loop over the branches in `createBranchContingencies` (276-316). -/
def branchLocal (area zone : Int) : List Branch → R (List (Int × Int × Str))
  | [] => .ok []
  | b :: bs =>
    if b.active then
      let zone1 := if zone > 0 then b.zone1 else zone
      let zone2 := if zone > 0 then b.zone2 else zone
      if area = b.area1 ∧ area = b.area2 ∧ zone = zone1 ∧ zone = zone2 then
        bind (lineEntries b.from' b.to' (b.lines.getD [])) (fun e =>
          bind (branchLocal area zone bs) (fun r => .ok (e ++ r)))
      else branchLocal area zone bs
    else branchLocal area zone bs

/-- The lines of a branch as tie lines (444-453, 470-479): `getLineIDs` gives the ids of all lines. -/
def tieEntries (b : Branch) : List (Int × Int × Str) :=
  (b.lines.getD []).map (fun l => (b.from', b.to', l.ckt.take 2))

/-- Test of one branch in `getTieLines` (430-481). -/
def tieBranch (area1 zone1 area2 zone2 : Int) (b : Branch) : List (Int × Int × Str) :=
  let tzone1 := if zone1 > 0 then b.zone1 else zone1
  let tzone2 := if zone2 > 0 then b.zone2 else zone2
  if b.area1 = area1 ∧ tzone1 = zone1 ∧ b.area2 = area2 ∧ tzone2 = zone2 then tieEntries b
  else
    let tzone2 := if zone1 > 0 then b.zone1 else zone1
    let tzone1 := if zone2 > 0 then b.zone2 else zone2
    if b.area2 = area1 ∧ tzone1 = zone1 ∧ b.area1 = area2 ∧ tzone2 = zone2 then tieEntries b else []

/-- Loop of `getTieLines` (419-483). -/
def tieLocal (area1 zone1 area2 zone2 : Int) (bs : List Branch) : List (Int × Int × Str) :=
  bs.flatMap (fun b => if b.active then tieBranch area1 zone1 area2 zone2 b else [])

/-! ### Joining the lists -/

/-- Sum of the lengths of the lists of the processes below `p` (214-226). -/
def offset {α : Type} (loc : Nat → List α) (p : Nat) : Nat := ((List.range p).map (fun q => (loc q).length)).sum

/-- The elements a process adds to the global vector (225-233). -/
def added {α : Type} (loc : Nat → List α) (p : Nat) : List (Added α) :=
  (loc p).zipIdx.map (fun x => (((offset loc p + x.2 : Nat) : Int), x.1))

/-- `getAllData` (src/parallel/global_vector.hpp 312-321). -/
def allData {α : Type} (num : Int) (g : Nat → α) : List α := (List.range num.toNat).map g

/-- `addElements`, `upload`, `getAllData` in an execution `sched` of the writing phase. -/
def joined {α : Type} (n : Nat) (own : Nat → Nat) (zero : α) (garbage : Nat → α) (loc : Nat → List α)
    (sched : List (Nat × Act α)) : List α :=
  allData (numElems n (added loc)) (writing own zero garbage sched)

/-- The loop that makes contingencies of generators (240-250). -/
def genFaults (buses : List Int) (tags : List Str) : List Nat → R (List Event)
  | [] => .ok []
  | i :: is =>
    bind (clean2Char (tags.getD i [])) (fun t =>
      bind (genFaults buses tags is) (fun r =>
        .ok (.generator ("GenCTG" ++ toString (i + 1)).toList [(buses.getD i 0, t)] :: r)))

/-- `createGeneratorContingencies` (213-251) after the local loops; `s1`, `s2` are the executions of the two
uploads. -/
def genContingencies (n : Nat) (own1 own2 : Nat → Nat) (g1 : Nat → Int) (g2 : Nat → Str)
    (loc : Nat → List (Int × Str)) (s1 : List (Nat × Act Int)) (s2 : List (Nat × Act Str)) : R (List Event) :=
  let nflt := offset loc n
  if nflt = 0 then .ok []
  else genFaults (joined n own1 0 g1 (fun p => (loc p).map (·.1)) s1)
    (joined n own2 [] g2 (fun p => (loc p).map (·.2)) s2) (List.range nflt)

/-- The loop that makes contingencies of lines (349-360). -/
def lineFaults (frm too : List Int) (tags : List Str) : List Nat → R (List Event)
  | [] => .ok []
  | i :: is =>
    bind (clean2Char (tags.getD i [])) (fun t =>
      bind (lineFaults frm too tags is) (fun r =>
        .ok (.branch ("LineCTG" ++ toString (i + 1)).toList [(frm.getD i 0, too.getD i 0, t)] :: r)))

/-- `createBranchContingencies` (317-361) after the local loops. -/
def branchContingencies (n : Nat) (own1 own2 own3 : Nat → Nat) (g1 g2 : Nat → Int) (g3 : Nat → Str)
    (loc : Nat → List (Int × Int × Str)) (s1 s2 : List (Nat × Act Int)) (s3 : List (Nat × Act Str)) :
    R (List Event) :=
  let nflt := offset loc n
  if nflt = 0 then .ok []
  else lineFaults (joined n own1 0 g1 (fun p => (loc p).map (·.1)) s1)
    (joined n own2 0 g2 (fun p => (loc p).map (·.2.1)) s2)
    (joined n own3 [] g3 (fun p => (loc p).map (·.2.2)) s3) (List.range nflt)

/-- `getTieLines` (485-510) after the local loop on process `me`. -/
def tieLines (n : Nat) (own : Nat → Nat) (garbage : Nat → Int × Int × Str) (loc : Nat → List (Int × Int × Str))
    (sched : List (Nat × Act (Int × Int × Str))) (me : Nat) : List (Int × Int × Str) :=
  if offset loc n = 0 then loc me else joined n own (0, 0, []) garbage loc sched

/-- `findWatchedGenerators` (571-603) after the local loops, with the lists of the caller before. -/
def watched (n : Nat) (own1 own2 : Nat → Nat) (g1 : Nat → Int) (g2 : Nat → Str) (loc : Nat → List (Int × Str))
    (s1 : List (Nat × Act Int)) (s2 : List (Nat × Act Str)) (old : List Int × List Str) : List Int × List Str :=
  if offset loc n = 0 then old
  else
    let buses := joined n own1 0 g1 (fun p => (loc p).map (·.1)) s1
    let tags := joined n own2 [] g2 (fun p => (loc p).map (·.2)) s2
    (buses, (List.range buses.length).map (fun i => tags.getD i []))

/-! ### Faults of the dynamic simulation -/

/-- `Event` (dsf_components.hpp 28-60), the parts that the driver sets or that select what is done. -/
structure Fault where
  isGenerator : Bool
  isLine : Bool
  bus : Int
  from' : Int
  to' : Int
  tag : Str
  start : ℝ
  stop : ℝ
  step : ℝ

/-- Conversion of a contingency (935-956); `none` = element 0 of an empty vector is read. -/
def toFault (start stop step : ℝ) : Event → Option Fault
  | .generator _ [] => none
  | .generator _ ((b, t) :: _) => some ⟨true, false, b, b, b, t, start, stop, step⟩
  | .branch _ [] => none
  | .branch _ ((f, t, c) :: _) => some ⟨false, true, -1, f, t, c, start, stop, step⟩

/-! ### The verdict -/

/-- What happens to a case in the power flow: result of `solve`, result of the second `solve` if the check of
reactive limits asks for one, and whether all tie lines are within their ratings for the voltages then stored. -/
structure Outcome where
  first : Bool
  again : Option Bool
  ties : Bool

/-- The variable `ret` of a process after the base case and the contingencies that it worked on (1220-1222,
1342-1355). -/
def localRet (base : Outcome) (cases : Nat → Outcome) (tasks : List Nat) : Bool :=
  tasks.foldl (fun ret t => if (cases t).first then ret && (cases t).ties else ret) (true && base.ties)

/-- `p_world.sum(&ok,1); ok == p_world.size()` (1521-1533). -/
def agreed (n : Nat) (ret : Nat → Bool) : Bool :=
  decide (((List.range n).map (fun p => if ret p then 1 else 0)).sum = n)

/-- `runContingencies` (1176-1535): `ntasks` contingencies, process `p` of `n` works on `tasks p`. -/
def runContingencies (n ntasks : Nat) (tasks : Nat → List Nat) (base : Outcome) (cases : Nat → Outcome) : Bool :=
  if ntasks = 0 then (match base.again with | some a => a | none => base.first)
  else agreed n (fun p => localRet base cases (tasks p))

/-- A dynamic simulation: it ends normally with the result of the frequency check, or there is an exception before
(`early`) or after the flag `p_frequencyOK` was set to true (dsf_app_module.cpp 630). -/
inductive Run where
  | done (frequencyOK : Bool)
  | early
  | late

/-- One pass of the loop of `runDSContingencies` (1637-1686): `p_frequencyOK`, `ret`. -/
def dsTask (s : Bool × Bool) : Run → Bool × Bool
  | .done ok => (ok, if !ok then false else s.2)
  | .early => (s.1, if !s.1 then false else s.2)
  | .late => (true, s.2)

/-- `runDSContingencies` (1606-1695); `flag p` is the frequency flag of process `p` before. -/
def runDS (n : Nat) (tasks : Nat → List Nat) (runs : Nat → Run) (flag : Nat → Bool) : Bool :=
  agreed n (fun p => ((tasks p).foldl (fun s t => dsTask s (runs t)) (flag p, true)).2)

end GridPACK.RtprCases
