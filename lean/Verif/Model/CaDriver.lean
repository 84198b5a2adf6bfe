import Verif.Model.StringUtils
import Verif.Model.YMatrix
import Verif.Model.PFBusData
import Verif.Model.Contingency
import Verif.Model.QLimit

/-! Model of the contingency analysis driver (src/applications/contingency_analysis/ca_driver.cpp) and of the texts
of `PFBus::serialWrite` and `PFBranch::serialWrite` (src/applications/components/pf_matrix/pf_components.cpp 843-1080,
2261-2388) from which it takes its statistics.

Doubles are real numbers.  The conversion of a number to text and back (`%20.12e`, `%12.6f`, `atof`) is left out, but
the length of the text is kept because the buffer of a component is limited to 512 characters
(src/applications/modules/powerflow/pf_app_module.cpp 235, 238).  `atoi` is a parameter.  The power flow solver is a
parameter as well: an arbitrary function of the network and of the initial voltages.  The printed messages and the
output files of the single contingencies are left out. -/
namespace GridPACK.CaDriver

open StringUtils

/-! ### The list of contingencies -/

/-- A `Contingency` block of the input file; an entry that is missing leaves the string empty. -/
structure Block where
  type : Str
  name : Str
  lineBuses : Str
  lineNames : Str
  buses : Str
  gens : Str

/-- `Contingency` (src/applications/modules/powerflow/pf_app_module.hpp 57-71), the parts filled by the driver. -/
inductive Event
  | branch (name : Str) (lines : List (Int × Int × Str))
  | generator (name : Str) (gens : List (Int × Str))
deriving DecidableEq

/-- `R` is a monad: an exception or an undefined read ends the evaluation. -/
def bind {α β : Type} (r : R α) (f : α → R β) : R β :=
  match r with
  | .ok a => f a
  | .throws => .throws
  | .undefined => .undefined
  | .outOfFuel => .outOfFuel

/-- The loop over the tags (81-83, 117-119). -/
def cleanAll : List Str → R (List Str)
  | [] => .ok []
  | t :: ts => bind (clean2Char t) (fun c => bind (cleanAll ts) (fun cs => .ok (c :: cs)))

/-- One pass of the loop of `getContingencies` (61-137): the event added, if any. -/
def ofBlock (atoi : Str → Int) (b : Block) : R (Option Event) :=
  if b.type = "Line".toList then
    bind (blankTokenizer b.lineBuses) (fun bs =>
    bind (blankTokenizer b.lineNames) (fun ns =>
    bind (cleanAll ns) (fun tags =>
      let ids := bs.map atoi
      if ids.length = 2 * tags.length then
        .ok (some (.branch b.name ((List.range tags.length).map
          (fun i => (ids.getD (2 * i) 0, ids.getD (2 * i + 1) 0, tags.getD i [])))))
      else .ok none)))
  else if b.type = "Generator".toList then
    bind (blankTokenizer b.buses) (fun bs =>
    bind (blankTokenizer b.gens) (fun gs =>
    bind (cleanAll gs) (fun tags =>
      let ids := bs.map atoi
      if ids.length = tags.length then
        .ok (some (.generator b.name ((List.range ids.length).map (fun i => (ids.getD i 0, tags.getD i [])))))
      else .ok none)))
  else .ok none

/-- `getContingencies` (49-140). -/
def getContingencies (atoi : Str → Int) : List Block → R (List Event)
  | [] => .ok []
  | b :: bs => bind (ofBlock atoi b) (fun e => bind (getContingencies atoi bs) (fun es => .ok (e.toList ++ es)))

/-! ### Outcome of a contingency and the summary file -/

/-- What the calls of one pass of the task loop return: `solve` (501), `checkQlimViolations` and the second `solve`
(505-507), `checkVoltageViolations` (511), `checkLineOverloadViolations` (512). -/
structure Outcome where
  solved : Bool
  qOk : Bool
  solvedAgain : Bool
  busOk : Bool
  branchOk : Bool

/-- Value added to `contingency_success` (503, 643). -/
def Outcome.success (o : Outcome) : Bool := o.solved

/-- Value added to `contingency_violation` (519, 534-540, 644). -/
def Outcome.violation (o : Outcome) : Int :=
  if o.solved then
    if o.busOk && o.branchOk then 1
    else if !o.busOk && !o.branchOk then 4
    else if !o.busOk then 2
    else 3
  else 0

/-- Word after "violation:" (767-775). -/
inductive Word
  | none | bus | branch | both
deriving DecidableEq, Repr

/-- A line of `success.txt`: number, "success", and the word unless there is none. -/
structure Line where
  number : Nat
  success : Bool
  violation : Option Word
deriving DecidableEq, Repr

/-- The chain of comparisons (767-775). -/
def word (v : Int) : Option Word :=
  if v = 1 then some .none
  else if v = 2 then some .bus
  else if v = 3 then some .branch
  else if v = 4 then some .both
  else none

/-- The loop that writes the file (764-779); `none` = a vector is read outside its bounds. -/
def writeSummary (success : List Bool) (violation : List Int) (ntasks : Nat) : Option (List Line) :=
  (List.range ntasks).mapM (fun i =>
    match success[i]? with
    | none => none
    | some true => (violation[i]?).map (fun v => ⟨i + 1, true, word v⟩)
    | some false => some ⟨i + 1, false, none⟩)

/-- `success.txt` from the vectors `getData` returned (755-780): `contingency_success` is cleared after it was
fetched (760). -/
def summary (_success : List Bool) (violation : List Int) (ntasks : Nat) : Option (List Line) :=
  writeSummary [] violation ntasks

/-- Elements added by process `p` to one of the vectors (747-750): `log` lists the pairs (group, task), `root g` is
the process of rank 0 of group `g`. -/
def added {V : Type} (root : Nat → Nat) (val : Nat → V) (log : List (Nat × Nat)) (p : Nat) : List (Int × V) :=
  (log.filter (fun e => decide (root e.1 = p))).map (fun e => ((e.2 : Int), val e.2))

/-! ### Texts of buses and branches -/

/-- Size of the buffers (pf_app_module.cpp 235, 238). -/
def bufsize : Nat := 512

/-- Length of `%6d`. -/
def w6 (n : Int) : Nat := max 6 (toString n).length

/-- `PFBranch::serialWrite`: the lines that are in the buffer at the end (2304-2306, 2317-2319): the length of a line
counts even if the line is not written. -/
def keepBranch {α : Type} : Nat → List (Nat × α) → List α
  | _, [] => []
  | ilen, x :: xs =>
    if ilen + x.1 < bufsize then x.2 :: keepBranch (ilen + x.1) xs else keepBranch (ilen + x.1) xs

/-- `PFBus::serialWrite`: a line that does not fit is left out (1047-1052, 1067-1072). -/
def keepBus {α : Type} : Nat → List (Nat × α) → List α
  | _, [] => []
  | slen, x :: xs => if slen + x.1 ≤ bufsize then x.2 :: keepBus (slen + x.1) xs else keepBus slen xs

/-- A line element of a `PFBranch`: its data in `YMBranch`, `p_branch_status`, `p_rateA`. -/
structure BLine where
  elem : YMatrix.Elem
  status : Bool
  rateA : ℝ

/-- A `PFBranch` with what it sees of its two buses. -/
structure Br where
  active : Bool
  id1 : Int
  id2 : Int
  lines : List BLine
  iso1 : Bool
  iso2 : Bool
  v1 : ℂ
  v2 : ℂ
  sbase : ℝ

/-- `getComplexPower` (2236-2251). -/
noncomputable def complexPower (b : Br) (tag : List Char) : ℂ :=
  let y := YMatrix.getLineElements (b.lines.map (·.elem)) tag
  b.v1 * (starRingEnd ℂ) (y.1 * b.v1 + y.2 * b.v2) * (b.sbase : ℂ)

/-- The values of a line of the text "flow_str". -/
structure Flow where
  id1 : Int
  id2 : Int
  tag : List Char
  p : ℝ
  q : ℝ
  perf : ℝ
  rate : ℝ
  viol : Int

open Classical in
/-- Loop body for "flow_str" (2281-2299). -/
noncomputable def flowOf (b : Br) (l : BLine) : Flow :=
  let s := complexPower b l.elem.tag
  let off := !l.status || (b.iso1 || b.iso2)
  let r := if l.rateA > 0 then ‖s‖ / l.rateA else 0
  ⟨b.id1, b.id2, l.elem.tag, if off then 0 else s.re, if off then 0 else s.im,
   if l.rateA > 0 then r * r else 0, l.rateA, if l.rateA > 0 ∧ r > 1 then 1 else 0⟩

/-- Length of a line of "flow_str" (2296-2298); `%20.12e` always has 20 characters. -/
def flowLen (id1 id2 : Int) (tag : List Char) : Nat :=
  w6 id1 + 1 + w6 id2 + 1 + tag.length + 1 + 20 + 1 + 20 + 1 + 20 + 1 + 20 + 1 + 1 + 1

/-- Length of a line of "fail_str" (2314-2316). -/
def failLen (id1 id2 : Int) (tag : List Char) : Nat :=
  5 + w6 id1 + 6 + w6 id2 + 5 + tag.length + 3 + 12 + 9 + 12 + 1 + 12 + 1 + 12 + 1 + 1 + 1

/-- What the driver reads from the text "flow_str" of a branch (401-428, 611-632). -/
noncomputable def flowRows (b : Br) : List Flow :=
  if b.active then
    keepBranch 0 (b.lines.map (fun l => (flowLen b.id1 b.id2 l.elem.tag, flowOf b l)))
  else []

/-- The lines the driver finds in the text "fail_str" (710-726). -/
def failRows (b : Br) : List (Int × Int × List Char) :=
  if b.active then
    keepBranch 0 (b.lines.map (fun l => (failLen b.id1 b.id2 l.elem.tag, (b.id1, b.id2, l.elem.tag))))
  else []

/-- Mask of a line in the statistics (422-426, 626-630). -/
def mask (f : Flow) : Int := if f.viol = 0 then 1 else 2

/-! ### Generators -/

/-- Values of a generator in the text "power" (1015-1039). -/
noncomputable def genOf (pinj qinj : ℝ) (b : PFBusData.Bus) (g : PFBusData.Gen) : ℝ × ℝ :=
  if b.ref then
    (g.pFac * (pinj * b.sbase + PFBusData.loadSum PFBusData.Load.pl b), g.pFac * (qinj * b.sbase + PFBusData.loadSum PFBusData.Load.ql b))
  else if b.isPV then
    (g.pg, if g.status ≠ 0 then g.pFac * (qinj * b.sbase + PFBusData.loadSum PFBusData.Load.ql b) else 0)
  else (g.pg, g.qg)

/-- Length of a line of "power" (1041-1042): `wp`, `wq` are the lengths of the two values, at least 12. -/
def powerLen (id : Int) (tag : String) (wp wq : Nat) : Nat :=
  5 + w6 id + 6 + tag.length + 3 + max 12 wp + 6 + max 12 wq + 1

/-- Length of a line of "pfail_str" (1065-1066). -/
def pfailLen (id : Int) (tag : String) : Nat := w6 id + 1 + tag.length + 1 + 20 + 1 + 20 + 1

/-- What the driver reads from the text "power" of a bus (355-372, 583-597): name, P, Q.  `len v` is the number of
characters `%f` prints for `v`. -/
noncomputable def powerRows (len : ℝ → Nat) (id : Int) (pinj qinj : ℝ) (b : PFBusData.Bus) : List (String × ℝ × ℝ) :=
  keepBus 0 (b.gens.map (fun g =>
    (powerLen id g.id (len (genOf pinj qinj b g).1) (len (genOf pinj qinj b g).2), (g.id, genOf pinj qinj b g))))

/-- The generators the driver finds in the text "pfail_str" (682-697). -/
def pfailRows (id : Int) (b : PFBusData.Bus) : List String :=
  keepBus 0 (b.gens.map (fun g => (pfailLen id g.id, g.id)))

/-! ### The task loop of a group -/

section
variable {V Res : Type}

/-- One pass of the loop without reactive limit checks (459-740): `resetVoltages` (494), `setContingency` (496),
`solve` (501), `unSetContingency` (737).  `none` = a read past the end in `unSetContingency`. -/
noncomputable def task (solve : Contingency.State → V → V × Res) (orig : V) (s : Contingency.State × V)
    (ev : Contingency.Event) : Option ((Contingency.State × V) × Res) :=
  let r := Contingency.setContingency s.1 ev
  let out := solve r.1 orig
  (Contingency.unSetContingency r.1 r.2.1).map (fun st => ((st, out.1), out.2))

/-- The tasks of a group in the order it gets them. -/
noncomputable def tasks (solve : Contingency.State → V → V × Res) (orig : V) :
    Contingency.State × V → List Contingency.Event → Option (List Res)
  | _, [] => some []
  | s, ev :: evs =>
    match task solve orig s ev with
    | none => none
    | some (s', r) => (tasks solve orig s' evs).map (fun rs => r :: rs)

end

/-- The bus after the base case when reactive limits are checked and nothing was exceeded: `checkQlimViolations`
(234), then `clearQlimViolations` (451). -/
noncomputable def afterBase (b : QLimit.Bus) : Option QLimit.Bus :=
  match QLimit.chkQlim b with
  | none => none
  | some (b', _) => QLimit.clearQlim b'

end GridPACK.CaDriver
