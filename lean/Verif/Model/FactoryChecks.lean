import Verif.Model.GhostUpdate
import Mathlib.Data.Real.Basic

/-! Model of the checks of `PFFactoryModule`
(src/applications/modules/powerflow/pf_factory_module.cpp 129-594) for lone buses, voltage limits and line
overloads.

Each process has a list of buses and of branches; `checkTrue` is the model of `BaseFactory::checkTrue`.
Printing is left out, and so is the list `p_violations`.  Doubles are real numbers. -/
namespace GridPACK.FactoryChecks

/-! ### Lone buses -/

/-- A bus as the lone-bus check sees it: owned here, `p_isolated`, and for each neighbour branch the statuses
of its lines (`getLineStatus`). -/
structure LBus where
  active : Bool
  isolated : Bool
  lines : List (List Bool)

/-- Inner loops 155-171 (and 203-219). -/
def lineOk (lines : List (List Bool)) : Bool :=
  let size := lines.length
  let ok := if size = 0 then false else true
  if ok then
    lines.foldl (fun ok status =>
      let branchOk := status.foldl (fun b s => if s then true else b) false
      if branchOk then true else ok) false
  else false

/-- The loop of `checkLoneBus` (146-180): buses, `p_saveIsolatedStatus`, `bus_ok`. -/
def loneLoop : List LBus → List LBus × List Bool × Bool
  | [] => ([], [], true)
  | b :: bs =>
    let r := loneLoop bs
    if !b.active then (b :: r.1, r.2.1, r.2.2)
    else if !(lineOk b.lines) then
      ({ b with isolated := true } :: r.1, b.isolated :: r.2.1, false)
    else (b :: r.1, r.2.1, r.2.2)

/-- `PFFactoryModule::checkLoneBus` (139-183) on `n` processes: the returned value. -/
def checkLoneBus (n : Nat) (procs : Nat → List LBus) : Bool :=
  GhostUpdate.checkTrue n (fun p => !(loneLoop (procs p)).2.2)

/-- The loop of `clearLoneBus` (194-225) with the rest of `p_saveIsolatedStatus` from `ncount` on; `none` = the
vector is read past its end. -/
def clearLoop : List LBus → List Bool → Option (List LBus)
  | [], _ => some []
  | b :: bs, saved =>
    if !b.active then (clearLoop bs saved).map (b :: ·)
    else if !(lineOk b.lines) then
      match saved with
      | [] => none
      | s :: saved => (clearLoop bs saved).map ({ b with isolated := s } :: ·)
    else (clearLoop bs saved).map (b :: ·)

/-- `PFFactoryModule::clearLoneBus` (188-226). -/
def clearLoneBus (bs : List LBus) (saved : List Bool) : Option (List LBus) :=
  if saved.length = 0 then some bs else clearLoop bs saved

/-! ### Voltage limits -/

/-- `*p_vMag_ptr`, `p_vmin`, `p_vmax`, `p_ignore`, area, owned here. -/
structure VBus where
  active : Bool
  v : ℝ
  vmin : ℝ
  vmax : ℝ
  ignore : Bool
  area : Int

open Classical in
/-- `PFBus::checkVoltageViolation` (pf_components.cpp 661-666): false if there is a violation. -/
noncomputable def checkVoltageViolation (b : VBus) : Bool := if b.v > b.vmax ∨ b.v < b.vmin then false else true

/-- Local part of `checkVoltageViolations()` (257-268). -/
noncomputable def voltageOk (bs : List VBus) : Bool :=
  bs.foldl (fun ok b => if b.active then
    (if !b.ignore then (if !checkVoltageViolation b then false else ok) else ok) else ok) true

/-- Local part of `checkVoltageViolations(int area)` (282-301). -/
noncomputable def voltageOkArea (area : Int) (bs : List VBus) : Bool :=
  bs.foldl (fun ok b => if b.active then
    (if !b.ignore && decide (b.area = area) then (if !checkVoltageViolation b then false else ok) else ok)
    else ok) true

/-- `checkVoltageViolations()` (253-270). -/
noncomputable def checkVoltageViolations (n : Nat) (procs : Nat → List VBus) : Bool :=
  GhostUpdate.checkTrue n (fun p => voltageOk (procs p))

/-- `checkVoltageViolations(int area)` (277-303). -/
noncomputable def checkVoltageViolationsArea (area : Int) (n : Nat) (procs : Nat → List VBus) : Bool :=
  GhostUpdate.checkTrue n (fun p => voltageOkArea area (procs p))

/-- `ignoreVoltageViolations` (309-321), one bus. -/
noncomputable def ignoreBus (b : VBus) : VBus :=
  if b.active then (if checkVoltageViolation b then { b with ignore := true } else b) else b

/-- `clearVoltageViolations` (327-339), one bus. -/
def clearBus (b : VBus) : VBus := if b.active then { b with ignore := false } else b

/-! ### Line overloads -/

/-- A line of a branch: tag, ratings found in the data collection, `p_ignore`, apparent power `abs(s)` of
`getComplexPower(tag)`. -/
structure Line where
  tag : String
  rateA : Option ℝ
  rateB : Option ℝ
  ignore : Bool
  pq : ℝ

structure OBranch where
  active : Bool
  lines : List Line

/-- Value of a property of the first line with the tag, as in `getIgnore` (pf_components.cpp 2510-2521) and
`getLineElements`. -/
def lookup {α : Type} (f : Line → α) (dflt : α) (ls : List Line) (tag : String) : α :=
  match ls.find? (fun l => l.tag = tag) with
  | some l => f l
  | none => dflt

/-- Rating used by the check (363-376); `useB` is `p_rateB`. -/
def rating (useB : Bool) (l : Line) : Option ℝ :=
  if useB then (match l.rateB with | some r => some r | none => l.rateA) else l.rateA

open Classical in
/-- Loop body for line `l` of a branch (362-394): false if there is a violation. -/
noncomputable def lineFine (useB : Bool) (ls : List Line) (l : Line) : Bool :=
  if !(lookup Line.ignore false ls l.tag) then
    match rating useB l with
    | some rate =>
      if rate > 0 then (if lookup Line.pq 0 ls l.tag > rate then false else true) else true
    | none => true
  else true

/-- Local part of `checkLineOverloadViolations()` (350-397). -/
noncomputable def linesOk (useB : Bool) (bs : List OBranch) : Bool :=
  bs.foldl (fun ok b => if b.active then
    b.lines.foldl (fun ok l => if lineFine useB b.lines l then ok else false) ok else ok) true

/-- `checkLineOverloadViolations()` (346-399). -/
noncomputable def checkLineOverload (useB : Bool) (n : Nat) (procs : Nat → List OBranch) : Bool :=
  GhostUpdate.checkTrue n (fun p => linesOk useB (procs p))

/-- `PFBranch::setIgnore` (pf_components.cpp 2494-2503): all lines with the tag. -/
def setIgnore (tag : String) (flag : Bool) (ls : List Line) : List Line :=
  ls.map (fun l => if l.tag = tag then { l with ignore := flag } else l)

open Classical in
/-- Condition of `ignoreLineOverloadViolations` for a line (560-564). -/
noncomputable def overA (ls : List Line) (l : Line) : Bool :=
  match l.rateA with
  | some r => if r > 0 then (if lookup Line.pq 0 ls l.tag > r then true else false) else false
  | none => false

/-- `ignoreLineOverloadViolations` (545-570), one branch. -/
noncomputable def ignoreBranch (b : OBranch) : OBranch :=
  if b.active then
    { b with lines := b.lines.foldl (fun ls l => if overA b.lines l then setIgnore l.tag true ls else ls) b.lines }
  else b

open Classical in
/-- One line `k` in the version for given lines (496-526), request `i`: `none` = `tags[k]` is read past the
end; otherwise whether a failure is noted.  `useB` is `p_rateB`: the rating found for it (502-517) is not used, rating
A is read again (518-519). -/
noncomputable def listLine (useB : Bool) (tags : List String) (i : Nat) (ls : List Line) (k : Nat) (l : Line) :
    Option Bool :=
  if tags[i]? = some l.tag then
    match tags[k]? with
    | none => none
    | some t =>
      if !(lookup Line.ignore false ls t) then
        let _found := if useB then l.rateB.or l.rateA else l.rateA
        match l.rateA with
        | some rate =>
          if rate > 0 then (if lookup Line.pq 0 ls t > rate then some true else some false) else some false
        | none => some false
      else some false
  else some false

end GridPACK.FactoryChecks
