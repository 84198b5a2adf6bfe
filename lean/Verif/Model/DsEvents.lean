import Mathlib.Data.Complex.Basic
import Mathlib.Data.Real.Basic

/-! Model of events in the dynamic simulation (src/applications/modules/dynamic_simulation_full_y: dsf_events.cpp,
dsf_app_module2.cpp, dsf_components.cpp).

One process holds the whole network; no bus is isolated.  A bus is named by its position in the list of buses.
Times are exact real numbers.  The contributions of a circuit to the matrix, which `getLineElements` and
`getRvrsLineElements` compute from its parameters (model `YMatrix`), are stored in the circuit; the Norton admittance
of a generator is a constant.  Circuit and generator ids are in the form that `clean2Char` gives them. -/
namespace GridPACK.DsEvents

/-- A circuit of a branch: id, `YMBranch::p_branch_status`, `DSFullBranch::p_branch_status`, contributions to the
matrix, series admittance. -/
structure Circuit where
  tag : List Char
  status : Bool
  relayStatus : Bool
  yii : ℂ
  yij : ℂ
  yji : ℂ
  yjj : ℂ
  y : ℂ

/-- A branch: end buses, `p_active` (set when the branch is loaded, if a circuit is in service), circuits,
`p_line_status_change`, `p_yft`, `p_ytf`. -/
structure Branch where
  bus1 : Nat
  bus2 : Nat
  active : Bool
  cks : List Circuit
  change : Bool
  yft : ℂ
  ytf : ℂ

/-- A generator: id, service status of the model, Norton admittance.  (`p_gstatus` is set with the service status.) -/
structure Gen where
  tag : List Char
  status : Bool
  y : ℂ

/-- A bus: `p_busfault`, `p_gfault + i p_bfault`, `p_ybusr + i p_ybusi`, `p_line_status_change`, `p_yii`,
`p_gen_status_change`, `p_ygen`, generators. -/
structure Bus where
  fault : Bool
  yf : ℂ
  ybus : ℂ
  lineChange : Bool
  yii : ℂ
  genChange : Bool
  ygen : ℂ
  gens : List Gen

inductive Mode where
  | faultOn | faultOff | lineStatus | genStatus

/-- The network and the matrix `ybus`. -/
structure State where
  buses : List Bus
  branches : List Branch
  m : Nat → Nat → ℂ

/-- `DSFullBus::matrixDiagValues` in the modes used for events (dsf_components.cpp 277-317); `none` = false. -/
def Bus.diagValues (mode : Mode) (b : Bus) : Bus × Option ℂ :=
  match mode with
  | .faultOn => if b.fault then (b, some (-b.yf)) else (b, none)
  | .faultOff => if b.fault then ({ b with ybus := b.ybus + b.yf, fault := false }, some b.yf) else (b, none)
  | .lineStatus => if b.lineChange then ({ b with lineChange := false }, some b.yii) else (b, none)
  | .genStatus => if b.genChange then ({ b with genChange := false }, some b.ygen) else (b, none)

/-- `DSFullBranch::matrixForwardSize`, `matrixForwardValues` (3229-3275) in these modes. -/
def Branch.forward (mode : Mode) (b : Branch) : Option ℂ :=
  match mode with
  | .lineStatus => if b.active && b.change then some b.yft else none
  | _ => none

/-- `DSFullBranch::matrixReverseSize`, `matrixReverseValues` (3241-3335) in these modes. -/
def Branch.reverse (mode : Mode) (b : Branch) : Branch × Option ℂ :=
  match mode with
  | .lineStatus => if b.active && b.change then ({ b with change := false }, some b.ytf) else (b, none)
  | _ => (b, none)

/-- `addElement`. -/
def add (m : Nat → Nat → ℂ) (i j : Nat) (v : Option ℂ) : Nat → Nat → ℂ :=
  match v with
  | none => m
  | some v => fun a b => if a = i ∧ b = j then m a b + v else m a b

/-- `loadBusData` with addition (full_map.hpp 933-969), from bus `i`. -/
def loadBuses (mode : Mode) : Nat → List Bus → (Nat → Nat → ℂ) → List Bus × (Nat → Nat → ℂ)
  | _, [], m => ([], m)
  | i, b :: bs, m =>
    let d := b.diagValues mode
    let t := loadBuses mode (i + 1) bs (add m i i d.2)
    (d.1 :: t.1, t.2)

/-- `loadBranchData` with addition (1118-1184). -/
def loadBranches (mode : Mode) : List Branch → (Nat → Nat → ℂ) → List Branch × (Nat → Nat → ℂ)
  | [], m => ([], m)
  | b :: bs, m =>
    let m1 := add m b.bus1 b.bus2 (b.forward mode)
    let r := b.reverse mode
    let t := loadBranches mode bs (add m1 b.bus2 b.bus1 r.2)
    (r.1 :: t.1, t.2)

/-- `setMode`, `incrementMatrix` (full_map.hpp 328-335). -/
def increment (mode : Mode) (s : State) : State :=
  let t := loadBuses mode 0 s.buses s.m
  let u := loadBranches mode s.branches t.2
  ⟨t.1, u.1, u.2⟩

/-- `setFault` (dsf_components.cpp 94-99) at a bus if it exists (dsf_events.cpp 145-151). -/
def setFault (bus : Nat) (y : ℂ) (s : State) : State :=
  { s with buses := s.buses.mapIdx (fun i b => if i = bus then { b with fault := true, yf := y } else b) }

/-- `getLocalBranchIndices` (base_network.hpp 2519-2542): positions of the branches from the first to the second bus;
if there are none, those from the second to the first. -/
def branchIndices (s : State) (frm too : Nat) : List Nat :=
  let a := (List.range s.branches.length).filter (fun k => (s.branches[k]?).any (fun b => b.bus1 = frm && b.bus2 = too))
  if a.isEmpty then
    (List.range s.branches.length).filter (fun k => (s.branches[k]?).any (fun b => b.bus1 = too && b.bus2 = frm))
  else a

/-- `getLineStatus` (ymatrix_components.cpp 739-749). -/
def lineStatus (cks : List Circuit) (tag : List Char) : Bool :=
  match cks.find? (fun c => c.tag = tag) with
  | none => false
  | some c => c.status

/-- `YMBranch::setLineStatus` (767-780): the first circuit with the id. -/
def setStatus (tag : List Char) (status : Bool) : List Circuit → List Circuit
  | [] => []
  | c :: cs => if c.tag = tag then { c with status := status } :: cs else c :: setStatus tag status cs

/-- `getLineElements` and `getRvrsLineElements` (631-723): zero if there is no circuit with the id. -/
def elements (cks : List Circuit) (tag : List Char) : ℂ × ℂ × ℂ × ℂ :=
  match cks.find? (fun c => c.tag = tag) with
  | none => (0, 0, 0, 0)
  | some c => (c.yii, c.yij, c.yji, c.yjj)

/-- `diagValuesInsertForLineStatusChange` (dsf_components.cpp 3182-3186) at one bus. -/
def insertDiag (i : Nat) (v : ℂ) (buses : List Bus) : List Bus :=
  buses.mapIdx (fun j b => if j = i then { b with lineChange := true, yii := v } else b)

/-- `DSFullBranch::setLineStatus` (4162-4196) of the branch at position `k`. -/
def setLineStatus (k : Nat) (tag : List Char) (status : Bool) (s : State) : State :=
  match s.branches[k]? with
  | none => s
  | some b =>
    if lineStatus b.cks tag != status then
      let e := elements b.cks tag
      let sign : ℂ := if status then 1 else -1
      { s with
        buses := insertDiag b.bus2 (sign * e.2.2.2) (insertDiag b.bus1 (sign * e.1) s.buses)
        branches := s.branches.set k { b with
          yft := sign * e.2.1, ytf := sign * e.2.2.1, change := true, cks := setStatus tag status b.cks } }
    else s

/-- Status of the first generator with the id set. -/
def setGens (tag : List Char) (status : Bool) : List Gen → List Gen
  | [] => []
  | g :: gs => if g.tag = tag then { g with status := status } :: gs else g :: setGens tag status gs

/-- `DSFullBus::setGenStatus` (160-176); `none`: `p_generators[-1]` is read. -/
def Bus.setGenStatus (tag : List Char) (status : Bool) (b : Bus) : Option Bus :=
  match b.gens.find? (fun g => g.tag = tag) with
  | none => none
  | some g =>
    if status != g.status then
      some { b with ygen := if status then g.y else -g.y, gens := setGens tag status b.gens, genChange := true }
    else some b

/-- What an event does to the simulation when its time has come. -/
inductive Op where
  | faultOn (bus : Nat) (y : ℂ)
  | faultOff
  | line (frm too : Nat) (tag : List Char) (status : Bool)
  | gen (bus : Nat) (tag : List Char) (status : Bool)

/-- One branch of the loop body of `handleEvents` (dsf_events.cpp 141-181) with `DSFullApp::setLineStatus`,
`setGenStatus` (dsf_app_module2.cpp 355-395); `none`: undefined (element 0 of an empty vector, or -1 of a vector). -/
def Op.run (s : State) : Op → Option State
  | .faultOn bus y => some (increment .faultOn (setFault bus y s))
  | .faultOff => some (increment .faultOff s)
  | .line frm too tag status =>
    match branchIndices s frm too with
    | [] => none
    | k :: _ => some (increment .lineStatus (setLineStatus k tag status s))
  | .gen bus tag status =>
    match s.buses[bus]? with
    | none => some (increment .genStatus s)
    | some b =>
      match b.setGenStatus tag status with
      | none => none
      | some b' => some (increment .genStatus { s with buses := s.buses.set bus b' })

/-- An event of the configuration file. -/
inductive Event where
  | fault (start stop : ℝ) (bus : Nat) (y : ℂ)
  | line (time : ℝ) (frm too : Nat) (tag : List Char) (status : Bool)
  | gen (time : ℝ) (bus : Nat) (tag : List Char) (status : Bool)

open Classical in
/-- The tests on the time in `handleEvents`. -/
noncomputable def Event.op (t : ℝ) : Event → Option Op
  | .fault start stop bus y =>
    if |start - t| < 1e-6 then some (.faultOn bus y)
    else if |stop - t| < 1e-6 then some .faultOff
    else none
  | .line time frm too tag status => if |time - t| < 1e-6 then some (.line frm too tag status) else none
  | .gen time bus tag status => if |time - t| < 1e-6 then some (.gen bus tag status) else none

/-- `handleEvents` (dsf_events.cpp 133-184). -/
noncomputable def handleEvents (events : List Event) (t : ℝ) (s : State) : Option State :=
  events.foldlM (fun s e => match e.op t with | none => some s | some op => op.run s) s

/-- The simulation after `n` steps, from time 0: `handleEvents`, then `runonestep` (dsf_app_module2.cpp 400-416), which
leaves the matrix as it is unless a relay trips (model `RelayUpdate`) and adds the time step to the current time. -/
noncomputable def steps (events : List Event) (dt : ℝ) (s : State) : Nat → Option State
  | 0 => some s
  | n + 1 => (steps events dt s n).bind (handleEvents events (n * dt))

open Classical in
/-- The loop of `run(tend)` (400-416) with at most `fuel` steps, beginning with step `n`: the number of the step at
which it stops, `none` if it has not stopped. -/
noncomputable def runLoop (tend dt : ℝ) : Nat → Nat → Option Nat
  | 0, n => if |tend - n * dt| > 1e-6 then none else some n
  | fuel + 1, n => if |tend - n * dt| > 1e-6 then runLoop tend dt fuel (n + 1) else some n

/-- Bus relay trips: `overwriteMatrix` in mode `bus_relay` (dsf_app_module2.cpp 258-261, dsf_components.cpp 368-375)
for the buses whose flag is set. -/
def overwriteRelay (s : State) (tripped : Nat → Bool) : State :=
  { s with m := fun i j => if i = j ∧ tripped i = true then
      (match s.buses[i]? with | none => s.m i j | some b => b.ybus) else s.m i j }

/-- Trip of a circuit by a line relay (dsf_components.cpp 3632-3646, 397-410, 3283-3293, 3344-3352): only
`DSFullBranch::p_branch_status` is changed. -/
def relayTrip (k : Nat) (tag : List Char) (s : State) : State :=
  match s.branches[k]? with
  | none => s
  | some b =>
    match b.cks.find? (fun c => c.tag = tag) with
    | none => s
    | some c =>
      { s with
        branches := s.branches.set k { b with
          cks := b.cks.map (fun c => if c.tag = tag then { c with relayStatus := false } else c) }
        m := add (add (add (add s.m b.bus1 b.bus1 (some (-c.y))) b.bus2 b.bus2 (some (-c.y))) b.bus1 b.bus2 (some c.y))
          b.bus2 b.bus1 (some c.y) }

/-! ### Assembly of the matrix before the simulation -/

/-- What determines the diagonal element of a bus: `YMBus` value, load, voltage, generators (status, power, Norton
admittance), negative generation, generators without dynamic model, dynamic loads (Norton admittances). -/
structure Setup where
  y : ℂ
  pl : ℝ
  ql : ℝ
  v : ℝ
  gens : List (Bool × ℝ × ℝ × ℂ)
  neg : List (ℝ × ℝ)
  noModel : List (ℝ × ℝ)
  dynLoads : List ℂ

/-- Mode YBUS (dsf_components.cpp 205-209). -/
def Setup.ybus (b : Setup) : ℂ := b.y

/-- Mode YL (210-224). -/
noncomputable def Setup.yl (b : Setup) (yb : ℂ) : ℂ := ⟨yb.re + b.pl / (b.v * b.v), yb.im + (-b.ql) / (b.v * b.v)⟩

/-- `(-p + i q) / v²`. -/
noncomputable def negative (v p q : ℝ) : ℂ := ⟨(-p) / (v * v), q / (v * v)⟩

/-- Mode PG (225-260): `p_ybus` afterwards. -/
noncomputable def Setup.pg (b : Setup) (yb : ℂ) : ℂ :=
  let a := b.gens.foldl (fun y g => if !g.1 then y else if g.2.1 < 0 then y + negative b.v g.2.1 g.2.2.1 else y) yb
  let a := b.neg.foldl (fun y g => y + negative b.v g.1 g.2) a
  b.noModel.foldl (fun y g => y + negative b.v g.1 g.2) a

/-- Mode jxd (261-281): `p_ybus` afterwards (the generators have models). -/
def Setup.jxd (b : Setup) (yb : ℂ) : ℂ := b.gens.foldl (fun y g => if !g.1 then y else y + g.2.2.2) yb

/-- Mode YDYNLOAD (376-394): `p_ybus` and the value returned. -/
def Setup.ydyn (b : Setup) (yb : ℂ) : ℂ × ℂ :=
  if b.dynLoads.isEmpty then (yb, yb)
  else b.dynLoads.foldl (fun t y => (t.1 + y, t.1 + y)) (yb, 0)

/-- The matrix assembly of `setup` (dsf_app_module2.cpp 165-188): `p_ybus` and the diagonal element of `ybus`. -/
noncomputable def Setup.assemble (b : Setup) : ℂ × ℂ := b.ydyn (b.jxd (b.pg (b.yl b.ybus)))

end GridPACK.DsEvents
