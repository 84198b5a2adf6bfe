import Verif.Model.YMatrix
import Mathlib.Algebra.Order.Floor.Defs
import Mathlib.Algebra.Order.Archimedean.Real.Basic

/-! Model of the commands given to a running dynamic simulation between two time steps
(src/applications/modules/hadrec/hadrec_app_module.cpp 544-583, which passes them on to
src/applications/modules/dynamic_simulation_full_y/dsf_app_module.cpp 2890-3240, 3735-4330, and
dsf_components.cpp 204-431, 460-585, 2099-2250, 2960-3090, 3229-3370, 3404-3510, 3826-3925, 3981-4060).

Line trips are modelled on every process: each process has its own copies of the buses and branches it holds, and
its own marks.  The matrix is the distributed matrix, indexed by bus numbers; `incrementMatrix` adds, for each row,
what the process that owns the row's bus contributes (see the model of FullMatrixMap).  The load commands are
modelled on one copy of each bus (every process does the same with its copies, and only the owner's copy reaches the
matrix and the right-hand side).  No bus is isolated.  Arithmetic is exact; `p_branch_status` is 0 or 1.  `clean2Char`
has been applied to the circuit ids.  The generator commands (tripping, wide-area signal, adjustment of inverters) and
the equations of the dynamic loads are left out. -/
namespace GridPACK.Actions

open Complex YMatrix

/-! ### Line trips -/

/-- The network as it is distributed: `owner` is the process that owns a bus, `loc p` the branches (positions in
`branches`) that process `p` holds, in its local order; a branch held by a process comes with both end buses. -/
structure Net where
  branches : List Branch
  np : Nat
  owner : Nat → Nat
  loc : Nat → List Nat

/-- What a process keeps about line trips: `p_branch_status` of each branch, `p_vec_tripaction_branchcktidx` and
`p_branchactiontripflag` of each branch, `p_vec_tripactionbranch` of each bus (one of the flags
`p_branchtripaction_from_flag`, `p_branchtripaction_to_flag` is set exactly while it is not empty, dsf_components.cpp
2099-2125), `p_vbranches_need_to_trip`. -/
structure Proc where
  status : Nat → List Bool
  pend : Nat → List Nat
  flag : Nat → Bool
  trips : Nat → List Nat
  toTrip : List Nat

/-- All processes, `bapplyLineTripAction` (equal on all of them after `checkTrueSomewhere`), and the matrices `ybus`
and `ybus_fy`. -/
structure World where
  procs : Nat → Proc
  apply : Bool
  y : Nat → Nat → ℂ
  yf : Nat → Nat → ℂ

/-- `DSFullBranch::load` (dsf_components.cpp 3487-3490) takes the phase shift with the opposite sign of
`YMBranch::load` (ymatrix_components.cpp 485-488); its other parameters are the same. -/
def dsElem (e : Elem) : Elem := { e with phase := -e.phase }

/-- Loop body of `getBranchTripActionUpdateFactorForBus` (3837-3856). -/
noncomputable def forBus (s : Side) (e : Elem) : ℂ :=
  let tmp := -1 / e.z - ⟨0, e.charging / 2⟩
  if e.xform then
    if (!e.switched && s = .bus1) || (e.switched && s = .bus2) then
      tmp / ((starRingEnd ℂ) e.ratio * e.ratio)
    else tmp
  else tmp

/-- Loop body of `getBranchTripActionUpdateFactorForward` (3877-3890). -/
noncomputable def forward (e : Elem) : ℂ :=
  if e.xform then (-1 / e.z) / (starRingEnd ℂ) e.a else -1 / e.z

/-- Loop body of `getBranchTripActionUpdateFactorReverse` (3909-3922). -/
noncomputable def reverse (e : Elem) : ℂ :=
  if e.xform then (-1 / e.z) / e.a else -1 / e.z

/-- The loops around them (3831-3835, 3871-3876, 3903-3908): the marked circuits that are in service. -/
noncomputable def factor (es : List Elem) (status : List Bool) (pend : List Nat) (f : Elem → ℂ) : ℂ :=
  (pend.map (fun c =>
    match es[c]? with
    | some e => if (status[c]?).getD false then f (dsElem e) else 0
    | none => 0)).sum

/-- `DSFullBranch::setBranchTripAction(tag)` (3983-4010): the first circuit with the id that is in service. -/
def pickTag (tag : List Char) (es : List Elem) (status : List Bool) : Option Nat :=
  (List.range es.length).find? (fun c => (es[c]?).any (fun e => e.tag = tag) && (status[c]?).getD false)

/-- `DSFullBranch::setBranchTripAction()` (4012-4036): the first circuit that is no transformer and in service. -/
def pickLine (es : List Elem) (status : List Bool) : Option Nat :=
  (List.range es.length).find? (fun c => (es[c]?).any (fun e => !e.xform) && (status[c]?).getD false)

/-- The marks made for circuit `c` of branch `k` (3994-4004, 4016-4028; `DSFullBus::setBranchTripAction` 2099-2118;
dsf_app_module.cpp 4279, 4312). -/
def Proc.mark (s : Proc) (k : Nat) (b : Branch) (c : Nat) : Proc :=
  { s with
    pend := Function.update s.pend k (s.pend k ++ [c])
    flag := Function.update s.flag k true
    trips := fun i => if i = b.bus1 ∨ i = b.bus2 then s.trips i ++ [k] else s.trips i
    toTrip := s.toTrip ++ [k] }

/-- `getLocalBranchIndices` (base_network.hpp 2519-2542) on process `p`. -/
def Net.indices (n : Net) (p frm too : Nat) : List Nat :=
  let a := (n.loc p).filter (fun k => (n.branches[k]?).any (fun b => b.bus1 = frm && b.bus2 = too))
  if a.isEmpty then (n.loc p).filter (fun k => (n.branches[k]?).any (fun b => b.bus1 = too && b.bus2 = frm)) else a

/-- `getNeighborBranches` of the copy of bus `i` on process `p`: the branches in the order of the process. -/
def Net.neighbours (n : Net) (p i : Nat) : List Nat :=
  (n.loc p).filter (fun k => (n.branches[k]?).any (fun b => b.bus1 = i || b.bus2 = i))

/-- The loops with `break` over the branches (dsf_app_module.cpp 4270-4284, 4303-4317): the first branch on which
`pick` finds a circuit. -/
def Proc.tripFirst (n : Net) (pick : List Elem → List Bool → Option Nat) (ks : List Nat) (s : Proc) : Proc × Bool :=
  match ks.findSome? (fun k => (n.branches[k]?).bind (fun b => (pick b.elems (s.status k)).map (fun c => (k, b, c)))) with
  | some (k, b, c) => (s.mark k b c, true)
  | none => (s, false)

/-- `DSFullApp::setLineTripAction(from, to, ckt)` (4258-4287), carried out by all processes. -/
def World.tripNamed (n : Net) (w : World) (a : Nat × Nat × List Char) : World :=
  let r := fun p => (w.procs p).tripFirst n (pickTag a.2.2) (n.indices p a.1 a.2.1)
  { w with procs := fun p => (r p).1, apply := w.apply || (List.range n.np).any (fun p => (r p).2) }

/-- `DSFullApp::setLineTripAction(bus)` (4290-4320), carried out by all processes. -/
def World.tripAt (n : Net) (w : World) (i : Nat) : World :=
  let r := fun p => (w.procs p).tripFirst n pickLine (n.neighbours p i)
  { w with procs := fun p => (r p).1, apply := w.apply || (List.range n.np).any (fun p => (r p).2) }

/-- Diagonal contribution of bus `i` in mode branch_trip_action (dsf_components.cpp 411-431), from its owner. -/
noncomputable def World.diagInc (n : Net) (w : World) (i : Nat) : ℂ :=
  let s := w.procs (n.owner i)
  ((s.trips i).map (fun k =>
    match n.branches[k]? with
    | some b => factor b.elems (s.status k) (s.pend k) (forBus (b.side i))
    | none => 0)).sum

/-- Off-diagonal contributions to row `i`, column `j` (3293-3305, 3353-3365): all branches held by the owner of the
row; `YMBranch::matrixForwardSize` asks for an active branch. -/
noncomputable def World.offInc (n : Net) (w : World) (i j : Nat) : ℂ :=
  let s := w.procs (n.owner i)
  ((n.loc (n.owner i)).map (fun k =>
    match n.branches[k]? with
    | some b =>
      if s.flag k && b.active then
        (if b.bus1 = i ∧ b.bus2 = j then -factor b.elems (s.status k) (s.pend k) forward else 0) +
        (if b.bus2 = i ∧ b.bus1 = j then -factor b.elems (s.status k) (s.pend k) reverse else 0)
      else 0
    | none => 0)).sum

/-- Status 0 for the circuits of a list (4042-4047). -/
def switchOff (pend : List Nat) (status : List Bool) : List Bool :=
  pend.foldl (fun st c => st.set c false) status

/-- `DSFullBranch::clearBranchTripAction` (4038-4058) with that of the two buses (2120-2125). -/
def Proc.clearBranch (n : Net) (s : Proc) (k : Nat) : Proc :=
  match n.branches[k]? with
  | none => s
  | some b =>
    { s with
      status := Function.update s.status k (switchOff (s.pend k) (s.status k))
      pend := Function.update s.pend k []
      flag := Function.update s.flag k false
      trips := fun i => if i = b.bus1 ∨ i = b.bus2 then [] else s.trips i }

/-- `clearLineTripAction` (dsf_app_module.cpp 4322-4337). -/
def Proc.clear (n : Net) (s : Proc) : Proc := { s.toTrip.foldl (Proc.clearBranch n) s with toTrip := [] }

/-- The part of `executeOneSimuStep` (3168-3191) that deals with line trips; only `ybus` is changed. -/
noncomputable def World.step (n : Net) (w : World) : World :=
  if w.apply then
    { w with
      procs := fun p => (w.procs p).clear n
      apply := false
      y := fun i j => w.y i j + ((if i = j then w.diagInc n i else 0) + w.offInc n i j) }
  else w

/-- `flagP` (3149-3166): 0 before, 1 during, 2 after the fault. -/
def phaseOf (steps1 steps2 : Int) (step : Int) : Nat :=
  if step ≤ steps1 then 0 else if step ≤ steps2 then 1 else 2

/-- The matrix the network equations are solved with: `solver_sptr` and `solver_posfy_sptr` were made from `ybus`,
`solver_fy_sptr` from `ybus_fy` (3057-3065, 3286-3292). -/
def World.inForce (w : World) (phase : Nat) : Nat → Nat → ℂ := if phase = 1 then w.yf else w.y

/-- A bus relay that trips before or after the fault (3406-3412): `overwriteMatrix` replaces the diagonal of the bus by
its own value `p_ybusr`, `p_ybusi` (dsf_components.cpp 366-373). -/
def World.busRelay (w : World) (i : Nat) (pybus : ℂ) : World :=
  { w with y := fun a b => if a = i ∧ b = i then pybus else w.y a b }

/-! ### Static loads -/

/-- What a bus keeps about its static load: `p_pl`, `p_ql`, the initial voltage `p_voltage`, the changes for the next
step, and the injections. -/
structure LoadBus where
  pl : ℝ
  ql : ℝ
  v : ℝ
  chP : Bool
  cr : ℝ
  chQ : Bool
  ci : ℝ
  zeroP : Bool
  zeroQ : Bool
  toVal : Bool
  shed : Bool
  remain : ℝ
  scat : Bool
  comp : Bool
  sp : ℝ
  sq : ℝ
  cur : Bool
  ir : ℝ
  ii : ℝ

/-- `p_loadimpedancer`, `p_loadimpedancei` (dsf_components.cpp 213-216): the admittance of the static load that mode YL
puts into the matrix. -/
noncomputable def LoadBus.yl (b : LoadBus) : ℂ := ⟨b.pl / (b.v * b.v), -b.ql / (b.v * b.v)⟩

/-- `applyConstYLoad_Change_P` (2127-2132). -/
noncomputable def LoadBus.changeP (b : LoadBus) (mw : ℝ) : LoadBus := { b with chP := true, cr := mw / 100 }

/-- `applyConstYLoad_Change_Q` (2134-2139). -/
noncomputable def LoadBus.changeQ (b : LoadBus) (mvar : ℝ) : LoadBus := { b with chQ := true, ci := mvar / 100 }

/-- `setConstYLoadtoZero_P` (2141-2154). -/
def LoadBus.setZeroP (b : LoadBus) : LoadBus × Bool :=
  if !b.zeroP then ({ b with chP := true, cr := -b.pl, zeroP := true }, true)
  else ({ b with chP := false, cr := 0 }, false)

/-- `setConstYLoadtoZero_Q` (2200-2213). -/
def LoadBus.setZeroQ (b : LoadBus) : LoadBus × Bool :=
  if !b.zeroQ then ({ b with chQ := true, ci := -b.ql, zeroQ := true }, true)
  else ({ b with chQ := false, ci := 0 }, false)

/-- `setConstYLoadtoValue` (2156-2182). -/
noncomputable def LoadBus.setValue (b : LoadBus) (r x : ℝ) : LoadBus × Bool :=
  if !b.toVal then
    let ya : ℂ := 1 / ⟨r, x⟩
    ({ b with chP := true, chQ := true, cr := -b.pl + ya.re * (b.v * b.v), ci := -b.ql + ya.im * (b.v * b.v),
              toVal := true }, true)
  else ({ b with chP := false, cr := 0, chQ := false, ci := 0 }, false)

/-- `clearConstYLoad_Change_P`, `clearConstYLoad_Change_Q` (2233-2245). -/
def LoadBus.clearP (b : LoadBus) : LoadBus := { b with chP := false, cr := 0 }
def LoadBus.clearQ (b : LoadBus) : LoadBus := { b with chQ := false, ci := 0 }

/-- `applyConstYLoadShedding` (3003-3009). -/
noncomputable def LoadBus.shedding (b : LoadBus) (perc : ℝ) : LoadBus :=
  { b with shed := true, remain := if b.remain + perc ≤ 0 then 0 else b.remain + perc }

/-- `scatterInjectionLoad` (2960-2965). -/
def LoadBus.scatter (b : LoadBus) (p q : ℝ) : LoadBus := { b with scat := true, sp := p, sq := q }

/-- `scatterInjectionLoad_compensateY` (2971-2976). -/
def LoadBus.scatterComp (b : LoadBus) (p q : ℝ) : LoadBus := { b with comp := true, sp := p, sq := q }

/-- `scatterInjectionLoadConstCurrent` (2982-2987). -/
def LoadBus.scatterCur (b : LoadBus) (r i : ℝ) : LoadBus := { b with cur := true, ir := r, ii := i }

/-- The current the static load commands inject at bus voltage `V` (`vectorValues`, 482-575). -/
noncomputable def LoadBus.inject (b : LoadBus) (V : ℂ) : ℂ :=
  (if b.shed then
    (starRingEnd ℂ) ((⟨b.yl.re * (b.v * b.v) * (1 - b.remain), -b.yl.im * (b.v * b.v) * (1 - b.remain)⟩ : ℂ) / V)
  else 0) +
  (if b.scat then (starRingEnd ℂ) ((⟨0 - b.sp, 0 - b.sq⟩ : ℂ) / V) else 0) +
  (if b.comp then
    (starRingEnd ℂ) ((⟨b.yl.re * (‖V‖ * ‖V‖) - b.sp, -b.yl.im * (‖V‖ * ‖V‖) - b.sq⟩ : ℂ) / V)
  else 0) -
  (if b.cur then (starRingEnd ℂ) ((⟨b.ir, b.ii⟩ : ℂ) / V * (‖V‖ : ℂ)) else 0)

/-- Diagonal contribution in mode bus_Yload_change_P (dsf_components.cpp 328-343). -/
noncomputable def LoadBus.incP (b : LoadBus) : ℂ := if b.chP then ⟨b.cr / (b.v * b.v), 0⟩ else 0

/-- Diagonal contribution in mode bus_Yload_change_Q (344-356). -/
noncomputable def LoadBus.incQ (b : LoadBus) : ℂ := if b.chQ then ⟨0, -b.ci / (b.v * b.v)⟩ else 0

/-- The buses, `bapplyLoadChangeP/Q`, `p_vbus_need_to_changeP/Q`, and the diagonal of `ybus`. -/
structure Loads where
  bus : Nat → LoadBus
  bP : Bool
  needP : List Nat
  bQ : Bool
  needQ : List Nat
  y : Nat → ℂ

/-- `DSFullApp::applyConstYLoad_Change_P` (4074-4094). -/
noncomputable def Loads.changeP (s : Loads) (i : Nat) (mw : ℝ) : Loads :=
  { s with bus := Function.update s.bus i ((s.bus i).changeP mw), bP := true, needP := s.needP ++ [i] }

/-- `DSFullApp::applyConstYLoad_Change_Q` (4171-4190). -/
noncomputable def Loads.changeQ (s : Loads) (i : Nat) (mvar : ℝ) : Loads :=
  { s with bus := Function.update s.bus i ((s.bus i).changeQ mvar), bQ := true, needQ := s.needQ ++ [i] }

/-- `DSFullApp::setConstYLoadtoZero_P` (4111-4133). -/
def Loads.setZeroP (s : Loads) (i : Nat) : Loads :=
  let r := (s.bus i).setZeroP
  { s with bus := Function.update s.bus i r.1, bP := s.bP || r.2, needP := if r.2 then s.needP ++ [i] else s.needP }

/-- `DSFullApp::setConstYLoadtoZero_Q` (4205-4227). -/
def Loads.setZeroQ (s : Loads) (i : Nat) : Loads :=
  let r := (s.bus i).setZeroQ
  { s with bus := Function.update s.bus i r.1, bQ := s.bQ || r.2, needQ := if r.2 then s.needQ ++ [i] else s.needQ }

/-- `DSFullApp::setConstYLoadImpedance` (4138-4166). -/
noncomputable def Loads.setValue (s : Loads) (i : Nat) (r x : ℝ) : Loads :=
  let q := (s.bus i).setValue r x
  { s with bus := Function.update s.bus i q.1, bP := s.bP || q.2, bQ := s.bQ || q.2
           needP := if q.2 then s.needP ++ [i] else s.needP, needQ := if q.2 then s.needQ ++ [i] else s.needQ }

/-- The bus part of a command on one bus. -/
def Loads.onBus (s : Loads) (i : Nat) (f : LoadBus → LoadBus) : Loads :=
  { s with bus := Function.update s.bus i (f (s.bus i)) }

/-- `clearConstYLoad_Change_P` (4096-4106), `clearConstYLoad_Change_Q` (4192-4202). -/
def Loads.clearP (s : Loads) : Loads :=
  { s with bP := false, needP := [], bus := s.needP.foldl (fun f i => Function.update f i (f i).clearP) s.bus }
def Loads.clearQ (s : Loads) : Loads :=
  { s with bQ := false, needQ := [], bus := s.needQ.foldl (fun f i => Function.update f i (f i).clearQ) s.bus }

/-- The part of `executeOneSimuStep` that deals with the changes of P (3194-3215). -/
noncomputable def Loads.stepP (s : Loads) : Loads :=
  if s.bP then ({ s with y := fun i => s.y i + (s.bus i).incP } : Loads).clearP else s

/-- The part that deals with the changes of Q (3217-3240). -/
noncomputable def Loads.stepQ (s : Loads) : Loads :=
  if s.bQ then ({ s with y := fun i => s.y i + (s.bus i).incQ } : Loads).clearQ else s

noncomputable def Loads.step (s : Loads) : Loads := s.stepP.stepQ

/-- The loop of the `scatterInjectionLoad` commands (3821-3833 and the like): `for (ival=0; ival<=nvals; ival++)` reads
`vbusNum[ival]`; `none`: an element outside the vector is read. -/
def scatterList {α : Type} (f : Loads → Nat → α → Loads) (buses : List Nat) (vals : List α) (s : Loads) : Option Loads :=
  (List.range (buses.length + 1)).foldlM (fun s k =>
    match buses[k]?, vals[k]? with
    | some i, some v => some (f s i v)
    | _, _ => none) s

/-! ### Dynamic loads -/

/-- `changeLoad` of the motor loads (acmotor.cpp 912-944, motorw.cpp 913-945): `Fonline` afterwards. -/
noncomputable def changeLoad (f x : ℝ) : ℝ :=
  if x < -1 then f else if f = 0 then f else if f + x < 0 then 0 else if f + x < 0 then 0 else f + x

/-- `DSFullBus::applyLoadShedding` (dsf_components.cpp 2992-2999) on the loads of a bus, given by id and online share;
the id is not used. -/
noncomputable def loadShedding (loads : List (List Char × ℝ)) (_id : List Char) (x : ℝ) : List (List Char × ℝ) :=
  loads.map (fun l => (l.1, changeLoad l.2 x))

/-! ### The time axis -/

/-- `t_step[i]` of `solvePreInitialize` (3005-3024), also in `solve` (540-560): number of steps before, during and after
the fault. -/
noncomputable def tSteps (start stop simTime dt : ℝ) : Int × Int × Int :=
  let f := fun x : ℝ => if 0 ≤ x then ⌊x⌋ else ⌈x⌉
  (f (start / dt), f ((stop - start) / dt), f ((simTime - stop) / dt))

/-- `h_sol1 = t_width[0]` (3071, 588), the size of all steps; `none`: division by zero. -/
noncomputable def stepSize (start dt : ℝ) : Option ℝ :=
  if (tSteps start 0 0 dt).1 = 0 then none else some (start / (tSteps start 0 0 dt).1)

/-- `simu_total_steps` and the end of the run (3024, 3764-3769): the steps made until `isDynSimuDone()`, for a run without
frequency violation; one step is made before the first test. -/
noncomputable def stepsMade (start stop simTime dt : ℝ) : Int :=
  let t := tSteps start stop simTime dt
  max 1 (t.1 + t.2.1 + t.2.2 + 1 - 1)

/-- The step is made with the faulted network (3149-3166, with `steps1`, `steps2` of 3068-3070). -/
noncomputable def faulted (start stop simTime dt : ℝ) (k : Int) : Bool :=
  let t := tSteps start stop simTime dt
  phaseOf (t.1 - 1) (t.1 + t.2.1 - 1) k = 1

end GridPACK.Actions
