import Verif.Model.RtprCases
import Mathlib.Data.Complex.Basic
import Mathlib.Algebra.Order.Floor.Ring
import Mathlib.Algebra.Order.Archimedean.Real.Basic

/-! Model of a dynamic simulation with one fault, `DSFullApp::solve(fault)`
(src/applications/modules/dynamic_simulation_full_y/dsf_app_module.cpp 420-1290): the matrix of the faulted network and
the steps in which it is used.

A process holds its own buses and ghosts of the neighbours; a bus is named by its original index, of which a process
has one object.  The values `p_ybusr`, `p_ybusi` of a bus are its data; the matrix `ybus` is a function of two bus numbers
(numbering and assembly are the models `FullMatrixMap` and `DsEvents`).  No bus is isolated.  Times are exact real
numbers; the conversion `(int)` truncates.  Relays, which change the matrices during a run, and the integration itself
(model `DsStep`) are left out. -/
namespace GridPACK.FaultSim

/-! ### Events -/

/-- `Event` (dsf_components.hpp 28-58), the parts that `solve(fault)` can use. -/
structure Ev where
  isBus : Bool
  isLine : Bool
  isGenerator : Bool
  isBusFault : Bool
  bus : Int
  from' : Int
  to' : Int
  start : ℝ
  stop : ℝ
  step : ℝ

/-- A block `faultEvent` of the input (dsf_events.cpp 54-71). -/
def Ev.ofFaultEvent (start stop : ℝ) (f t : Int) (step : ℝ) : Ev :=
  ⟨false, true, false, true, f, f, t, start, stop, step⟩

/-- A block `BusFault` of the input (72-85). -/
def Ev.ofBusFault (start stop : ℝ) (bus : Int) (step : ℝ) : Ev :=
  ⟨false, false, false, true, bus, -1, -1, start, stop, step⟩

/-- A fault of the path rating (rtpr_driver.cpp 935-956). -/
def Ev.ofFault (x : RtprCases.Fault) : Ev :=
  ⟨false, x.isLine, x.isGenerator, false, x.bus, x.from', x.to', x.start, x.stop, x.step⟩

/-! ### The matrix of the faulted network -/

/-- A bus of a process: original index, whether it is owned, `p_ybusr + i p_ybusi`. -/
structure Bus where
  orig : Int
  active : Bool
  ybus : ℂ

/-- Buses and branches (original indices of the ends) known to a process. -/
structure Proc where
  buses : List Bus
  branches : List (Int × Int)

/-- `p_from_flag`, `p_to_flag` of the buses of a process. -/
abbrev Flags := Int → Bool × Bool

/-- `DSFullBus::setEvent` (dsf_components.cpp 2069-2087) for the bus `o`. -/
def busSetEvent (f t o : Int) (fl : Flags) : Flags :=
  fun x => if x = o then (decide (f = o), decide (t = o)) else fl x

/-- `DSFullBus::clearEvent` (2092-2097) for the bus `o`. -/
def busClear (o : Int) (fl : Flags) : Flags := fun x => if x = o then (false, false) else fl x

/-- `DSFullBranch::setEvent` (3945-3980). -/
def branchSetEvent (ev : Ev) (b : Int × Int) (fl : Flags) : Flags :=
  if ev.isLine then
    if b.1 = ev.from' ∧ b.2 = ev.to' then busSetEvent b.1 b.2 b.2 (busSetEvent b.1 b.2 b.1 fl) else fl
  else fl

/-- `DSFullFactory::setEvent` (dsf_factory.cpp 115-139); `old` are the flags before. -/
def setEvent (pr : Proc) (ev : Ev) (old : Flags) : Flags :=
  let f0 := pr.buses.foldl (fun fl b => busClear b.orig fl) old
  let f1 := if ev.isBus then pr.buses.foldl (fun fl b => busSetEvent ev.bus ev.bus b.orig fl) f0 else f0
  if ev.isLine then pr.branches.foldl (fun fl b => branchSetEvent ev b fl) f1 else f1

abbrev Mat := Int → Int → ℂ

/-- `setElement` on the diagonal. -/
def setDiag (m : Mat) (i : Int) (v : ℂ) : Mat := fun a b => if a = i ∧ b = i then v else m a b

/-- `matrixDiagValues` in the mode `onFY` (dsf_components.cpp 321-332) and its insertion by `overwriteMatrix`; branches
contribute nothing in this mode (3250-3300). -/
noncomputable def busOnFY (fl : Flags) (m : Mat) (b : Bus) : Mat :=
  if b.active && (fl b.orig).1 then setDiag m b.orig ⟨b.ybus.re, b.ybus.im - 1.0e9⟩ else m

/-- `ybus_fy` (dsf_app_module.cpp 498-509) on `n` processes. -/
noncomputable def faultMatrix (n : Nat) (procs : Nat → Proc) (ybus : Mat) (ev : Ev) (old : Nat → Flags) : Mat :=
  (List.range n).foldl (fun m p =>
    let fl := setEvent (procs p) ev (old p)
    (procs p).buses.foldl (busOnFY fl) m) ybus

/-! ### The steps -/

/-- Conversion of a `double` to `int`. -/
noncomputable def trunc (x : ℝ) : ℤ := if 0 ≤ x then ⌊x⌋ else ⌈x⌉

/-- `t_step[i]` (554) for the interval from `a` to `b`; `sw7[i]` is always the time step of the simulation. -/
noncomputable def tStep (dt a b : ℝ) : ℤ := trunc ((b - a) / dt)

/-- `t_step` for the three intervals (539-557). -/
noncomputable def tSteps (ev : Ev) (T dt : ℝ) : ℤ × ℤ × ℤ :=
  (tStep dt 0 ev.start, tStep dt ev.start ev.stop, tStep dt ev.stop T)

/-- Number of passes of the loop (552-558, 671): `simu_total_steps - 1`. -/
noncomputable def nSteps (ev : Ev) (T dt : ℝ) : ℕ :=
  let t := tSteps ev T dt
  (t.1 + t.2.1 + t.2.2).toNat

/-- `flagP` in step `k` (585-587, 684-701). -/
noncomputable def flagP (ev : Ev) (T dt : ℝ) (k : ℕ) : ℕ :=
  let t := tSteps ev T dt
  let steps1 := t.1 - 1
  let steps2 := t.1 + t.2.1 - 1
  if (k : ℤ) < steps1 then 0
  else if (k : ℤ) = steps1 then 0
  else if (k : ℤ) > steps1 ∧ (k : ℤ) < steps2 then 1
  else if (k : ℤ) = steps2 then 1
  else 2

/-- The matrix with which predictor and corrector of step `k` find the voltages (573-583, 794-800, 1099-1105): the solver
for `flagP == 2` is made for `ybus`, too. -/
noncomputable def matrixUsed (ev : Ev) (T dt : ℝ) (ybus ybusFy : Mat) (k : ℕ) : Mat :=
  if flagP ev T dt k = 1 then ybusFy else ybus

/-- `h_sol1`, the length of all steps of the integration (555, 588-589); `none` = division by zero. -/
noncomputable def stepLength (ev : Ev) (T dt : ℝ) : Option ℝ :=
  let t := (tSteps ev T dt).1
  if t = 0 then none else some ((ev.start - 0) / t)

end GridPACK.FaultSim
