import Mathlib.Data.Real.Basic
import Mathlib.Analysis.SpecialFunctions.Trigonometric.Basic
import Verif.Model.YMatrix

/-! Model of state estimation: the components `SEBus`, `SEBranch`
(src/applications/components/se_matrix/se_components.cpp) and the iteration of `SEAppModule::solve`
(src/applications/modules/state_estimation/se_app_module.cpp 294-392).

Simplifications: doubles are real numbers and the imaginary parts (always zero) are left out; all components
are on one process and `p_v`, `p_a` of a bus and the values its neighbours read from the exchange buffer are one
value.  A matrix value is a triple (bus, local column number of that bus, value); the row is the measurement.
Arrays handed over by the mappers are the lists of the values written: an entry of the array that the component
does not write is not in the list.  Products and solutions of the matrix library are exact.  The admittances
`p_ybusr` ... are inputs here (see YMatrix.lean).  Output routines are not modelled. -/
namespace GridPACK.StateEst

/-- Measurement types of a bus; `other` = accepted by `SEFactoryModule::setMeasurements`
(src/applications/modules/state_estimation/se_factory_module.cpp 70-140) but not handled: "PJ", "QJ". -/
inductive BusType
  | VM
  | VA
  | PI
  | QI
  | other
deriving DecidableEq

/-- `Measurement` on a bus (se_components.hpp 36-47). -/
structure BusMeas where
  type : BusType
  value : ℝ
  dev : ℝ

/-- Measurement types of a branch. -/
inductive BrType
  | PIJ
  | QIJ
  | IIJ
  | PJI
  | QJI
  | IJI
deriving DecidableEq

/-- `Measurement` on a branch; `ckt` names the line. -/
structure BrMeas where
  type : BrType
  ckt : List Char
  value : ℝ
  dev : ℝ

/-- One line of an `SEBranch`: entry `j` of `p_tag`, `p_resistance`, `p_reactance`, `p_charging`,
`p_tap_ratio`, `p_phase_shift` (its own members, not those of `YMBranch`). -/
structure Line where
  tag : List Char
  r : ℝ
  x : ℝ
  charging : ℝ
  tap : ℝ
  shift : ℝ

/-- `SEBus`: `p_ybusr`, `p_ybusi`, the conductance given by `getShuntGsBs`, reference and isolated flags,
`p_meas`. -/
structure Bus where
  g : ℝ
  b : ℝ
  gs : ℝ
  ref : Bool
  iso : Bool
  meas : List BusMeas

/-- `SEBranch`: end buses, forward and reverse admittance, `p_active`, lines, `p_meas`. -/
structure Branch where
  bus1 : Nat
  bus2 : Nat
  gf : ℝ
  bf : ℝ
  gr : ℝ
  br : ℝ
  active : Bool
  lines : List Line
  meas : List BrMeas

structure Net where
  bus : Nat → Bus
  branches : List Branch

/-- Voltage magnitudes and angles. -/
structure State where
  v : Nat → ℝ
  θ : Nat → ℝ

/-- `getNeighborBranches`. -/
def Net.neighbors (n : Net) (i : Nat) : List Branch :=
  n.branches.filter (fun e => e.bus1 = i ∨ e.bus2 = i)

/-- Neither end is isolated (`ok`, `ok2`). -/
def Branch.ok (e : Branch) (n : Net) : Bool := !(n.bus e.bus1).iso && !(n.bus e.bus2).iso

/-- The bus at the other end (852-865). -/
def Branch.far (e : Branch) (i : Nat) : Nat := if e.bus1 = i then e.bus2 else e.bus1

/-- `yfbusr`, `yfbusi` (861-870). -/
def Branch.y (e : Branch) (i : Nat) : ℝ × ℝ := if e.bus1 = i then (e.gf, e.bf) else (e.gr, e.br)

/-- `getVTheta` (1565-1587): `w` are the values of the caller's variables `v`, `theta` before the call. -/
def Branch.getVTheta (e : Branch) (n : Net) (s : State) (i : Nat) (w : ℝ × ℝ) : ℝ × ℝ :=
  if e.ok n then
    if i = e.bus1 then (s.v e.bus2, s.θ e.bus1 - s.θ e.bus2)
    else if i = e.bus2 then (s.v e.bus1, s.θ e.bus2 - s.θ e.bus1)
    else w
  else w

/-- Value with bus and local column number. -/
abbrev Entry := Nat × Nat × ℝ

/-- Angle and magnitude entries of one bus: a reference bus has only the magnitude, in its column 0
(`if (!bus->getReferenceBus()) ... else ...`). -/
def Net.pair (n : Net) (j : Nat) (a m : ℝ) : List Entry :=
  if !(n.bus j).ref then [(j, 0, a), (j, 1, m)] else [(j, 0, m)]

/-! ### Measurements of a bus -/

/-- Body of the loop over the branches for "PI" (855-890), values written. -/
noncomputable def Branch.piOff (e : Branch) (n : Net) (s : State) (i : Nat) (w : ℝ × ℝ) : List Entry :=
  let y := e.y i
  n.pair (e.far i) (s.v i * w.1 * (y.1 * Real.sin w.2 - y.2 * Real.cos w.2))
    (s.v i * (y.1 * Real.cos w.2 + y.2 * Real.sin w.2))

/-- `ret1` and `ret2` for "PI" (872, 884). -/
noncomputable def Branch.piRet (e : Branch) (s : State) (i : Nat) (w : ℝ × ℝ) : ℝ × ℝ :=
  let y := e.y i
  (s.v i * w.1 * (-y.1 * Real.sin w.2 + y.2 * Real.cos w.2),
   w.1 * (y.1 * Real.cos w.2 + y.2 * Real.sin w.2))

/-- Body of the loop over the branches for "QI" (908-944). -/
noncomputable def Branch.qiOff (e : Branch) (n : Net) (s : State) (i : Nat) (w : ℝ × ℝ) : List Entry :=
  let y := e.y i
  n.pair (e.far i) (s.v i * w.1 * (-y.1 * Real.cos w.2 - y.2 * Real.sin w.2))
    (s.v i * (y.1 * Real.sin w.2 - y.2 * Real.cos w.2))

/-- `ret1` and `ret2` for "QI" (926, 938). -/
noncomputable def Branch.qiRet (e : Branch) (s : State) (i : Nat) (w : ℝ × ℝ) : ℝ × ℝ :=
  let y := e.y i
  (s.v i * w.1 * (y.1 * Real.cos w.2 + y.2 * Real.sin w.2),
   w.1 * (y.1 * Real.sin w.2 - y.2 * Real.cos w.2))

/-- Accumulator of the loop over the branches: `v`, `theta`, `ret1`, `ret2`, values written. -/
structure Acc where
  w : ℝ × ℝ
  r1 : ℝ
  r2 : ℝ
  out : List Entry

/-- The loop over the branches in `SEBus::matrixGetValues`. -/
noncomputable def Net.busLoop (n : Net) (s : State) (i : Nat) (w : ℝ × ℝ)
    (off : Branch → ℝ × ℝ → List Entry) (ret : Branch → ℝ × ℝ → ℝ × ℝ) : Acc :=
  (n.neighbors i).foldl (fun a e =>
    if e.ok n then
      let w := e.getVTheta n s i a.w
      { w := w, r1 := a.r1 + (ret e w).1, r2 := a.r2 + (ret e w).2, out := a.out ++ off e w }
    else a) { w := w, r1 := 0, r2 := 0, out := [] }

/-- Values written by `SEBus::matrixGetValues` in mode Jacobian_H for one measurement (822-1002). -/
noncomputable def Net.busEntries (n : Net) (s : State) (i : Nat) (m : BusMeas) : List Entry :=
  if !(n.bus i).iso then
    match m.type with
    | .VM => n.pair i 0 1
    | .PI =>
      let a := n.busLoop s i (0, 0) (fun e => e.piOff n s i) (fun e => e.piRet s i)
      a.out ++ n.pair i a.r1 (a.r2 + 2 * s.v i * (n.bus i).g)
    | .QI =>
      let a := n.busLoop s i (0, 0) (fun e => e.qiOff n s i) (fun e => e.qiRet s i)
      a.out ++ n.pair i a.r1 (a.r2 - 2 * s.v i * (n.bus i).b)
    | .VA => n.pair i 1 0
    | .other => []
  else []

/-- The loop over the branches in `SEBus::vectorGetElementValues` (1053-1069, 1081-1097): `v`, `theta` and
`ret`. -/
noncomputable def Net.sumLoop (n : Net) (s : State) (i : Nat) (w : ℝ × ℝ)
    (f : ℝ × ℝ → ℝ × ℝ → ℝ) : (ℝ × ℝ) × ℝ :=
  (n.neighbors i).foldl (fun a e =>
    let w := e.getVTheta n s i a.1
    (w, a.2 + f (e.y i) w)) (w, 0)

/-- One measurement in `SEBus::vectorGetElementValues` (1042-1109): the variables `v`, `theta` live across
measurements (1036); a type without a branch writes nothing. -/
noncomputable def Net.busResStep (n : Net) (s : State) (i : Nat) (a : (ℝ × ℝ) × List ℝ) (m : BusMeas) :
    (ℝ × ℝ) × List ℝ :=
  match m.type with
  | .VM => (a.1, a.2 ++ [m.value - s.v i])
  | .PI =>
    let r := n.sumLoop s i a.1 (fun y w => w.1 * (y.1 * Real.cos w.2 + y.2 * Real.sin w.2))
    (r.1, a.2 ++ [m.value - (r.2 + s.v i * (n.bus i).g) * s.v i])
  | .QI =>
    let r := n.sumLoop s i a.1 (fun y w => w.1 * (y.1 * Real.sin w.2 - y.2 * Real.cos w.2))
    (r.1, a.2 ++ [m.value - (r.2 - s.v i * (n.bus i).b) * s.v i])
  | .VA => (a.1, a.2 ++ [m.value - s.θ i])
  | .other => a

/-- `SEBus::vectorGetElementValues` in mode Jacobian_H (1026-1111), values written in order; `w` = what `v`,
`theta` (uninitialised, 1036) contain at the start. -/
noncomputable def Net.busResiduals (n : Net) (s : State) (i : Nat) (w : ℝ × ℝ) : List ℝ :=
  if !(n.bus i).iso then ((n.bus i).meas.foldl (n.busResStep s i) (w, [])).2 else []

/-- Contribution of one measurement to `p_numElements` in `SEBus::configureSE` (575-606). -/
def Net.busCount (n : Net) (i : Nat) (m : BusMeas) : Nat :=
  let own := if !(n.bus i).ref then 2 else 1
  match m.type with
  | .VM => own
  | .VA => own
  | .PI => ((n.neighbors i).map (fun e => if !(n.bus (e.far i)).ref then 2 else 1)).sum + own
  | .QI => ((n.neighbors i).map (fun e => if !(n.bus (e.far i)).ref then 2 else 1)).sum + own
  | .other => 0

/-- `SEBus::matrixNumValues` in mode Jacobian_H (798-806). -/
def Net.busNumValues (n : Net) (i : Nat) : Nat := ((n.bus i).meas.map (n.busCount i)).sum

/-! ### Measurements of a branch -/

/-- `gij`, `bij`: real and imaginary part of `1.0/ret`. -/
noncomputable def Line.g (l : Line) : ℝ := (1 / (⟨l.r, l.x⟩ : ℂ)).re
noncomputable def Line.b (l : Line) : ℝ := (1 / (⟨l.r, l.x⟩ : ℂ)).im

/-- `t`, `shifter`, `B`. -/
noncomputable def Line.t (l : Line) : ℝ := if l.tap ≠ 0 then l.tap else 1
noncomputable def Line.sh (l : Line) : ℝ := if l.tap ≠ 0 then l.shift else 0
noncomputable def Line.B (l : Line) : ℝ := 1 / 2 * l.charging

/-- The two trigonometric combinations at `phi`. -/
noncomputable def Line.gc (l : Line) (phi : ℝ) : ℝ := l.g * Real.cos phi + l.b * Real.sin phi
noncomputable def Line.gd (l : Line) (phi : ℝ) : ℝ := l.g * Real.sin phi - l.b * Real.cos phi

/-- Values written for one line of a "PIJ" measurement (1811-1861). -/
noncomputable def Net.pij (n : Net) (s : State) (e : Branch) (l : Line) : List Entry :=
  let v1 := s.v e.bus1
  let v2 := s.v e.bus2
  let th := s.θ e.bus1 - s.θ e.bus2 + l.sh
  n.pair e.bus1 (1 / l.t * v1 * v2 * l.gd th)
      (-1 / l.t * v2 * l.gc th + 2 * (l.g + (n.bus e.bus1).gs) * v1 / (l.t * l.t)) ++
    n.pair e.bus2 (-1 / l.t * v1 * v2 * l.gd th) (-1 / l.t * v1 * l.gc th)

/-- Values written for one line of a "QIJ" measurement (1867-1921). -/
noncomputable def Net.qij (n : Net) (s : State) (e : Branch) (l : Line) : List Entry :=
  let v1 := s.v e.bus1
  let v2 := s.v e.bus2
  let th := s.θ e.bus1 - s.θ e.bus2 + l.sh
  n.pair e.bus1 (-1 / l.t * v1 * v2 * l.gc th)
      (-1 / l.t * v2 * l.gd th - 2 / (l.t * l.t) * (l.b + l.B) * v1) ++
    n.pair e.bus2 (1 / l.t * v1 * v2 * l.gc th) (-1 / l.t * v1 * l.gd th)

/-- `gij`, `bij` for the columns of the second bus of an "IIJ" measurement (1970-1976, 1991-1997):
`ret/(conj(a)*a)`. -/
noncomputable def Line.ret2 (l : Line) : ℂ :=
  let ret : ℂ := 1 / ⟨l.r, l.x⟩
  if l.tap ≠ 0 then
    let a : ℂ := (l.tap : ℂ) * ⟨Real.cos l.shift, Real.sin l.shift⟩
    ret / ((starRingEnd ℂ) a * a)
  else ret

/-- Values written for one line of an "IIJ" measurement (1927-2003). -/
noncomputable def Net.iij (n : Net) (s : State) (e : Branch) (l : Line) : List Entry :=
  let v1 := s.v e.bus1
  let v2 := s.v e.bus2
  let th := s.θ e.bus1 - s.θ e.bus2
  let y2 := l.g * l.g + l.b * l.b
  let z2 := l.ret2.re * l.ret2.re + l.ret2.im * l.ret2.im
  let I := Real.sqrt (y2 * (v1 * v1 + v2 * v2 - 2 * v1 * v2 * Real.cos th))
  n.pair e.bus1 (y2 * v1 * v2 * Real.sin th / I) (y2 * (v1 - v2 * Real.cos th) / I) ++
    n.pair e.bus2 (-z2 * v1 * v2 * Real.sin th / I) (z2 * (v2 - v1 * Real.cos th) / I)

/-- Values written for one line of a "PJI" measurement (2009-2063). -/
noncomputable def Net.pji (n : Net) (s : State) (e : Branch) (l : Line) : List Entry :=
  let v1 := s.v e.bus1
  let v2 := s.v e.bus2
  let th := -(s.θ e.bus1 - s.θ e.bus2) - l.sh
  n.pair e.bus1 (-1 / l.t * v1 * v2 * l.gd th) (-1 / l.t * v2 * l.gc th) ++
    n.pair e.bus2 (1 / l.t * v1 * v2 * l.gd th)
      (-1 / l.t * v1 * l.gc th + 2 * (l.g + (n.bus e.bus2).gs) * v2)

/-- Values written for one line of a "QJI" measurement (2069-2121). -/
noncomputable def Net.qji (n : Net) (s : State) (e : Branch) (l : Line) : List Entry :=
  let v1 := s.v e.bus1
  let v2 := s.v e.bus2
  let th := -(s.θ e.bus1 - s.θ e.bus2) - l.sh
  n.pair e.bus1 (1 / l.t * v1 * v2 * l.gc th) (-1 / l.t * v2 * l.gd th) ++
    n.pair e.bus2 (-1 / l.t * v1 * v2 * l.gc th) (-1 / l.t * v1 * l.gd th - 2 * (l.b + l.B) * v2)

/-- Values written by `SEBranch::matrixGetValues` in mode Jacobian_H for one measurement (1800-2135). -/
noncomputable def Net.brEntries (n : Net) (s : State) (e : Branch) (m : BrMeas) : List Entry :=
  if e.ok n then
    let each (f : Line → List Entry) :=
      e.lines.flatMap (fun l => if l.tag = m.ckt ∧ e.active then f l else [])
    match m.type with
    | .PIJ => each (n.pij s e)
    | .QIJ => each (n.qij s e)
    | .IIJ => each (n.iij s e)
    | .PJI => each (n.pji s e)
    | .QJI => each (n.qji s e)
    | .IJI => []
  else []

/-- The four flow formulas of `SEBranch::vectorGetElementValues` (2236, 2258, 2303, 2325). -/
noncomputable def Line.hpij (l : Line) (v1 v2 th : ℝ) : ℝ :=
  v1 * v1 * l.g / (l.t * l.t) - 1 / l.t * v1 * v2 * l.gc (th + l.sh)
noncomputable def Line.hqij (l : Line) (v1 v2 th : ℝ) : ℝ :=
  -v1 * v1 * (l.b + l.B) / (l.t * l.t) - 1 / l.t * v1 * v2 * l.gd (th + l.sh)
noncomputable def Line.hpji (l : Line) (v1 v2 th : ℝ) : ℝ :=
  v2 * v2 * l.g - 1 / l.t * v1 * v2 * l.gc (-th - l.sh)
noncomputable def Line.hqji (l : Line) (v1 v2 th : ℝ) : ℝ :=
  -v2 * v2 * (l.b + l.B) - 1 / l.t * v1 * v2 * l.gd (-th - l.sh)

/-- `ret1`, `ret2` after the loop over the lines (2221-2238, ...): every line with the tag overwrites. -/
noncomputable def Branch.scan (e : Branch) (ckt : List Char) (f : Line → ℝ × ℝ → ℝ × ℝ) (r : ℝ × ℝ) : ℝ × ℝ :=
  e.lines.foldl (fun r l => if l.tag = ckt then f l r else r) r

/-- One measurement in `SEBranch::vectorGetElementValues` (2209-2330): `ret1`, `ret2` live across measurements
(2199-2200); "IJI" writes nothing. -/
noncomputable def Branch.resStep (e : Branch) (v1 v2 th : ℝ) (a : (ℝ × ℝ) × List ℝ) (m : BrMeas) :
    (ℝ × ℝ) × List ℝ :=
  match m.type with
  | .PIJ =>
    let r := e.scan m.ckt (fun l r => (l.hpij v1 v2 th, r.2)) a.1
    (r, a.2 ++ [m.value - r.1])
  | .QIJ =>
    let r := e.scan m.ckt (fun l r => (r.1, l.hqij v1 v2 th)) a.1
    (r, a.2 ++ [m.value - r.2])
  | .IIJ =>
    let r := e.scan m.ckt (fun l _ => (l.hpij v1 v2 th, l.hqij v1 v2 th)) a.1
    (r, a.2 ++ [m.value - Real.sqrt (r.1 * r.1 + r.2 * r.2) / v1])
  | .PJI =>
    let r := e.scan m.ckt (fun l r => (l.hpji v1 v2 th, r.2)) a.1
    (r, a.2 ++ [m.value - r.1])
  | .QJI =>
    let r := e.scan m.ckt (fun l r => (r.1, l.hqji v1 v2 th)) a.1
    (r, a.2 ++ [m.value - r.2])
  | .IJI => a

/-- `SEBranch::vectorGetElementValues` in mode Jacobian_H (2185-2332), values written in order. -/
noncomputable def Net.brResiduals (n : Net) (s : State) (e : Branch) : List ℝ :=
  if e.ok n then
    (e.meas.foldl (e.resStep (s.v e.bus1) (s.v e.bus2) (s.θ e.bus1 - s.θ e.bus2)) ((0, 0), [])).2
  else []

/-- Contribution of one measurement to `p_numElements` in `SEBranch::configureSE` (1627-1650). -/
def Net.brCount (n : Net) (e : Branch) (m : BrMeas) : Nat :=
  (e.lines.map (fun l => if l.tag = m.ckt then
    (if !(n.bus e.bus1).ref then 2 else 1) + (if !(n.bus e.bus2).ref then 2 else 1) else 0)).sum

/-- `SEBranch::matrixNumValues` in mode Jacobian_H (1763-1771, 1622-1623). -/
def Net.brNumValues (n : Net) (e : Branch) : Nat :=
  if e.ok n then (e.meas.map (n.brCount e)).sum else 0

/-! ### Weights, columns and corrections -/

/-- Diagonal entries of R_inv (1006-1017, 2139-2149). -/
noncomputable def weight (dev : ℝ) : ℝ := if dev ≠ 0 then 1 / (dev * dev) else 0

/-- Values written by a component in mode R_inv (`wr` = not isolated, no isolated end). -/
noncomputable def rinvValues (wr : Bool) (devs : List ℝ) : List ℝ := if wr then devs.map weight else []

/-- `SEBus::matrixNumCols` in mode Jacobian_H (683-727). -/
def Net.numCols (n : Net) (i : Nat) : Nat :=
  let meas := !(n.bus i).meas.isEmpty ||
    (n.neighbors i).any (fun e => !(n.bus (e.far i)).meas.isEmpty || !e.meas.isEmpty)
  if !meas then 0
  else if !(n.bus i).iso then (if !(n.bus i).ref then 2 else 1) else 0

/-- `SEBus::vectorSize` in mode Voltage (124-141). -/
def Net.vectorSize (n : Net) (i : Nat) : Option Nat :=
  if !(n.bus i).iso then some (if (n.bus i).ref then 1 else 2) else none

/-- `SEBus::setValues` in mode Voltage (164-181) of bus `i` with the block `d 0, d 1`: new (angle, magnitude). -/
def Net.setValues (n : Net) (s : State) (i : Nat) (d : Nat → ℝ) : ℝ × ℝ :=
  if !(n.bus i).iso then
    if (n.bus i).ref then (s.θ i, s.v i + d 0) else (s.θ i + d 0, s.v i + d 1)
  else (s.θ i, s.v i)

/-- `VMap.mapToBus(X)` (se_app_module.cpp 381): all buses; `x j c` = element of X for column `c` of bus `j`. -/
def Net.correct (n : Net) (s : State) (x : Nat → Nat → ℝ) : State :=
  { v := fun j => (n.setValues s j (x j)).2, θ := fun j => (n.setValues s j (x j)).1 }

/-- A matrix entry after `setElement` of the values in order (gen_matrix_map.hpp 645-660): the last one wins,
zero if there is none. -/
noncomputable def entryOf (l : List Entry) (j c : Nat) : ℝ :=
  l.foldl (fun x e => if e.1 = j ∧ e.2.1 = c then e.2.2 else x) 0

/-! ### The iteration -/

/-- A row of the problem: measurement `k` of bus `i` or of a branch. -/
inductive Row
  | bus (i k : Nat) (m : BusMeas)
  | branch (e : Branch) (k : Nat) (m : BrMeas)

def Row.dev : Row → ℝ
  | .bus _ _ m => m.dev
  | .branch _ _ m => m.dev

/-- Element of `Ez` (333): value stored at the position of the measurement, zero if none was. -/
noncomputable def Net.ez (n : Net) (s : State) (w : ℝ × ℝ) : Row → ℝ
  | .bus i k _ => ((n.busResiduals s i w)[k]?).getD 0
  | .branch e k _ => ((n.brResiduals s e)[k]?).getD 0

/-- Element of `HJac` (321) in the row and in column `c` of bus `j`. -/
noncomputable def Net.hjac (n : Net) (s : State) (r : Row) (j c : Nat) : ℝ :=
  match r with
  | .bus i _ m => entryOf (n.busEntries s i m) j c
  | .branch e _ m => entryOf (n.brEntries s e m) j c

/-- Element of `RHS` = H'·Rinv·Ez (344-353). -/
noncomputable def Net.rhs (n : Net) (s : State) (w : ℝ × ℝ) (rows : List Row) (j c : Nat) : ℝ :=
  (rows.map (fun r => n.hjac s r j c * weight r.dev * n.ez s w r)).sum

/-- Element of `Gain` = H'·Rinv·H (338-339). -/
noncomputable def Net.gain (n : Net) (s : State) (rows : List Row) (j c j' c' : Nat) : ℝ :=
  (rows.map (fun r => n.hjac s r j c * weight r.dev * n.hjac s r j' c')).sum

/-- The loop of `solve` (se_app_module.cpp 317-391): at most `k` more passes, `tol` the norm of the last
correction; `step` = one pass: the new state and the norm of its correction.  Result: the state, the number of
passes left and the last norm (only the state is kept by the code). -/
noncomputable def loop {S : Type} (tolerance : ℝ) (step : S → S × ℝ) : Nat → ℝ → S → S × Nat × ℝ
  | 0, tol, s => (s, 0, tol)
  | k + 1, tol, s =>
    if tol > tolerance then loop tolerance step k (step s).2 (step s).1 else (s, k + 1, tol)

/-- `solve` (304-391): the loop starts with `tol = 2*p_tolerance` (308). -/
noncomputable def solve {S : Type} (tolerance : ℝ) (maxIter : Nat) (step : S → S × ℝ) (s : S) : S × Nat × ℝ :=
  loop tolerance step maxIter (2 * tolerance) s

/-! ### Loading -/

/-- Branch data in the data collection; all values present. -/
structure LineData where
  tag : List Char
  r : ℝ
  x : ℝ
  shift : ℝ
  tap : ℝ
  b : ℝ
  g1 : ℝ
  b1 : ℝ
  g2 : ℝ
  b2 : ℝ
  status : Int
  switched : Bool

/-- `SEBranch::load` (1251-1315), one line. -/
noncomputable def loadLine (d : LineData) : Line :=
  let x := if d.x < 1 / 100000 ∧ d.x ≥ 0 then 1 / 100000 else d.x
  let x := if x > -1 / 100000 ∧ x < 0 then -1 / 100000 else x
  { tag := d.tag, r := d.r, x := x, charging := d.b, tap := d.tap, shift := -d.shift * Real.pi / 180 }

/-- `YMBranch::load` (src/applications/components/y_matrix/ymatrix_components.cpp 475-518), one line. -/
noncomputable def loadElem (d : LineData) : YMatrix.Elem :=
  { r := d.r, x := d.x, tap := d.tap, phase := d.shift * Real.pi / 180, charging := d.b,
    g1 := d.g1, b1 := d.b1, g2 := d.g2, b2 := d.b2, xform := decide (d.tap ≠ 0), shunt := true,
    status := decide (d.status ≠ 0), switched := d.switched, tag := d.tag }

/-- `p_active` after `SEBranch::load` (1270, 1297). -/
def loadActive (ds : List LineData) : Bool := ds.any (fun d => decide (d.status = 1))

/-- `getComplexVoltage`. -/
noncomputable def State.volt (s : State) (j : Nat) : ℂ :=
  ⟨s.v j * Real.cos (s.θ j), s.v j * Real.sin (s.θ j)⟩

/-- `getComplexPower` (2418-2434) for the elements `es` of the branch between `i` and `j`. -/
noncomputable def getComplexPower (es : List YMatrix.Elem) (s : State) (i j : Nat) (sbase : ℝ)
    (tag : List Char) : ℂ :=
  let y := YMatrix.getLineElements es tag
  s.volt i * (starRingEnd ℂ) (y.1 * s.volt i + y.2 * s.volt j) * (sbase : ℂ)

/-- `getRvrsComplexPower` (2395-2411): power entering at bus 2 = `j`. -/
noncomputable def getRvrsComplexPower (es : List YMatrix.Elem) (s : State) (i j : Nat) (sbase : ℝ)
    (tag : List Char) : ℂ :=
  let y := YMatrix.getRvrsLineElements es tag
  s.volt j * (starRingEnd ℂ) (y.1 * s.volt j + y.2 * s.volt i) * (sbase : ℂ)

/-- Generator data; all values present. -/
structure GenData where
  pg : ℝ
  qg : ℝ
  qmin : ℝ
  qmax : ℝ

/-- The vectors of `SEBus` filled by `load` (304-316). -/
structure Gens where
  pg : List ℝ
  qmin : List ℝ
  qmax : List ℝ

/-- Body of the loop of `SEBus::load` (296-321): both limits are pushed on `p_qmax` (312-313). -/
def Gens.push (g : Gens) (d : GenData) : Gens :=
  { pg := g.pg ++ [d.pg], qmin := g.qmin, qmax := g.qmax ++ [d.qmin] ++ [d.qmax] }

def loadGens (ds : List GenData) : Gens := ds.foldl Gens.push { pg := [], qmin := [], qmax := [] }

/-- Values (GENERATOR_SE_PGEN, GENERATOR_SE_QGEN) stored by `saveData` (645-665), by generator number. -/
noncomputable def Gens.saved (g : Gens) (qinj ql sbase : ℝ) : List (ℝ × ℝ) :=
  let ngen := g.qmin.length
  let at_ (l : List ℝ) (i : Nat) := (l[i]?).getD 0
  let smin := ((List.range ngen).map (at_ g.qmin)).sum
  let smax := ((List.range ngen).map (at_ g.qmax)).sum
  (List.range ngen).map (fun i => (at_ g.pg i,
    at_ g.qmin i + (qinj - smin) * (at_ g.qmax i - at_ g.qmin i) / (smax - smin) + ql / sbase))

end GridPACK.StateEst
