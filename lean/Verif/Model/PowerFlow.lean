import Mathlib.Data.Real.Basic
import Mathlib.Analysis.SpecialFunctions.Trigonometric.Basic

/-! Model of the power-flow components (src/applications/components/pf_matrix/pf_components.cpp):
mismatch vector and Jacobian.

Simplifications: doubles are real numbers; the small-matrix variant is modelled (`LARGE_MATRIX` is commented
out in line 35); buses are numbered and all of them are on one process.  The voltage magnitude used by a bus
itself (`p_v`) and the one its neighbours read from the exchange buffer (`getVoltage`, 672) are one value, and
so are the angles (the exchanged angle differs by whole turns, see C52).  `p_theta` of a branch is recomputed
by every `getPQ` (2213); the Jacobian is evaluated after the mismatch at the same state
(src/applications/modules/powerflow/pf_app_module.cpp 378-396 and 479-489), so it sees the current value, and
the current `p_Pinj`, `p_Qinj`. -/
namespace GridPACK.PowerFlow

/-- Fields of `PFBus`: diagonal admittance `p_ybusr`, `p_ybusi`, scheduled injection `p_P0`, `p_Q0`, reference
and isolated flags, `p_isPV`. -/
structure Bus where
  g : ℝ
  b : ℝ
  p0 : ℝ
  q0 : ℝ
  ref : Bool
  iso : Bool
  pv : Bool

/-- Fields of `PFBranch`: end buses, `p_ybusr_frwd`, `p_ybusi_frwd`, `p_ybusr_rvrs`, `p_ybusi_rvrs`,
`p_active`. -/
structure Branch where
  bus1 : Nat
  bus2 : Nat
  gf : ℝ
  bf : ℝ
  gr : ℝ
  br : ℝ
  active : Bool

structure Net where
  bus : Nat → Bus
  branches : List Branch

/-- Voltage magnitudes and angles. -/
structure State where
  v : Nat → ℝ
  θ : Nat → ℝ

/-- `p_theta` as set in `getPQ` (2213). -/
def Branch.theta (e : Branch) (s : State) : ℝ := s.θ e.bus1 - s.θ e.bus2

/-- `PFBranch::getPQ` (2203-2230) called by bus `i`; the call by a bus that is not an end (2224-2227) leaves
the outputs alone and is modelled as zero, it does not occur for neighbour branches. -/
noncomputable def Branch.getPQ (e : Branch) (s : State) (i : Nat) : ℝ × ℝ :=
  let v1 := s.v e.bus1
  let v2 := s.v e.bus2
  if i = e.bus1 then
    let cs := Real.cos (e.theta s)
    let sn := Real.sin (e.theta s)
    (v1 * v2 * (e.gf * cs + e.bf * sn), v1 * v2 * (e.gf * sn - e.bf * cs))
  else if i = e.bus2 then
    let cs := Real.cos (-e.theta s)
    let sn := Real.sin (-e.theta s)
    (v1 * v2 * (e.gr * cs + e.br * sn), v1 * v2 * (e.gr * sn - e.br * cs))
  else (0, 0)

/-- `getNeighborBranches`. -/
def Net.neighbors (n : Net) (i : Nat) : List Branch :=
  n.branches.filter (fun e => e.bus1 = i ∨ e.bus2 = i)

/-- `p_Pinj` as set in `rhsValues` (1539-1551). -/
noncomputable def Net.pinj (n : Net) (s : State) (i : Nat) : ℝ :=
  ((n.neighbors i).map (fun e => (e.getPQ s i).1)).sum + s.v i * s.v i * (n.bus i).g

/-- `p_Qinj` as set in `rhsValues` (1540-1552). -/
noncomputable def Net.qinj (n : Net) (s : State) (i : Nat) : ℝ :=
  ((n.neighbors i).map (fun e => (e.getPQ s i).2)).sum + s.v i * s.v i * (-(n.bus i).b)

/-- `PFBus::vectorSize` in modes RHS and State (150-169); `none` = returns false. -/
def Net.vectorSize (n : Net) (i : Nat) : Option Nat :=
  if !(n.bus i).iso then
    if (n.bus i).ref then none else if (n.bus i).pv then some 1 else some 2
  else none

/-- `PFBus::rhsValues` (1529-1602), the values written. -/
noncomputable def Net.rhsValues (n : Net) (s : State) (i : Nat) : List ℝ :=
  if !(n.bus i).iso then
    if !(n.bus i).ref then
      let p := n.pinj s i - (n.bus i).p0
      let q := n.qinj s i - (n.bus i).q0
      if !(n.bus i).pv then [p, q] else [p]
    else []
  else []

/-- `PFBus::matrixDiagSize` in mode Jacobian (78-101). -/
def Net.diagSize (n : Net) (i : Nat) : Option (Nat × Nat) :=
  if !(n.bus i).iso then
    if (n.bus i).ref then none else if (n.bus i).pv then some (1, 1) else some (2, 2)
  else none

/-- `PFBus::diagonalJacobianValues` (1471-1512). -/
noncomputable def Net.diagValues (n : Net) (s : State) (i : Nat) : List ℝ :=
  let v := s.v i
  let c := n.bus i
  if !c.iso then
    if !c.ref && !c.pv then
      [-n.qinj s i - c.b * v * v, n.pinj s i - c.g * v * v,
       n.pinj s i / v + c.g * v, n.qinj s i / v - c.b * v]
    else if !c.ref && c.pv then [-n.qinj s i - c.b * v * v]
    else []
  else []

/-- The test of the branch functions (1888-1892, 2535-2539, 2610-2614). -/
def Net.branchOk (n : Net) (e : Branch) : Bool :=
  !(n.bus e.bus1).ref && !(n.bus e.bus2).ref && !(n.bus e.bus1).iso && !(n.bus e.bus2).iso && e.active

/-- `PFBranch::matrixForwardSize` in mode Jacobian (1881-1921). -/
def Net.forwardSize (n : Net) (e : Branch) : Option (Nat × Nat) :=
  if n.branchOk e then
    let pv1 := (n.bus e.bus1).pv
    let pv2 := (n.bus e.bus2).pv
    if pv1 && pv2 then some (1, 1) else if pv1 then some (1, 2) else if pv2 then some (2, 1)
    else some (2, 2)
  else none

/-- `PFBranch::matrixReverseSize` in mode Jacobian (1927-1967). -/
def Net.reverseSize (n : Net) (e : Branch) : Option (Nat × Nat) :=
  if n.branchOk e then
    let pv1 := (n.bus e.bus1).pv
    let pv2 := (n.bus e.bus2).pv
    if pv1 && pv2 then some (1, 1) else if pv1 then some (2, 1) else if pv2 then some (1, 2)
    else some (2, 2)
  else none

/-- `PFBranch::forwardJacobianValues` (2529-2602). -/
noncomputable def Net.forwardValues (n : Net) (s : State) (e : Branch) : List ℝ :=
  if n.branchOk e then
    let cs := Real.cos (e.theta s)
    let sn := Real.sin (e.theta s)
    let v1 := s.v e.bus1
    let v2 := s.v e.bus2
    let pv1 := (n.bus e.bus1).pv
    let pv2 := (n.bus e.bus2).pv
    if pv1 && pv2 then [(e.gf * sn - e.bf * cs) * (v1 * v2)]
    else if pv1 then [(e.gf * sn - e.bf * cs) * (v1 * v2), (e.gf * cs + e.bf * sn) * v1]
    else if pv2 then [(e.gf * sn - e.bf * cs) * (v1 * v2), (e.gf * cs + e.bf * sn) * -(v1 * v2)]
    else [(e.gf * sn - e.bf * cs) * (v1 * v2), (e.gf * cs + e.bf * sn) * -(v1 * v2),
          (e.gf * cs + e.bf * sn) * v1, (e.gf * sn - e.bf * cs) * v1]
  else []

/-- `PFBranch::reverseJacobianValues` (2604-2677). -/
noncomputable def Net.reverseValues (n : Net) (s : State) (e : Branch) : List ℝ :=
  if n.branchOk e then
    let cs := Real.cos (-e.theta s)
    let sn := Real.sin (-e.theta s)
    let v1 := s.v e.bus1
    let v2 := s.v e.bus2
    let pv1 := (n.bus e.bus1).pv
    let pv2 := (n.bus e.bus2).pv
    if pv1 && pv2 then [(e.gr * sn - e.br * cs) * (v1 * v2)]
    else if pv1 then [(e.gr * sn - e.br * cs) * (v1 * v2), (e.gr * cs + e.br * sn) * -(v1 * v2)]
    else if pv2 then [(e.gr * sn - e.br * cs) * (v1 * v2), (e.gr * cs + e.br * sn) * v2]
    else [(e.gr * sn - e.br * cs) * (v1 * v2), (e.gr * cs + e.br * sn) * -(v1 * v2),
          (e.gr * cs + e.br * sn) * v2, (e.gr * sn - e.br * cs) * v2]
  else []

/-- Element (`r`, `c`) of a block: the mapper runs through the values column by column
(src/mapper/full_map.hpp 1133-1147 and the other loops of that form, see `FullMatrixMap`). -/
def entry (size : Option (Nat × Nat)) (values : List ℝ) (r c : Nat) : ℝ :=
  match size with
  | none => 0
  | some (isize, jsize) => if r < isize ∧ c < jsize then (values[c * isize + r]?).getD 0 else 0

/-- Effect of one branch on the matrix element (`r` of bus `i`, `c` of bus `j`) whose present value is `x`:
`matrix.setElement` for the forward or reverse block (full_map.hpp 1125-1180 with `flag` false, as in every
call from `mapToMatrix`, lines 127-131, 243-247). -/
noncomputable def Net.putBranch (n : Net) (s : State) (i r j c : Nat) (x : ℝ) (e : Branch) : ℝ :=
  if n.branchOk e then
    if e.bus1 = i ∧ e.bus2 = j then entry (n.forwardSize e) (n.forwardValues s e) r c
    else if e.bus1 = j ∧ e.bus2 = i then entry (n.reverseSize e) (n.reverseValues s e) r c
    else x
  else x

/-- The assembled Jacobian: row `r` of bus `i`, column `c` of bus `j`. -/
noncomputable def Net.jacobian (n : Net) (s : State) (i r j c : Nat) : ℝ :=
  if i = j then entry (n.diagSize i) (n.diagValues s i) r c
  else n.branches.foldl (n.putBranch s i r j c) 0

/-- `PFBus::setValues` (363-383), the new voltage; `vals` is the memory from the pointer on. -/
noncomputable def Net.setValues (n : Net) (s : State) (i : Nat) (vals : Nat → ℝ) : State :=
  { v := if !(n.bus i).pv then Function.update s.v i (s.v i - vals 1) else s.v,
    θ := Function.update s.θ i (s.θ i - vals 0) }

/-- `BusVectorMap::mapToBus` (src/mapper/bus_vector_map.hpp 245-265): the contributing buses with the sizes
`p_ISize` found when the mapper was built; the pointer is advanced by the size after each bus. -/
noncomputable def Net.mapToBus (n : Net) : State → List (Nat × Nat) → (Nat → ℝ) → State
  | s, [], _ => s
  | s, (i, k) :: l, vals => n.mapToBus (n.setValues s i vals) l (fun m => vals (m + k))

end GridPACK.PowerFlow
