import Mathlib.Analysis.SpecialFunctions.Trigonometric.Basic

/-! Model of the admittance-matrix components
(src/applications/components/y_matrix/ymatrix_components.cpp).

Complex arithmetic is exact.  Division by zero has no meaning in the code; theorems assume nonzero
impedances and ratios where it matters.  Loops that accumulate a sum are written as sums over the list of
transmission elements. -/
namespace GridPACK.YMatrix

open Complex

/-- One transmission element of a branch: entry `i` of the vectors of `YMBranch`. -/
structure Elem where
  r : ℝ
  x : ℝ
  tap : ℝ
  phase : ℝ
  charging : ℝ
  g1 : ℝ
  b1 : ℝ
  g2 : ℝ
  b2 : ℝ
  xform : Bool
  shunt : Bool
  status : Bool
  switched : Bool
  tag : List Char

noncomputable def Elem.z (e : Elem) : ℂ := ⟨e.r, e.x⟩

/-- `a(cos(p_phase_shift), sin(p_phase_shift))`, times the tap ratio (568-569). -/
noncomputable def Elem.ratio (e : Elem) : ℂ := (e.tap : ℂ) * ⟨Real.cos e.phase, Real.sin e.phase⟩

/-- `a` in `setYBus` (387-389). -/
noncomputable def Elem.a (e : Elem) : ℂ :=
  let a : ℂ := if e.xform then e.ratio else ⟨Real.cos e.phase, Real.sin e.phase⟩
  if e.switched then (starRingEnd ℂ) a else a

/-- Contribution of one element to `p_ybus_frwd` (385-401). -/
noncomputable def Elem.frwd (e : Elem) : ℂ :=
  if e.status then (if e.xform then (-1 / e.z) / (starRingEnd ℂ) e.a else -1 / e.z) else 0

/-- Contribution of one element to `p_ybus_rvrs` (385-401). -/
noncomputable def Elem.rvrs (e : Elem) : ℂ :=
  if e.status then (if e.xform then (-1 / e.z) / e.a else -1 / e.z) else 0

/-- `YMBranch::setYBus` (367-421). -/
noncomputable def setYBus (es : List Elem) : ℂ × ℂ := ((es.map Elem.frwd).sum, (es.map Elem.rvrs).sum)

/-- Loop body of `getAdmittance` (540-546). -/
noncomputable def Elem.admittance (e : Elem) : ℂ := if !e.xform && e.status then -1 / e.z else 0

/-- `getAdmittance` (535-549). -/
noncomputable def getAdmittance (es : List Elem) : ℂ := (es.map Elem.admittance).sum

/-- Which end of the branch the calling bus is. -/
inductive Side
  | bus1
  | bus2
deriving DecidableEq

/-- Loop body of `getTransformer` (563-579). -/
noncomputable def Elem.transformer (e : Elem) (s : Side) : ℂ :=
  if e.xform && e.status then
    let tmp := -1 / e.z - ⟨0, e.charging / 2⟩
    if (!e.switched && s = .bus1) || (e.switched && s = .bus2) then
      tmp / ((starRingEnd ℂ) e.ratio * e.ratio)
    else tmp
  else 0

/-- `getTransformer` (557-582). -/
noncomputable def getTransformer (es : List Elem) (s : Side) : ℂ := (es.map (fun e => e.transformer s)).sum

/-- Loop body of `getShunt` (597-620). -/
noncomputable def Elem.shuntOf (e : Elem) (s : Side) : ℂ :=
  if e.shunt && e.status then
    (if e.xform then 0 else ⟨0, e.charging / 2⟩) +
      (match s with
       | .bus1 => ⟨e.g1, e.b1⟩
       | .bus2 => ⟨e.g2, e.b2⟩)
  else 0

/-- `getShunt` (589-623). -/
noncomputable def getShunt (es : List Elem) (s : Side) : ℂ := (es.map (fun e => e.shuntOf s)).sum

/-- `getLineElements` (631-673) once the element with the tag is found: (Yii, Yij).  The guards against a
zero impedance or ratio are as in the code. -/
noncomputable def Elem.line (e : Elem) : ℂ × ℂ :=
  let yij : ℂ := if e.z ≠ 0 then -1 / e.z else e.z
  let bij : ℂ := ⟨0, e.charging⟩
  if e.xform then
    if e.ratio ≠ 0 then
      if !e.switched then
        (-(yij - 1 / 2 * bij) / (e.ratio * (starRingEnd ℂ) e.ratio), yij / (starRingEnd ℂ) e.ratio)
      else (-(yij - 1 / 2 * bij), yij / e.ratio)
    else (0, 0)
  else (-(yij - 1 / 2 * bij), yij)

/-- `getRvrsLineElements` (681-723). -/
noncomputable def Elem.lineRvrs (e : Elem) : ℂ × ℂ :=
  let yij : ℂ := if e.z ≠ 0 then -1 / e.z else e.z
  let bij : ℂ := ⟨0, e.charging⟩
  if e.xform then
    if e.ratio ≠ 0 then
      if e.switched then
        (-(yij - 1 / 2 * bij) / (e.ratio * (starRingEnd ℂ) e.ratio), yij / (starRingEnd ℂ) e.ratio)
      else (-(yij - 1 / 2 * bij), yij / e.ratio)
    else (0, 0)
  else (-(yij - 1 / 2 * bij), yij)

/-- `getLineElements(tag)` / `getRvrsLineElements(tag)`: first element with the tag (641-646). -/
noncomputable def getLineElements (es : List Elem) (tag : List Char) : ℂ × ℂ :=
  match es.find? (fun e => e.tag = tag) with
  | some e => e.line
  | none => (0, 0)

noncomputable def getRvrsLineElements (es : List Elem) (tag : List Char) : ℂ × ℂ :=
  match es.find? (fun e => e.tag = tag) with
  | some e => e.lineRvrs
  | none => (0, 0)

/-- A branch: its end buses, its elements and `p_active`. -/
structure Branch where
  bus1 : Nat
  bus2 : Nat
  elems : List Elem
  active : Bool

/-- A bus: its own shunt (`p_shunt`, `p_shunt_gs`, `p_shunt_bs`) and `p_isolated`. -/
structure Bus where
  shunt : Bool
  gs : ℝ
  bs : ℝ
  isolated : Bool

/-- A network: buses by number, and the branches. -/
structure Net where
  bus : Nat → Bus
  branches : List Branch

/-- The end of the branch at bus `i`: comparison with `getBus1().get()` (570, 606). -/
def Branch.side (b : Branch) (i : Nat) : Side := if i = b.bus1 then .bus1 else .bus2

/-- One branch's part of `YMBus::setYBus` (100-106) for bus `i`. -/
noncomputable def Branch.diagOf (b : Branch) (i : Nat) : ℂ :=
  -getAdmittance b.elems - getTransformer b.elems (b.side i) + getShunt b.elems (b.side i)

/-- `YMBus::setYBus` (92-113): sum over the neighbouring branches, plus the shunt of the bus. -/
noncomputable def diag (n : Net) (i : Nat) : ℂ :=
  ((n.branches.filter (fun b => b.bus1 = i ∨ b.bus2 = i)).map (fun b => b.diagOf i)).sum +
    (if (n.bus i).shunt then ⟨(n.bus i).gs, (n.bus i).bs⟩ else 0)

/-- `matrixForwardSize`/`matrixForwardValues` (275-341): is there a contribution? -/
def Branch.contributes (n : Net) (b : Branch) : Bool :=
  (b.active && (not (n.bus b.bus1).isolated && not (n.bus b.bus2).isolated))

/-- Off-diagonal entry that branch `b` puts into row `i` (320-364). -/
noncomputable def Branch.offDiag (n : Net) (b : Branch) (i : Nat) : ℂ :=
  if b.contributes n then (if i = b.bus1 then (setYBus b.elems).1 else (setYBus b.elems).2) else 0

/-- `setLineStatus` (767-780): first element with the tag. -/
def setLineStatus (tag : List Char) (status : Bool) : List Elem → List Elem × Bool
  | [] => ([], false)
  | e :: es =>
    if e.tag = tag then ({ e with status := status } :: es, true)
    else
      let r := setLineStatus tag status es
      (e :: r.1, r.2)

/-- Status part of `YMBranch::load` (475, 499-502): status flags and `p_active`. -/
def loadStatus (ivars : List Int) : List Bool × Bool :=
  (ivars.map (fun i => decide (i ≠ 0)), ivars.any (fun i => decide (i = 1)))

end GridPACK.YMatrix
