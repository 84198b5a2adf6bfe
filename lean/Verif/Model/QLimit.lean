import Verif.Model.GhostUpdate
import Mathlib.Data.Real.Basic

/-! Model of the reactive-limit handling of `PFBus`
(src/applications/components/pf_matrix/pf_components.cpp) and of the factory functions that call it
(src/applications/modules/powerflow/pf_factory_module.cpp).

Doubles are real numbers.  Printed warnings are left out.  `p_gstatus` is kept apart from the other generator
arrays because `clearQlim` changes its length. -/
namespace GridPACK.QLimit

/-- Entries of `p_pg`, `p_qg`, `p_qmax`, `p_qmin`. -/
structure Gen where
  pg : ℝ
  qg : ℝ
  qmax : ℝ
  qmin : ℝ

/-- Entries of `p_lstatus`, `p_pl`, `p_ql`. -/
structure Load where
  status : Int
  pl : ℝ
  ql : ℝ

structure Bus where
  /-- `p_isPV` -/
  isPV : Bool
  /-- `p_save2isPV`; `none` = never written (the constructor, lines 39-64, does not) -/
  save2 : Option Bool
  /-- `*p_PV_ptr`; `none` = the pointer is NULL -/
  pvPtr : Option Bool
  /-- `p_gstatus` -/
  gstatus : List Int
  /-- `p_gstatus_save` -/
  gstatusSave : List Int
  gens : List Gen
  loads : List Load
  /-- `p_Pinj`, `p_Qinj` of the last mismatch evaluation -/
  pinj : ℝ
  qinj : ℝ
  sbase : ℝ
  area : Int

/-- Sum of `f` over the generators whose entry in `p_gstatus` is 1 (loops 240-246, 791-797).  An entry of
`p_gstatus` beyond the arrays would read past their end in the code; here it counts nothing. -/
noncomputable def genSum (f : Gen → ℝ) (gstatus : List Int) (gens : List Gen) : ℝ :=
  ((gstatus.zip gens).map (fun e => if e.1 = 1 then f e.2 else 0)).sum

/-- Sum of `f` over the loads with status 1 (254-259, 798-803). -/
noncomputable def loadSum (f : Load → ℝ) (loads : List Load) : ℝ :=
  (loads.map (fun l => if l.status = 1 then f l else 0)).sum

/-- `PFBus::setSBus` (782-813): `p_P0`, `p_Q0`. -/
noncomputable def setSBus (b : Bus) : ℝ × ℝ :=
  let pg := genSum Gen.pg b.gstatus b.gens
  let qg := genSum Gen.qg b.gstatus b.gens
  let pl := loadSum Load.pl b.loads
  let ql := loadSum Load.ql b.loads
  let usegen := (b.gstatus.zip b.gens).any (fun e => e.1 = 1)
  if b.gstatus.length > 0 ∧ usegen then ((pg - pl) / b.sbase, (qg - ql) / b.sbase)
  else ((-pl) / b.sbase, (-ql) / b.sbase)

/-- `qval` (262). -/
noncomputable def qval (b : Bus) : ℝ := b.qinj * b.sbase + loadSum Load.ql b.loads

/-- Effect of the two conversion branches (268-285 and 289-306) on the bus: `q` is the limit of a generator,
`lim` the summed limit. -/
noncomputable def convert (b : Bus) (q : Gen → ℝ) (lim : ℝ) : Bus :=
  let pl := loadSum Load.pl b.loads - genSum Gen.pg b.gstatus b.gens
  let ql := loadSum Load.ql b.loads - lim
  { b with
    isPV := false
    save2 := some b.isPV
    pvPtr := b.pvPtr.map (fun _ => false)
    gstatus := b.gstatus.map (fun _ => 0)
    gstatusSave := b.gstatusSave ++ b.gstatus
    gens := b.gens.map (fun g => { g with qg := q g })
    loads := b.loads.map (fun l => if l.status = 1 then { l with pl := pl, ql := ql } else l) }

open Classical in
/-- `PFBus::chkQlim` (233-318): the new state and the result; `none` = the NULL pointer is written through
(line 271, only on the `QMAX` side). -/
noncomputable def chkQlim (b : Bus) : Option (Bus × Bool) :=
  if b.isPV then
    let qmax := genSum Gen.qmax b.gstatus b.gens
    let qmin := genSum Gen.qmin b.gstatus b.gens
    if qval b > qmax then
      if b.pvPtr.isNone then none else some (convert b Gen.qmax qmax, true)
    else if qval b < qmin then some (convert b Gen.qmin qmin, true)
    else some ({ b with save2 := some b.isPV, pvPtr := b.pvPtr.map (fun _ => b.isPV) }, false)
  else some ({ b with pvPtr := b.pvPtr.map (fun _ => b.isPV) }, false)

/-- `PFBus::clearQlim` (324-334); `none` = `p_isPV` gets an indeterminate value. -/
def clearQlim (b : Bus) : Option Bus :=
  b.save2.map (fun pv => { b with
    gstatus := b.gstatusSave
    isPV := pv
    pvPtr := b.pvPtr.map (fun _ => pv) })

/-- Local part of `PFFactoryModule::checkQlimViolations()` (600-612) over the results of `chkQlim` of the
active buses of a process. -/
def busOk (rs : List Bool) : Bool := rs.foldl (fun ok r => if r then false else ok) true

/-- Local part of `checkQlimViolations(int area)` (630-644): results with the area of the bus. -/
def busOkArea (area : Int) (rs : List (Int × Bool)) : Bool :=
  rs.foldl (fun ok r => if r.1 = area then (if !r.2 then false else ok) else ok) true

/-- Results of `chkQlim` on the active buses of a process (608-610); `none` = crash. -/
noncomputable def results (bs : List Bus) : Option (List Bool) := bs.mapM (fun b => (chkQlim b).map (·.2))

/-- Value returned by `checkQlimViolations()` (600-623) on `n` processes with the given results. -/
def checkQlimViolations (n : Nat) (rs : Nat → List Bool) : Bool :=
  GhostUpdate.checkTrue n (fun p => busOk (rs p))

/-- Value returned by `checkQlimViolations(int area)` (630-655). -/
def checkQlimViolationsArea (area : Int) (n : Nat) (rs : Nat → List (Int × Bool)) : Bool :=
  GhostUpdate.checkTrue n (fun p => busOkArea area (rs p))

end GridPACK.QLimit
