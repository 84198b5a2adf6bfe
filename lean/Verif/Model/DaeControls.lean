import Verif.Model.DaeMachines

/-! Model of the exciters EXDC1, ESST1A and the governor WSIEG1 of the DAE form of the dynamic simulation
(src/applications/modules/dynamic_simulation_dae/model_classes/{exdc1,esst1a,wsieg1}.cpp): equations, derivatives,
initial values, and the limiter flags with their events.

Conventions as in `Verif/Model/DaeMachines.lean`.  `iseq_diff[k]` is computed from the time constants where the code
reads the stored flag (both are set in `load` and not changed afterwards).  ESST1A is left by `exit(1)` if `|Klr| > 1e-6`;
the model has no `Klr`: it is 0.  `fmin`, `fmax` are `min`, `max` on real numbers.  The event functions copy the
state handed over by the integrator to the members of the device before use; the model takes that state as argument. -/
namespace GridPACK.Dae

/-! ### EXDC1 -/

/-- Members of `Exdc1Exc`: parameters, saturation curve, reference, limiter flags. -/
structure Exdc1 where
  TR : ℝ
  KA : ℝ
  TA : ℝ
  TB : ℝ
  TC : ℝ
  VRmax : ℝ
  VRmin : ℝ
  KE : ℝ
  TE : ℝ
  KF : ℝ
  TF : ℝ
  satA : ℝ
  satB : ℝ
  Efdthresh : ℝ
  Vref : ℝ
  VRatmin : Bool
  VRatmax : Bool

/-- `Exdc1Exc::load`, saturation curve from the two points of the record (exdc1.cpp 88-94); 999 and 0 are the values of the
constructor (lines 43-44). -/
noncomputable def Exdc1.saturation (e : Exdc1) (E1 SE1 E2 SE2 : ℝ) : Exdc1 :=
  open Classical in
  if SE2 ≠ 0 ∧ E2 ≠ 0 then
    let alpha := √(SE1 * E1 / SE2 * E2)
    let satA := (alpha * E2 - E1) / (alpha - 1)
    { e with satA := satA, satB := SE1 * E1 / ((E1 - satA) * (E1 - satA)), Efdthresh := satA }
  else { e with satA := 0, satB := 0, Efdthresh := 999 }

namespace Exdc1
variable (e : Exdc1) (X : Ix → ℝ)

/-- `iseq_diff[0]` (exdc1.cpp 82). -/
noncomputable def diff0 : Bool := !decide (e.TR = 0)
/-- `iseq_diff[1]` (exdc1.cpp 83). -/
noncomputable def diff1 : Bool := !decide (e.TB = 0 ∨ e.TC = 0)
/-- `iseq_diff[2]` (exdc1.cpp 84). -/
noncomputable def diff2 : Bool := !decide (e.TA = 0)

/-- `Ec` (exdc1.cpp 103, 204, 294). -/
noncomputable def Ec : ℝ := √(X VD * X VD + X VQ * X VQ)
/-- `Vf` (exdc1.cpp 213, 245); variables 3 and 4 are `Efd`, `xf`. -/
noncomputable def Vf : ℝ := X (.exc 4) + e.KF / e.TF * X (.exc 3)
/-- Output of the lead-lag block (exdc1.cpp 218, 221, 248, 251); variables 0 and 1 are `Vmeas`, `xLL`. -/
noncomputable def yLL : ℝ :=
  if e.diff1 then X (.exc 1) + e.TC / e.TB * (e.Vref - X (.exc 0) - e.Vf X) else X (.exc 1)
/-- `SE` (exdc1.cpp 112, 264). -/
noncomputable def SE (Efd : ℝ) : ℝ :=
  if Efd > e.Efdthresh then e.satB * (Efd - e.satA) * (Efd - e.satA) / Efd else 0

/-- `Exdc1Exc::vectorValues` (exdc1.cpp 196-272). -/
noncomputable def resid (m : Mode) (Xd P : Ix → ℝ) (k : ℕ) : ℝ :=
  match m, k with
  | .fault, 0 => if e.diff0 then X (.exc 0) - P (.exc 0) else -X (.exc 0) + Ec X
  | .fault, 1 => if e.diff1 then X (.exc 1) - P (.exc 1) else -X (.exc 1) + e.Vref - X (.exc 0) - e.Vf X
  | .fault, 2 =>
    if e.VRatmin then X (.exc 2) - e.VRmin
    else if e.VRatmax then X (.exc 2) - e.VRmax
    else if e.diff2 then X (.exc 2) - P (.exc 2) else -X (.exc 2) + e.KA * e.yLL X
  | .fault, k => X (.exc k) - P (.exc k)
  | .resid, 0 => if e.diff0 then (-X (.exc 0) + Ec X) / e.TR - Xd (.exc 0) else -X (.exc 0) + Ec X
  | .resid, 1 =>
    if e.diff1 then (-X (.exc 1) + (1 - e.TC / e.TB) * (e.Vref - X (.exc 0) - e.Vf X)) / e.TB - Xd (.exc 1)
    else -X (.exc 1) + e.Vref - X (.exc 0) - e.Vf X
  | .resid, 2 =>
    if e.VRatmin then X (.exc 2) - e.VRmin
    else if e.VRatmax then X (.exc 2) - e.VRmax
    else if e.diff2 then (-X (.exc 2) + e.KA * e.yLL X) / e.TA - Xd (.exc 2) else -X (.exc 2) + e.KA * e.yLL X
  | .resid, 3 => (X (.exc 2) - (e.SE (X (.exc 3)) + e.KE) * X (.exc 3)) / e.TE - Xd (.exc 3)
  | .resid, _ => (-X (.exc 4) - e.KF / e.TF * X (.exc 3)) / e.TF - Xd (.exc 4)

/-- `dyLL_dVmeas`, `dyLL_dxf` (exdc1.cpp 316-317, 367-368; 0 in the other case). `dVf_dxf` is 1. -/
noncomputable def dyLL : ℝ := if e.diff1 then -e.TC / e.TB else 0

/-- `Exdc1Exc::setJacobian` (exdc1.cpp 278-408).  `dyLL_dxLL` is 1 and `dyLL_dVR`, `dyLL_dEfd` are 0 throughout. -/
noncomputable def jac (m : Mode) (shift : ℝ) : List (Wr Ix) :=
  match m with
  | .fault =>
    (if e.diff0 then [set (.exc 0) (.exc 0) 1]
     else [set (.exc 0) (.exc 0) (-1), set VD (.exc 0) (X VD / Ec X), set VQ (.exc 0) (X VQ / Ec X)])
    ++ (if e.diff1 then [set (.exc 1) (.exc 1) 1]
        else [set (.exc 0) (.exc 1) (-1), set (.exc 1) (.exc 1) (-1), set (.exc 4) (.exc 1) (-1)])
    ++ (if e.VRatmin || e.VRatmax then [set (.exc 2) (.exc 2) 1]
        else if e.diff2 then [set (.exc 2) (.exc 2) 1]
        else [set (.exc 0) (.exc 2) (e.KA * e.dyLL), set (.exc 1) (.exc 2) (e.KA * 1),
              set (.exc 2) (.exc 2) (-1 + e.KA * 0), set (.exc 3) (.exc 2) (e.KA * 0),
              set (.exc 4) (.exc 2) (e.KA * e.dyLL)])
    ++ [set (.exc 3) (.exc 3) 1, set (.exc 4) (.exc 4) 1]
  | .resid =>
    (if e.diff0 then
       [set (.exc 0) (.exc 0) (-1 / e.TR - shift), set VD (.exc 0) (X VD / Ec X / e.TR),
        set VQ (.exc 0) (X VQ / Ec X / e.TR)]
     else [set (.exc 0) (.exc 0) (-1), set VD (.exc 0) (X VD / Ec X), set VQ (.exc 0) (X VQ / Ec X)])
    ++ (if e.diff1 then
          [set (.exc 0) (.exc 1) ((1 - e.TC / e.TB) * -1 / e.TB), set (.exc 1) (.exc 1) (-1 / e.TB - shift),
           set (.exc 3) (.exc 1) ((1 - e.TC / e.TB) * -e.KF / e.TF / e.TB),
           set (.exc 4) (.exc 1) ((1 - e.TC / e.TB) / e.TB)]
        else [set (.exc 0) (.exc 1) (-1), set (.exc 1) (.exc 1) (-1), set (.exc 4) (.exc 1) (-1)])
    ++ (if e.VRatmin || e.VRatmax then [set (.exc 2) (.exc 2) 1]
        else if e.diff2 then
          [set (.exc 0) (.exc 2) (e.KA * e.dyLL / e.TA), set (.exc 1) (.exc 2) (e.KA * 1 / e.TA),
           set (.exc 2) (.exc 2) ((-1 + e.KA * 0) / e.TA - shift), set (.exc 3) (.exc 2) (e.KA * 0 / e.TA),
           set (.exc 4) (.exc 2) (e.KA * e.dyLL / e.TA)]
        else [set (.exc 0) (.exc 2) (e.KA * e.dyLL), set (.exc 1) (.exc 2) (e.KA * 1),
              set (.exc 2) (.exc 2) (-1 + e.KA * 0), set (.exc 3) (.exc 2) (e.KA * 0),
              set (.exc 4) (.exc 2) (e.KA * e.dyLL)])
    ++ [set (.exc 2) (.exc 3) (1 / e.TE),
        set (.exc 3) (.exc 3)
          (-((if X (.exc 3) > e.Efdthresh then 2 * e.satB * (X (.exc 3) - e.satA) else 0) + e.KE) / e.TE - shift),
        set (.exc 3) (.exc 4) (-e.KF / (e.TF * e.TF)), set (.exc 4) (.exc 4) (-1 / e.TF - shift)]

/-- `getFieldVoltage` (exdc1.cpp 423-426). -/
def efd : ℝ := X (.exc 3)

/-- `getFieldVoltagePartialDerivatives` (exdc1.cpp 428-441). -/
def dEfd : List (Ix × ℝ) := [(.exc 0, 0), (.exc 1, 0), (.exc 2, 0), (.exc 3, 1), (.exc 4, 0)]

/-- `Exdc1Exc::init` (exdc1.cpp 101-128) with the field voltage set by the machine: reference and initial values. -/
noncomputable def init (Efd vD vQ : ℝ) : Exdc1 × (ℕ → ℝ) :=
  let Vmeas := √(vD * vD + vQ * vQ)
  let xf := -e.KF / e.TF * Efd
  let VR := (e.SE Efd + e.KE) * Efd
  let yLL := VR / e.KA
  let Vf := xf + e.KF / e.TF * Efd
  let Vref := yLL + Vmeas + Vf
  let xLL := if e.diff1 then (1 - e.TC / e.TB) * (Vref - Vmeas - Vf) else Vref - Vmeas - Vf
  ({ e with Vref := Vref },
   fun k => match k with
    | 0 => Vmeas
    | 1 => xLL
    | 2 => VR
    | 3 => Efd
    | _ => xf)

/-- `dVR_dt` (exdc1.cpp 469, 502, 543). -/
noncomputable def dVR : ℝ := (-X (.exc 2) + e.KA * e.yLL X) / e.TA

/-- `Exdc1Exc::eventFunction`: the two values watched for a change of sign (exdc1.cpp 446-485). -/
noncomputable def events : ℝ × ℝ :=
  (if !e.VRatmin then X (.exc 2) - e.VRmin else -e.dVR X,
   if !e.VRatmax then e.VRmax - X (.exc 2) else e.dVR X)

/-- `Exdc1Exc::eventHandlerFunction` (exdc1.cpp 520-564). -/
noncomputable def handle (t0 t1 : Bool) : Exdc1 :=
  let e' := if t0 then { e with VRatmin := !e.VRatmin && decide (e.dVR X < 0) } else e
  if t1 then { e' with VRatmax := !e'.VRatmax && decide (e.dVR X > 0) } else e'

/-- `Exdc1Exc::resetEventFlags` (exdc1.cpp 490-515). -/
noncomputable def reset : Exdc1 :=
  { e with
    VRatmin := if !e.VRatmin then decide (X (.exc 2) - e.VRmin < 0) else !decide (e.dVR X > 0),
    VRatmax := if !e.VRatmax then decide (e.VRmax - X (.exc 2) < 0) else !decide (e.dVR X < 0) }

end Exdc1

/-! ### ESST1A -/

/-- Members of `Esst1aExc`: parameters, reference, limiter flags. -/
structure Esst1a where
  Tr : ℝ
  Vimax : ℝ
  Vimin : ℝ
  Tc : ℝ
  Tb : ℝ
  Tc1 : ℝ
  Tb1 : ℝ
  Ka : ℝ
  Ta : ℝ
  Vamax : ℝ
  Vamin : ℝ
  Vrmax : ℝ
  Vrmin : ℝ
  Kc : ℝ
  Kf : ℝ
  Tf : ℝ
  Vref : ℝ
  Viatmin : Bool
  Viatmax : Bool
  Vaatmin : Bool
  Vaatmax : Bool

namespace Esst1a
variable (e : Esst1a) (X : Ix → ℝ)

/-- `iseq_diff[0]` (esst1a.cpp 105). -/
noncomputable def diff0 : Bool := !decide (e.Tr = 0)
/-- `iseq_diff[1]` (esst1a.cpp 106). -/
noncomputable def diff1 : Bool := !decide (e.Tb = 0 ∨ e.Tc = 0)
/-- `iseq_diff[2]` (esst1a.cpp 107). -/
noncomputable def diff2 : Bool := !decide (e.Tb1 = 0 ∨ e.Tc1 = 0)
/-- `iseq_diff[3]` (esst1a.cpp 108). -/
noncomputable def diff3 : Bool := !decide (e.Ta = 0)

/-- `Ec` (esst1a.cpp 225, 349, 557). -/
noncomputable def Ec : ℝ := √(X VD * X VD + X VQ * X VQ)
/-- `Vf` with `Efd = Va` (esst1a.cpp 230, 238, 283); variables 3 and 4 are `Va`, `xf`. -/
noncomputable def Vf : ℝ := X (.exc 4) + e.Kf / e.Tf * X (.exc 3)
/-- The input error before its limits (esst1a.cpp 239, 284). -/
noncomputable def ViFree : ℝ := e.Vref - X (.exc 0) - e.Vf X
/-- The input error (esst1a.cpp 239-244, 284-289). -/
noncomputable def Vi : ℝ := if e.Viatmax then e.Vimax else if e.Viatmin then e.Vimin else e.ViFree X
/-- Output of the first lead-lag block for the input `v` (esst1a.cpp 248, 251, 293, 296). -/
noncomputable def yLL1 (v : ℝ) : ℝ := if e.diff1 then X (.exc 1) + e.Tc / e.Tb * v else X (.exc 1)
/-- Output of the second lead-lag block for the input `v` (esst1a.cpp 257, 260, 302, 305). -/
noncomputable def yLL2 (v : ℝ) : ℝ := if e.diff2 then X (.exc 2) + e.Tc1 / e.Tb1 * v else X (.exc 2)

/-- `Esst1aExc::vectorValues` (esst1a.cpp 217-323). -/
noncomputable def resid (m : Mode) (Xd P : Ix → ℝ) (k : ℕ) : ℝ :=
  match m, k with
  | .fault, 0 => if e.diff0 then X (.exc 0) - P (.exc 0) else -X (.exc 0) + Ec X
  | .fault, 1 => if e.diff1 then X (.exc 1) - P (.exc 1) else -X (.exc 1) + e.Vi X
  | .fault, 2 => if e.diff2 then X (.exc 2) - P (.exc 2) else -X (.exc 2) + e.yLL1 X (e.Vi X)
  | .fault, 3 =>
    if e.Vaatmin then X (.exc 3) - e.Vamin
    else if e.Vaatmax then X (.exc 3) - e.Vamax
    else if e.diff3 then X (.exc 3) - P (.exc 3) else -X (.exc 3) + e.Ka * e.yLL2 X (e.yLL1 X (e.Vi X))
  | .fault, k => X (.exc k) - P (.exc k)
  | .resid, 0 => if e.diff0 then (-X (.exc 0) + Ec X) / e.Tr - Xd (.exc 0) else -X (.exc 0) + Ec X
  | .resid, 1 =>
    if e.diff1 then (-X (.exc 1) + (1 - e.Tc / e.Tb) * e.Vi X) / e.Tb - Xd (.exc 1) else -X (.exc 1) + e.Vi X
  | .resid, 2 =>
    if e.diff2 then (-X (.exc 2) + (1 - e.Tc1 / e.Tb1) * e.yLL1 X (e.Vi X)) / e.Tb1 - Xd (.exc 2)
    else -X (.exc 2) + e.yLL1 X (e.Vi X)
  | .resid, 3 =>
    if e.Vaatmin then X (.exc 3) - e.Vamin
    else if e.Vaatmax then X (.exc 3) - e.Vamax
    else if e.diff3 then (-X (.exc 3) + e.Ka * e.yLL2 X (e.yLL1 X (e.Vi X))) / e.Ta - Xd (.exc 3)
    else -X (.exc 3) + e.Ka * e.yLL2 X (e.yLL1 X (e.Vi X))
  | .resid, _ => (-X (.exc 4) - e.Kf / e.Tf * X (.exc 3)) / e.Tf - Xd (.exc 4)

/-- The input error is not at a limit (esst1a.cpp 372, 379, 443, 450, 456). -/
def free : Bool := !e.Viatmin && !e.Viatmax
/-- `dyLL1_dVmeas`, `dyLL1_dxf` (esst1a.cpp 372-375, 450-453). -/
noncomputable def dyLL1 : ℝ := if e.diff1 && e.free then -e.Tc / e.Tb else 0
/-- `dyLL2_dVmeas`, `dyLL2_dxf` (esst1a.cpp 392, 396, 474, 478). -/
noncomputable def dyLL2 : ℝ := if e.diff2 then e.Tc1 / e.Tb1 * e.dyLL1 else 0
/-- `dyLL2_dxLL1` (esst1a.cpp 393, 475). -/
noncomputable def dyLL2_dxLL1 : ℝ := if e.diff2 then e.Tc1 / e.Tb1 * 1 else 0

/-- Assignments to the row of `Va` without `1/Ta` and shift (esst1a.cpp 414-418, 500-504). -/
noncomputable def vaRow : List (Wr Ix) :=
  [set (.exc 0) (.exc 3) (e.Ka * e.dyLL2), set (.exc 1) (.exc 3) (e.Ka * e.dyLL2_dxLL1),
   set (.exc 2) (.exc 3) (e.Ka * 1), set (.exc 3) (.exc 3) (-1 + e.Ka * 0), set (.exc 4) (.exc 3) (e.Ka * e.dyLL2)]

/-- Assignments to the row of `xLL2` if its block is algebraic (esst1a.cpp 398-402, 480-484). -/
noncomputable def xLL2Row : List (Wr Ix) :=
  [set (.exc 0) (.exc 2) e.dyLL1, set (.exc 1) (.exc 2) 1, set (.exc 2) (.exc 2) (-1 + 0),
   set (.exc 3) (.exc 2) 0, set (.exc 4) (.exc 2) e.dyLL1]

/-- `Esst1aExc::setJacobian` (esst1a.cpp 329-514).  `dyLL1_dxLL1` is 1 and `dyLL1_dxLL2`, `dyLL1_dVa`, `dyLL2_dVa` are 0
throughout. -/
noncomputable def jac (m : Mode) (shift : ℝ) : List (Wr Ix) :=
  match m with
  | .fault =>
    (if e.diff0 then [set (.exc 0) (.exc 0) 1]
     else [set (.exc 0) (.exc 0) (-1), set VD (.exc 0) (X VD / Ec X), set VQ (.exc 0) (X VQ / Ec X)])
    ++ (if e.diff1 then [set (.exc 1) (.exc 1) 1]
        else set (.exc 1) (.exc 1) (-1) ::
          (if e.free then [set (.exc 0) (.exc 1) (-1), set (.exc 4) (.exc 1) (-1)] else []))
    ++ (if e.diff2 then [set (.exc 2) (.exc 2) 1] else e.xLL2Row)
    ++ (if e.Vaatmin || e.Vaatmax then [set (.exc 3) (.exc 3) 1]
        else if e.diff3 then [set (.exc 3) (.exc 3) 1] else e.vaRow)
    ++ [set (.exc 4) (.exc 4) 1]
  | .resid =>
    (if e.diff0 then
       [set (.exc 0) (.exc 0) (-1 / e.Tr - shift), set VD (.exc 0) (X VD / Ec X / e.Tr),
        set VQ (.exc 0) (X VQ / Ec X / e.Tr)]
     else [set (.exc 0) (.exc 0) (-1), set VD (.exc 0) (X VD / Ec X), set VQ (.exc 0) (X VQ / Ec X)])
    ++ (if e.diff1 then
          set (.exc 1) (.exc 1) (-1 / e.Tb - shift) ::
          (if e.free then [set (.exc 0) (.exc 1) ((1 - e.Tc / e.Tb) * -1 / e.Tb),
                           set (.exc 4) (.exc 1) ((1 - e.Tc / e.Tb) * -1 / e.Tb)] else [])
        else set (.exc 1) (.exc 1) (-1) ::
          (if e.free then [set (.exc 0) (.exc 1) (-1), set (.exc 4) (.exc 1) (-1)] else []))
    ++ (if e.diff2 then
          [set (.exc 0) (.exc 2) ((1 - e.Tc1 / e.Tb1) * e.dyLL1 / e.Tb1),
           set (.exc 1) (.exc 2) ((1 - e.Tc1 / e.Tb1) * 1 / e.Tb1),
           set (.exc 2) (.exc 2) (-1 / e.Tb1 + (1 - e.Tc1 / e.Tb1) * 1 / e.Tb1 - shift),
           set (.exc 3) (.exc 2) ((1 - e.Tc1 / e.Tb1) * 0 / e.Tb1),
           set (.exc 4) (.exc 2) ((1 - e.Tc1 / e.Tb1) * e.dyLL1 / e.Tb1)]
        else e.xLL2Row)
    ++ (if e.Vaatmin || e.Vaatmax then [set (.exc 3) (.exc 3) 1]
        else if e.diff3 then
          [set (.exc 0) (.exc 3) (e.Ka * e.dyLL2 / e.Ta), set (.exc 1) (.exc 3) (e.Ka * e.dyLL2_dxLL1 / e.Ta),
           set (.exc 2) (.exc 3) (e.Ka * 1 / e.Ta), set (.exc 3) (.exc 3) ((-1 + e.Ka * 0) / e.Ta - shift),
           set (.exc 4) (.exc 3) (e.Ka * e.dyLL2 / e.Ta)]
        else e.vaRow)
    ++ [set (.exc 3) (.exc 4) (-e.Kf / (e.Tf * e.Tf)), set (.exc 4) (.exc 4) (-1 / e.Tf - shift)]

/-- `getFieldVoltage` (esst1a.cpp 555-569); `VT` is the magnitude of the voltage last given to the exciter by
`setVoltage`, `LadIfd` the field current of the machine. -/
noncomputable def efd (VT LadIfd : ℝ) : ℝ := min (max (X (.exc 3)) (VT * e.Vrmin)) (VT * e.Vrmax - e.Kc * LadIfd)

/-- `getFieldVoltagePartialDerivatives` (esst1a.cpp 526-549). -/
def dEfd : List (Ix × ℝ) := [(.exc 0, 0), (.exc 1, 0), (.exc 2, 0), (.exc 3, 1), (.exc 4, 0)]

/-- `Esst1aExc::init` (esst1a.cpp 117-149) with the field voltage set by the machine: reference and initial values. -/
noncomputable def init (Efd0 vD vQ : ℝ) : Esst1a × (ℕ → ℝ) :=
  let Vmeas := √(vD * vD + vQ * vQ)
  let xf := -e.Kf / e.Tf * Efd0
  let Va := Efd0
  let yLL2 := Va / e.Ka
  let xLL2 := if e.diff2 then (1 - e.Tc1 / e.Tb1) * yLL2 else yLL2
  let Vref := yLL2 + Vmeas + 0
  let xLL1 := if e.diff1 then (1 - e.Tc / e.Tb) * (Vref - Vmeas - 0) else Vref - Vmeas - 0
  ({ e with Vref := Vref },
   fun k => match k with
    | 0 => Vmeas
    | 1 => xLL1
    | 2 => xLL2
    | 3 => Va
    | _ => xf)

/-- `dVa_dt` in the event functions (esst1a.cpp 619, 672, 720): the input error enters without its limits. -/
noncomputable def dVa : ℝ := (-X (.exc 3) + e.Ka * e.yLL2 X (e.yLL1 X (e.ViFree X))) / e.Ta

/-- `Esst1aExc::eventFunction`: the four values watched for a change of sign (esst1a.cpp 574-635). -/
noncomputable def events : ℝ × ℝ × ℝ × ℝ :=
  (if !e.Viatmin then e.ViFree X - e.Vimin else e.Vimin - e.ViFree X,
   if !e.Viatmax then e.Vimax - e.ViFree X else e.ViFree X - e.Vimax,
   if !e.Vaatmin then X (.exc 3) - e.Vamin else -e.dVa X,
   if !e.Vaatmax then e.Vamax - X (.exc 3) else e.dVa X)

/-- `Esst1aExc::eventHandlerFunction` (esst1a.cpp 690-761). -/
noncomputable def handle (t0 t1 t2 t3 : Bool) : Esst1a :=
  let e1 := if t0 then (if !e.Viatmin then { e with Viatmin := true } else { e with Viatmax := false }) else e
  let e2 := if t1 then { e1 with Viatmax := !e1.Viatmax } else e1
  let e3 := if t2 then { e2 with Vaatmin := !e2.Vaatmin && decide (e.dVa X < 0) } else e2
  if t3 then { e3 with Vaatmax := !e3.Vaatmax && decide (e.dVa X > 0) } else e3

/-- `Esst1aExc::resetEventFlags` (esst1a.cpp 640-685). -/
noncomputable def reset : Esst1a :=
  { e with
    Viatmin := if !e.Viatmin then decide (e.ViFree X - e.Vimin < 0) else !decide (e.Vimin - e.ViFree X < 0),
    Viatmax := if !e.Viatmax then decide (e.Vimax - e.ViFree X < 0) else !decide (e.ViFree X - e.Vimax < 0),
    Vaatmin := if !e.Vaatmin then decide (X (.exc 3) - e.Vamin < 0) else !decide (e.dVa X > 0),
    Vaatmax := if !e.Vaatmax then decide (e.Vamax - X (.exc 3) < 0) else !decide (e.dVa X < 0) }

end Esst1a

/-! ### WSIEG1 -/

/-- Members of `Wsieg1Gov`: parameters, reference, limiter flags. -/
structure Wsieg1 where
  K : ℝ
  T1 : ℝ
  T2 : ℝ
  T3 : ℝ
  Uo : ℝ
  Uc : ℝ
  Pmax : ℝ
  Pmin : ℝ
  T4 : ℝ
  T5 : ℝ
  T6 : ℝ
  T7 : ℝ
  K1 : ℝ
  K2 : ℝ
  K3 : ℝ
  K4 : ℝ
  K5 : ℝ
  K6 : ℝ
  K7 : ℝ
  K8 : ℝ
  Iblock : ℝ
  Pref : ℝ
  uatmin : Bool
  uatmax : Bool
  xatmin : Bool
  xatmax : Bool

/-- `Wsieg1Gov::load`, conversion to the system base (wsieg1.cpp 108-113). -/
def Wsieg1.load (g : Wsieg1) (mult : ℝ) : Wsieg1 :=
  { g with Uo := g.Uo * mult, Uc := g.Uc * mult, Pmin := g.Pmin * mult, Pmax := g.Pmax * mult }

namespace Wsieg1
variable (g : Wsieg1) (X : Ix → ℝ)

/-- `iseq_diff[0]` (wsieg1.cpp 116). -/
noncomputable def diff0 : Bool := !decide (g.T1 = 0 ∨ g.T2 = 0)
/-- `iseq_diff[2]` to `iseq_diff[5]` (wsieg1.cpp 118-121), for the time constant `T`. -/
noncomputable def lag (T : ℝ) : Bool := !decide (T = 0)

/-- Output of the lead-lag block (wsieg1.cpp 282, 285); `dw` is the machine's speed deviation. -/
noncomputable def yLL (dw : ℝ) : ℝ := if g.diff0 then X (.gov 0) + g.T2 / g.T1 * g.K * dw else X (.gov 0)

/-- Gate speed before its limits (wsieg1.cpp 289); variable 1 is `xGV`. -/
noncomputable def uFree (dw : ℝ) : ℝ := (g.Pref - X (.gov 1) - g.yLL X dw) / g.T3

/-- The residual of a lag `T dy/dt = x - y` (wsieg1.cpp 297-311). -/
noncomputable def lagResid (T x y dy : ℝ) : ℝ := if lag T then (x - y) / T - dy else x - y

/-- `Wsieg1Gov::vectorValues` (wsieg1.cpp 240-315). -/
noncomputable def resid (dw : ℝ) (m : Mode) (Xd P : Ix → ℝ) (k : ℕ) : ℝ :=
  match m, k with
  | .fault, 0 => if g.diff0 then X (.gov 0) - P (.gov 0) else -X (.gov 0) + g.K * dw
  | .fault, 1 => X (.gov 1) - P (.gov 1)
  | .fault, 2 => if lag g.T4 then X (.gov 2) - P (.gov 2) else X (.gov 1) - X (.gov 2)
  | .fault, 3 => if lag g.T5 then X (.gov 3) - P (.gov 3) else X (.gov 2) - X (.gov 3)
  | .fault, 4 => if lag g.T6 then X (.gov 4) - P (.gov 4) else X (.gov 3) - X (.gov 4)
  | .fault, _ => if lag g.T7 then X (.gov 5) - P (.gov 5) else X (.gov 4) - X (.gov 5)
  | .resid, 0 =>
    if g.diff0 then (-X (.gov 0) + (1 - g.T2 / g.T1) * g.K * dw) / g.T1 - Xd (.gov 0) else -X (.gov 0) + g.K * dw
  | .resid, 1 =>
    if g.xatmin then X (.gov 1) - g.Pmin
    else if g.xatmax then X (.gov 1) - g.Pmax
    else (if g.uatmin then g.Uc else if g.uatmax then g.Uo else g.uFree X dw) - Xd (.gov 1)
  | .resid, 2 => lagResid g.T4 (X (.gov 1)) (X (.gov 2)) (Xd (.gov 2))
  | .resid, 3 => lagResid g.T5 (X (.gov 2)) (X (.gov 3)) (Xd (.gov 3))
  | .resid, 4 => lagResid g.T6 (X (.gov 3)) (X (.gov 4)) (Xd (.gov 4))
  | .resid, _ => lagResid g.T7 (X (.gov 4)) (X (.gov 5)) (Xd (.gov 5))

/-- The rows of the lags with `FAULT_EVAL` (wsieg1.cpp 350-380). -/
noncomputable def lagFault (T : ℝ) (k : ℕ) : List (Wr Ix) :=
  if lag T then [set (.gov (k + 1)) (.gov (k + 1)) 1]
  else [set (.gov k) (.gov (k + 1)) 1, set (.gov (k + 1)) (.gov (k + 1)) (-1)]

/-- The rows of the lags with `RESIDUAL_EVAL` (wsieg1.cpp 414-448). -/
noncomputable def lagJac (T shift : ℝ) (k : ℕ) : List (Wr Ix) :=
  if lag T then [set (.gov k) (.gov (k + 1)) (1 / T), set (.gov (k + 1)) (.gov (k + 1)) (-1 / T - shift)]
  else [set (.gov k) (.gov (k + 1)) 1, set (.gov (k + 1)) (.gov (k + 1)) (-1)]

/-- `Wsieg1Gov::setJacobian` (wsieg1.cpp 321-452); `dwLoc` is the location of the machine's speed deviation. -/
noncomputable def jac (dwLoc : Ix) (m : Mode) (shift : ℝ) : List (Wr Ix) :=
  match m with
  | .fault =>
    (if g.diff0 then [set (.gov 0) (.gov 0) 1] else [set (.gov 0) (.gov 0) (-1), set dwLoc (.gov 0) g.K])
    ++ [set (.gov 1) (.gov 1) 1]
    ++ lagFault g.T4 1 ++ lagFault g.T5 2 ++ lagFault g.T6 3 ++ lagFault g.T7 4
  | .resid =>
    (if g.diff0 then [set (.gov 0) (.gov 0) (-1 / g.T1 - shift), set dwLoc (.gov 0) ((1 - g.T2 / g.T1) * g.K / g.T1)]
     else [set (.gov 0) (.gov 0) (-1), set dwLoc (.gov 0) g.K])
    ++ (if g.xatmin || g.xatmax then [set (.gov 1) (.gov 1) 1]
        else if !g.uatmin && !g.uatmax then
          [set (.gov 0) (.gov 1) (-1 / g.T3), set (.gov 1) (.gov 1) (-1 / g.T3 - shift),
           set (.gov 2) (.gov 1) (-0 / g.T3), set (.gov 3) (.gov 1) (-0 / g.T3),
           set (.gov 4) (.gov 1) (-0 / g.T3), set (.gov 5) (.gov 1) (-0 / g.T3),
           set dwLoc (.gov 1) (-(if g.diff0 then g.T2 / g.T1 * g.K else 0) / g.T3)]
        else [set (.gov 1) (.gov 1) (-shift)])
    ++ lagJac g.T4 shift 1 ++ lagJac g.T5 shift 2 ++ lagJac g.T6 shift 3 ++ lagJac g.T7 shift 4

/-- `getMechanicalPower` (wsieg1.cpp 468-474). -/
def pmech : ℝ := X (.gov 2) * g.K1 + X (.gov 3) * g.K3 + X (.gov 4) * g.K5 + X (.gov 5) * g.K7

/-- `getMechanicalPowerPartialDerivatives` (wsieg1.cpp 481-494). -/
def dPmech : List (Ix × ℝ) :=
  [(.gov 0, 0), (.gov 1, 0), (.gov 2, g.K1), (.gov 3, g.K3), (.gov 4, g.K5), (.gov 5, g.K7)]

/-- The gate position computed by `Wsieg1Gov::init` (wsieg1.cpp 133-138). -/
noncomputable def pgv (Pmech : ℝ) : ℝ :=
  if g.K1 + g.K3 + g.K5 + g.K7 > 0 then Pmech / (g.K1 + g.K3 + g.K5 + g.K7)
  else if g.K2 + g.K4 + g.K6 + g.K8 > 0 then Pmech / (g.K2 + g.K4 + g.K6 + g.K8)
  else 0

/-- `Wsieg1Gov::init` (wsieg1.cpp 128-169) with the power set by the machine; `SecondGenExists` is never set. -/
noncomputable def init (Pmech dw : ℝ) : Wsieg1 × (ℕ → ℝ) :=
  let PGV := g.pgv Pmech
  let Pmin1 := if g.Iblock = 1 ∧ g.Pmin = 0 then PGV else g.Pmin
  let Pmax1 := if g.Iblock = 2 ∧ g.Pmax = 0 then PGV else g.Pmax
  let Pmin2 := if g.Iblock = 3 ∧ Pmin1 = 0 then PGV else Pmin1
  let Pmax2 := if g.Iblock = 3 ∧ Pmax1 = 0 then PGV else Pmax1
  let xLL := if g.diff0 then g.K * dw * (1 - g.T2 / g.T1) else g.K * dw
  ({ g with Pref := PGV, Pmin := Pmin2, Pmax := Pmax2 },
   fun k => match k with
    | 0 => xLL
    | _ => PGV)

/-- `Wsieg1Gov::eventFunction`: the four values watched for a change of sign (wsieg1.cpp 503-564). -/
noncomputable def events (dw : ℝ) : ℝ × ℝ × ℝ × ℝ :=
  let u := g.uFree X dw
  (if !g.uatmin then u - g.Uc else g.Uc - u,
   if !g.uatmax then g.Uo - u else u - g.Uo,
   if !g.xatmin then X (.gov 1) - g.Pmin else -u,
   if !g.xatmax then g.Pmax - X (.gov 1) else u)

/-- `Wsieg1Gov::eventHandlerFunction` (wsieg1.cpp 618-688). -/
noncomputable def handle (dw : ℝ) (t0 t1 t2 t3 : Bool) : Wsieg1 :=
  let u := g.uFree X dw
  let g1 := if t0 then (if !g.uatmin then { g with uatmin := true } else { g with uatmax := false }) else g
  let g2 := if t1 then { g1 with uatmax := !g1.uatmax } else g1
  let g3 := if t2 then { g2 with xatmin := !g2.xatmin && decide (u < 0) } else g2
  if t3 then { g3 with xatmax := !g3.xatmax && decide (u > 0) } else g3

/-- `Wsieg1Gov::resetEventFlags` (wsieg1.cpp 569-613): the release of the lower speed limit compares with `Uo`. -/
noncomputable def reset (dw : ℝ) : Wsieg1 :=
  let u := g.uFree X dw
  { g with
    uatmin := if !g.uatmin then decide (u - g.Uc < 0) else !decide (g.Uo - u < 0),
    uatmax := if !g.uatmax then decide (g.Uo - u < 0) else !decide (u - g.Uo < 0),
    xatmin := if !g.xatmin then decide (X (.gov 1) - g.Pmin < 0) else !decide (u > 0),
    xatmax := if !g.xatmax then decide (g.Pmax - X (.gov 1) < 0) else !decide (u < 0) }

end Wsieg1
end GridPACK.Dae
