import Mathlib.Data.Real.Basic

/-! Model of the linear control block `Cblock` and its subclasses
(src/applications/modules/dynamic_simulation_full_y/cblock.cpp).

Doubles are modelled as real numbers (no rounding, no NaN).  The one-element arrays are plain fields.
`p_xhat` and `p_dxdt` are not initialised by the constructor: the model leaves them arbitrary. -/
namespace GridPACK.Cblock

/-- `IntegrationStage` (cblock.hpp 17-20). -/
inductive Stage
  | predictor
  | corrector
deriving DecidableEq

/-- All data members of the class (cblock.hpp 66-83, 122). -/
structure Block where
  A : Real
  B : Real
  C : Real
  D : Real
  dxdt : Real
  xhat : Real
  xmax : Real
  xmin : Real
  ymax : Real
  ymin : Real
  dxmax : Real
  dxmin : Real
  stage : Stage
  x : Real

/-- What the constructor sets (4-10): all limits are ±1000; the coefficients stay uninitialised. -/
def Constructed (b : Block) : Prop :=
  b.xmin = -1000 ∧ b.xmax = 1000 ∧ b.ymin = -1000 ∧ b.ymax = 1000 ∧ b.dxmin = -1000 ∧ b.dxmax = 1000 ∧
  b.stage = .predictor

/-- `std::max(lo, std::min(v, hi))`. -/
noncomputable def clamp (lo hi v : Real) : Real := max lo (min v hi)

open Classical in
/-- `setcoeffs` (24-34): `none` when it throws. -/
noncomputable def setcoeffs (b : Block) (a0 a1 b0 b1 : Real) : Option Block :=
  if a0 = 0 then none
  else some { b with A := -a1 / a0, B := b1 / a0 - a1 * b0 / (a0 * a0), C := 1, D := b0 / a0 }

def setxlimits (b : Block) (lo hi : Real) : Block := { b with xmin := lo, xmax := hi }
def setdxlimits (b : Block) (lo hi : Real) : Block := { b with dxmin := lo, dxmax := hi }
def setylimits (b : Block) (lo hi : Real) : Block := { b with ymin := lo, ymax := hi }

/-- `getderivative` (56-59). -/
def getderivative (b : Block) (x u : Real) : Real := b.A * x + b.B * u

/-- `updatestate` with limits (61-82).  The arguments `dxmin`, `dxmax` exist in the code but only the
stored limits are used. -/
noncomputable def updatestate (b : Block) (u dt xmin xmax _dxmin _dxmax : Real) : Stage → Block
  | .predictor =>
    { b with dxdt := clamp b.dxmin b.dxmax (getderivative b b.x u),
             xhat := clamp xmin xmax (b.x + dt * clamp b.dxmin b.dxmax (getderivative b b.x u)),
             stage := .predictor }
  | .corrector =>
    { b with x := clamp xmin xmax (b.x + dt *
                clamp b.dxmin b.dxmax (1 / 2 * (b.dxdt + getderivative b b.xhat u))),
             stage := .corrector }

/-- State used for the output (106-107). -/
def outState (b : Block) : Stage → Real
  | .predictor => b.x
  | .corrector => b.xhat

/-- `getoutput(u)` (89-100). -/
noncomputable def getoutput1 (b : Block) (u : Real) : Real :=
  clamp b.ymin b.ymax (b.C * outState b b.stage + b.D * u)

/-- `getoutput` with limits for state and output (102-119). -/
noncomputable def getoutputLim (b : Block) (u dt xmin xmax ymin ymax : Real) (s : Stage) (upd : Bool) :
    Block × Real :=
  (if upd then updatestate b u dt xmin xmax b.dxmin b.dxmax s else b,
   clamp ymin ymax (b.C * outState b s + b.D * u))

/-- `getoutput` with rate limits (121-131): they are stored first. -/
noncomputable def getoutputRate (b : Block) (u dt xmin xmax dxmin dxmax ymin ymax : Real) (s : Stage)
    (upd : Bool) : Block × Real :=
  getoutputLim { b with dxmin := dxmin, dxmax := dxmax } u dt xmin xmax ymin ymax s upd

/-- `getoutput(u, dt, stage, dostateupdate)` (134-141). -/
noncomputable def getoutput (b : Block) (u dt : Real) (s : Stage) (upd : Bool) : Block × Real :=
  getoutputLim b u dt b.xmin b.xmax b.ymin b.ymax s upd

/-- The threshold `1e-10`. -/
noncomputable def eps : Real := 1 / 10 ^ 10

open Classical in
/-- `init_given_u` (153-167). -/
noncomputable def initGivenU (b : Block) (u : Real) : Block × Real :=
  if |b.B| < eps then ({ b with x := 0 }, b.D * u)
  else if |b.A| < eps then ({ b with x := 0 }, b.D * u)
  else ({ b with x := -b.B / b.A * u }, b.C * (-b.B / b.A * u) + b.D * u)

open Classical in
/-- `init_given_y` (169-180). -/
noncomputable def initGivenY (b : Block) (y : Real) : Block × Real :=
  if |b.A| < eps then ({ b with x := y }, 0)
  else ({ b with x := -b.B / b.A * (y / (b.D - b.C * b.B / b.A)) }, y / (b.D - b.C * b.B / b.A))

/-- `init` (143-151): the input argument is not used. -/
noncomputable def init (b : Block) (_u y : Real) : Block := (initGivenY b y).1

/-- `getstate` (183-189). -/
def getstate (b : Block) : Stage → Real
  | .predictor => b.xhat
  | .corrector => b.x

/-- The default limits set by every `setparams`. -/
noncomputable def defaultLimits (b : Block) : Block :=
  setylimits (setdxlimits (setxlimits b (-1000) 1000) (-1000) 1000) (-1000) 1000

/-- `PIControl::setparams(Kp, Ki)` (202-222). -/
noncomputable def piControl (b : Block) (Kp Ki : Real) : Option Block :=
  (setcoeffs b 1 0 Kp Ki).map defaultLimits

/-- `Filter::setparams(K, T)` (251-270). -/
noncomputable def filter (b : Block) (K T : Real) : Option Block :=
  (setcoeffs b T 1 0 K).map defaultLimits

/-- `LeadLag::setparams(TA, TB)` (299-316). -/
noncomputable def leadLag (b : Block) (TA TB : Real) : Option Block :=
  (setcoeffs b TB 1 TA 1).map defaultLimits

/-- `Integrator::setparams(T)` (343-361): does not set the rate limits. -/
noncomputable def integrator (b : Block) (T : Real) : Option Block :=
  (setcoeffs b T 0 0 1).map (fun b => setylimits (setxlimits b (-1000) 1000) (-1000) 1000)

/-- The `setparams` variants with limits for state and output (PIControl 224-229, Filter 272-277,
LeadLag 318-323): the plain variant followed by `setxlimits` and `setylimits`. -/
def withLimits (b : Option Block) (xmin xmax ymin ymax : Real) : Option Block :=
  b.map (fun b => setylimits (setxlimits b xmin xmax) ymin ymax)

/-- `Integrator::setparams(T, xmin, xmax)` (363-367). -/
def withStateLimits (b : Option Block) (xmin xmax : Real) : Option Block :=
  b.map (fun b => setxlimits b xmin xmax)

/-- One time step as performed by every model class: predictor call followed by corrector call, with
inputs `up` and `uc`. -/
noncomputable def timeStep (b : Block) (up uc dt : Real) : Block :=
  (getoutput (getoutput b up dt .predictor true).1 uc dt .corrector true).1

end GridPACK.Cblock
