import Verif.Model.Dblock
import Mathlib.Analysis.SpecialFunctions.Complex.Arg

/-! Model of the converter `REGCA1` and of the mechanical part of a wind turbine: drive train `WTDTA1`,
aerodynamics `WTARA1`, pitch controller `WTPTA1`, torque controller `WTTQA1`
(src/applications/modules/dynamic_simulation_full_y/model_classes/regca1.cpp, wtdta1.cpp, wtara1.cpp,
wtpta1.cpp, wttqa1.cpp).

Doubles are real numbers.  The electrical controller and the plant controller are not modelled: their
outputs (`Ipcmd`, `Iqcmd`, `Pord`, plant reference) are inputs of each call.  The coupling of the torque
controller with the turbine is an input as well (`omegaRef`); the controller has its own model below.  The
blocks are those of `Cblock` and `Dblock`; what their constructors leave unset is an argument of `load`. -/
namespace GridPACK.Wind
open GridPACK.Cblock GridPACK.Dblock

/-! ### The converter (regca1.cpp) -/

/-- Values read by `load` (78-102), powers in per unit of the system base. -/
structure Record where
  sbase : Real
  mbase : Real
  pg : Real
  qg : Real
  lvplsw : Bool
  tg : Real
  rrpwr : Real
  brkpt : Real
  zerox : Real
  lvpl1 : Real
  volim : Real
  lvpnt1 : Real
  lvpnt0 : Real
  lolim : Real
  tfltr : Real
  khv : Real
  iqrmax : Real
  iqrmin : Real

/-- Data members (regca1.hpp 160-216) used by the modelled functions.  `pg`, `qg` of the record are
converted to the machine base by `init`; here they stay as read. -/
structure Conv where
  r : Record
  mbase : Real
  ipBlk : Block
  iqBlk : Block
  vtBlk : Block
  lvpl : Slope
  lvpnt : Slope
  lowlim : GainLimiter
  ip : Real
  iq : Real
  vt : Real
  theta : Real
  ipcmd : Real
  iqcmd : Real

open Classical in
/-- Machine base (85-86): replaced by the active power when it is not given. -/
noncomputable def machineBase (r : Record) : Real := if |r.mbase| < 1 / 10 ^ 6 then r.pg else r.mbase

open Classical in
/-- `load` (74-134): `none` when a block throws.  `raw` are the blocks as constructed. -/
noncomputable def loadConv (raw : Block) (r : Record) : Option Conv :=
  match filter raw 1 r.tg, filter raw (-1) r.tg, filter raw 1 r.tfltr with
  | some p, some q, some v =>
    some ⟨r, machineBase r, p,
      if r.qg > 0 then setdxlimits q (-1000) r.iqrmax else setdxlimits q r.iqrmin 1000, v,
      Slope.setparams r.zerox r.brkpt 0 r.lvpl1 0 1000,
      Slope.setparams r.lvpnt0 r.lvpnt1 0 1 0 1,
      GainLimiter.setparams 1 r.lolim 1000 0 0, 0, 0, 0, 0, 0, 0⟩
  | _, _, _ => none

/-- First result of `transform` (46-50). -/
noncomputable def rotRe (x y t : Real) : Real := x * Real.cos t - y * Real.sin t

/-- Second result of `transform` (46-50). -/
noncomputable def rotIm (x y t : Real) : Real := x * Real.sin t + y * Real.cos t

/-- `Vt` computed by `init` (154-159). -/
noncomputable def startVt (vm va : Real) : Real := rotRe (vm * Real.cos va) (vm * Real.sin va) (-va)

/-- `init` (141-169), without the controllers. -/
noncomputable def initConv (c : Conv) (vm va : Real) : Conv :=
  let vt := startVt vm va
  let ip := c.r.pg * (c.r.sbase / c.mbase) / vt
  let iq := -(c.r.qg * (c.r.sbase / c.mbase)) / vt
  { c with
    theta := va, vt := vt, ip := ip, iq := iq,
    ipBlk := (initGivenY c.ipBlk ip).1, ipcmd := (initGivenY c.ipBlk ip).2,
    iqBlk := (initGivenY c.iqBlk iq).1, iqcmd := (initGivenY c.iqBlk iq).2,
    vtBlk := (initGivenU c.vtBlk vt).1 }

/-- `setVoltage` (503-510): `atan2` is the argument of the complex number. -/
noncomputable def setVoltage (c : Conv) (v : ℂ) : Conv := { c with vt := ‖v‖, theta := v.arg }

/-- Current withheld at overvoltage (271). -/
noncomputable def overCurrent (c : Conv) : Real := max 0 (c.r.khv * (c.vt - c.r.volim))

/-- `Ipout` (267-269, 320-322). -/
noncomputable def ipOut (c : Conv) : Real := c.ip * c.lvpnt.output c.vt

/-- `Iqout` of `INorton` and `computeModel` (271-273, 324-326). -/
noncomputable def iqOut (c : Conv) : Real := c.lowlim.output (c.iq - overCurrent c)

/-- `INorton` (264-284). -/
noncomputable def iNorton (c : Conv) : ℂ :=
  ⟨rotRe (ipOut c) (iqOut c) c.theta * (c.mbase / c.r.sbase),
   rotIm (ipOut c) (iqOut c) c.theta * (c.mbase / c.r.sbase)⟩

/-- End of `computeModel` (440-453): filtered voltage, active and reactive current.  Each block works with
the commands of this call. -/
noncomputable def convCall (c : Conv) (dt : Real) (s : Stage) (ipcmd iqcmd : Real) : Conv :=
  let fv := getoutput c.vtBlk c.vt dt s true
  let fp := getoutputRate c.ipBlk ipcmd dt (-1000)
    (if c.r.lvplsw = true then c.lvpl.output fv.2 else 1000) (-1000) c.r.rrpwr (-1000) 1000 s true
  let fq := getoutput c.iqBlk iqcmd dt s true
  { c with ipcmd := ipcmd, iqcmd := iqcmd, vtBlk := fv.1, ipBlk := fp.1, ip := fp.2,
           iqBlk := fq.1, iq := fq.2 }

/-- What happens in one call: bus voltage and commands of the electrical controller. -/
structure CallIn where
  v : ℂ
  ipcmd : Real
  iqcmd : Real

/-- One time step: voltage and predictor, voltage and corrector. -/
noncomputable def convStep (dt : Real) (c : Conv) (i : CallIn × CallIn) : Conv :=
  convCall (setVoltage (convCall (setVoltage c i.1.v) dt .predictor i.1.ipcmd i.1.iqcmd) i.2.v) dt
    .corrector i.2.ipcmd i.2.iqcmd

/-- A simulation: the time steps in turn. -/
noncomputable def convRun (dt : Real) (c : Conv) (is : List (CallIn × CallIn)) : Conv :=
  is.foldl (convStep dt) c

/-- Active power of the reports (544, 620). -/
noncomputable def reportP (c : Conv) : Real := c.vt * ipOut c * c.mbase / c.r.sbase

/-- Reactive power of the reports (541-545, 617-621). -/
noncomputable def reportQ (c : Conv) : Real :=
  -c.vt * c.lowlim.output (c.iq + overCurrent c) * c.mbase / c.r.sbase

/-- Powers in `getWatchValues` (623-629); the argument is `p_generatorObservationPowerSystemBase`. -/
noncomputable def watched (c : Conv) (systemBase : Bool) : Real × Real :=
  if systemBase = true then (reportP c, reportQ c) else (reportP c, reportQ c)

/-! ### Drive train (wtdta1.cpp) -/

structure Drive where
  D : Real
  s0 : Real
  Tm : Real
  Te : Real
  gBlk : Block
  aBlk : Block
  wg : Real
  wt : Real
  angle : Real

/-- `load` (54-81): `none` when a block throws.  The blocks of the turbine mass are created (75-80) but no
function uses their output; they are left out. -/
noncomputable def loadDrive (raw : Block) (H D Hfrac : Real) : Option Drive :=
  match integrator raw (2 * (H - Hfrac * H)), integrator raw 1 with
  | some g, some a => some ⟨D, 0, 0, 0, g, a, 0, 0, 0⟩
  | _, _ => none

/-- `setOmegaref`, `setTelec` (204-207) and `init` (89-107). -/
noncomputable def initDrive (d : Drive) (omegaRef te ang : Real) : Drive :=
  let s0 := omegaRef - 1
  let g := initGivenY d.gBlk s0
  { d with s0 := s0, Te := te, angle := ang, aBlk := (initGivenY d.aBlk ang).1, wg := s0, gBlk := g.1,
           Tm := te + d.D * s0 + g.2, wt := s0 }

/-- `2*pi*60`. -/
noncomputable def omega0 : Real := 2 * Real.pi * 60

/-- `setTelec`, `setTmech` and `computeModel` (109-124). -/
noncomputable def driveCall (d : Drive) (dt : Real) (s : Stage) (tm te : Real) : Drive :=
  let g := getoutput d.gBlk (tm - te - d.D * d.wg) dt s true
  let a := getoutput d.aBlk (omega0 * (g.2 - d.s0)) dt s true
  { d with Tm := tm, Te := te, gBlk := g.1, wg := g.2, aBlk := a.1, angle := a.2 }

/-! ### Aerodynamics (wtara1.cpp) -/

structure Aero where
  Ka : Real
  Theta0 : Real
  Pmech0 : Real

/-- `predictor`, `corrector` and `init` (69-102): the torque for a pitch angle and a turbine speed. -/
noncomputable def taero (a : Aero) (theta wt : Real) : Real :=
  (a.Pmech0 - a.Ka * theta * (theta - a.Theta0)) / (1 + wt)

/-! ### Pitch controller (wtpta1.cpp) -/

structure PitchRecord where
  Kcc : Real
  Kiw : Real
  Kpw : Real
  Kic : Real
  Kpc : Real
  thetaMax : Real
  thetaMin : Real
  rateMax : Real
  rateMin : Real
  Tp : Real

structure Pitch where
  Kcc : Real
  comp : Block
  ctrl : Block
  lag : Block
  theta : Real

/-- `load` (51-71). -/
noncomputable def loadPitch (raw : Block) (p : PitchRecord) : Option Pitch :=
  match withLimits (piControl raw p.Kpc p.Kic) p.thetaMin p.thetaMax (-1000) 1000,
        withLimits (piControl raw p.Kpw p.Kiw) p.thetaMin p.thetaMax (-1000) 1000,
        filter raw 1 p.Tp with
  | some a, some b, some l =>
    some ⟨p.Kcc, a, b,
      setylimits (setdxlimits (setxlimits l p.thetaMin p.thetaMax) p.rateMin p.rateMax) (-1000) 1000, 0⟩
  | _, _, _ => none

/-- `setTheta` and `init` (78-86). -/
noncomputable def initPitch (p : Pitch) (theta : Real) : Pitch :=
  { p with theta := theta, lag := (initGivenY p.lag theta).1, comp := (initGivenY p.comp 0).1,
           ctrl := (initGivenY p.ctrl (initGivenY p.lag theta).2).1 }

/-- `computeModel` (88-96). -/
noncomputable def pitchCall (p : Pitch) (dt : Real) (s : Stage) (pord pord0 wt omegaRef : Real) : Pitch :=
  let y1 := getoutput p.comp (pord - pord0) dt s true
  let y2 := getoutput p.ctrl ((1 + wt) - omegaRef + p.Kcc * (pord - pord0)) dt s true
  let y := getoutput p.lag (y1.2 + y2.2) dt s true
  { p with comp := y1.1, ctrl := y2.1, lag := y.1, theta := y.2 }

/-! ### The turbine as `regca1` drives it -/

structure Turbine where
  drive : Drive
  aero : Aero
  pitch : Pitch

/-- `init` of the mechanical parts (regca1.cpp 206-255), for the active power `pg` on the machine base and
the reference speed `omegaRef`.  The constructor of the aerodynamic model sets its angle to 0. -/
noncomputable def initTurbine (d : Drive) (a : Aero) (p : Pitch) (pg omegaRef va : Real) : Turbine :=
  let d1 := initDrive d omegaRef (pg / omegaRef) va
  ⟨d1, { a with Pmech0 := d1.Tm * (1 + d1.wt) }, initPitch p a.Theta0⟩

/-- What the mechanical parts get from the other parts in one call: electrical power, power order, the
variable `Pref_plant` (331; set only when there is a plant controller, 350), reference speed. -/
structure MechIn where
  pg : Real
  pord : Real
  prefPlant : Real
  omegaRef : Real

/-- The mechanical parts in `computeModel` (regca1.cpp 333-337, 395-437).  The pitch controller gets the
speed of the generator (399). -/
noncomputable def turbineCall (t : Turbine) (dt : Real) (s : Stage) (i : MechIn) : Turbine :=
  let p := pitchCall t.pitch dt s i.pord i.prefPlant t.drive.wg i.omegaRef
  { t with
    pitch := p
    drive := driveCall t.drive dt s (taero t.aero p.theta t.drive.wt) (i.pg / (1 + t.drive.wg)) }

/-- One time step: predictor and corrector. -/
noncomputable def turbineStep (dt : Real) (t : Turbine) (i : MechIn × MechIn) : Turbine :=
  turbineCall (turbineCall t dt .predictor i.1) dt .corrector i.2

/-- A simulation. -/
noncomputable def turbineRun (dt : Real) (t : Turbine) (is : List (MechIn × MechIn)) : Turbine :=
  is.foldl (turbineStep dt) t

/-! ### Torque controller (wttqa1.cpp) -/

structure Torque where
  tflag : Bool
  pelecBlk : Block
  wrefBlk : Block
  piBlk : Block
  /-- The speed curve `Pomega_blk` (see `Dblock`). -/
  curve : Real → Real
  omegaRef : Real
  Pref : Real

/-- The PI block as set up by `load` (80). -/
noncomputable def torquePi (raw : Block) (Kpp Kip Temin Temax : Real) : Option Block :=
  withLimits (piControl raw Kpp Kip) Temin Temax (-1000) 1000

/-- `init` (95-113) for the electrical power `pelec`. -/
noncomputable def initTorque (t : Torque) (pelec : Real) : Torque :=
  let f := initGivenU t.pelecBlk pelec
  let w := initGivenU t.wrefBlk (t.curve f.2)
  { t with pelecBlk := f.1, wrefBlk := w.1, omegaRef := w.2, Pref := pelec,
           piBlk := (initGivenY t.piBlk (pelec / (1 + (w.2 - 1)))).1 }

/-- `computeModel` (115-133) with the values set before the call. -/
noncomputable def torqueCall (t : Torque) (dt : Real) (s : Stage) (pref0 pelec wg : Real) (vdip : Bool) :
    Torque :=
  let f := getoutput t.pelecBlk pelec dt s true
  let w := getoutput t.wrefBlk (t.curve f.2) dt s true
  let y := getoutput t.piBlk (if t.tflag = true then (pref0 - f.2) / (1 + wg) else 1 + wg - w.2) dt s
    (!vdip)
  { t with pelecBlk := f.1, wrefBlk := w.1, omegaRef := w.2, piBlk := y.1, Pref := y.2 * (1 + wg) }

/-- Values set before a call of the torque controller. -/
structure TorqueIn where
  pref0 : Real
  pelec : Real
  wg : Real
  vdip : Bool

/-- One time step. -/
noncomputable def torqueStep (dt : Real) (t : Torque) (i : TorqueIn × TorqueIn) : Torque :=
  torqueCall (torqueCall t dt .predictor i.1.pref0 i.1.pelec i.1.wg i.1.vdip) dt .corrector i.2.pref0
    i.2.pelec i.2.wg i.2.vdip

end GridPACK.Wind
