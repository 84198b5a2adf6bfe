import Verif.Model.Cblock
import Verif.Model.Dblock

/-! Model of the turbine governors TGOV1, GAST, HYGOV and WSIEG1
(src/applications/modules/dynamic_simulation_full_y/model_classes/{tgov1,gast,hygov,wsieg1}.cpp), built
from the control blocks of `Cblock` and `Dblock`.

Doubles are real numbers; division by zero gives 0 here instead of an infinity.  The parameters come from
a `DataCollection`; a parameter is given here as an `Option` that is `none` if the collection has no value
for it.  `load` gives `none` when one of the blocks throws.  Members that a constructor leaves
uninitialised are arbitrary.  A governor is driven by the generator with `setMechanicalPower`,
`setRotorSpeedDeviation`, `init` and then, in every time step, `setRotorSpeedDeviation`, `predictor`,
`setRotorSpeedDeviation`, `corrector` and `getMechanicalPower`. -/
namespace GridPACK.Governors
open GridPACK.Cblock

/-! ### TGOV1 -/

/-- Parameters in the data collection (tgov1.cpp 54-60). -/
structure TgovData where
  R : Option Real
  T1 : Option Real
  Vmax : Option Real
  Vmin : Option Real
  T2 : Option Real
  T3 : Option Real
  Dt : Option Real

/-- Data members (tgov1.hpp 110-128). -/
structure Tgov where
  R : Real
  T1 : Real
  Vmax : Real
  Vmin : Real
  T2 : Real
  T3 : Real
  Dt : Real
  Pmech : Real
  Pref : Real
  deltaW : Real
  leadlag : Block
  delay : Block
  delayOut : Real
  leadlagOut : Real

/-- `load` (tgov1.cpp 50-65). -/
noncomputable def Tgov.load (g : Tgov) (d : TgovData) : Option Tgov :=
  let R := d.R.getD (5 / 100)
  let T1 := d.T1.getD (5 / 10)
  let Vmax := d.Vmax.getD 1
  let Vmin := d.Vmin.getD 0
  let T2 := d.T2.getD 3
  let T3 := d.T3.getD 10
  let Dt := d.Dt.getD 0
  (leadLag g.leadlag T2 T3).bind fun l =>
    (withLimits (filter g.delay 1 T1) Vmin Vmax (-1000) 1000).map fun f =>
      { g with R := R, T1 := T1, Vmax := Vmax, Vmin := Vmin, T2 := T2, T3 := T3, Dt := Dt,
               leadlag := l, delay := f }

/-- `setMechanicalPower` (123-126). -/
def Tgov.setMechanicalPower (g : Tgov) (p : Real) : Tgov := { g with Pmech := p }

/-- `setRotorSpeedDeviation` (132-135). -/
def Tgov.setRotorSpeedDeviation (g : Tgov) (w : Real) : Tgov := { g with deltaW := w }

/-- `init` (73-85). -/
noncomputable def Tgov.init (g : Tgov) : Tgov :=
  let l := initGivenY g.leadlag (g.Pmech + g.Dt * g.deltaW)
  let f := initGivenY g.delay l.2
  { g with leadlag := l.1, delayOut := l.2, delay := f.1, Pref := g.R * f.2 + g.deltaW }

/-- `computeModel` (87-97), the body of `predictor` and `corrector` (104-117). -/
noncomputable def Tgov.compute (g : Tgov) (dt : Real) (s : Stage) : Tgov :=
  let f := getoutput g.delay ((g.Pref - g.deltaW) / g.R) dt s true
  let l := getoutput g.leadlag f.2 dt s true
  { g with delay := f.1, delayOut := f.2, leadlag := l.1, leadlagOut := l.2,
           Pmech := l.2 - g.Dt * g.deltaW }

/-! ### GAST -/

/-- Parameters in the data collection (gast.cpp 56-64). -/
structure GastData where
  R : Option Real
  T1 : Option Real
  T2 : Option Real
  T3 : Option Real
  AT : Option Real
  KT : Option Real
  VMAX : Option Real
  VMIN : Option Real
  Dt : Option Real

/-- Data members (gast.hpp 110-133). -/
structure Gast where
  R : Real
  T1 : Real
  T2 : Real
  T3 : Real
  AT : Real
  KT : Real
  VMAX : Real
  VMIN : Real
  Dt : Real
  Pmech : Real
  Pref : Real
  deltaW : Real
  valve : Block
  flow : Block
  exh : Block
  exhOut : Real

/-- The constructor's values (31-36). -/
noncomputable def Gast.construct (g : Gast) : Gast := { g with Pmech := 1, Pref := 1, deltaW := 0 }

/-- `load` (52-69). -/
noncomputable def Gast.load (g : Gast) (d : GastData) : Option Gast :=
  let R := d.R.getD (5 / 100)
  let T1 := d.T1.getD (5 / 10)
  let T2 := d.T2.getD 3
  let T3 := d.T3.getD 10
  let AT := d.AT.getD 0
  let KT := d.KT.getD 0
  let VMAX := d.VMAX.getD 1
  let VMIN := d.VMIN.getD 0
  let Dt := d.Dt.getD 0
  (withLimits (filter g.valve 1 T1) VMIN VMAX (-10000) 10000).bind fun v =>
    (filter g.flow 1 T2).bind fun f =>
      (filter g.exh 1 T3).map fun e =>
        { g with R := R, T1 := T1, T2 := T2, T3 := T3, AT := AT, KT := KT, VMAX := VMAX, VMIN := VMIN,
                 Dt := Dt, valve := v, flow := f, exh := e }

/-- `setMechanicalPower` (156-159). -/
def Gast.setMechanicalPower (g : Gast) (p : Real) : Gast := { g with Pmech := p }

/-- `setRotorSpeedDeviation` (165-168): the parameter has the name of the member, `delta_w = delta_w`
assigns the parameter to itself. -/
def Gast.setRotorSpeedDeviation (g : Gast) (_w : Real) : Gast := g

/-- `init` (77-98). -/
noncomputable def Gast.init (g : Gast) : Gast :=
  let out := g.Pmech + g.Dt * g.deltaW
  let f := initGivenY g.flow out
  let e := initGivenU g.exh out
  let v := initGivenY g.valve f.2
  { g with flow := f.1, exh := e.1, exhOut := e.2, valve := v.1, Pref := v.2 + g.deltaW * g.R }

/-- `predictor` (105-124) and `corrector` (131-150): the same statements with a different stage. -/
noncomputable def Gast.compute (g : Gast) (dt : Real) (s : Stage) : Gast :=
  let droop := g.deltaW / g.R
  let gate := g.AT + g.KT * (g.AT - g.exhOut)
  let v := getoutput g.valve (min gate (g.Pref - droop)) dt s true
  let f := getoutput g.flow v.2 dt s true
  let e := getoutput g.exh f.2 dt s true
  { g with valve := v.1, flow := f.1, Pmech := f.2 - g.Dt * g.deltaW, exh := e.1, exhOut := e.2 }

/-! ### HYGOV -/

/-- Parameters in the data collection (hygov.cpp 56-67). -/
structure HygovData where
  R : Option Real
  r : Option Real
  TR : Option Real
  TF : Option Real
  TG : Option Real
  VELM : Option Real
  GMAX : Option Real
  GMIN : Option Real
  TW : Option Real
  AT : Option Real
  Dt : Option Real
  qNL : Option Real

/-- Data members (hygov.hpp 115-127). -/
structure Hygov where
  R : Real
  r : Real
  TR : Real
  TF : Real
  TG : Real
  VELM : Real
  GMAX : Real
  GMIN : Real
  TW : Real
  AT : Real
  Dt : Real
  qNL : Real
  Pmech : Real
  nref : Real
  deltaW : Real
  filterB : Block
  gate : Block
  opening : Block
  flow : Block
  openingOut : Real
  gateOut : Real
  flowOut : Real
  filterIn : Real

/-- The constructor's values (31-36). -/
noncomputable def Hygov.construct (g : Hygov) : Hygov := { g with Pmech := 1, nref := 1, deltaW := 0 }

/-- `load` (52-73).  Line 57: without a value for `r` the member `R` is overwritten and `r` stays as it
was. -/
noncomputable def Hygov.load (g : Hygov) (d : HygovData) : Option Hygov :=
  let R := d.R.getD (5 / 100)
  let r := d.r.getD g.r
  let R := if d.r.isSome then R else 5 / 100
  let TR := d.TR.getD (5 / 10)
  let TF := d.TF.getD 3
  let TG := d.TG.getD 10
  let VELM := d.VELM.getD 1000
  let GMAX := d.GMAX.getD 1
  let GMIN := d.GMIN.getD 0
  let TW := d.TW.getD 10
  let AT := d.AT.getD 1
  let Dt := d.Dt.getD 0
  let qNL := d.qNL.getD 0
  (filter g.filterB 1 TF).bind fun f =>
    (withLimits (piControl g.gate (1 / r) (1 / (r * TR))) GMIN GMAX (-10000) 10000).bind fun p =>
      (filter g.opening 1 TG).bind fun o =>
        (integrator g.flow TW).map fun i =>
          { g with R := R, r := r, TR := TR, TF := TF, TG := TG, VELM := VELM, GMAX := GMAX, GMIN := GMIN,
                   TW := TW, AT := AT, Dt := Dt, qNL := qNL, filterB := f, gate := p, opening := o,
                   flow := i }

/-- `setMechanicalPower` (160-163). -/
def Hygov.setMechanicalPower (g : Hygov) (p : Real) : Hygov := { g with Pmech := p }

/-- `setRotorSpeedDeviation` (169-172): `delta_w = delta_w` assigns the parameter to itself. -/
def Hygov.setRotorSpeedDeviation (g : Hygov) (_w : Real) : Hygov := g

/-- `init` (81-99). -/
noncomputable def Hygov.init (g : Hygov) : Hygov :=
  let q := g.Pmech / g.AT + g.qNL
  let i := initGivenY g.flow q
  let o := initGivenY g.opening q
  let p := initGivenY g.gate o.2
  let f := initGivenY g.filterB p.2
  { g with flow := i.1, flowOut := q, opening := o.1, openingOut := q, gate := p.1, gateOut := o.2,
           filterB := f.1, filterIn := f.2, nref := f.2 + g.R * o.2 + g.deltaW }

/-- `predictor` (106-126) and `corrector` (133-154): the same statements with a different stage. -/
noncomputable def Hygov.compute (g : Hygov) (dt : Real) (s : Stage) : Hygov :=
  let fin := g.nref - (g.deltaW + g.R * g.gateOut)
  let f := getoutput g.filterB fin dt s true
  let p := getoutput g.gate f.2 dt s true
  let o := getoutput g.opening p.2 dt s true
  let h := (o.2 / g.flowOut) * (o.2 / g.flowOut)
  let i := getoutput g.flow (1 - h) dt s true
  { g with filterIn := fin, filterB := f.1, gate := p.1, gateOut := p.2, opening := o.1, openingOut := o.2,
           flow := i.1, flowOut := i.2,
           Pmech := g.AT * (i.2 - g.qNL) * h - o.2 * g.Dt * g.deltaW }

/-! ### WSIEG1 -/

/-- Data members (wsieg1.hpp 111-137), with the parameters as stored by `load`.  Left out: parameters and
blocks that no result depends on (`Db1_blk`, `NGV_blk` and their parameters; both are set up but their
calls are commented out), `Iblock`. -/
structure Wsieg where
  K : Real
  T1 : Real
  T2 : Real
  T3 : Real
  Uo : Real
  Uc : Real
  Pmax : Real
  Pmin : Real
  T4 : Real
  K1 : Real
  K2 : Real
  T5 : Real
  K3 : Real
  K4 : Real
  T6 : Real
  K5 : Real
  K6 : Real
  T7 : Real
  K7 : Real
  K8 : Real
  Db2 : Real
  Pmech1 : Real
  Pmech2 : Real
  GV : Real
  GV0 : Real
  w : Real
  leadlag : Block
  P : Block
  f1 : Block
  f2 : Block
  f3 : Block
  f4 : Block

/-- `if (T != 0) setparams` (91-93, 107-118). -/
def unlessZero (z : Prop) [Decidable z] (b : Block) (r : Option Block) : Option Block :=
  if z then some b else r

open Classical in
/-- Part of `load` after the parameters have been read (90-118). -/
noncomputable def Wsieg.setup (g : Wsieg) : Option Wsieg :=
  (unlessZero (g.T1 = 0 ∨ g.T2 = 0) g.leadlag (leadLag g.leadlag g.T2 g.T1)).bind fun l =>
    (withStateLimits (integrator g.P 1) g.Pmin g.Pmax).bind fun p =>
      (unlessZero (g.T4 = 0) g.f1 (filter g.f1 1 g.T4)).bind fun a =>
        (unlessZero (g.T5 = 0) g.f2 (filter g.f2 1 g.T5)).bind fun b =>
          (unlessZero (g.T6 = 0) g.f3 (filter g.f3 1 g.T6)).bind fun c =>
            (unlessZero (g.T7 = 0) g.f4 (filter g.f4 1 g.T7)).map fun d =>
              { g with leadlag := l, P := p, f1 := a, f2 := b, f3 := c, f4 := d }

open Classical in
/-- `if (T == 0) u = y; else u = blk.init_given_y(y);` -/
noncomputable def backward (T : Real) (b : Block) (y : Real) : Block × Real :=
  if T = 0 then (b, y) else initGivenY b y

open Classical in
/-- `if (T == 0) y = u; else y = blk.getoutput(u, ...);` -/
noncomputable def forward (T : Real) (b : Block) (u dt : Real) (s : Stage) : Block × Real :=
  if T = 0 then (b, u) else getoutput b u dt s true

/-- `setMechanicalPower` (296-300). -/
def Wsieg.setMechanicalPower (g : Wsieg) (p : Real) : Wsieg := { g with Pmech1 := p, Pmech2 := p }

/-- `setRotorSpeedDeviation` (306-309). -/
def Wsieg.setRotorSpeedDeviation (g : Wsieg) (w : Real) : Wsieg := { g with w := w }

/-- Lines 136-156 and 160-180: the chain of filters from its output `u9`. -/
noncomputable def Wsieg.chainBack (g : Wsieg) (u9 : Real) : Wsieg × Real :=
  let d := backward g.T7 g.f4 u9
  let c := backward g.T6 g.f3 d.2
  let b := backward g.T5 g.f2 c.2
  let a := backward g.T4 g.f1 b.2
  ({ g with f1 := a.1, f2 := b.1, f3 := c.1, f4 := d.1 }, a.2)

open Classical in
/-- Lines 134-182: value at the gate for the given mechanical power. -/
noncomputable def Wsieg.gateFor (g : Wsieg) : Wsieg × Real :=
  if g.K1 + g.K3 + g.K5 + g.K7 > 0 then g.chainBack (g.Pmech1 / (g.K1 + g.K3 + g.K5 + g.K7))
  else if g.K2 + g.K4 + g.K6 + g.K8 > 0 then g.chainBack (g.Pmech2 / (g.K2 + g.K4 + g.K6 + g.K8))
  else (g, 0)

open Classical in
/-- `init` (129-204); the option to modify limits is always on. -/
noncomputable def Wsieg.init (g : Wsieg) : Wsieg :=
  let r := g.gateFor
  let g := r.1
  let GV := r.2
  { g with
    GV := GV
    P := (initGivenY g.P GV).1
    Pmax := if GV > g.Pmax then GV + 1 / 10 else g.Pmax
    Pmin := if GV < g.Pmin then GV - 1 / 10 else g.Pmin
    Uo := if GV > g.Uo then GV + 1 / 10 else g.Uo
    Uc := if GV < g.Uc then GV - 1 / 10 else g.Uc
    GV0 := GV
    leadlag := if g.T1 ≠ 0 ∧ g.T2 ≠ 0 then (initGivenY g.leadlag 0).1 else g.leadlag }

open Classical in
/-- `if (v > hi) v = hi; else if (v < lo) v = lo;` -/
noncomputable def limit (lo hi v : Real) : Real := if v > hi then hi else if v < lo then lo else v

open Classical in
/-- `computeModel` (209-268), the body of `predictor` and `corrector` (275-290). -/
noncomputable def Wsieg.compute (g : Wsieg) (dt : Real) (s : Stage) : Wsieg :=
  let u2 := g.w * g.K
  let l := if g.T1 = 0 ∨ g.T2 = 0 then (g.leadlag, u2) else getoutput g.leadlag u2 dt s true
  let u3 := limit g.Uc g.Uo ((g.GV0 - l.2 - g.GV) * 1 / g.T3)
  let p := getoutput g.P u3 dt s true
  let y4 := Dblock.deadband g.Db2 g.Db2 (limit g.Pmin g.Pmax p.2)
  let a := forward g.T4 g.f1 y4 dt s
  let b := forward g.T5 g.f2 a.2 dt s
  let c := forward g.T6 g.f3 b.2 dt s
  let d := forward g.T7 g.f4 c.2 dt s
  { g with leadlag := l.1, P := p.1, GV := y4, f1 := a.1, f2 := b.1, f3 := c.1, f4 := d.1,
           Pmech1 := g.K1 * a.2 + g.K3 * b.2 + g.K5 * c.2 + g.K7 * d.2
           Pmech2 := g.K2 * a.2 + g.K4 * b.2 + g.K6 * c.2 + g.K8 * d.2 }

end GridPACK.Governors
