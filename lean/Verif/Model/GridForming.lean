import Verif.Model.Dblock
import Mathlib.Analysis.SpecialFunctions.Complex.Arg

/-! Model of the grid-forming inverter `GDFORM`
(src/applications/modules/dynamic_simulation_full_y/model_classes/gdform.cpp).

Doubles are real numbers.  The blocks are those of `Cblock` and `Dblock`; what their constructors leave unset
is an argument of `load`.  Output strings are not modelled. -/
namespace GridPACK.GridForming
open GridPACK.Cblock GridPACK.Dblock

/-- Values read by `load` (60-106), powers in per unit of the system base. -/
structure Record where
  sbase : Real
  mbase : Real
  pg : Real
  qg : Real
  z : ℂ
  mq : Real
  kpv : Real
  kiv : Real
  mp : Real
  kppmax : Real
  kipmax : Real
  pmax : Real
  pmin : Real
  emax : Real
  emin : Real
  tpf : Real
  imax : Real
  qmax : Real
  qmin : Real
  kpqmax : Real
  kiqmax : Real
  tqf : Real
  tvf : Real
  /-- `Vflag == 0` -/
  noPi : Bool

/-- Data members.  A filter that is not used (`zero_Tpf`, `zero_Tqf`, `zero_Tvf`) is `none`. -/
structure Gen where
  r : Record
  mbase : Real
  pF : Option Block
  qF : Option Block
  vF : Option Block
  qmaxB : Block
  qminB : Block
  pmaxB : Block
  pminB : Block
  dB : Block
  eB : Block
  V : ℂ
  E : ℂ
  I : ℂ
  edroop : Real
  eMin : Real
  eMax : Real
  delta : Real
  vset : Real
  pset : Real
  omega : Real
  pg : Real
  qg : Real
  tripped : Bool

open Classical in
/-- Machine base (70). -/
noncomputable def machineBase (r : Record) : Real := if |r.mbase| < 1 / 10 ^ 6 then r.pg else r.mbase

open Classical in
/-- A filter with time constant `T` (93, 103, 106, 111-121). -/
noncomputable def mkFilter (raw : Block) (T : Real) : Option Block :=
  if |T| < 1 / 10 ^ 6 then none else filter raw 1 T

/-- A PI block with limits (129-133); `setparams` does not throw. -/
noncomputable def mkPi (raw : Block) (kp ki lo hi : Real) : Block :=
  (withLimits (piControl raw kp ki) lo hi lo hi).getD raw

/-- `load` (54-137).  `setparams` of the blocks used does not throw. -/
noncomputable def load (raw : Block) (r : Record) : Gen :=
  ⟨r, machineBase r, mkFilter raw r.tpf, mkFilter raw r.tqf, mkFilter raw r.tvf,
   mkPi raw r.kpqmax r.kiqmax (-1000) 0, mkPi raw r.kpqmax r.kiqmax 0 1000,
   mkPi raw r.kppmax r.kipmax (-1000) 0, mkPi raw r.kppmax r.kipmax 0 1000,
   (integrator raw 1).getD raw, (piControl raw r.kpv r.kiv).getD raw,
   0, 0, 0, 0, r.emin, r.emax, 0, 0, 0, 0, r.pg, r.qg, false⟩

/-- `init_given_y` of a filter if it is used. -/
noncomputable def initFilter (b : Option Block) (y : Real) : Option Block := b.map (fun b => (initGivenY b y).1)

/-- `init` (144-201). -/
noncomputable def init (g : Gen) (vm va : Real) : Gen :=
  let pg := g.pg * (g.r.sbase / g.mbase)
  let qg := g.qg * (g.r.sbase / g.mbase)
  let v : ℂ := ⟨vm * Real.cos va, vm * Real.sin va⟩
  let i := (starRingEnd ℂ) ((⟨pg, qg⟩ : ℂ) / v)
  let e := v + g.r.z * i
  let vref := if g.r.noPi = true then ‖e‖ else (initGivenY g.eB ‖e‖).2 + vm
  { g with
    pg := pg, qg := qg, V := v, I := i, E := e, edroop := ‖e‖, delta := e.arg,
    eB := if g.r.noPi = true then g.eB else (initGivenY g.eB ‖e‖).1,
    dB := (initGivenY g.dB e.arg).1,
    pmaxB := (initGivenY g.pmaxB 0).1, pminB := (initGivenY g.pminB 0).1,
    qmaxB := (initGivenY g.qmaxB 0).1, qminB := (initGivenY g.qminB 0).1,
    pF := initFilter g.pF pg, qF := initFilter g.qF qg, vF := initFilter g.vF vm,
    vset := vref + qg * g.r.mq, pset := pg }

open Classical in
/-- `CurrentLimitLogic` (203-227): the limited current. -/
noncomputable def limitedI (g : Gen) (i : ℂ) : ℂ :=
  if ‖i‖ > g.r.imax then ⟨g.r.imax * Real.cos i.arg, g.r.imax * Real.sin i.arg⟩ else i

open Classical in
/-- `INorton` (234-247) with `CurrentLimitLogic`: what is stored. -/
noncomputable def afterNorton (g : Gen) : Gen :=
  let i := (g.E - g.V) / g.r.z
  if ‖i‖ > g.r.imax then
    { g with I := limitedI g i, E := g.V + g.r.z * limitedI g i, eMax := ‖g.V + g.r.z * limitedI g i‖,
             eMin := 0 }
  else { g with I := limitedI g i, eMax := g.r.emax, eMin := g.r.emin }

/-- `INorton` (234-247): the value returned. -/
noncomputable def iNorton (g : Gen) : ℂ :=
  (limitedI g ((g.E - g.V) / g.r.z) + g.V / g.r.z) * g.mbase / g.r.sbase

/-- `NortonImpedence` (254-267). -/
noncomputable def admittance (g : Gen) : ℂ :=
  ⟨g.r.z.re / (g.r.z.re * g.r.z.re + g.r.z.im * g.r.z.im) * (g.mbase / g.r.sbase),
   -g.r.z.im / (g.r.z.re * g.r.z.re + g.r.z.im * g.r.z.im) * (g.mbase / g.r.sbase)⟩

/-- `setVoltage` (389-397). -/
def setVoltage (g : Gen) (v : ℂ) : Gen := { g with V := v }

/-- A filter if it is used (288-304). -/
noncomputable def useFilter (b : Option Block) (u dt : Real) (s : Stage) : Option Block × Real :=
  match b with
  | none => (none, u)
  | some b => (some (getoutput b u dt s true).1, (getoutput b u dt s true).2)

/-- `omega0` (35). -/
noncomputable def omega0 : Real := 2 * Real.pi * 60

/-- `computeModel` (279-334). -/
noncomputable def call (g : Gen) (dt : Real) (s : Stage) : Gen :=
  let p := (g.V * (starRingEnd ℂ) g.I).re
  let q := (g.V * (starRingEnd ℂ) g.I).im
  let fp := useFilter g.pF p dt s
  let fq := useFilter g.qF q dt s
  let fv := useFilter g.vF ‖g.V‖ dt s
  let a := getoutput g.qmaxB (g.r.qmax - fq.2) dt s true
  let b := getoutput g.qminB (g.r.qmin - fq.2) dt s true
  let vref := g.vset - fq.2 * g.r.mq + a.2 + b.2
  let e := getoutputLim g.eB (vref - fv.2) dt (-1000) 1000 g.eMin g.eMax s true
  let ed := if g.r.noPi = true then clamp g.eMin g.eMax (1 * vref) else e.2
  let c := getoutput g.pmaxB (g.r.pmax - fp.2) dt s true
  let d := getoutput g.pminB (g.r.pmin - fp.2) dt s true
  let dom := omega0 * (g.r.mp * (g.pset - fp.2) + c.2 + d.2)
  let de := getoutput g.dB dom dt s true
  { g with
    pg := p, qg := q, pF := fp.1, qF := fq.1, vF := fv.1, qmaxB := a.1, qminB := b.1,
    eB := if g.r.noPi = true then g.eB else e.1, edroop := ed, pmaxB := c.1, pminB := d.1,
    omega := omega0 + dom, dB := de.1, delta := de.2,
    E := ⟨ed * Real.cos de.2, ed * Real.sin de.2⟩ }

/-- One time step: injection, network solution with the voltage `v.1`, predictor; the same with `v.2` and
the corrector. -/
noncomputable def step (dt : Real) (g : Gen) (v : ℂ × ℂ) : Gen :=
  call (setVoltage (afterNorton (call (setVoltage (afterNorton g) v.1) dt .predictor)) v.2) dt .corrector

/-- A simulation. -/
noncomputable def run (dt : Real) (g : Gen) (vs : List (ℂ × ℂ)) : Gen := vs.foldl (step dt) g

/-- `tripGenerator` (367-372): the state; the result is `true`. -/
def trip (g : Gen) : Gen := { g with tripped := true }

/-- Powers of the reports on the system base (420-421, 478-479). -/
noncomputable def reported (g : Gen) : Real × Real := (g.pg * g.mbase / g.r.sbase, g.qg * g.mbase / g.r.sbase)

end GridPACK.GridForming
