import Verif.Model.Dblock
import Mathlib.Analysis.Real.Sqrt

/-! Model of the electrical controller `REECA1`
(src/applications/modules/dynamic_simulation_full_y/model_classes/reeca1.cpp) with `PFFLAG` 0 (the control of the power
factor is not implemented there).

Doubles are real numbers.  What the constructors of the blocks leave unset is an argument of `load`.  The filter of the
electrical power is not modelled, nothing reads it. -/
namespace GridPACK.ElecControl
open GridPACK.Cblock GridPACK.Dblock

/-- Values read by `load` (58-171); the flags are `true` for values other than 0, the tables have four points. -/
structure Record where
  vFlag : Bool
  qFlag : Bool
  pFlag : Bool
  pqFlag : Bool
  trv : Real
  dbd1 : Real
  dbd2 : Real
  vdip : Real
  vup : Real
  kqv : Real
  iqh1 : Real
  iql1 : Real
  vref0 : Real
  iqfrz : Real
  thld : Real
  qmax : Real
  qmin : Real
  vmax : Real
  vmin : Real
  kqp : Real
  kqi : Real
  kvp : Real
  kvi : Real
  vbias : Real
  imax : Real
  tiq : Real
  dpmax : Real
  dpmin : Real
  pmax : Real
  pmin : Real
  tpord : Real
  vp : Nat → Real
  ip : Nat → Real
  vq : Nat → Real
  iq : Nat → Real

/-- Data members; `Iqinj_sw` is `sw`, `thld_timer` is `timer`, `Voltage_dip_prev` is `prev`.  `junk` is what a variable
contains that is not set. -/
structure Dev where
  r : Record
  vF : Block
  qPi : Block
  vPi : Block
  iqF : Block
  prefLim : GainLimiter
  pord : Block
  tab1 : Piecewise
  tab2 : Piecewise
  junk : Real
  vref : Real
  pref : Real
  qref : Real
  vt : Real
  qgen : Real
  omega : Real
  ipcmd : Real
  iqcmd : Real
  iqinj : Real
  sw : Nat
  timer : Real
  prev : Bool

/-- What is unset before `load`. -/
structure Raw where
  block : Block
  table : Piecewise
  junk : Real

/-- `load` (51-229); `none` when a block throws.  The constructor sets `omega_g` (36-39) and the number of segments of
the tables. -/
noncomputable def load (raw : Raw) (r : Record) : Option Dev :=
  match filter raw.block 1 r.trv, withLimits (piControl raw.block r.kqp r.kqi) r.vmin r.vmax (-10000) 10000,
    piControl raw.block r.kvp r.kvi, filter raw.block 1 r.tiq,
    withLimits (filter raw.block 1 r.tpord) r.pmin r.pmax (-1000) 1000 with
  | some f, some a, some b, some l, some o =>
    some ⟨r, f, a, b, l, GainLimiter.setparams 1 (-1000) 1000 r.dpmin r.dpmax, o,
      Piecewise.setparams { raw.table with n := 0 } 4 r.vp r.ip,
      Piecewise.setparams { raw.table with n := 0 } 4 r.vq r.iq,
      raw.junk, r.vref0, raw.junk, raw.junk, raw.junk, raw.junk, 1, raw.junk, raw.junk, raw.junk, 0, -1, false⟩
  | _, _, _, _, _ => none

open Classical in
/-- `getVoltageDip` (26-31). -/
noncomputable def dip (r : Record) (v : Real) : Bool := decide (v < r.vdip ∨ r.vup < v)

/-- The current injected during a dip (263-265, 420-422). -/
noncomputable def support (r : Record) (vref w : Real) : Real :=
  clamp r.iql1 r.iqh1 (1 * (r.kqv * deadband r.dbd1 r.dbd2 (vref - w)))

open Classical in
/-- `Vref0` of `init` (258). -/
noncomputable def startRef (r : Record) (v : Real) : Real := if |r.vref0| < 1 / 10 ^ 6 then v else r.vref0

/-- `setVterminal`, `setGeneratorPower`, `setIpcmdIqcmd` (484-516) and `init` (236-297), as called by the generator. -/
noncomputable def start (c : Dev) (v q ip iq : Real) : Dev :=
  let w := initGivenU c.vF v
  let o := initGivenY c.pord (w.2 * ip)
  let inj := if dip c.r v = true then support c.r (startRef c.r v) w.2 else 0
  let l := initGivenY c.iqF (iq - inj)
  let b := initGivenY c.vPi (iq - inj)
  let a := initGivenY c.qPi (b.2 + w.2)
  { c with
    vt := v, qgen := q, ipcmd := ip, iqcmd := iq, vF := w.1, pord := o.1, pref := o.2 / 1, sw := 0,
    vref := startRef c.r v, iqinj := inj,
    iqF := if c.r.qFlag = true then c.iqF else l.1,
    vPi := if c.r.qFlag = true then b.1 else c.vPi,
    qPi := if c.r.qFlag = true ∧ c.r.vFlag = true then a.1 else c.qPi,
    qref := if c.r.qFlag = true then (if c.r.vFlag = true then a.2 + q else b.2 + w.2 - c.r.vbias) else w.2 * l.2 }

open Classical in
/-- The switch of the injection in `predictor` (307-339): voltage dip now, dip at the end of the previous step. -/
noncomputable def switch (thld dt : Real) (sw : Nat) (timer : Real) (now prev : Bool) : Nat × Real :=
  if now = false then
    if prev = true then
      if |thld| < 1 / 10 ^ 6 then (0, timer) else if |thld| > 1 / 10 ^ 6 then (2, 0) else (1, 0)
    else if sw = 1 then (if timer + dt > 1 - thld then 0 else 1, timer + dt)
    else if sw = 2 then (if timer + dt > thld then 0 else 2, timer + dt)
    else (sw, timer)
  else if sw = 0 then (1, 0) else (sw, timer)

open Classical in
/-- The part of the current that is left (460-463, 466-469). -/
noncomputable def left (imax i : Real) : Real :=
  if imax * imax - i * i < 0 then 0 else Real.sqrt (imax * imax - i * i)

open Classical in
/-- `CurrentLimitLogic` (440-477): the limits for real and reactive current. -/
noncomputable def limits (c : Dev) (w : Real) : Real × Real :=
  let iqT := (c.tab1.output w).getD c.junk
  let ipT := (c.tab2.output w).getD c.junk
  if c.r.pqFlag = false then
    (if left c.r.imax c.iqcmd < ipT then left c.r.imax c.iqcmd else ipT, if c.r.imax < iqT then c.r.imax else iqT)
  else
    (if c.r.imax < ipT then c.r.imax else ipT, if left c.r.imax c.ipcmd < iqT then left c.r.imax c.ipcmd else iqT)

/-- `computeModel` (361-433). -/
noncomputable def compute (c : Dev) (now : Bool) (dt : Real) (s : Stage) : Dev :=
  let w := getoutput c.vF c.vt dt s true
  let cap := clamp (1 / 100) 2 (1 * w.2)
  let m := limits c w.2
  let pl := c.prefLim.outputRate c.pref dt (match s with | .predictor => false | .corrector => true)
  let o := getoutput c.pord (if c.r.pFlag = true then pl.2 * c.omega else pl.2) dt s (!now)
  let a := getoutput c.iqF (c.qref / cap) dt s (!now)
  let vl := if c.r.vFlag = true then getoutput1 c.qPi (clamp c.r.qmin c.r.qmax (1 * c.qref) - c.qgen)
    else c.qref + c.r.vbias
  let b := getoutputLim c.vPi (clamp c.r.vmin c.r.vmax (1 * vl) - w.2) dt (-m.2) m.2 (-1000) 1000 s (!now)
  let inj := if c.sw = 0 then 0 else if c.sw = 1 then support c.r c.vref w.2 else if c.sw = 2 then c.r.iqfrz else c.iqinj
  { c with
    vF := w.1, prefLim := pl.1, pord := o.1,
    ipcmd := clamp 0 m.1 (1 * (o.2 / cap)),
    iqF := if c.r.qFlag = true then c.iqF else a.1,
    vPi := if c.r.qFlag = true then b.1 else c.vPi,
    iqinj := inj,
    iqcmd := clamp (-m.2) m.2 (1 * ((if c.r.qFlag = true then b.2 else a.2) + inj)) }

/-- What the generator sets before a call (484-516). -/
structure In where
  pref : Real
  qref : Real
  v : Real
  q : Real
  omega : Real

/-- The setters. -/
def feed (c : Dev) (i : In) : Dev :=
  { c with pref := i.pref, qref := i.qref, vt := i.v, qgen := i.q, omega := i.omega }

/-- `predictor` (304-342). -/
noncomputable def predictor (c : Dev) (dt : Real) : Dev :=
  let n := switch c.r.thld dt c.sw c.timer (dip c.r c.vt) c.prev
  compute { c with sw := n.1, timer := n.2 } (dip c.r c.vt) dt .predictor

/-- `corrector` (349-358). -/
noncomputable def corrector (c : Dev) (dt : Real) : Dev :=
  { compute c (dip c.r c.vt) dt .corrector with prev := dip c.r c.vt }

/-- One step of the simulation, with the values set before the predictor and before the corrector. -/
noncomputable def step (dt : Real) (c : Dev) (i : In × In) : Dev :=
  corrector (feed (predictor (feed c i.1) dt) i.2) dt

/-- A simulation. -/
noncomputable def run (dt : Real) (c : Dev) (is : List (In × In)) : Dev := is.foldl (step dt) c

end GridPACK.ElecControl
