import Verif.Model.Dblock

/-! Model of the plant controller `REPCA1`
(src/applications/modules/dynamic_simulation_full_y/model_classes/repca1.cpp).

Doubles are real numbers.  What the constructors of the blocks leave unset is an argument of `load`. -/
namespace GridPACK.PlantControl
open GridPACK.Cblock GridPACK.Dblock

/-- Values read by `load` (54-86); the flags are `true` for values other than 0. -/
structure Record where
  vcFlag : Bool
  refFlag : Bool
  freqFlag : Bool
  kc : Real
  tfltr : Real
  dbd1 : Real
  dbd2 : Real
  emax : Real
  emin : Real
  qmax : Real
  qmin : Real
  kp : Real
  ki : Real
  tft : Real
  tfv : Real
  fdbd1 : Real
  fdbd2 : Real
  vfrz : Real
  ddn : Real
  dup : Real
  tp : Real
  femax : Real
  femin : Real
  kpg : Real
  kig : Real
  pmax : Real
  pmin : Real
  tg : Real

/-- Data members. -/
structure Plant where
  r : Record
  vF : Block
  qF : Block
  qPi : Block
  lead : Block
  pF : Block
  pPi : Block
  gF : Block
  plantRef : Real
  pref : Real
  qref : Real
  vref : Real
  freq : Real
  pg : Real
  qg : Real
  vt : Real
  freeze : Bool

/-- `load` (46-125); `none` when a block throws.  Members that are not set are 0 here; all of them are set before
they are used, by `init` and the functions called before it. -/
noncomputable def load (raw : Block) (r : Record) : Option Plant :=
  match filter raw 1 r.tfltr, withLimits (piControl raw r.kp r.ki) r.qmin r.qmax (-1000) 1000,
    leadLag raw r.tft r.tfv, filter raw 1 r.tp, withLimits (piControl raw r.kpg r.kig) r.pmin r.pmax (-1000) 1000,
    filter raw 1 r.tg with
  | some f, some a, some l, some p, some b, some g =>
    some ⟨r, f, f, a, l, p, b, g, 0, 0, 0, 0, 0, 0, 0, 0, false⟩
  | _, _, _, _, _, _ => none

/-- What is set from outside before a call: `setGenPQV` (274-279), `setBusFreq` (281-284). -/
structure In where
  p : Real
  q : Real
  v : Real
  f : Real

/-- The value at the compensation switch (164-173, 208-217). -/
noncomputable def comp (r : Record) (q v : Real) : Real := if r.vcFlag = true then v else q * r.kc + v

/-- `setGenPQV`, `setPrefQext` (286-290) and `init` (133-178), as called by the generator. -/
noncomputable def start (c : Plant) (p q v pref qref : Real) : Plant :=
  let gi := initGivenY c.gF pref
  let li := initGivenY c.lead qref
  { c with
    pg := p, qg := q, vt := v, pref := pref, plantRef := pref, qref := qref,
    gF := if c.r.freqFlag = true then gi.1 else c.gF,
    pPi := if c.r.freqFlag = true then (initGivenY c.pPi gi.2).1 else c.pPi,
    pF := if c.r.freqFlag = true then (initGivenU c.pF p).1 else c.pF,
    lead := li.1,
    qPi := (initGivenY c.qPi li.2).1,
    qF := if c.r.refFlag = true then c.qF else (initGivenU c.qF q).1,
    vF := if c.r.refFlag = true then (initGivenU c.vF (comp c.r q v)).1 else c.vF,
    vref := if c.r.refFlag = true then (initGivenU c.vF (comp c.r q v)).2 else c.vref }

/-- The contribution of the frequency (188-190); `Freq_ref` is 1. -/
noncomputable def droop (r : Record) (f : Real) : Real :=
  let e := deadband r.fdbd1 r.fdbd2 (1 - f)
  max 0 (r.ddn * e) + min 0 (r.dup * e)

/-- First part of `computeModel` (187-202). -/
noncomputable def callP (c : Plant) (dt : Real) (s : Stage) : Plant :=
  if c.r.freqFlag = true then
    let a := getoutput c.pF c.pg dt s true
    let e := clamp c.r.femin c.r.femax (1 * (c.plantRef - a.2 + droop c.r c.freq))
    let b := getoutput c.pPi e dt s true
    let g := getoutput c.gF b.2 dt s true
    { c with pF := a.1, pPi := b.1, gF := g.1, pref := g.2 }
  else c

/-- Second part of `computeModel` (204-243). -/
noncomputable def callQ (c : Plant) (dt : Real) (s : Stage) : Plant :=
  let a := getoutput c.qF c.qg dt s true
  let w := getoutput c.vF (comp c.r c.qg c.vt) dt s true
  let y := if c.r.refFlag = true then c.vref - w.2 else c.qref - a.2
  let e := clamp c.r.emin c.r.emax (1 * deadband c.r.dbd1 c.r.dbd2 y)
  let b := getoutput c.qPi e dt s (!c.freeze)
  let l := getoutput c.lead b.2 dt s true
  { c with
    qF := if c.r.refFlag = true then c.qF else a.1, vF := if c.r.refFlag = true then w.1 else c.vF,
    qPi := b.1, lead := l.1, qref := l.2 }

open Classical in
/-- `predictor` (251-260) and `corrector` (267-272) after the values have been set: the voltage is compared with the
freezing voltage by the predictor only. -/
noncomputable def call (c : Plant) (i : In) (dt : Real) (s : Stage) : Plant :=
  let c1 := { c with pg := i.p, qg := i.q, vt := i.v, freq := i.f }
  let c2 := match s with
    | .predictor => { c1 with freeze := decide (i.v < c.r.vfrz) }
    | .corrector => c1
  callQ (callP c2 dt s) dt s

/-- A simulation: the values at the predictor and at the corrector of every step. -/
noncomputable def run (dt : Real) (c : Plant) (is : List (In × In)) : Plant :=
  is.foldl (fun c i => call (call c i.1 dt .predictor) i.2 dt .corrector) c

end GridPACK.PlantControl
