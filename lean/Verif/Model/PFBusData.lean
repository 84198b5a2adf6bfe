import Mathlib.Data.Real.Basic
import Mathlib.Algebra.BigOperators.Group.List.Basic

/-! Model of the input data of `PFBus` (src/applications/components/pf_matrix/pf_components.cpp), of the functions that
change generation and load, of the functions of `PFFactoryModule`
(src/applications/modules/powerflow/pf_factory_module.cpp 688-931) that apply them to an area, and of the path rating
driver (src/applications/rtpr/rtpr_driver.cpp 605-664, 1020-1159) that uses them.

Doubles are real numbers.  The parallel arrays `p_gid`, `p_gstatus`, `p_pg`, ... of a bus are one list of records; only
`p_savePg`, `p_savePl`, `p_saveQl`, which `load` does not clear, are lists of their own.  Exchange pointers, printing and
the phase angle are left out (the angle goes the same way as the voltage magnitude).  The keys for the system base, the
voltage and the bus type are taken to be present in the data collection. -/
namespace GridPACK.PFBusData

/-! ### The data collection of a bus -/

/-- The values of generator `i` in the data collection; `none` = no such key. -/
structure GenRec where
  pg : Option ℝ
  qg : Option ℝ
  vs : Option ℝ
  stat : Option Int
  qmax : Option ℝ
  qmin : Option ℝ
  pmax : Option ℝ
  pmin : Option ℝ
  id : Option String

/-- The values of load `i` in the data collection. -/
structure LoadRec where
  pl : Option ℝ
  ql : Option ℝ
  ip : Option ℝ
  iq : Option ℝ
  yp : Option ℝ
  yq : Option ℝ
  stat : Option Int
  id : Option String

/-- The data collection of a bus; `none` = `GENERATOR_NUMBER`, `LOAD_NUMBER` missing. -/
structure Data where
  sbase : ℝ
  vmag : ℝ
  type : Int
  area : Option Int
  zone : Option Int
  gens : Option (List GenRec)
  loads : Option (List LoadRec)

/-! ### The bus -/

/-- Entries of `p_gid`, `p_gstatus`, `p_pg`, `p_qg`, `p_qmax`, `p_qmin`, `p_qmax_orig`, `p_qmin_orig`, `p_pt`, `p_pb`,
`p_pFac`, `p_pFac_orig`. -/
structure Gen where
  id : String
  status : Int
  pg : ℝ
  qg : ℝ
  qmax : ℝ
  qmin : ℝ
  qmaxOrig : ℝ
  qminOrig : ℝ
  pt : ℝ
  pb : ℝ
  pFac : ℝ
  pFacOrig : ℝ

/-- Entries of `p_lid`, `p_lstatus`, `p_pl`, `p_ql`. -/
structure Load where
  id : String
  status : Int
  pl : ℝ
  ql : ℝ

structure Bus where
  gens : List Gen
  /-- `p_savePg` -/
  savePg : List ℝ
  loads : List Load
  /-- `p_savePl` -/
  savePl : List ℝ
  /-- `p_saveQl` -/
  saveQl : List ℝ
  sbase : ℝ
  /-- `p_v` -/
  v : ℝ
  /-- `p_voltage` -/
  voltage : ℝ
  /-- reference bus flag of the component -/
  ref : Bool
  /-- `p_isPV` -/
  isPV : Bool
  /-- `p_saveisPV` -/
  saveIsPV : Bool
  area : Int
  zone : Int

/-- The constructor (39-64).  The members it does not set get the values `load` will give them or are not read before
`load`. -/
def fresh : Bus := ⟨[], [], [], [], [], 0, 0, 0, false, false, false, 1, 1⟩

open Classical in
/-- One pass of the generator loop (485-531) before the participation factors are normalised: the entries pushed and
the set voltage, or `none` if the data are incomplete (`lgen` false). -/
noncomputable def genOf (r : GenRec) : Option (Gen × ℝ) :=
  match r.pg, r.qg, r.vs, r.stat, r.qmax, r.qmin with
  | some pg, some qg, some vs, some st, some qmax, some qmin =>
    let pt := r.pmax.getD 0
    let pb := r.pmin.getD 0
    let qmax := if st = 0 then 0 else qmax
    let qmin := if st = 0 then 0 else qmin
    some (⟨r.id.getD "-1", st, if st = 0 then 0 else pg, if st = 0 then 0 else qg, qmax, qmin, qmax, qmin, pt, pb,
      if st ≠ 0 then pt - pb else 0, pt - pb⟩, vs)
  | _, _, _, _, _, _ => none

open Classical in
/-- The participation factors (485, 515-516, 533-541): `pcaptot`, then either every factor is divided by it or the first
is set to 1.  `none`: `p_pFac[0]` is written although there is no generator. -/
noncomputable def normalise (gs : List Gen) : Option (List Gen) :=
  let pcaptot := (gs.map (fun g => if g.status ≠ 0 then g.pt - g.pb else 0)).sum
  if pcaptot ≠ 0 ∧ gs.length > 1 then
    some (gs.map (fun g => { g with pFac := g.pFac / pcaptot, pFacOrig := g.pFac / pcaptot }))
  else
    match gs with
    | [] => none
    | g :: gs => some ({ g with pFac := 1, pFacOrig := 1 } :: gs)

/-- One pass of the load loop (556-582). -/
noncomputable def loadOf (r : LoadRec) : Option Load :=
  match r.pl, r.ql, r.ip, r.iq, r.yp, r.yq, r.stat with
  | some pl, some ql, some ip, some iq, some yp, some yq, some st =>
    some ⟨r.id.getD "-1", st, pl + ip + yp, ql - iq - yq⟩
  | _, _, _, _, _, _, _ => none

/-- `PFBus::load` (425-594).  `none`: memory outside the (empty) array of participation factors is written. -/
noncomputable def load (d : Data) (b : Bus) : Option Bus :=
  let gl : List (Gen × ℝ) := (d.gens.getD []).filterMap genOf
  let gens := match d.gens with
    | none => some []
    | some _ => normalise (gl.map Prod.fst)
  let v := gl.foldl (fun v g => if g.1.status = 1 then g.2 else v) d.vmag
  let isPV := gl.any (fun g => decide (g.1.status = 1)) && decide (d.type = 2)
  let loads : List Load := (d.loads.getD []).filterMap loadOf
  match gens with
  | none => none
  | some gens => some
    { b with
      gens := gens
      savePg := b.savePg ++ gl.map (fun g : Gen × ℝ => g.1.pg)
      loads := loads
      savePl := b.savePl ++ loads.map Load.pl
      saveQl := b.saveQl ++ loads.map Load.ql
      sbase := d.sbase
      v := v
      voltage := d.vmag
      ref := if d.type = 3 then true else b.ref
      isPV := isPV
      saveIsPV := isPV
      area := d.area.getD 1
      zone := d.zone.getD 1 }

/-! ### Functions of the bus -/

/-- `resetVoltage` (631-644). -/
def resetVoltage (b : Bus) : Bus := { b with v := b.voltage }

/-- `setGenStatus` (736-756) on the list of generators. -/
def setGenStatusL (tag : String) (status : Bool) : List Gen → List Gen
  | [] => []
  | g :: gs =>
    if tag = g.id then
      (if status then
        { g with status := 1, pFac := g.pFacOrig, qmax := g.qmaxOrig, qmin := g.qminOrig }
      else { g with status := 0, pFac := 0, qmax := 0, qmin := 0 }) :: gs
    else g :: setGenStatusL tag status gs

/-- `setGenStatus` (736-756). -/
def setGenStatus (tag : String) (status : Bool) (b : Bus) : Bus :=
  { b with gens := setGenStatusL tag status b.gens }

/-- `getGenStatus` (699-710). -/
def getGenStatus (tag : String) (b : Bus) : Bool :=
  match b.gens.find? (fun g => decide (tag = g.id)) with
  | some g => decide (g.status ≠ 0)
  | none => false

/-- `setIsPV` (761-767). -/
def setIsPV (status : Bool) (b : Bus) : Bus :=
  { b with saveIsPV := b.isPV, isPV := status, v := b.voltage }

/-- `resetIsPV` (772-776). -/
def resetIsPV (b : Bus) : Bus := { b with isPV := b.saveIsPV }

open Classical in
/-- `scaleGeneratorRealPower` (1685-1706) on the list of generators. -/
noncomputable def scaleGenL (tag : String) (value : ℝ) : List Gen → List Gen
  | [] => []
  | g :: gs =>
    if g.id = tag ∧ g.status ≠ 0 then
      (if value > 0 then { g with pg := g.pg + value * (g.pt - g.pg) }
      else { g with pg := g.pg + value * (g.pg - g.pb) }) :: gs
    else g :: scaleGenL tag value gs

/-- `scaleGeneratorRealPower` (1685-1706). -/
noncomputable def scaleGen (tag : String) (value : ℝ) (b : Bus) : Bus :=
  { b with gens := scaleGenL tag value b.gens }

/-- `scaleLoadPower` (1739-1749) on the list of loads. -/
noncomputable def scaleLoadL (tag : String) (value : ℝ) : List Load → List Load
  | [] => []
  | l :: ls =>
    if l.id = tag ∧ l.status = 1 then { l with pl := value * l.pl, ql := value * l.ql } :: ls
    else l :: scaleLoadL tag value ls

/-- `scaleLoadPower` (1739-1749). -/
noncomputable def scaleLoad (tag : String) (value : ℝ) (b : Bus) : Bus :=
  { b with loads := scaleLoadL tag value b.loads }

/-- `setParam` with a name (1331-1350), `name = GENERATOR_PG`, on the bus with the number asked for. -/
def setPg (tag : String) (value : ℝ) (b : Bus) : Bus :=
  { b with gens := b.gens.map (fun g => if g.id = tag then { g with pg := value } else g) }

/-- `setParam` without a name (1357-1379) on the bus with the number asked for. -/
noncomputable def addPg (tag : String) (value : ℝ) (b : Bus) : Bus :=
  { b with gens := b.gens.map (fun g => if g.id = tag then { g with pg := g.pg + value } else g) }

/-- The loop of `resetPower` (1758-1760); the saved list is never shorter. -/
def restorePg : List Gen → List ℝ → List Gen
  | g :: gs, p :: ps => { g with pg := p } :: restorePg gs ps
  | gs, _ => gs

/-- The loop of `resetPower` (1761-1764). -/
def restoreLoads : List Load → List ℝ → List ℝ → List Load
  | l :: ls, p :: ps, q :: qs => { l with pl := p, ql := q } :: restoreLoads ls ps qs
  | ls, _, _ => ls

/-- `resetPower` (1754-1766). -/
def resetPower (b : Bus) : Bus :=
  { resetVoltage b with gens := restorePg b.gens b.savePg, loads := restoreLoads b.loads b.savePl b.saveQl }

/-- `getGeneratorMargins` (1775-1795): saved power, minimum, maximum, status. -/
def getGeneratorMargins (b : Bus) : List (ℝ × ℝ × ℝ × Int) :=
  (b.gens.zip b.savePg).map (fun e => (e.2, e.1.pb, e.1.pt, e.1.status))

/-- `getLoadPower` (1802-1818): saved real power and status (the reactive power is not used by the factory). -/
def getLoadPower (b : Bus) : List (ℝ × Int) := (b.loads.zip b.savePl).map (fun e => (e.2, e.1.status))

/-! ### Functions that also change the data collection -/

/-- Index of the first generator with an id (1622-1628, 1650-1656). -/
def genIndex (tag : String) (b : Bus) : Option Nat := b.gens.findIdx? (fun g => decide (g.id = tag))

/-- `setGeneratorRealPower` (1619-1640). -/
def setGeneratorRealPower (tag : String) (value : ℝ) (b : Bus) (d : Data) : Bus × Data :=
  match genIndex tag b with
  | some i => ({ b with gens := b.gens.modify i (fun g => { g with pg := value }) },
      { d with gens := d.gens.map (fun l => l.modify i (fun r => { r with pg := some value })) })
  | none => (b, d)

/-- `setGeneratorStatus` (1647-1678).  `setValue` of the power leaves a missing key missing (1664-1665). -/
def setGeneratorStatus (tag : String) (status : Int) (b : Bus) (d : Data) : Bus × Data :=
  match genIndex tag b with
  | some i =>
    let gens := b.gens.modify i (fun g =>
      if status = 0 then { g with status := status, pg := 0, qg := 0 } else { g with status := status })
    let recs := d.gens.map (fun l => l.modify i (fun r =>
      if status = 0 then { r with stat := some status, pg := r.pg.map (fun _ => 0), qg := r.qg.map (fun _ => 0) }
      else { r with stat := some status }))
    let b := { b with gens := gens }
    let pv := gens.any (fun g => decide (g.status ≠ 0))
    (setIsPV pv { b with isPV := pv }, { d with gens := recs })
  | none => (b, d)

/-- `setLoadRealPower` (1713-1733). -/
def setLoadRealPower (tag : String) (value : ℝ) (b : Bus) (d : Data) : Bus × Data :=
  match b.loads.findIdx? (fun l => decide (l.id = tag)) with
  | some i => ({ b with loads := b.loads.modify i (fun l => { l with pl := value }) },
      { d with loads := d.loads.map (fun l => l.modify i (fun r => { r with pl := some value })) })
  | none => (b, d)

/-- Sum over the loads in service (1204-1211). -/
def loadSum (f : Load → ℝ) (b : Bus) : ℝ := (b.loads.map (fun l => if l.status = 1 then f l else 0)).sum

/-- `saveData` (1212-1241): the values written to `GENERATOR_PF_PGEN`, `GENERATOR_PF_QGEN` of generator 0, 1, ...
`pinj`, `qinj` are `p_Pinj`, `p_Qinj`. -/
noncomputable def saveGen (pinj qinj : ℝ) (b : Bus) : List (ℝ × ℝ) :=
  let pl := loadSum Load.pl b
  let ql := loadSum Load.ql b
  b.gens.map (fun g =>
    if b.ref then (g.pFac * (pinj + pl / b.sbase), g.pFac * (qinj + ql / b.sbase))
    else if b.isPV then (g.pg / b.sbase, g.pFac * (qinj + ql / b.sbase))
    else (g.pg / b.sbase, g.qg / b.sbase))

/-- Writes one list of values over the records 0, 1, ... -/
def overwrite {α β : Type} (f : α → β → α) : List α → List β → List α
  | a :: as, b :: bs => f a b :: overwrite f as bs
  | as, _ => as

/-- `saveDataAlsotoOrg` (1304-1319): what it does to `GENERATOR_PG` and `GENERATOR_QG` (`setValue` only). -/
noncomputable def saveGenOrg (pinj qinj : ℝ) (b : Bus) (d : Data) : Data :=
  let pl := loadSum Load.pl b
  let ql := loadSum Load.ql b
  let vals := b.gens.map (fun g => (g.pFac * (pinj + pl / b.sbase), g.pFac * (qinj + ql / b.sbase)))
  { d with gens := d.gens.map (fun l => overwrite (fun (r : GenRec) (x : ℝ × ℝ) =>
      { r with pg := r.pg.map (fun _ => x.1 * 100), qg := r.qg.map (fun _ => x.2 * 100) }) l vals) }

/-! ### Functions of the factory -/

/-- The test `bus->getArea() == area && zone == izone` (716-722, 745-751, 774-780, 816-822). -/
def scope (area zone : Int) (b : Bus) : Bool :=
  let izone := if zone > 0 then b.zone else zone
  decide (b.area = area ∧ zone = izone)

/-- `scaleGeneratorRealPower` (709-730) on the buses of a process, ghosts included. -/
noncomputable def scaleGens (scale : ℝ) (area zone : Int) (bs : List Bus) : List Bus :=
  bs.map (fun b =>
    if scope area zone b then (b.gens.map (·.id)).foldl (fun b t => scaleGen t scale b) b else b)

/-- `scaleLoadPower` (738-759). -/
noncomputable def scaleLoads (scale : ℝ) (area zone : Int) (bs : List Bus) : List Bus :=
  bs.map (fun b =>
    if scope area zone b then (b.loads.map (·.id)).foldl (fun b t => scaleLoad t scale b) b else b)

/-- The local part of `getTotalLoadRealPower` (769-795). -/
def localLoad (area zone : Int) (bs : List Bus) : ℝ :=
  (bs.map (fun b => if scope area zone b then
    ((getLoadPower b).map (fun e => if e.2 ≠ 0 then e.1 else 0)).sum else 0)).sum

/-- `getTotalLoadRealPower` (767-798): the sum over the processes. -/
def totalLoad (area zone : Int) (procs : List (List Bus)) : ℝ := (procs.map (localLoad area zone)).sum

/-- `getGeneratorMargins` (806-837): total, minimum, maximum, as computed on one process. -/
def margins (area zone : Int) (bs : List Bus) : ℝ × ℝ × ℝ :=
  let f (g : ℝ × ℝ × ℝ × Int → ℝ) : ℝ := (bs.map (fun b => if scope area zone b then
    ((getGeneratorMargins b).map (fun e => if e.2.2.2 ≠ 0 then g e else 0)).sum else 0)).sum
  (f (fun e => e.1), f (fun e => e.2.1), f (fun e => e.2.2.1))

/-- `resetPower` (842-849). -/
def resetAll (bs : List Bus) : List Bus := bs.map resetPower

/-- `getViolations` (904-927): the indices under which process `me` stores its violations. -/
def violationIdx (sizes : List Nat) (me : Nat) : List Nat :=
  let offset := (((List.range me).filter (fun i => decide (1 ≤ i))).map (fun i => sizes.getD i 0)).sum
  (List.range (sizes.getD me 0)).map (fun k => offset + k)

/-! ### Path rating -/

open Classical in
/-- `adjustRating` (rtpr_driver.cpp 615-663), first part: the result, the load factor and the generation factor. -/
noncomputable def ratings (rating ltotal gtotal pmin pmax : ℝ) : Bool × ℝ × ℝ :=
  if rating > 1 then
    let extra := (rating - 1) * ltotal
    if extra ≤ pmax - gtotal then
      (true, rating, if pmax > gtotal then extra / (pmax - gtotal) else 0)
    else
      let extra := pmax - gtotal
      (false, (ltotal + extra) / ltotal, if pmax > gtotal then extra / (pmax - gtotal) else 0)
  else
    let extra := (1 - rating) * ltotal
    if extra ≤ gtotal - pmin then
      (true, rating, if gtotal > pmin then -extra / (gtotal - pmin) else 0)
    else
      let extra := gtotal - pmin
      (false, (ltotal - extra) / ltotal, if gtotal > pmin then -extra / (gtotal - pmin) else 0)

/-- Where generation and load are adjusted: source area and zone, destination area and zone. -/
structure Path where
  srcArea : Int
  srcZone : Int
  dstArea : Int
  dstZone : Int

/-- `adjustRating` (615-663) on one process; `procs` are the buses of all processes, `bs` those of this one. -/
noncomputable def adjustRating (p : Path) (rating : ℝ) (procs : List (List Bus)) (bs : List Bus) : Bool × List Bus :=
  let ltotal := totalLoad p.dstArea p.dstZone procs
  let m := margins p.srcArea p.srcZone bs
  let r := ratings rating ltotal m.1 m.2.1 m.2.2
  (r.1, scaleGens r.2.2 p.srcArea p.srcZone (scaleLoads r.2.1 p.dstArea p.dstZone bs))

/-- A loop that raises the rating by `h` (1025-1037, 1041-1055), entered with `checkTie` true.  `ok r` is the result of
`adjustRating` for rating `r`, `sec r` the result of the contingency runs after it; both are functions of the rating
because the power is reset after every pass.  `none`: still running after the given number of passes. -/
noncomputable def up (ok sec : ℝ → Bool) (h : ℝ) : Nat → ℝ → Option ℝ
  | 0, _ => none
  | n + 1, r =>
    let r := r + h
    if !ok r then some (r - h)
    else if sec r then up ok sec h n r
    else some (r - h)

open Classical in
/-- A loop that lowers the rating by `h` (1059-1071 with `back`; 1074-1088, 1126-1137, 1140-1156 without), entered with
`checkTie` false.  With `back`, the rating is raised again when the contingencies succeed (1069). -/
noncomputable def down (ok sec : ℝ → Bool) (h : ℝ) (back : Bool) : Nat → ℝ → Option ℝ
  | 0, _ => none
  | n + 1, r =>
    if r ≥ 0 then
      let r := r - h
      if !ok r then some (r + h)
      else if sec r then some (if back then r + h else r)
      else down ok sec h back n r
    else some r

/-- The search for the power flow rating (1020-1092) with at most `n` passes of each loop. -/
noncomputable def search (ok sec : ℝ → Bool) (n : Nat) : Option ℝ :=
  if sec 1 then (up ok sec (5 / 100) n 1).bind (up ok sec (1 / 100) n)
  else (down ok sec (5 / 100) true n 1).bind (down ok sec (1 / 100) false n)

/-- The search for the dynamic simulation rating (1117-1159) from the power flow rating. -/
noncomputable def dynSearch (ok sec : ℝ → Bool) (n : Nat) (r : ℝ) : Option ℝ :=
  (if sec r then some r else down ok sec (5 / 100) false n r).bind (down ok sec (1 / 100) false n)

end GridPACK.PFBusData
