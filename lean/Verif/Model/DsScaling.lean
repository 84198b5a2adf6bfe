import Mathlib.Data.Real.Basic
import Mathlib.Algebra.BigOperators.Group.List.Basic

/-! Model of the functions of the dynamic simulation that scale and reset power, of the totals they are based on and of
the transfer of the power flow solution.

* src/applications/modules/dynamic_simulation_full_y/dsf_components.cpp 844-961, 1144-1187 (`DSFullBus::load`),
  2457-2505 (`setGeneratorRealPower`, `setGeneratorStatus`), 2725-2784 (`scaleGeneratorRealPower`, `scaleLoadPower`,
  `resetPower`), 2795-2840 (`getGeneratorMargins`, `getLoadPower`)
* src/applications/modules/dynamic_simulation_full_y/dsf_factory.cpp 436-583 (`scaleGeneratorRealPower`,
  `scaleLoadPower`, `getTotalLoadRealPower`, `getGeneratorMargins`, `resetPower`)
* src/applications/modules/dynamic_simulation_full_y/dsf_app_module.cpp 4835-4874 (`transferPFtoDS`)

Numbers are real.  All values of a generator or load are present in the network data; loads have no dynamic model; a
bus has at least the entry `GENERATOR_NUMBER` (`p_ngen` is the number of generators read last). -/
namespace GridPACK.DsScaling

/-- A generator in the network data: `GENERATOR_ID`, `_STAT`, `_PG`, `_PMIN`, `_PMAX`. -/
structure GenRec where
  id : String
  stat : Int
  pg : ℝ
  pmin : ℝ
  pmax : ℝ

/-- A load in the network data: `LOAD_ID` and the power after the three parts have been combined (1173-1174). -/
structure LoadRec where
  id : String
  p : ℝ
  q : ℝ

/-- The network data of a bus. -/
structure Data where
  gens : List GenRec
  loads : List LoadRec

/-- The members of a bus: `p_genid`, `p_gstatus`, `p_pg`, `p_savePg`, `p_gpmin`, `p_gpmax`, `p_loadid`,
`p_powerflowload_p`, `p_powerflowload_q` and their saved copies. -/
structure Bus where
  genid : List String
  gstatus : List Int
  pg : List ℝ
  save : List ℝ
  pmin : List ℝ
  pmax : List ℝ
  loadid : List String
  p : List ℝ
  q : List ℝ
  pSave : List ℝ
  qSave : List ℝ

/-- A bus that has not been loaded. -/
def fresh : Bus := ⟨[], [], [], [], [], [], [], [], [], [], []⟩

/-- `load` (844-961, 1144-1187): `p_gstatus`, `p_savePg`, `p_gpmin` and `p_gpmax` are not among the vectors that are
cleared (849-860). -/
def load (d : Data) (b : Bus) : Bus :=
  { genid := d.gens.map GenRec.id
    gstatus := b.gstatus ++ d.gens.map GenRec.stat
    pg := d.gens.map GenRec.pg
    save := b.save ++ d.gens.map GenRec.pg
    pmin := b.pmin ++ d.gens.map GenRec.pmin
    pmax := b.pmax ++ d.gens.map GenRec.pmax
    loadid := d.loads.map LoadRec.id
    p := d.loads.map LoadRec.p
    q := d.loads.map LoadRec.q
    pSave := d.loads.map LoadRec.p
    qSave := d.loads.map LoadRec.q }

/-- `data->setValue(GENERATOR_PG,...,i)`. -/
def Data.setPg (d : Data) (i : ℕ) (v : ℝ) : Data := { d with gens := d.gens.modify i (fun g => { g with pg := v }) }

open Classical in
/-- The new power in `scaleGeneratorRealPower` (2732-2742). -/
noncomputable def scaled (v pg pmin pmax : ℝ) : ℝ :=
  if v > 0 then pg + v * (pmax - pg) else pg + v * (pg - pmin)

/-- `scaleGeneratorRealPower` of a bus (2725-2747): the first generator with the id. -/
noncomputable def scaleGen (tag : String) (v : ℝ) (s : Bus × Data) : Bus × Data :=
  match s.1.genid.findIdx? (fun t => t = tag) with
  | none => s
  | some i =>
    let x := scaled v (s.1.pg.getD i 0) (s.1.pmin.getD i 0) (s.1.pmax.getD i 0)
    ({ s.1 with pg := s.1.pg.set i x }, s.2.setPg i x)

/-- `scaleLoadPower` of a bus (2754-2765). -/
noncomputable def scaleLoad (tag : String) (v : ℝ) (s : Bus × Data) : Bus × Data :=
  match s.1.loadid.findIdx? (fun t => t = tag) with
  | none => s
  | some i => ({ s.1 with p := s.1.p.modify i (fun x => v * x), q := s.1.q.modify i (fun x => v * x) }, s.2)

/-- `setGeneratorRealPower` (2457-2473). -/
def setPower (tag : String) (v : ℝ) (s : Bus × Data) : Bus × Data :=
  match s.1.genid.findIdx? (fun t => t = tag) with
  | none => s
  | some i => ({ s.1 with pg := s.1.pg.set i v }, s.2.setPg i v)

/-- `setGeneratorStatus` (2482-2505). -/
def setStatus (tag : String) (st : Int) (s : Bus × Data) : Bus × Data :=
  match s.1.genid.findIdx? (fun t => t = tag) with
  | none => s
  | some i =>
    let d := { s.2 with gens := s.2.gens.modify i (fun g => { g with stat := st }) }
    let b := { s.1 with gstatus := s.1.gstatus.set i st }
    if st = 0 then ({ b with pg := b.pg.set i 0 }, d.setPg i 0) else (b, d)

/-- `resetPower` of a bus (2771-2784). -/
def resetPower (s : Bus × Data) : Bus × Data :=
  ({ s.1 with
      pg := s.1.pg.mapIdx (fun i _ => s.1.save.getD i 0)
      p := s.1.p.mapIdx (fun i _ => s.1.pSave.getD i 0)
      q := s.1.q.mapIdx (fun i _ => s.1.qSave.getD i 0) },
   { s.2 with gens := s.2.gens.mapIdx (fun i g => if i < s.1.genid.length then { g with pg := s.1.save.getD i 0 } else g) })

/-- What can be done to a bus between loading and resetting. -/
inductive Act where
  | scaleGen (tag : String) (v : ℝ)
  | scaleLoad (tag : String) (v : ℝ)
  | setPower (tag : String) (v : ℝ)
  | setStatus (tag : String) (st : Int)
  | reset

/-- One call. -/
noncomputable def Act.run : Act → Bus × Data → Bus × Data
  | .scaleGen tag v => DsScaling.scaleGen tag v
  | .scaleLoad tag v => DsScaling.scaleLoad tag v
  | .setPower tag v => DsScaling.setPower tag v
  | .setStatus tag st => DsScaling.setStatus tag st
  | .reset => resetPower

/-- A history of calls. -/
noncomputable def runAll (as : List Act) (s : Bus × Data) : Bus × Data := as.foldl (fun s a => a.run s) s

/-! ### The network -/

/-- A bus of a process: area and zone (891-894), whether the process owns it, and its members. -/
structure Local where
  area : Int
  zone : Int
  active : Bool
  bus : Bus

/-- The test of the factory (446-451 and the other functions): with a zone less than 1, the whole area. -/
def scope (area zone : Int) (l : Local) : Bool :=
  l.area = area && zone = (if zone > 0 then l.zone else zone)

/-- `scaleGeneratorRealPower` of the factory (436-458) for one bus. -/
noncomputable def scaleGens (v : ℝ) (area zone : Int) (l : Local) (d : Data) : Local × Data :=
  if scope area zone l then
    let r := l.bus.genid.foldl (fun s t => scaleGen t v s) (l.bus, d)
    ({ l with bus := r.1 }, r.2)
  else (l, d)

/-- `getLoadPower` (2823-2840): the saved powers; every load counts as in service. -/
def busLoad (b : Bus) : ℝ := (b.p.mapIdx (fun i _ => b.pSave.getD i 0)).sum

/-- `getTotalLoadRealPower` on a process before the sum (501-521): all buses of the process. -/
def localLoad (area zone : Int) (ls : List Local) : ℝ := ((ls.filter (scope area zone)).map (fun l => busLoad l.bus)).sum

/-- `getTotalLoadRealPower` (498-524). -/
def totalLoad (area zone : Int) (procs : List (List Local)) : ℝ := (procs.map (localLoad area zone)).sum

/-- `getGeneratorMargins` of a bus (2795-2815): saved power and limits; every generator counts as in service. -/
def busMargins (b : Bus) : ℝ × ℝ × ℝ :=
  ((b.genid.mapIdx (fun i _ => b.save.getD i 0)).sum, (b.genid.mapIdx (fun i _ => b.pmin.getD i 0)).sum,
   (b.genid.mapIdx (fun i _ => b.pmax.getD i 0)).sum)

/-- `getGeneratorMargins` of the factory (538-569) on a process: there is no sum over the processes. -/
def margins (area zone : Int) (ls : List Local) : ℝ × ℝ × ℝ :=
  ((ls.filter (scope area zone)).map (fun l => busMargins l.bus)).sum

/-! ### Transfer of the power flow solution -/

/-- The real numbers of a data collection by name and index (names without colon, so that entries are distinct, see C05). -/
def Store := String → Option ℕ → Option ℝ

/-- `getValue(name,&rval,i)`: the variable keeps its value when there is no entry. -/
def Store.get (d : Store) (k : String) (i : Option ℕ) (old : ℝ) : ℝ := (d k i).getD old

/-- `setValue(name,v,i)`: only existing entries change. -/
def Store.set (d : Store) (k : String) (i : Option ℕ) (v : ℝ) : Store :=
  fun k' i' => if k' = k ∧ i' = i then (d k i).map (fun _ => v) else d k' i'

/-- The loop over the generators (4864-4872); `r` is `rval`. -/
def transferGens (pf : Store) : ℕ → Store × ℝ → Store × ℝ
  | 0, s => s
  | n + 1, s =>
    let s := transferGens pf n s
    let p := pf.get "GENERATOR_PF_PGEN" (some n) s.2
    let q := pf.get "GENERATOR_PF_QGEN" (some n) p
    ((s.1.set "GENERATOR_PG" (some n) p).set "GENERATOR_QG" (some n) q, q)

/-- The transfer of one bus (4846-4872); `ngen` is `GENERATOR_NUMBER` of the power flow data (0 if there is none). -/
def transferBus (ngen : ℕ) (pf ds : Store) (r : ℝ) : Store × ℝ :=
  let v := pf.get "BUS_PF_VMAG" none r
  let ds := (ds.set "BUS_PF_VMAG" none v).set "BUS_VOLTAGE_MAG" none v
  let a := pf.get "BUS_PF_VANG" none v
  let ds := (ds.set "BUS_PF_VANG" none a).set "BUS_VOLTAGE_ANG" none a
  let p := pf.get "LOAD_PL" (some 0) a
  let ds := ds.set "LOAD_PL" none p
  let q := pf.get "LOAD_QL" (some 0) p
  let ds := ds.set "LOAD_QL" none q
  transferGens pf ngen (ds, q)

/-- `transferPFtoDS` (4835-4874): buses with the same local index; `rval` lives outside the loop. -/
def transfer : List (ℕ × Store × Store) → ℝ → List Store
  | [], _ => []
  | (ngen, pf, ds) :: rest, r =>
    let s := transferBus ngen pf ds r
    s.1 :: transfer rest s.2

/-- The voltage magnitude and angle in degrees that `load` takes from the data (883-888): those of the power flow if
present; an absent entry leaves the member as it is (`old`). -/
def voltage (d : Store) (old : ℝ) : ℝ := (d "BUS_PF_VMAG" none).getD (d.get "BUS_VOLTAGE_MAG" none old)
def angle (d : Store) (old : ℝ) : ℝ := (d "BUS_PF_VANG" none).getD (d.get "BUS_VOLTAGE_ANG" none old)

end GridPACK.DsScaling
