import Verif.Model.DaeControls

/-! Model of the buses and branches of the DAE form of the dynamic simulation
(src/applications/modules/dynamic_simulation_dae/dsimnetwork.cpp, dsimfactory.cpp, dsim.hpp, dsim.cpp): placing the
variables of the devices, pushing vectors onto the devices, residual, matrix blocks, initial values, fault events.

Conventions as in `Verif/Model/DaeMachines.lean`.  All processes are taken together: a bus is modelled where it is
local, and the voltages of neighbours are those exchanged by `updateBuses`.  `load` of a bus is modelled from the point
where the devices have been created; a generator of unknown type (null pointer) does not occur.  For each pair of buses
there is at most one branch object holding all parallel lines; if there are more, the model uses the matrix block
of the first.  A branch between a bus and itself does not occur in the statements.  An isolated bus never receives a
voltage (`load` runs before the buffer exists, lines 214, 508-509, 684): the model has an arbitrary value there.  Its
matrix block is written through a pointer that was never set (lines 227, 346, 391); the model gives what the code
intends. -/
namespace GridPACK.Dae

/-- A machine model (dsimnetwork.cpp 266-278). -/
inductive Mach
  | cls (p : Cls)
  | rou (p : Rou)
  | sal (p : Sal)

/-- An exciter model (dsimnetwork.cpp 286-300). `VT` is the magnitude of the voltage last set by `setVoltage`. -/
inductive Exc
  | exdc1 (e : Exdc1)
  | esst1a (e : Esst1a) (VT : ℝ)

/-- A generator with its controls. `Efd`, `Pmech` are the members used without exciter or governor; `pg`, `qg` are the
powers of the power flow divided by `sbase`. -/
structure Gen where
  on : Bool
  mach : Mach
  exc : Option Exc
  gov : Option Wsieg1
  Efd : ℝ
  Pmech : ℝ
  pg : ℝ
  qg : ℝ

/-- `vectorSize` of the machines (classical_gen_model.cpp 19, genrou.cpp 55, gensal.cpp 47: `nxgen`). -/
def Mach.size : Mach → ℕ
  | .cls _ => 2
  | .rou _ => 6
  | .sal _ => 5

namespace Gen
variable (g : Gen)

/-- `p_neqsexc` (dsimnetwork.cpp 258, 333). -/
def nexc : ℕ := if g.exc.isSome then 5 else 0
/-- `p_neqsgov` (dsimnetwork.cpp 259, 337). -/
def ngov : ℕ := if g.gov.isSome then 6 else 0
/-- What is added to `p_nvar` (dsimnetwork.cpp 342). -/
def size : ℕ := g.mach.size + g.nexc + g.ngov

/-- The positions resulting from `setBusOffset` (dsimnetwork.cpp 331, 334, 338), `n` being `p_nvar`. -/
def pos (n : ℕ) : Ix → ℕ
  | .net i => i
  | .gen k => n + k
  | .exc k => n + g.mach.size + k
  | .gov k => n + g.mach.size + g.nexc + k

/-- `getFieldCurrent` (0 in base_gen_model.cpp 132-135). -/
noncomputable def fieldCurrent (X : Ix → ℝ) : ℝ :=
  match g.mach with
  | .cls _ => 0
  | .rou p => p.fieldCurrent X
  | .sal p => p.fieldCurrent X

/-- `getRotorSpeedDeviation` (0 in base_gen_model.cpp 141-144). -/
def dw (X : Ix → ℝ) : ℝ :=
  match g.mach with
  | .cls _ => 0
  | .rou _ => X (.gen 1)
  | .sal _ => X (.gen 1)

/-- `getRotorSpeedDeviationLocation` (0 in base_gen_model.cpp 150-153). -/
def dwLoc : Ix :=
  match g.mach with
  | .cls _ => .net 0
  | .rou _ => .gen 1
  | .sal _ => .gen 1

/-- What GENROU and GENSAL obtain from their controls (genrou.cpp 325-333, gensal.cpp 296-304 and `setJacobian`). -/
noncomputable def drive (X : Ix → ℝ) : Drive where
  Efd := match g.exc with
    | none => g.Efd
    | some (.exdc1 _) => Exdc1.efd X
    | some (.esst1a e VT) => e.efd X VT (g.fieldCurrent X)
  Pmech := match g.gov with
    | none => g.Pmech
    | some w => w.pmech X
  hasExc := g.exc.isSome
  dEfd := match g.exc with
    | none => []
    | some (.exdc1 _) => Exdc1.dEfd
    | some (.esst1a _ _) => Esst1a.dEfd
  dPmech := match g.gov with
    | none => []
    | some w => w.dPmech

/-- `vectorValues` of machine, exciter and governor. -/
noncomputable def resid (m : Mode) (X Xd P : Ix → ℝ) : Ix → ℝ
  | .net _ => 0
  | .gen k => match g.mach with
    | .cls p => p.resid m X Xd P k
    | .rou p => p.resid X (g.drive X) m Xd P k
    | .sal p => p.resid X (g.drive X) m Xd P k
  | .exc k => match g.exc with
    | none => 0
    | some (.exdc1 e) => e.resid X m Xd P k
    | some (.esst1a e _) => e.resid X m Xd P k
  | .gov k => match g.gov with
    | none => 0
    | some w => w.resid X (g.dw X) m Xd P k

/-- `getCurrent`, real part. -/
noncomputable def igd (X : Ix → ℝ) : ℝ :=
  match g.mach with
  | .cls p => p.igd X
  | .rou p => p.igd X
  | .sal p => p.igd X

/-- `getCurrent`, imaginary part. -/
noncomputable def igq (X : Ix → ℝ) : ℝ :=
  match g.mach with
  | .cls p => p.igq X
  | .rou p => p.igq X
  | .sal p => p.igq X

/-- `setJacobian` of machine, exciter and governor (dsimnetwork.cpp 462-474). -/
noncomputable def jac (m : Mode) (shift : ℝ) (X : Ix → ℝ) : List (Wr Ix) :=
  (match g.mach with
    | .cls p => p.jac m shift X
    | .rou p => p.jac X (g.drive X) m shift
    | .sal p => p.jac X (g.drive X) m shift)
  ++ (match g.exc with
    | none => []
    | some (.exdc1 e) => e.jac X m shift
    | some (.esst1a e _) => e.jac X m shift)
  ++ (match g.gov with
    | none => []
    | some w => w.jac g.dwLoc m shift)

end Gen

/-! ### Buses -/

/-- Members of `DSimBus`: shunt, load (both per unit), voltage of the power flow, generators. -/
structure Bus where
  isolated : Bool
  gl : ℝ
  bl : ℝ
  pl : ℝ
  ql : ℝ
  Vm0 : ℝ
  Va0 : ℝ
  gens : List Gen

/-- The loop of `DSimBus::load` over generators (dsimnetwork.cpp 248-344): the generators in service with the offset
given to each, and the final `p_nvar`. -/
def place : List Gen → ℕ → List (Gen × ℕ) × ℕ
  | [], n => ([], n)
  | g :: gs, n =>
    if g.on then
      let r := place gs (n + g.size)
      ((g, n) :: r.1, r.2)
    else place gs n

/-- Generators with offsets; none for an isolated bus (dsimnetwork.cpp 227). -/
def Bus.placed (b : Bus) : List (Gen × ℕ) := if b.isolated then [] else (place b.gens 2).1

/-- `p_nvar` after `load`. -/
def Bus.nvar (b : Bus) : ℕ := if b.isolated then 2 else (place b.gens 2).2

/-- What `setValues` leaves in machine, exciter and governor, the vector being read from `p` on
(dsimnetwork.cpp 697-714); `v` is the voltage at the bus. -/
def Gen.pushed (g : Gen) (v : ℝ × ℝ) (vals : ℕ → ℝ) (p : ℕ) : Ix → ℝ :=
  let p1 := p + g.mach.size
  let p2 := if g.exc.isSome then p1 + g.nexc else p1
  fun ix => match ix with
    | .net 0 => v.1
    | .net _ => v.2
    | .gen k => vals (p + k)
    | .exc k => vals (p1 + k)
    | .gov k => vals (p2 + k)

/-- The loop of `DSimBus::setValues` (dsimnetwork.cpp 693-715): what the devices of each generator hold afterwards.
Generators out of service are left alone (0 here). -/
def pushAll (v : ℝ × ℝ) (vals : ℕ → ℝ) : List Gen → ℕ → List (Ix → ℝ)
  | [], _ => []
  | g :: gs, p =>
    if g.on then
      let p1 := p + g.mach.size
      let p2 := if g.exc.isSome then p1 + g.nexc else p1
      let p3 := if g.gov.isSome then p2 + g.ngov else p2
      g.pushed v vals p :: pushAll v vals gs p3
    else (fun _ => 0) :: pushAll v vals gs p

/-- `n` values written from `p` on. -/
def wrBlock (buf : ℕ → ℝ) (p n : ℕ) (f : ℕ → ℝ) : ℕ → ℝ := fun i => if p ≤ i ∧ i < p + n then f (i - p) else buf i

/-- The loop of `DSimBus::vectorValues` over the generators (dsimnetwork.cpp 613-640) with the members holding state,
its derivative and the state before the fault; result: values, `IgenD`, `IgenQ`. -/
noncomputable def residLoop (m : Mode) :
    List Gen → List (Ix → ℝ) → List (Ix → ℝ) → List (Ix → ℝ) → (ℕ → ℝ) → ℕ → ℝ → ℝ → (ℕ → ℝ) × ℝ × ℝ
  | g :: gs, X :: Xs, Xd :: Xds, P :: Ps, buf, p, iD, iQ =>
    if g.on then
      let f := g.resid m X Xd P
      let buf1 := wrBlock buf p g.mach.size (fun k => f (.gen k))
      let p1 := p + g.mach.size
      let buf2 := if g.exc.isSome then wrBlock buf1 p1 g.nexc (fun k => f (.exc k)) else buf1
      let p2 := if g.exc.isSome then p1 + g.nexc else p1
      let buf3 := if g.gov.isSome then wrBlock buf2 p2 g.ngov (fun k => f (.gov k)) else buf2
      let p3 := if g.gov.isSome then p2 + g.ngov else p2
      residLoop m gs Xs Xds Ps buf3 p3 (iD + g.igd X) (iQ + g.igq X)
    else residLoop m gs Xs Xds Ps buf p iD iQ
  | _, _, _, _, buf, _, iD, iQ => (buf, iD, iQ)

/-! ### Branches -/

/-- The entries of one parallel line: status and the elements of its two-port. -/
structure Line where
  status : Bool
  Gff : ℝ
  Bff : ℝ
  Gft : ℝ
  Bft : ℝ
  Gtf : ℝ
  Btf : ℝ
  Gtt : ℝ
  Btt : ℝ

/-- `DSimBranch::load` for one line (dsimnetwork.cpp 784-827); `shift` in degrees. -/
noncomputable def Line.load (status : Bool) (R X Bc tap shift : ℝ) : Line :=
  let Zm := R * R + X * X
  let G := R / Zm
  let B := -X / Zm
  let tap := if tap = 0 then 1 else tap
  let shift := shift * (Real.pi / 180)
  let tap2 := tap * tap
  let tapr := tap * Real.cos shift
  let tapi := tap * Real.sin shift
  { status := status
    Gff := G / tap2
    Bff := (B + Bc / 2) / tap2
    Gft := -(G * tapr - B * tapi) / tap2
    Bft := -(B * tapr + G * tapi) / tap2
    Gtf := -(G * tapr + B * tapi) / tap2
    Btf := -(B * tapr - G * tapi) / tap2
    Gtt := G
    Btt := B + Bc / 2 }

/-- A branch object: end buses and lines. -/
structure Branch (ι : Type) where
  fr : ι
  to' : ι
  lines : List Line

/-- `getForwardSelfAdmittance` and its three companions (dsimnetwork.cpp 965-1015): a sum over lines in service. -/
def Branch.total {ι : Type} (br : Branch ι) (f : Line → ℝ) : ℝ :=
  br.lines.foldl (fun s l => if l.status then s + f l else s) 0

/-- A network: buses, branches, and the values left in the buffers of isolated buses. -/
structure Net (ι : Type) where
  bus : ι → Bus
  branches : List (Branch ι)
  junk : ι → ℝ × ℝ

namespace Net
variable {ι : Type} [DecidableEq ι] (N : Net ι)

/-- `p_VDQptr` of a bus after pushing the vector and the exchange (dsimnetwork.cpp 684-691, dsim.hpp 103-111). -/
def volt (x : ι → ℕ → ℝ) (i : ι) : ℝ × ℝ := if (N.bus i).isolated then N.junk i else (x i 0, x i 1)

/-- `getNeighborBranches`. -/
def nbrs (i : ι) : List (Branch ι) := N.branches.filter (fun br => br.fr = i ∨ br.to' = i)

/-- One turn of the loop over branches in `vectorValues` (dsimnetwork.cpp 569-592): contribution to `IbrD`, `IbrQ`. -/
def branchCurrent (x : ι → ℕ → ℝ) (i : ι) (br : Branch ι) : ℝ × ℝ :=
  if br.fr = i then
    let vf := N.volt x i
    let vt := N.volt x br.to'
    (br.total Line.Gff * vf.1 - br.total Line.Bff * vf.2 + br.total Line.Gft * vt.1 - br.total Line.Bft * vt.2,
     br.total Line.Bff * vf.1 + br.total Line.Gff * vf.2 + br.total Line.Bft * vt.1 + br.total Line.Gft * vt.2)
  else
    let vt := N.volt x i
    let vf := N.volt x br.fr
    (br.total Line.Gtt * vt.1 - br.total Line.Btt * vt.2 + br.total Line.Gtf * vf.1 - br.total Line.Btf * vf.2,
     br.total Line.Btt * vt.1 + br.total Line.Gtt * vt.2 + br.total Line.Btf * vf.1 + br.total Line.Gtf * vf.2)

/-- `DSimBus::vectorValues` with `RESIDUAL_EVAL` or `FAULT_EVAL` (dsimnetwork.cpp 539-647) after pushing `x`, `xd`, `xp`
onto the network (dsim.hpp 98-138); `buf` is the previous content of the vector. -/
noncomputable def F (m : Mode) (x xd xp : ι → ℕ → ℝ) (buf : ℕ → ℝ) (i : ι) : ℕ → ℝ :=
  let b := N.bus i
  let v := N.volt x i
  if b.isolated then
    wrBlock buf 0 2 (fun k => match k with
      | 0 => v.1 - b.Vm0 * Real.cos b.Va0
      | _ => v.2 - b.Vm0 * Real.sin b.Va0)
  else
    let ibr := (N.nbrs i).foldl (fun s br => (s.1 + (N.branchCurrent x i br).1, s.2 + (N.branchCurrent x i br).2))
      ((0 : ℝ), (0 : ℝ))
    let yp := b.pl / (b.Vm0 * b.Vm0)
    let yq := b.ql / (b.Vm0 * b.Vm0)
    let r := residLoop m b.gens (pushAll v (x i) b.gens 2) (pushAll v (xd i) b.gens 2) (pushAll v (xp i) b.gens 2)
      buf 2 0 0
    wrBlock r.1 0 2 (fun k => match k with
      | 0 => r.2.2 - (b.bl * v.1 + b.gl * v.2) - ibr.2 - (-yq * v.1 + yp * v.2)
      | _ => r.2.1 - (b.gl * v.1 - b.bl * v.2) - ibr.1 - (yp * v.1 + yq * v.2))

/-- The four `+=` with a conductance and a susceptance (dsimnetwork.cpp 422-425, 430-433, 437-440). -/
def plusGB (G B : ℝ) : List (Wr ℕ) := [plus 0 0 (-B), plus 0 1 (-G), plus 1 0 (-G), plus 1 1 B]

/-- The assignments of `DSimBus::matrixDiagValues` (dsimnetwork.cpp 378-478); `values` is cleared before. -/
noncomputable def diagWrites (m : Mode) (shift : ℝ) (x : ι → ℕ → ℝ) (i : ι) : List (Wr ℕ) :=
  let b := N.bus i
  let v := N.volt x i
  if b.isolated then [set 0 0 1, set 1 1 1]
  else
    (N.nbrs i).flatMap (fun br =>
      if br.fr = i then plusGB (br.total Line.Gff) (br.total Line.Bff)
      else plusGB (br.total Line.Gtt) (br.total Line.Btt))
    ++ plusGB b.gl b.bl
    ++ (let yp := b.pl / (b.Vm0 * b.Vm0)
        let yq := b.ql / (b.Vm0 * b.Vm0)
        [plus 0 0 yq, plus 0 1 (-yp), plus 1 0 (-yp), plus 1 1 (-yq)])
    ++ b.placed.flatMap (fun gp =>
        (gp.1.jac m shift (gp.1.pushed v (x i) gp.2)).map
          (fun w => { c := gp.1.pos gp.2 w.c, r := gp.1.pos gp.2 w.r, add := w.add, v := w.v }))

end Net

/-- One assignment to a matrix block, `M c r` being `values[c][r]`. -/
def put (M : ℕ → ℕ → ℝ) (w : Wr ℕ) : ℕ → ℕ → ℝ :=
  fun c r => if c = w.c ∧ r = w.r then (if w.add then M c r + w.v else w.v) else M c r

/-- A block after a list of assignments. -/
def run (ws : List (Wr ℕ)) : ℕ → ℕ → ℝ := ws.foldl put (fun _ _ => 0)

namespace Net
variable {ι : Type} [DecidableEq ι] (N : Net ι)

/-- `matrixForwardValues` (dsimnetwork.cpp 890-919), or `matrixReverseValues` (lines 921-949) with the elements `Gtf`,
`Btf`; the mapper clears `values` before. -/
def offWrites (br : Branch ι) (g b : Line → ℝ) : List (Wr ℕ) :=
  br.lines.flatMap (fun l =>
    if l.status then [plus 0 0 (-b l), plus 1 0 (-g l), plus 0 1 (-g l), plus 1 1 (b l)] else [])

/-- The block of the matrix with the rows of bus `i` and the columns of bus `j`: entry in column `c`, row `r`.
Blocks of branches at isolated buses do not exist (dsimnetwork.cpp 855, 873). -/
noncomputable def J (m : Mode) (shift : ℝ) (x : ι → ℕ → ℝ) (i j : ι) (c r : ℕ) : ℝ :=
  if i = j then run (N.diagWrites m shift x i) c r
  else if (N.bus i).isolated ∨ (N.bus j).isolated then 0
  else
    match N.branches.find? (fun br => (br.fr = i ∧ br.to' = j) ∨ (br.fr = j ∧ br.to' = i)) with
    | none => 0
    | some br =>
      if br.fr = i then run (offWrites br Line.Gft Line.Bft) c r else run (offWrites br Line.Gtf Line.Btf) c r

end Net

/-- The exciter after an evaluation of the residual with the voltage `v` at the bus: `setVoltage` (dsimnetwork.cpp 626) is
called after the machine asked for the field voltage (line 619). -/
noncomputable def Gen.seen (g : Gen) (v : ℝ × ℝ) : Gen :=
  match g.exc with
  | some (.esst1a e _) => { g with exc := some (.esst1a e (√(v.1 * v.1 + v.2 * v.2))) }
  | _ => g

/-- The network after an evaluation of the residual at `x` (dsimnetwork.cpp 613-640). -/
noncomputable def Net.seen {ι : Type} (N : Net ι) (x : ι → ℕ → ℝ) : Net ι :=
  { N with bus := fun i =>
      if (N.bus i).isolated then N.bus i
      else { N.bus i with gens := (N.bus i).gens.map (fun g => if g.on then g.seen (N.volt x i) else g) } }

/-! ### Initial values -/

/-- Field voltage and mechanical power held by the controls before `init` if the machine does not set them: 0 for EXDC1
(exdc1.cpp 29), undefined for ESST1A and WSIEG1. -/
structure Junk where
  Efd : ℝ
  Pmech : ℝ

/-- `init` of machine, exciter and governor (dsimnetwork.cpp 521-536): the devices afterwards (`setVoltage` included)
and the values written by each. -/
noncomputable def Gen.init (g : Gen) (j : Junk) (v : ℝ × ℝ) : Gen × (ℕ → ℝ) × (ℕ → ℝ) × (ℕ → ℝ) :=
  let (mach, xg, Efd, Pmech) : Mach × (ℕ → ℝ) × ℝ × ℝ :=
    match g.mach with
    | .cls p => (.cls (p.init g.pg g.qg v.1 v.2).1, (p.init g.pg g.qg v.1 v.2).2, j.Efd, j.Pmech)
    | .rou p => (.rou p, p.init g.pg g.qg v.1 v.2)
    | .sal p => (.sal p.admittance, p.admittance.init g.pg g.qg v.1 v.2)
  let (exc, xe) : Option Exc × (ℕ → ℝ) :=
    match g.exc with
    | none => (none, fun _ => 0)
    | some (.exdc1 e) => (some (.exdc1 (e.init Efd v.1 v.2).1), (e.init Efd v.1 v.2).2)
    | some (.esst1a e _) =>
      (some (.esst1a (e.init Efd v.1 v.2).1 (√(v.1 * v.1 + v.2 * v.2))), (e.init Efd v.1 v.2).2)
  let (gov, xv) : Option Wsieg1 × (ℕ → ℝ) :=
    match g.gov with
    | none => (none, fun _ => 0)
    | some w => (some (w.init Pmech 0).1, (w.init Pmech 0).2)
  ({ g with mach := mach, exc := exc, gov := gov, Efd := Efd, Pmech := Pmech }, xg, xe, xv)

/-- The loop of `DSimBus::vectorValues` with `INIT_X` over the generators (dsimnetwork.cpp 518-537). -/
noncomputable def initLoop (j : Junk) (v : ℝ × ℝ) : List Gen → (ℕ → ℝ) → ℕ → List Gen × (ℕ → ℝ)
  | [], buf, _ => ([], buf)
  | g :: gs, buf, p =>
    if g.on then
      let r := g.init j v
      let buf1 := wrBlock buf p g.mach.size r.2.1
      let p1 := if g.exc.isSome then p + g.mach.size else p
      let buf2 := if g.exc.isSome then wrBlock buf1 p1 g.nexc r.2.2.1 else buf1
      let p2 := if g.gov.isSome then (if g.exc.isSome then p1 + g.nexc else p1 + g.mach.size) else p1
      let buf3 := if g.gov.isSome then wrBlock buf2 p2 g.ngov r.2.2.2 else buf2
      let s := initLoop j v gs buf3 p2
      (r.1 :: s.1, s.2)
    else
      let s := initLoop j v gs buf p
      (g :: s.1, s.2)

/-- `DSimBus::vectorValues` with `INIT_X` (dsimnetwork.cpp 504-538). -/
noncomputable def Bus.initX (b : Bus) (j : Junk) (buf : ℕ → ℝ) : Bus × (ℕ → ℝ) :=
  let v := (b.Vm0 * Real.cos b.Va0, b.Vm0 * Real.sin b.Va0)
  let buf1 := wrBlock buf 0 2 (fun k => match k with
    | 0 => v.1
    | _ => v.2)
  if b.isolated then (b, buf1)
  else
    let r := initLoop j v b.gens buf1 2
    ({ b with gens := r.1 }, r.2)

/-- The network after `DSim::initialize` (dsim.cpp 265-273), and the vector. -/
noncomputable def Net.initX {ι : Type} (N : Net ι) (j : Junk) (buf : ι → ℕ → ℝ) : Net ι × (ι → ℕ → ℝ) :=
  ({ N with bus := fun i => ((N.bus i).initX j (buf i)).1 }, fun i => ((N.bus i).initX j (buf i)).2)

/-! ### Faults -/

/-- `addBusShunt` (dsimnetwork.hpp 142-146) through `setfault` (dsimfactory.cpp 79-92); the numbers of buses are
distinct. -/
def Net.setfault {ι : Type} [DecidableEq ι] (N : Net ι) (k : ι) (G B : ℝ) : Net ι :=
  { N with bus := fun i => if i = k then { N.bus i with gl := (N.bus i).gl + G, bl := (N.bus i).bl + B } else N.bus i }

/-- `DSimTimedFaultEvent::p_handle` (dsim.cpp 112-130). -/
def Net.faultHandle {ι : Type} [DecidableEq ι] (N : Net ι) (k : ι) (G B : ℝ) (t0 t1 : Bool) : Net ι :=
  if t0 then N.setfault k G (-B) else if t1 then N.setfault k (-G) B else N

end GridPACK.Dae
