import Verif.Model.Machines
import Verif.Model.DsEvents
import Mathlib.Data.Fintype.Lattice
import Mathlib.Data.Matrix.Mul

/-! Model of one time step of the dynamic simulation
(src/applications/modules/dynamic_simulation_full_y/dsf_app_module2.cpp 75-320 with the loops of
dsf_components.cpp 461-475, 642-742, 789-801 and dsf_factory.cpp 168-262).

The buses are the elements of a finite type `ι`, each with its generators (status, model) and its voltage.
The linear solver is a function from the current vector to the voltage vector.  Dynamic loads, load shedding,
scattered injections, relays, events, bus frequencies and the wide-area signal are left out; they are the
subject of other files or have no effect on the generators modelled here.  The process distribution is left out. -/
namespace GridPACK.DsStep
open GridPACK.Machines

variable {ι : Type*}

/-- The generators of a bus with `p_gstatus`, and `p_volt_full`. -/
structure Bus where
  gens : List (Bool × Gen)
  volt : ℂ

/-- The loops `if(!p_gstatus[i] || !p_generators.size()) continue; p_generators[i]->...` (dsf_components.cpp
642-742, 789-801). -/
def Bus.each (b : Bus) (f : Gen → Gen) : Bus :=
  { b with gens := b.gens.map fun g : Bool × Gen => if g.1 then (g.1, f g.2) else g }

/-- `vectorValues` in the mode `make_INorton_full` (464-475). -/
def Bus.current (b : Bus) : ℂ := b.gens.foldl (fun s g => if g.1 then s + g.2.inorton else s) 0

/-- State of the application: the buses, `INorton_full`, `Simu_Current_Step`, `last_S_Steps`. -/
structure State (ι : Type*) where
  bus : ι → Bus
  inj : ι → ℂ
  n : ℕ
  last : ℕ

/-- Options: `p_biterative_solve_network`, `MAX_ITR_NO`, `ITER_TOL`, and the linear solver. -/
structure Opts (ι : Type*) where
  iterative : Bool
  maxIts : ℕ
  tol : ℝ
  solve : (ι → ℂ) → ι → ℂ

/-- The flag passed to the generators while `S_Steps = Simu_Current_Step` (dsf_app_module2.cpp 127-131,
274-278). -/
def State.flag (s : State ι) : Bool := if s.n ≠ 0 ∧ s.last ≠ s.n then false else true

/-- `getCurrent` (124-142); `corr` is `predcorrflag`. -/
noncomputable def State.getCurrent (s : State ι) (corr : Bool) : State ι :=
  let f := s.flag
  let bus : ι → Bus := fun i => (s.bus i).each (fun g => if corr then g.corrCur else g.predCur f)
  { s with bus := bus, inj := fun i => (bus i).current }

/-- `solve`, `mapToBus`, `setVolt` (88, 94-95 and 113-116). -/
noncomputable def State.setVolt (s : State ι) (o : Opts ι) : State ι :=
  let v := o.solve s.inj
  { s with bus := fun i => { (s.bus i).each (fun g => g.setVoltage (v i)) with volt := v i } }

open Classical in
/-- The loop of the iterative network solution (86-110) with `k` passes left. -/
noncomputable def State.iterate [Fintype ι] (o : Opts ι) (corr : Bool) : ℕ → State ι → State ι
  | 0, s => s
  | k + 1, s =>
    let s' := (s.setVolt o).getCurrent corr
    if (∀ i, ‖s.inj i - s'.inj i‖ < o.tol) then s' else State.iterate o corr k s'

/-- `solveNetwork` (75-118): the loop runs while `its <= MAX_ITR_NO`. -/
noncomputable def State.solveNetwork [Fintype ι] (s : State ι) (o : Opts ι) (corr : Bool) : State ι :=
  if o.iterative then State.iterate o corr (o.maxIts + 1) s else s.setVolt o

/-- `runonestep` (234-319). -/
noncomputable def State.step [Fintype ι] (o : Opts ι) (dt : ℝ) (s : State ι) : State ι :=
  let f := s.flag
  let s := (s.getCurrent false).solveNetwork o false
  let s : State ι := { s with bus := fun i => (s.bus i).each (fun g => g.predictor dt f) }
  let s := (s.getCurrent true).solveNetwork o true
  let s : State ι := { s with bus := fun i => (s.bus i).each (fun g => g.corrector dt) }
  { s with last := s.n, n := s.n + 1 }

/-- Data of a bus for `setup`: voltage of the power flow, generators, and the data of the matrix assembly. -/
structure BusData where
  mag : ℝ
  ang : ℝ
  gens : List (Bool × Gen)
  /-- power of the generators in the data collection, system base -/
  pq : List (ℝ × ℝ)
  y : ℂ
  pl : ℝ
  ql : ℝ
  neg : List (ℝ × ℝ)
  noModel : List (ℝ × ℝ)

/-- The data of the matrix assembly (C111). -/
noncomputable def BusData.setup (b : BusData) : DsEvents.Setup :=
  { y := b.y, pl := b.pl, ql := b.ql, v := b.mag,
    gens := (b.gens.zip b.pq).map fun (g : (Bool × Gen) × ℝ × ℝ) => (g.1.1, g.2.1, g.2.2, g.1.2.norton),
    neg := b.neg, noModel := b.noModel, dynLoads := [] }

open Classical in
/-- The matrix `ybus` after `setup` (165-185): off-diagonal elements from the branches, diagonal elements from
the assembly. -/
noncomputable def matrix (net : Matrix ι ι ℂ) (d : ι → BusData) : Matrix ι ι ℂ :=
  fun i j => if i = j then (d i).setup.assemble.2 else net i j

/-- `setup` (152-229): `initDSVect`, counters. -/
noncomputable def start (d : ι → BusData) : State ι :=
  { bus := fun i => { (Bus.mk (d i).gens 0).each (fun g => g.init (d i).mag (d i).ang) with volt := 0 },
    inj := fun _ => 0, n := 0, last := 0 }

/-- The state after the given time steps (the program always uses `p_time_step`). -/
noncomputable def run [Fintype ι] (o : Opts ι) (d : ι → BusData) (dts : List ℝ) : State ι :=
  dts.foldl (fun s dt => s.step o dt) (start d)

/-! ### One generator at a given voltage -/

/-- The calls of one time step for a generator whose bus always gets the voltage `v`; `k`, `l` network
iterations. -/
noncomputable def hold (v : ℂ) (dt : ℝ) (flag : Bool) (k l : ℕ) (g : Gen) : Gen :=
  let g := ((fun g : Gen => (g.setVoltage v).predCur flag)^[k] (g.predCur flag)).setVoltage v
  let g := g.predictor dt flag
  let g := ((fun g : Gen => (g.setVoltage v).corrCur)^[l] g.corrCur).setVoltage v
  g.corrector dt

/-- The calls of one time step without network iterations, with the voltages `v1`, `v2` of the two network
solutions. -/
noncomputable def cycle (v1 v2 : ℂ) (dt : ℝ) (flag : Bool) (g : Gen) : Gen :=
  (((((g.predCur flag).setVoltage v1).predictor dt flag).corrCur).setVoltage v2).corrector dt

/-- Time steps one after the other; the first has the flag `true`. -/
noncomputable def holds (v : ℂ) (g : Gen) : List (ℝ × ℕ × ℕ) → Bool → Gen
  | [], _ => g
  | s :: ss, f => holds v (hold v s.1 f s.2.1 s.2.2 g) ss false

/-! ### Security check -/

/-- `DSFullBus::getAngle` (dsf_components.cpp 775-785): the first generator in service.  `u` is what a function
that ends without a return statement returns. -/
def busAngle (u : ℝ) (b : Bus) : ℝ := ((b.gens.find? (·.1)).map (fun g => g.2.getAngle)).getD u

open Classical in
/-- One turn of the loop of `securityCheck` (dsf_factory.cpp 405-423): maximum, minimum, result. -/
noncomputable def checkBus (t : ℝ × ℝ × Bool) (u : ℝ) (b : Bus) : ℝ × ℝ × Bool :=
  if b.gens.length > 0 then
    let a := busAngle u b
    let mx := if a > t.1 then a else t.1
    let mn := if a < t.2.1 then a else t.2.1
    (mx, mn, if mx - mn > 360 * Real.pi / 180 then false else true)
  else t

/-- `DSFullFactory::securityCheck` (397-426) on the buses of one process. -/
noncomputable def securityCheck (u : ℝ) (bs : List Bus) : Bool :=
  (bs.foldl (fun t b => checkBus t u b) (-999999, 999999, false)).2.2

end GridPACK.DsStep
