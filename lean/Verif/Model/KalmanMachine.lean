import Mathlib.Analysis.SpecialFunctions.Complex.Arg
import Mathlib.Analysis.SpecialFunctions.Trigonometric.Basic

/-! Model of the machines and of the network of the dynamic state estimation
(src/applications/components/kds_matrix/kds_components.cpp 168-230, 452-474, 511-624, 672-700, 893-1037, 1296-1313;
src/applications/modules/kalman_ds/kds_factory_module.cpp 91-103, kds_app_module.cpp 216-262).

Numbers are real.  Generators have all their static data (`lgen` is true).  A missing value of `BUS_PF_VMAG` or `BUS_PF_VANG` is
left out.  A network is the list of its buses and branches; that the parsers add what they read to the network they are given is
taken from `createNetwork` (src/parser/base_parser.hpp 86-101). -/
namespace GridPACK.KalmanMachine
open Complex

/-- Data of a generator in the data collection: power in MW, `GENERATOR_PF_PGEN` and `GENERATOR_PF_QGEN` where the load flow
left them (per unit of the system), damping and inertia where the file of machine parameters has the generator. -/
structure GenData where
  pg : ℝ
  qg : ℝ
  vs : ℝ
  stat : ℤ
  mva : ℝ
  r : ℝ
  dstr : ℝ
  xd : ℝ
  pf : Option (ℝ × ℝ)
  dyn : Option (ℝ × ℝ)

/-- What the bus keeps of a generator. -/
structure Mach where
  pm : ℝ
  dm : ℝ
  h : ℝ
  mva : ℝ
  r : ℝ
  dstr : ℝ
  xd : ℝ
  e : ℝ
  delta : ℝ

/-- `p_v`, `p_pl`, `p_ql` and the machines. -/
structure BusState where
  v : ℝ
  pl : ℝ
  ql : ℝ
  machs : List Mach

/-- `pgen`, `qgen` (567-574). -/
def power (g : GenData) : ℝ × ℝ := g.pf.getD (g.pg, g.qg)

/-- `vterm` (577). -/
noncomputable def vterm (v a : ℝ) : ℂ := v * (Real.cos a + I * Real.sin a)

/-- `Egen0` (575-579). -/
noncomputable def egen (sbase v a : ℝ) (g : GenData) : ℂ :=
  let s : ℂ := ⟨(power g).1, (power g).2⟩
  let iterm := (starRingEnd ℂ) (s / vterm v a) * sbase / g.mva
  vterm v a + iterm * I * g.xd

/-- One generator in the loop of `load` (550-617). -/
noncomputable def addGen (sbase a : ℝ) (b : BusState) (g : GenData) : BusState :=
  match g.dyn with
  | some dh =>
    ⟨if g.stat = 1 then g.vs else b.v, b.pl, b.ql,
      b.machs ++ [⟨(power g).1 * sbase / g.mva, dh.1, dh.2, g.mva, g.r, g.dstr, g.xd,
        ‖egen sbase b.v a g‖, (egen sbase b.v a g).arg⟩]⟩
  | none => ⟨b.v, b.pl - (power g).1 * sbase, b.ql - (power g).2 * sbase, b.machs⟩

/-- `load` (511-622) for voltage `v`, angle `a` and load `pl`, `ql` of the bus. -/
noncomputable def loadBus (sbase v a pl ql : ℝ) (gs : List GenData) : BusState :=
  gs.foldl (addGen sbase a) ⟨v, pl, ql, []⟩

/-- Derivative of the speed (931-933, 1011-1013). -/
noncomputable def dOmega (m : Mach) (delta omega : ℝ) (V : ℂ) : ℝ :=
  (m.pm - m.dm * (omega - 1) - m.e * ‖V‖ * Real.sin (delta - V.arg) / m.xd) / (2 * m.h)

/-- Derivative of the angle (930, 1010). -/
noncomputable def dDelta (omega : ℝ) : ℝ := 120 * Real.pi * (omega - 1)

/-- `evaluateX2` and `evaluateX3` (893-1037) of one member: from angle and speed, with the terminal voltages of both
evaluations. -/
noncomputable def step (dt : ℝ) (m : Mach) (x : ℝ × ℝ) (V1 V2 : ℂ) : ℝ × ℝ :=
  let d1 := dDelta x.2
  let o1 := dOmega m x.1 x.2 V1
  let x2 : ℝ × ℝ := (x.1 + d1 * dt, x.2 + o1 * dt)
  let d2 := dDelta x2.2
  let o2 := dOmega m x2.1 x2.2 V2
  (x.1 + 1 / 2 * (d1 + d2) * dt, x.2 + 1 / 2 * (o1 + o2) * dt)

/-- Impedance between internal and terminal voltage (191-196, 209-214). -/
noncomputable def zOf (sbase : ℝ) (m : Mach) : ℂ := ⟨m.r * sbase / m.mva, if m.dstr = 0 then m.xd * sbase / m.mva else 0⟩

/-- `Y_a` (197-198, 215); where the impedance is zero this is no number. -/
noncomputable def yA (sbase : ℝ) (m : Mach) : ℂ := 1 / zOf sbase m

/-- The diagonal element in mode `RefreshY` (203-225), with `y` the one of the network. -/
noncomputable def diag (sbase : ℝ) (y : ℂ) (b : BusState) : ℂ :=
  y + (b.machs.map (yA sbase)).sum + ⟨b.pl / (b.v * b.v * sbase), (-b.ql) / (b.v * b.v * sbase)⟩

/-- Internal voltage of a machine at angle `delta` (`E_Ensemble1`, 396-399). -/
noncomputable def internal (m : Mach) (delta : ℝ) : ℂ := m.e * ⟨Real.cos delta, Real.sin delta⟩

/-! ### Voltages of the generators of a bus -/

/-- The rows of the voltage matrix for the buses of a process: every bus has one row (`slabSize`, 269-276).  A bus is its
number of generators and its voltage. -/
def voltageRows {α : Type} (buses : List (ℕ × α)) : List α := buses.map (·.2)

/-- `slabSetValues` in modes `V1` and `V2` (452-470) on the bus at position `b` of its process: the mapper gives the bus the
address of its row in the list of row pointers, and the function reads as many rows as the bus has generators.  The voltages
the generators get; `none` is read outside of the list. -/
def genVoltages {α : Type} (buses : List (ℕ × α)) (b : ℕ) : List (Option α) :=
  (List.range ((buses[b]?.map (·.1)).getD 0)).map (fun i => (voltageRows buses)[b + i]?)

/-! ### Loads -/

/-- A load of the input file. -/
structure Load where
  pl : ℝ
  stat : ℤ

/-- What is found under `LOAD_PL` without index: the parser of version 23 stores loads with an index only, the later ones
store the first load of a bus without index as well (src/parser/PTI23_parser.hpp 322, block_parsers/load_parser33.cpp
104-105). -/
def plainPl (v23 : Bool) (loads : List Load) : Option ℝ := if v23 then none else loads.head?.map (·.pl)

/-- `p_pl` from the file (541; 0 by the constructor). -/
def kalmanPl (v23 : Bool) (loads : List Load) : ℝ := (plainPl v23 loads).getD 0

/-! ### Fault -/

/-- `setEvent` of the factory, of branch and bus (kds_factory_module.cpp 91-103, kds_components.cpp 1296-1313, 672-690,
695-700): which buses have `p_from_flag`. -/
def fromFlags (branches : List (ℤ × ℤ)) (from' to' : ℤ) : ℤ → Bool :=
  branches.foldl (fun fl br =>
    if br.1 = from' ∧ br.2 = to' then fun b => if b = br.1 then decide (br.1 = b) else if b = br.2 then decide (br.1 = b) else fl b
    else fl) (fun _ => false)

/-! ### Network -/

/-- A parser adds the buses of the file to the network. -/
def parse (file net : List ℤ) : List ℤ := net ++ file

/-- `readNetwork` of a version 23 file (242-249): the file is parsed before the test of the version and again after it. -/
def readNetwork (file : List ℤ) : List ℤ := parse file (parse file [])

end GridPACK.KalmanMachine
