import Verif.Model.GridForming

/-! Specification for the grid-forming inverter. -/
namespace GridPACK.GridForming
open GridPACK.Cblock

/-- The current that flows into the network whose solution is the voltage `v`: the injected current less the
current through the admittance of the inverter in the network matrix. -/
noncomputable def fed (g : Gen) (v : ℂ) : ℂ := iNorton g - admittance g * v

/-- The power that goes with it. -/
noncomputable def fedPower (g : Gen) (v : ℂ) : ℂ := v * (starRingEnd ℂ) (fed g v)

/-- An inverter as the simulation starts with it, at the voltage of magnitude `vm` and angle `va`. -/
def Started (r : Record) (vm va : Real) (g : Gen) : Prop :=
  ∃ raw, Constructed raw ∧ g = init (load raw r) vm va

/-- Usable bases, impedance and voltage. -/
def Usable (r : Record) (vm : Real) : Prop :=
  0 < r.sbase ∧ 1 / 10 ^ 6 ≤ r.mbase ∧ r.z ≠ 0 ∧ 0 < vm

/-- The voltage of the power flow. -/
noncomputable def volt (vm va : Real) : ℂ := ⟨vm * Real.cos va, vm * Real.sin va⟩

/-- The power of the power flow on the base of the machine. -/
noncomputable def machinePower (r : Record) : ℂ := ⟨r.pg * (r.sbase / r.mbase), r.qg * (r.sbase / r.mbase)⟩

/-- The current of the power flow is allowed. -/
def AllowedCurrent (r : Record) (vm : Real) : Prop := ‖machinePower r‖ / vm ≤ r.imax

/-- The internal voltage that drives the power of the power flow. -/
noncomputable def internal (r : Record) (vm va : Real) : ℂ :=
  volt vm va + r.z * (starRingEnd ℂ) (machinePower r / volt vm va)

/-- A time constant that is not used or usable. -/
def UsableT (T : Real) : Prop := |T| < 1 / 10 ^ 6 ∨ 0 < T ∧ T ≤ 1000

/-- The operating point lies inside the limits of the controls. -/
def Inside (r : Record) (vm va : Real) : Prop :=
  AllowedCurrent r vm ∧ r.emin ≤ ‖internal r vm va‖ ∧ ‖internal r vm va‖ ≤ r.emax ∧
  ‖internal r vm va‖ ≤ 1000 ∧ vm ≤ 1000 ∧
  r.pmin ≤ (machinePower r).re ∧ (machinePower r).re ≤ r.pmax ∧ |(machinePower r).re| ≤ 1000 ∧
  r.qmin ≤ (machinePower r).im ∧ (machinePower r).im ≤ r.qmax ∧ |(machinePower r).im| ≤ 1000

/-- Usable parameters of the controls. -/
def Controls (r : Record) : Prop :=
  0 ≤ r.kppmax ∧ 0 ≤ r.kipmax ∧ 0 ≤ r.kpqmax ∧ 0 ≤ r.kiqmax ∧ UsableT r.tpf ∧ UsableT r.tqf ∧ UsableT r.tvf

end GridPACK.GridForming
