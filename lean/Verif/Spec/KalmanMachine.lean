import Verif.Model.KalmanMachine

/-! Specification of machines and network of the dynamic state estimation. -/
namespace GridPACK.KalmanMachine
open Complex

/-- The voltage with magnitude `v` and angle `a`. -/
noncomputable def phasor (v a : ℝ) : ℂ := v * exp (a * I)

/-- Complex power of a generator in per unit of the system: from the load flow if it left it, else the data in MW. -/
noncomputable def genPower (sbase : ℝ) (g : GenData) : ℂ :=
  match g.pf with
  | some pq => ⟨pq.1, pq.2⟩
  | none => ⟨g.pg / sbase, g.qg / sbase⟩

/-- The load flow has left its results, the voltage of the bus is the set voltage of the generators in service, and the data of
the machine make sense: a reactance, no resistance, no subtransient reactance. -/
def Regular (v : ℝ) (g : GenData) : Prop :=
  g.pf.isSome ∧ (g.stat = 1 → g.vs = v) ∧ g.mva ≠ 0 ∧ g.xd ≠ 0 ∧ g.r = 0 ∧ g.dstr = 0

/-- Active load of a bus: the sum over the loads in service. -/
def totalPl (loads : List Load) : ℝ := ((loads.filter (fun l => l.stat == 1)).map (·.pl)).sum

end GridPACK.KalmanMachine
