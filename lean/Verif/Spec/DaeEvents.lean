import Verif.Model.DaeBus

/-! Specification for limiters and faults of the DAE form of the dynamic simulation. -/
namespace GridPACK.Dae

/-- What the handling of an event does to a limiter: nothing if its event did not occur; otherwise a limiter that holds
lets go, and one that does not hold takes hold exactly if the quantity moves outwards. -/
structure LimiterStep (before after event : Bool) (outwards : Prop) : Prop where
  keep : event = false → after = before
  release : event = true → before = true → after = false
  hold : event = true → before = false → (after = true ↔ outwards)

/-- What a change in the network (beginning or end of a fault) does to a limiter: one that holds lets go exactly if the
quantity moves inwards, one that does not hold takes hold exactly if the quantity is beyond its limit. -/
structure LimiterReset (before after : Bool) (inwards beyond : Prop) : Prop where
  release : before = true → (after = false ↔ inwards)
  hold : before = false → (after = true ↔ beyond)

/-- What the integrator watches for a limiter, waiting for a change of sign from positive to negative: for one that does not
hold, the value is negative exactly if the quantity is beyond its limit; for one that holds, exactly if the quantity
moves inwards. -/
structure LimiterWatch (holds : Bool) (value : ℝ) (beyond inwards : Prop) : Prop where
  free : holds = false → (value < 0 ↔ beyond)
  held : holds = true → (value < 0 ↔ inwards)

/-- The rate at which the regulator output of EXDC1 would change if none of its limiters held: what its differential
equation gives. -/
noncomputable def Exdc1.rate (e : Exdc1) (X : Ix → ℝ) : ℝ :=
  ({ e with VRatmin := false, VRatmax := false } : Exdc1).resid X .resid (fun _ => 0) (fun _ => 0) 2

/-- The same for ESST1A. -/
noncomputable def Esst1a.rate (e : Esst1a) (X : Ix → ℝ) : ℝ :=
  ({ e with Vaatmin := false, Vaatmax := false } : Esst1a).resid X .resid (fun _ => 0) (fun _ => 0) 3

/-- The same for the gate position of WSIEG1. -/
noncomputable def Wsieg1.rate (g : Wsieg1) (X : Ix → ℝ) (dw : ℝ) : ℝ :=
  ({ g with xatmin := false, xatmax := false } : Wsieg1).resid X dw .resid (fun _ => 0) (fun _ => 0) 1

/-- An event for a fault: bus, conductance and susceptance, and which of its two moments (beginning, end) occurred. -/
structure FaultEvent (ι : Type) where
  bus : ι
  G : ℝ
  B : ℝ
  begins : Bool
  ends : Bool

/-- The network after a list of fault events. -/
def Net.afterFaults {ι : Type} [DecidableEq ι] (N : Net ι) (es : List (FaultEvent ι)) : Net ι :=
  es.foldl (fun N e => N.faultHandle e.bus e.G e.B e.begins e.ends) N

/-- The faults that begin. -/
def beginning {ι : Type} (es : List (FaultEvent ι)) : List (ι × ℝ × ℝ) :=
  (es.filter (·.begins)).map (fun e => (e.bus, e.G, e.B))

/-- The faults that end. -/
def ending {ι : Type} (es : List (FaultEvent ι)) : List (ι × ℝ × ℝ) :=
  (es.filter (·.ends)).map (fun e => (e.bus, e.G, e.B))

end GridPACK.Dae
