import Verif.Model.DaeBus
import Mathlib.Analysis.Complex.Basic
import Mathlib.Analysis.SpecialFunctions.Exp

/-! Specification for the initial state of the DAE form of the dynamic simulation. -/
namespace GridPACK.Dae
open Complex ComplexConjugate

/-- The voltage of the power flow at a bus. -/
noncomputable def Bus.V (b : Bus) : ℂ := b.Vm0 * Complex.exp (b.Va0 * I)

/-- The power of a generator in the power flow. -/
def Gen.power (g : Gen) : ℂ := ⟨g.pg, g.qg⟩

variable {ι : Type} [DecidableEq ι]

/-- The current that the shunt and the lines in service take from bus `i`. -/
noncomputable def Net.drawn (N : Net ι) (i : ι) : ℂ :=
  (⟨(N.bus i).gl, (N.bus i).bl⟩ : ℂ) * (N.bus i).V
  + (N.branches.map (fun br =>
      (if br.fr = i then ((br.lines.filter (·.status)).map (fun l =>
        (⟨l.Gff, l.Bff⟩ : ℂ) * (N.bus br.fr).V + (⟨l.Gft, l.Bft⟩ : ℂ) * (N.bus br.to').V)).sum else 0)
      + (if br.to' = i then ((br.lines.filter (·.status)).map (fun l =>
        (⟨l.Gtt, l.Btt⟩ : ℂ) * (N.bus br.to').V + (⟨l.Gtf, l.Btf⟩ : ℂ) * (N.bus br.fr).V)).sum else 0))).sum

/-- The power flow is solved at bus `i`: the power of the generators in service less that of the load is the power that
the current to shunt and lines takes away. -/
def Net.SolvedAt (N : Net ι) (i : ι) : Prop :=
  (N.bus i).Vm0 ≠ 0 ∧
  (((N.bus i).gens.filter (·.on)).map Gen.power).sum - (⟨(N.bus i).pl, (N.bus i).ql⟩ : ℂ)
    = (N.bus i).V * conj (N.drawn i)

/-- No line in service ends at an isolated bus. -/
def Net.IsolatedOff (N : Net ι) : Prop :=
  ∀ br ∈ N.branches, ((N.bus br.fr).isolated ∨ (N.bus br.to').isolated) → ∀ l ∈ br.lines, l.status = false

/-- The parameters of a machine allow a start: the reactances used as divisors do not vanish, the admittance is that of
armature resistance and subtransient reactance; for GENROU in addition no armature resistance. -/
def Mach.Startable : Mach → Prop
  | .cls p => p.Xdp ≠ 0
  | .rou p => p.Ra = 0 ∧ p.Xdpp ≠ 0 ∧ p.Xdp ≠ p.Xl ∧ p.Xqp ≠ p.Xl ∧
      p.B = -p.Xdpp / (p.Ra * p.Ra + p.Xdpp * p.Xdpp) ∧ p.G = p.Ra / (p.Ra * p.Ra + p.Xdpp * p.Xdpp)
  | .sal p => (p.Ra ≠ 0 ∨ p.Xdpp ≠ 0) ∧ p.Xdp ≠ p.Xl

/-- No limiter of the exciter is active and its gain is not 0. -/
def Exc.Startable : Exc → Prop
  | .exdc1 e => e.KA ≠ 0 ∧ e.VRatmin = false ∧ e.VRatmax = false
  | .esst1a e _ => e.Ka ≠ 0 ∧ e.Viatmin = false ∧ e.Viatmax = false ∧ e.Vaatmin = false ∧ e.Vaatmax = false

/-- The field voltage with which a machine starts at the terminal voltage `v`. -/
noncomputable def Gen.startField (g : Gen) (v : ℝ × ℝ) : ℝ :=
  match g.mach with
  | .cls _ => 0
  | .rou p => (p.init g.pg g.qg v.1 v.2).2.1
  | .sal p => (p.admittance.init g.pg g.qg v.1 v.2).2.1

/-- The exciter can deliver the field voltage with which GENROU or GENSAL starts (which is also the field current). -/
def Gen.FieldInReach (g : Gen) (v : ℝ × ℝ) : Prop :=
  match g.mach, g.exc with
  | .cls _, _ => True
  | _, some (.esst1a e _) => √(v.1 * v.1 + v.2 * v.2) * e.Vrmin ≤ g.startField v ∧
      g.startField v ≤ √(v.1 * v.1 + v.2 * v.2) * e.Vrmax - e.Kc * g.startField v
  | _, _ => True

/-- No limiter of the governor is active; the power fractions do not add up to 0. -/
def Wsieg1.Startable (w : Wsieg1) : Prop :=
  w.uatmin = false ∧ w.uatmax = false ∧ w.xatmin = false ∧ w.xatmax = false ∧ 0 < w.K1 + w.K3 + w.K5 + w.K7

/-- A generator that can start at the terminal voltage `v`. -/
def Gen.Startable (g : Gen) (v : ℝ × ℝ) : Prop :=
  g.mach.Startable ∧ (∀ e, g.exc = some e → e.Startable) ∧ (∀ w, g.gov = some w → w.Startable) ∧ g.FieldInReach v

/-- Terminal voltage in rectangular form. -/
noncomputable def Bus.v0 (b : Bus) : ℝ × ℝ := (b.Vm0 * Real.cos b.Va0, b.Vm0 * Real.sin b.Va0)

end GridPACK.Dae
