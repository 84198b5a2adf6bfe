import Verif.Model.AcMotor

/-!
# Words of the claims about air conditioners
-/

namespace GridPACK.AcMotor

/-- In a history of pieces of time, each given by its length and a value, `P`
holds for longer than `T` without a break. -/
def HeldFor (h : List (ℝ × ℝ)) (P : ℝ → Prop) (T : ℝ) : Prop :=
  ∃ a b c, h = a ++ b ++ c ∧ (∀ x ∈ b, P x.2) ∧ T < (b.map Prod.fst).sum

/-- The history of the voltage at the terminals. -/
def voltages (h : List In) : List (ℝ × ℝ) := h.map fun i => (i.dt, i.v)

/-- The history of the voltage as measured by the protection. -/
noncomputable def measured (d : Dev) : State → List In → List (ℝ × ℝ)
  | _, [] => []
  | s, i :: r => (i.dt, s.vm) :: measured d (step d s i) r

/-- Time does not run backwards. -/
def Forward (h : List In) : Prop := ∀ i ∈ h, 0 ≤ i.dt

/-- Nothing happens: the voltage stays at `v`, the frequency at 1, no load is shed. -/
def Undisturbed (v : ℝ) (h : List In) : Prop :=
  ∀ i ∈ h, i.v = v ∧ i.f = 1 ∧ i.v2 = v ∧ i.f2 = 1 ∧ i.change = 0

/-- The simulation of a motor from the start at voltage `v`. -/
noncomputable def simulate (d : Dev) (v : ℝ) (h : List In) : State := runFrom d (initState d v) h

/-- The current that the motor draws from the network in which it is represented
by an admittance and an injected current. -/
noncomputable def drawn (d : Dev) (s : State) (v : ℂ) : ℂ := d.ySys * v - inject d s v

/-- The complex power in MW and Mvar of a current at a voltage (base 100 MVA). -/
noncomputable def mw (v i : ℂ) : ℂ := v * (starRingEnd ℂ) i * 100

end GridPACK.AcMotor
