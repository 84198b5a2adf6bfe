import Verif.Model.PlantControl

/-! Specification for the plant controller. -/
namespace GridPACK.PlantControl
open GridPACK.Cblock

/-- The controller as the simulation starts with it, at the power `p`, `q` and the voltage `v` of the generator and
with the references `pref`, `qref` of the electrical controller. -/
def Started (r : Record) (p q v pref qref : Real) (c : Plant) : Prop :=
  ∃ raw c0, load raw r = some c0 ∧ c = start c0 p q v pref qref

/-- Usable time constants. -/
def Times (r : Record) : Prop :=
  0 < r.tfltr ∧ r.tfltr ≤ 1000 ∧ 0 < r.tfv ∧ r.tfv ≤ 1000 ∧ 0 < r.tp ∧ r.tp ≤ 1000 ∧ 0 < r.tg ∧ r.tg ≤ 1000

/-- References, power and voltage inside the limits of the controller. -/
def Inside (r : Record) (p q v pref qref : Real) : Prop :=
  r.pmin ≤ pref ∧ pref ≤ r.pmax ∧ |pref| ≤ 1000 ∧ |p| ≤ 1000 ∧ r.qmin ≤ qref ∧ qref ≤ r.qmax ∧ |qref| ≤ 1000 ∧
  |(1 - r.tft / r.tfv) * qref| ≤ 1000 ∧ |q| ≤ 1000 ∧ |comp r q v| ≤ 1000 ∧
  r.emin ≤ 0 ∧ 0 ≤ r.emax ∧ r.femin ≤ 0 ∧ 0 ≤ r.femax

/-- The same values in all calls of a simulation. -/
def constant (i : In) (n : Nat) : List (In × In) := List.replicate n (i, i)

end GridPACK.PlantControl
