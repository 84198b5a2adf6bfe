import Verif.Model.ElecControl

/-! Specification for the electrical controller. -/
namespace GridPACK.ElecControl

/-- The controller as the simulation starts with it, at the voltage `v`, the reactive power `q` and the currents `ip`,
`iq` of the generator. -/
def Started (r : Record) (v q ip iq : Real) (c : Dev) : Prop :=
  ∃ raw c0, load raw r = some c0 ∧ c = start c0 v q ip iq

/-- Both tables have increasing voltages. -/
def Tables (r : Record) : Prop := ∀ k, k < 3 → r.vp k < r.vp (k + 1) ∧ r.vq k < r.vq (k + 1)

/-- Time constants and limits in which a start at the voltage `v` with the real current `ip` is possible. -/
def Usable (r : Record) (v ip : Real) : Prop :=
  0 < r.trv ∧ r.trv ≤ 1000 ∧ 0 < r.tiq ∧ r.tiq ≤ 1000 ∧ 0 < r.tpord ∧ r.tpord ≤ 1000 ∧ 0 ≤ r.dpmax ∧
  1 / 100 ≤ v ∧ v ≤ 2 ∧ r.vdip ≤ v ∧ v ≤ r.vup ∧ 0 ≤ ip ∧ r.pmin ≤ v * ip ∧ v * ip ≤ r.pmax ∧ v * ip ≤ 1000

/-- No dip in a step. -/
def calm (r : Record) (i : In × In) : Prop :=
  (r.vdip ≤ i.1.v ∧ i.1.v ≤ r.vup) ∧ (r.vdip ≤ i.2.v ∧ i.2.v ≤ r.vup)

/-- The voltage is too low in a whole step. -/
def low (r : Record) (i : In × In) : Prop := i.1.v < r.vdip ∧ i.2.v < r.vdip

/-- The same values except for the reactive power. -/
def sameButQ (i j : In) : Prop := i.pref = j.pref ∧ i.qref = j.qref ∧ i.v = j.v ∧ i.omega = j.omega

end GridPACK.ElecControl
