import Verif.Model.Observations

/-! Specification of the observations: what should be listed and what values belong to the list. -/
namespace GridPACK.Observations

variable {ο α : Type}

/-- The element belongs to at most one process. -/
def OneOwner (np : Nat) (find : Nat → ο → Option Nat) : Prop :=
  ∀ o q q', q < np → q' < np → (find q o).isSome → (find q' o).isSome → q = q'

/-- The element exists in the network. -/
def IsThere (np : Nat) (find : Nat → ο → Option Nat) (o : ο) : Prop := ∃ q, q < np ∧ (find q o).isSome

/-- The value of the element: what its own bus on its own process says, `dflt` if there is no such element. -/
def IsValue (np : Nat) (find : Nat → ο → Option Nat) (val : Nat → Int → ο → Option α) (dflt : α) (o : ο) (v : α) :
    Prop :=
  (∀ q b, q < np → find q o = some b → val q b o = some v) ∧ (¬ IsThere np find o → v = dflt)

end GridPACK.Observations
