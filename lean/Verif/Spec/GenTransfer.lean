import Verif.Model.GenTransfer
import Verif.Props.GenMap

/-! Specification of the transfer between network and vector or slab. -/
namespace GridPACK.GenTransfer
open GenMap

variable {α : Type}

/-- The values in `x` at the indices of a component are its own values, in order. -/
def Holds (g : Comp → Nat) (p : Proc) (x : Nat → α) (c : Comp) (v : Nat → α) : Prop :=
  (indices g p c).map x = (List.range (size p c)).map v

/-- All components that supply rows, on all processes, have the same number of columns. -/
def Uniform (css : List (List (Nat × Nat))) (n : Nat) : Prop :=
  ∀ cs ∈ css, ∀ c ∈ cs, c.1 > 0 → c.2 = n

end GridPACK.GenTransfer
