import Verif.Model.ParamEdit
import Mathlib.Data.List.Forall2

/-! Specification of changing and reading input parameters. -/
namespace GridPACK.ParamEdit
open GridPACK.DataCollection (Ty Coll Key mapKey)
open GridPACK.StringUtils (Str)

/-- Element `j` is the first of its kind with this identifier. -/
def IsElem (k : Kind) (c : Coll (Val R)) (tag : Str) (j : Nat) : Prop :=
  (∃ n, entry c .int ⟨k.number, none⟩ = some n ∧ (j : Int) < n) ∧ entry c .string ⟨k.ids, some (j : Int)⟩ = some tag ∧
    ∀ i < j, entry c .string ⟨k.ids, some (i : Int)⟩ ≠ some tag

/-- The element exists and has the parameter with this type. -/
def Has (k : Kind) (c : Coll (Val R)) (tag param : Str) (t : Num) : Prop :=
  ∃ j, IsElem k c tag j ∧ (entry c t.ty ⟨param, some (j : Int)⟩).isSome

/-- Two lists of local buses (or branches) agree in number, ownership and all data except for entries for which `P` holds. -/
def SameExcept (P : K → Coll (Val R) → Ty → Key → Prop) (a b : List (Item K R)) : Prop :=
  List.Forall₂ (fun x y => x.key = y.key ∧ x.active = y.active ∧
    ∀ u q, ¬ P x.key x.data u q → entry y.data u q = entry x.data u q) a b

/-- Copies of the same bus or branch on two processes hold the same data. -/
def Agree (a b : List (Item K R)) : Prop := ∀ x ∈ a, ∀ y ∈ b, x.key = y.key → x.data = y.data

end GridPACK.ParamEdit
