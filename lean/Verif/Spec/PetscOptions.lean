import Verif.Model.PetscOptions

/-! Specification of the options of solver objects, written without the word handling of the code. -/
namespace GridPACK.PetscOptions

/-- An option as the user writes it: name and optional value. -/
structure Opt where
  name : Str
  value : Option Str

/-- The words of one option. -/
def Opt.words (o : Opt) : List Str :=
  match o.value with
  | none => ['-' :: o.name]
  | some v => ['-' :: o.name, v]

/-- The name begins with a small letter, the value does not look like an option. -/
def Opt.Wf (o : Opt) : Prop :=
  (∃ c r, o.name = c :: r ∧ c.isLower = true) ∧ ∀ v, o.value = some v → keyOf v = none

/-- The option string says exactly `os`. -/
def Says (s : Str) (os : List Opt) : Prop := (∀ o ∈ os, o.Wf) ∧ words s = os.flatMap Opt.words

/-- What the options `os` say about the name `n`: the last one counts. -/
def saysAbout (os : List Opt) (n : Str) : Option (Option Str) :=
  ((os.filter (fun o => lower o.name = lower n)).getLast?).map Opt.value

/-- A prefix that begins with a small letter and contains no blanks. -/
def GoodPrefix (p : Str) : Prop := (∃ c r, p = c :: r ∧ c.isLower = true) ∧ ∀ c ∈ p, isSep c = false

/-- Neither prefix begins with the other. -/
def Apart (p q : Str) : Prop := ¬ lower p <+: lower q ∧ ¬ lower q <+: lower p

/-- The last event of object `i`. -/
def lastOf (ops : List Op) (i : Nat) : Option Op :=
  (ops.filter (fun o => match o with | .configure j _ _ => decide (j = i) | .destroy j => decide (j = i))).getLast?

/-- A history in which object `i` has the prefix `pre i`, each configuration says a list of options, and no
object is configured a second time before it is destroyed. -/
inductive Clean (pre : Nat → Str) : List Op → Prop
  | nil : Clean pre []
  | configure (ops : List Op) (i : Nat) (opts : Str) (os : List Opt) : Clean pre ops → Says opts os →
      (∀ p' opts', lastOf ops i ≠ some (.configure i p' opts')) →
      Clean pre (ops ++ [.configure i (pre i) opts])
  | destroy (ops : List Op) (i : Nat) : Clean pre ops → Clean pre (ops ++ [.destroy i])

end GridPACK.PetscOptions
