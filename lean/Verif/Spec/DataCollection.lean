import Verif.Model.DataCollection

/-! Abstract specification: a store addressed by (type, name, optional index), holding at
most one value per address.  `add` defines an undefined address, `set` redefines a defined
one, `get` reads. -/
namespace GridPACK.DataCollection

variable {V : Ty → Type}

/-- Abstract state: what is stored at each address. -/
def Store (V : Ty → Type) := (t : Ty) → Key → Option (V t)

/-- Redefine one address. -/
def Store.put (s : Store V) (t : Ty) (k : Key) (v : V t) : Store V :=
  fun u k' => if h : u = t then (if k' = k then some (h ▸ v) else s u k') else s u k'

/-- Specified effect and observation of a call. -/
def specStep (s : Store V) : Op V → Store V × Obs V
  | .add t k v => (if (s t k).isSome then s else s.put t k v, .unit)
  | .set t k v => if (s t k).isSome then (s.put t k v, .flag true) else (s, .flag false)
  | .get t k old => match s t k with
    | some v => (s, .value true t v)
    | none => (s, .value false t old)

/-- Specified observations of a history. -/
def specRun (s : Store V) : List (Op V) → List (Obs V)
  | [] => []
  | o :: os => (specStep s o).2 :: specRun (specStep s o).1 os

/-- Address used by a call. -/
def Op.key : Op V → Key
  | .add _ k _ => k
  | .set _ k _ => k
  | .get _ k _ => k

/-- The index fits the 7 characters available (`-999999 … 9999999`). -/
def Key.small (k : Key) : Prop := ∀ i, k.idx = some i → -999999 ≤ i ∧ i ≤ 9999999

end GridPACK.DataCollection
