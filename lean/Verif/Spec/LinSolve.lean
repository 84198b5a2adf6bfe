import Verif.Model.LinSolve

/-! What a user of a linear solver expects. -/
namespace GridPACK.LinSolve

section
variable {M R : Type}

/-- A call of a user: solve, or solve again, with the present content of the matrix, the right hand side and the
initial estimate. -/
inductive Call (M R : Type) where
  | solve (a : M) (b x : List R)
  | resolve (a : M) (b x : List R)

/-- The right hand side of a call. -/
def Call.rhs : Call M R → List R
  | .solve _ b _ => b
  | .resolve _ b _ => b

/-- The initial estimate of a call. -/
def Call.guess : Call M R → List R
  | .solve _ _ x => x
  | .resolve _ _ x => x

/-- The content of the caller's matrix at the time of a call. -/
def Call.matrix : Call M R → M
  | .solve a _ _ => a
  | .resolve a _ _ => a

/-- The new state of the solver and the solution delivered by a call. -/
def Call.run (ksp : M → List R → Option (List R) → Option (List R)) (cfg : Cfg) (own : List (Nat × Nat))
    (st : State M R) : Call M R → State M R × Option (List R)
  | .solve a b x => LinSolve.solve ksp cfg own st a b x
  | .resolve a b x => LinSolve.resolve ksp cfg own st a b x

/-- The state of a new solver after a sequence of calls. -/
def after (ksp : M → List R → Option (List R) → Option (List R)) (cfg : Cfg) (own : List (Nat × Nat))
    (calls : List (Call M R)) : State M R :=
  calls.foldl (fun st c => (c.run ksp cfg own st).1) (State.start M R)

/-- The iterative solver only delivers solutions: whatever it returns for the matrix `a` and the right hand side
`b` gives `b` when multiplied by `a`. -/
def Exact (mul : M → List R → List R) (ksp : M → List R → Option (List R) → Option (List R)) : Prop :=
  ∀ a b g x, ksp a b g = some x → mul a x = b ∧ x.length = b.length

/-- The processes own all of the `n` entries. -/
def Covers (own : List (Nat × Nat)) (n : Nat) : Prop :=
  ∀ i, i < n → ∃ p ∈ own, p.1 ≤ i ∧ i < p.2

/-- The matrix a solution refers to: that of the last `solve`, or that of the first one when the input says that the
matrix is constant. -/
def matrixInForce (constMatrix : Bool) (calls : List (Call M R)) : Option M :=
  calls.foldl (fun m c => match c with
    | .solve a _ _ => if constMatrix then some (m.getD a) else some a
    | .resolve _ _ _ => m) none

end

end GridPACK.LinSolve
