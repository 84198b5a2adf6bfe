import Verif.Model.ComplexOps

/-! Specification for vectors and matrices of complex numbers stored by a library of real numbers. -/
namespace GridPACK.ComplexOps

/-- The arrays of the processes that hold the complex elements `v` (the elements of each process): the real part,
then the imaginary part, of each. -/
noncomputable def stored (v : List (List ℂ)) : List (List ℝ) := v.map (fun l => l.flatMap (fun z => [z.re, z.im]))

/-- The real vector that holds a complex vector given as a function. -/
noncomputable def pairs (x : Nat → ℂ) : Nat → ℝ := fun k => if k % 2 = 0 then (x (k / 2)).re else (x (k / 2)).im

/-- The real matrix that holds a complex matrix: the blocks `re -im / im re`. -/
noncomputable def blocks (z : Nat → Nat → ℂ) : Nat → Nat → ℝ := fun r c =>
  if r % 2 = 0 then (if c % 2 = 0 then (z (r / 2) (c / 2)).re else -(z (r / 2) (c / 2)).im)
  else (if c % 2 = 0 then (z (r / 2) (c / 2)).im else (z (r / 2) (c / 2)).re)

/-- The sparse storage of a complex matrix whose elements present are `q`: whole blocks. -/
def blockPresent (q : Nat → Nat → Bool) : Nat → Nat → Bool := fun r c => q (r / 2) (c / 2)

/-- The matrix with the operation applied to the stored elements of the first `rows` rows and `cols` columns. -/
noncomputable def applied (op : ℂ → ℂ) (q : Nat → Nat → Bool) (rows cols : Nat) (z : Nat → Nat → ℂ) :
    Nat → Nat → ℂ :=
  fun i j => if i < rows ∧ j < cols ∧ q i j = true then op (z i j) else z i j

end GridPACK.ComplexOps
