import Mathlib.Analysis.Complex.Exponential
import Mathlib.Analysis.Complex.Norm
import Mathlib.Algebra.BigOperators.Group.Finset.Basic
import Verif.Model.ValueTransfer

/-! Model of the operations on vectors and matrices of complex numbers when the PETSc library is built for real
numbers: the operators (src/math/complex_operators.hpp), the operations of vectors
(src/math/petsc/petsc_vector_implementation.hpp, petsc_vector.cpp, src/math/vector_implementation.cpp), of matrices
(src/math/petsc/petsc_matrix_implementation.hpp, petsc_matrix.cpp, petsc_matrix_operations.cpp,
src/math/fallback_matrix_operations.hpp, fallback_matrix_methods.hpp).  A vector is the list of the local arrays of
the processes; a matrix is the function of its real entries with the positions present in the sparse storage.  The
routines of PETSc on real vectors and matrices (products, sums, transposes, columns) are their mathematical
definitions; the loops of all processes over their rows are one loop over all rows.  Division by zero gives zero in
the model; the theorems exclude it. -/
namespace GridPACK.ComplexOps

open ValueTransfer

/-! ### Operators on arrays -/

/-- `unary_operation<ComplexType, RealType>` (complex_operators.hpp 116-127). -/
noncomputable def unaryPairs (op : ℂ → ℂ) : List ℝ → List ℝ
  | a :: b :: rest => (op ⟨a, b⟩).re :: (op ⟨a, b⟩).im :: unaryPairs op rest
  | l => l

/-- `binary_operation<ComplexType, RealType>` (487-500). -/
noncomputable def binaryPairs (op : ℂ → ℂ → ℂ) : List ℝ → List ℝ → List ℝ
  | a :: b :: rest, c :: d :: rest' =>
    (op ⟨a, b⟩ ⟨c, d⟩).re :: (op ⟨a, b⟩ ⟨c, d⟩).im :: binaryPairs op rest rest'
  | l, _ => l

/-- `accumulator_operation<ComplexType, RealType>` (345-355). -/
noncomputable def accumPairs (f : ℝ → ℂ → ℝ) : ℝ → List ℝ → ℝ
  | acc, a :: b :: rest => accumPairs f (f acc ⟨a, b⟩) rest
  | acc, _ => acc

/-- `setvalue` (153-159). -/
def setvalue (v : ℂ) : ℂ → ℂ := fun _ => v
/-- `addvalue` (164-170). -/
noncomputable def addvalue (v : ℂ) : ℂ → ℂ := fun x => x + v
/-- `multiplyvalue` (176-182). -/
noncomputable def multiplyvalue (f : ℂ) : ℂ → ℂ := fun x => x * f
/-- `absvalue<ComplexType>` (203-209). -/
noncomputable def absvalue : ℂ → ℂ := fun x => ((‖x‖ : ℝ) : ℂ)
/-- `exponential` (214-218). -/
noncomputable def exponential : ℂ → ℂ := fun x => Complex.exp x
/-- `reciprocal` (223-230). -/
noncomputable def reciprocal : ℂ → ℂ := fun x => 1 / x
/-- `conjugate_value<ComplexType>` (248-253). -/
noncomputable def conjugateValue : ℂ → ℂ := fun x => (starRingEnd ℂ) x
/-- `real_value<ComplexType>` (271-276). -/
noncomputable def realValue : ℂ → ℂ := fun x => (x.re : ℂ)
/-- `imaginary_value<ComplexType>` (294-299). -/
noncomputable def imaginaryValue : ℂ → ℂ := fun x => (x.im : ℂ)
/-- `l1_norm<ComplexType>` (374-379). -/
noncomputable def l1 (acc : ℝ) (x : ℂ) : ℝ := acc + ‖x‖
/-- `l2_norm<ComplexType>` (397-403). -/
noncomputable def l2 (acc : ℝ) (x : ℂ) : ℝ := acc + ‖x‖ * ‖x‖
/-- `infinity_norm<ComplexType>` (422-428). -/
noncomputable def linf (acc : ℝ) (x : ℂ) : ℝ := max acc ‖x‖
/-- `multiplyvalue2` (532-536). -/
noncomputable def multiplyvalue2 : ℂ → ℂ → ℂ := fun x y => x * y
/-- `dividevalue2` (541-545). -/
noncomputable def dividevalue2 : ℂ → ℂ → ℂ := fun x y => x / y
/-- `scaleAdd2` (550-559). -/
noncomputable def scaleAdd2 (alpha : ℂ) : ℂ → ℂ → ℂ := fun x y => x + alpha * y

/-! ### Vectors -/

/-- `p_applyOperation` (petsc_vector_implementation.hpp 97-109) on all processes. -/
noncomputable def apply (op : ℂ → ℂ) (v : List (List ℝ)) : List (List ℝ) := v.map (unaryPairs op)

/-- `applyBinaryOperator` (petsc_vector.cpp 32-55) on all processes. -/
noncomputable def applyBinary (op : ℂ → ℂ → ℂ) (v w : List (List ℝ)) : List (List ℝ) :=
  List.zipWith (binaryPairs op) v w

/-- `p_fill` (petsc_vector_implementation.hpp 281-297). -/
noncomputable def fill (x : ℂ) := apply (setvalue x)
/-- `p_scale` (300-316). -/
noncomputable def scale (x : ℂ) := apply (multiplyvalue x)
/-- `p_abs` (362-370). -/
noncomputable def abs := apply absvalue
/-- `p_conjugate` (373-381). -/
noncomputable def conjugate := apply conjugateValue
/-- `p_exp` (384-392). -/
noncomputable def exp := apply exponential
/-- `p_reciprocal` (395-403). -/
noncomputable def recip := apply reciprocal
/-- `VectorT::add(const TheType&)` (petsc_vector.cpp 137-159). -/
noncomputable def addScalar (x : ℂ) := apply (addvalue x)
/-- `VectorT::add(const VectorT&, scale)` (108-129). -/
noncomputable def addVector (v w : List (List ℝ)) (alpha : ℂ) := applyBinary (scaleAdd2 alpha) v w
/-- `elementMultiply` (197-215). -/
noncomputable def elementMultiply (v w : List (List ℝ)) := applyBinary multiplyvalue2 v w
/-- `elementDivide` (223-241). -/
noncomputable def elementDivide (v w : List (List ℝ)) := applyBinary dividevalue2 v w

/-- `VectorImplementation<ComplexType>::p_real` (vector_implementation.cpp 18-32): the local elements are read,
replaced by their real parts and written back. -/
noncomputable def realParts (v : List (List ℝ)) : Option (List (List ℝ)) :=
  v.mapM (fun l => (realToComplex l l.length).map (fun zs => complexToReal (zs.map realValue)))

/-- `p_imaginary` (vector_implementation.cpp 44-58). -/
noncomputable def imaginaryParts (v : List (List ℝ)) : Option (List (List ℝ)) :=
  v.mapM (fun l => (realToComplex l l.length).map (fun zs => complexToReal (zs.map imaginaryValue)))

/-- `p_norm1` (petsc_vector_implementation.hpp 319-330): the sum over the processes of the local sums. -/
noncomputable def norm1 (v : List (List ℝ)) : ℝ := (v.map (accumPairs l1 0)).sum
/-- `p_norm2` (333-345). -/
noncomputable def norm2 (v : List (List ℝ)) : ℝ := Real.sqrt (v.map (accumPairs l2 0)).sum
/-- `p_normInfinity` (348-359): the maximum over the processes (there is at least one). -/
noncomputable def normInfinity (v : List (List ℝ)) : ℝ := (v.map (accumPairs linf 0)).foldr max 0

/-! ### Matrices -/

/-- `p_getElement` (petsc_matrix_implementation.hpp 390-411) as a number. -/
noncomputable def getElement (m : Nat → Nat → ℝ) (i j : Nat) : ℂ := ((matGetElement m i j).getD []).headD 0

/-- PETSc `MatMult`: `k` columns. -/
noncomputable def matMult (k : Nat) (m : Nat → Nat → ℝ) (x : Nat → ℝ) : Nat → ℝ :=
  fun r => ∑ c ∈ Finset.range k, m r c * x c

/-- PETSc `MatMultTranspose`: `k` rows. -/
noncomputable def matMultTranspose (k : Nat) (m : Nat → Nat → ℝ) (x : Nat → ℝ) : Nat → ℝ :=
  fun c => ∑ r ∈ Finset.range k, m r c * x r

/-- `multiply` of a matrix with `cols` (complex) columns and a vector (petsc_matrix_operations.cpp 328-351). -/
noncomputable def multiply (cols : Nat) (m : Nat → Nat → ℝ) (x : Nat → ℝ) : Nat → ℝ := matMult (cols * 2) m x

/-- `multiply` of two matrices (369-386, 400-422): PETSc `MatMatMult`. -/
noncomputable def multiplyMatrix (cols : Nat) (a b : Nat → Nat → ℝ) : Nat → Nat → ℝ :=
  fun r c => ∑ k ∈ Finset.range (cols * 2), a r k * b k c

/-- `transposeMultiply` (petsc_matrix_operations.cpp 165-180): `rows` (complex) rows. -/
noncomputable def transposeMultiply (rows : Nat) (m : Nat → Nat → ℝ) (x : Nat → ℝ) : Nat → ℝ :=
  matMultTranspose (rows * 2) m x

/-- `MatrixT::add` (petsc_matrix.cpp 197-212). -/
noncomputable def addMatrix (a b : Nat → Nat → ℝ) : Nat → Nat → ℝ := fun r c => a r c + b r c

/-- `column` (petsc_matrix_operations.cpp 205-228). -/
def column (m : Nat → Nat → ℝ) (cidx : Nat) : Nat → ℝ := fun r => m r (cidx * 2)

/-- `fallback::diagonal(A, d)` (fallback_matrix_operations.hpp 39-50): `n` rows. -/
noncomputable def diagonal (n : Nat) (m : Nat → Nat → ℝ) (d : Nat → ℝ) : Nat → ℝ :=
  (List.range n).foldl (fun v i => setOrAddElements false v [(i, getElement m i i)]) d

/-- `fallback::diagonal(x, stype)` (62-80): `x` by its elements. -/
noncomputable def diagonalMatrix (n : Nat) (x : Nat → ℂ) : Nat → Nat → ℝ :=
  (List.range n).foldl (fun t i => matSetElement false t i i (x i)) (fun _ _ => 0)

/-- `fallback::addDiagonal(A, x)` with a vector (fallback_matrix_operations.hpp 147-159) or with a number
(fallback_matrix_methods.hpp 38-48). -/
noncomputable def addDiagonal (n : Nat) (m : Nat → Nat → ℝ) (x : Nat → ℂ) : Nat → Nat → ℝ :=
  (List.range n).foldl (fun t i => matSetElement true t i i (x i)) m

/-- `fallback::multiplyDiagonal` (fallback_matrix_operations.hpp 114-135): the products first, then the entries. -/
noncomputable def multiplyDiagonal (n : Nat) (m : Nat → Nat → ℝ) (x : Nat → ℂ) : Nat → Nat → ℝ :=
  let dnew := (List.range n).map (fun i => x i * getElement m i i)
  (List.range n).foldl (fun t i => matSetElement false t i i (dnew.getD i 0)) m

/-- `fallback::norm2` (fallback_matrix_methods.hpp 52-73). -/
noncomputable def matNorm2 (rows cols : Nat) (m : Nat → Nat → ℝ) : ℝ :=
  Real.sqrt ((List.range rows).foldl (fun acc i =>
    (List.range cols).foldl (fun acc j => l2 acc (getElement m i j)) acc) 0)

/-- The entries of a row in the storage (`MatGetRow`): the columns present, in order. -/
def rowEntries (present : Nat → Nat → Bool) (m : Nat → Nat → ℝ) (r k : Nat) : List (Nat × ℝ) :=
  ((List.range k).filter (present r)).map (fun c => (c, m r c))

/-- The entries at the positions 0, 2, 4, ... -/
def everyOther {α : Type} : List α → List α
  | a :: _ :: rest => a :: everyOther rest
  | l => l

/-- One row of `p_applyOperation` (petsc_matrix_implementation.hpp 197-240): the entries of the even row are read as
complex numbers (`none`: past the end of the row), conjugated, changed, and set in the temporary matrix. -/
noncomputable def applyRow (op : ℂ → ℂ) (present : Nat → Nat → Bool) (cols : Nat) (m : Nat → Nat → ℝ)
    (tmp : Nat → Nat → ℝ) (i : Nat) : Option (Nat → Nat → ℝ) := do
  let es := rowEntries present m (i * 2) (cols * 2)
  let zs ← realToComplex (es.map (·.2)) es.length
  let ws := (zs.map conjugateValue).map op
  pure (((everyOther (es.map (·.1))).zip ws).foldl (fun t p => matSetElement false t i (p.1 / 2) p.2) tmp)

/-- `p_applyOperation` (184-248): the temporary matrix begins as a copy and is copied back. -/
noncomputable def applyMatrix (op : ℂ → ℂ) (present : Nat → Nat → Bool) (rows cols : Nat)
    (m : Nat → Nat → ℝ) : Option (Nat → Nat → ℝ) :=
  (List.range rows).foldlM (applyRow op present cols m) m

/-- `p_scale`, `p_conjugate`, `p_real`, `p_imaginary` (424-440, 571-602). -/
noncomputable def scaleMatrix (x : ℂ) := applyMatrix (multiplyvalue x)
@[inherit_doc scaleMatrix] noncomputable def conjugateMatrix := applyMatrix conjugateValue
@[inherit_doc scaleMatrix] noncomputable def realMatrix := applyMatrix realValue
@[inherit_doc scaleMatrix] noncomputable def imaginaryMatrix := applyMatrix imaginaryValue

/-- `transpose` (petsc_matrix_operations.cpp 40-68, 83-142): PETSc `MatTranspose`, then `conjugate`; the matrix has
`rows` rows and `cols` columns. -/
noncomputable def transpose (present : Nat → Nat → Bool) (rows cols : Nat) (m : Nat → Nat → ℝ) :
    Option (Nat → Nat → ℝ) :=
  conjugateMatrix (fun r c => present c r) cols rows (fun r c => m c r)

/-- `p_identity` of an assembled matrix (petsc_matrix_implementation.hpp 477-480): zero, then `MatShift`, which
inserts the diagonal positions that are missing. -/
def identity : Nat → Nat → ℝ := fun r c => if r = c then 1 else 0

/-- The positions present after `MatShift`. -/
def shiftPresent (present : Nat → Nat → Bool) : Nat → Nat → Bool := fun r c => present r c || r == c

/-- `p_identity` of a matrix that is not assembled yet (470-476). -/
noncomputable def identityNew (n : Nat) : Nat → Nat → ℝ :=
  (List.range n).foldl (fun t i => matSetElement false t i i 1) (fun _ _ => 0)

/-- `p_getRowBlock` (488-568): `perm` is the permutation that sorts the rows (`ISSortPermutation`), `inv` its inverse
(`ISInvertPermutation`); the sorted rows are extracted, and row number `i` of the result is the extracted row
`inv i`, conjugated. -/
noncomputable def getRowBlock (cols : Nat) (m : Nat → Nat → ℝ) (perm inv : Nat → Nat) (rows : List Nat) :
    Option (List (List ℂ)) :=
  let ridx := rows.map (· * 2)
  let sub : Nat → Nat → ℝ := fun k c => m (ridx.getD (perm k) 0) c
  (List.range rows.length).mapM (fun i =>
    let cval := unaryPairs conjugateValue ((List.range (cols * 2)).map (sub (inv i)))
    realToComplex cval (cols * 2))

end GridPACK.ComplexOps
