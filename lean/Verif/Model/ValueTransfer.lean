import Mathlib.Data.Complex.Basic

/-! Model of the conversion between real and complex buffers (src/math/value_transfer.hpp) and of the way
PETSc vectors and matrices of real numbers hold complex elements
(src/math/petsc/petsc_vector_implementation.hpp, petsc_matrix_implementation.hpp; the case of a PETSc library
built for real numbers, `elementSize` = 2). -/
namespace GridPACK.ValueTransfer

/-- `ValueTransfer<RealType, ComplexType>::p_copy` (198-207): `n` is `p_fromSize`, `buf` the memory behind
`p_from`; reading past the buffer gives `none`. -/
def realToComplex (buf : List ℝ) (n : Nat) : Option (List ℂ) :=
  (List.range ((n + 1) / 2)).mapM (fun t => do
    let a ← buf[2 * t]?
    let b ← buf[2 * t + 1]?
    pure ⟨a, b⟩)

/-- `p_computeToSize` (141-146). -/
def realToComplexSize (n : Nat) : Nat := n / 2

/-- `ValueTransfer<ComplexType, RealType>::p_copy` (209-217). -/
def complexToReal (buf : List ℂ) : List ℝ := buf.flatMap (fun z => [z.re, z.im])

/-- `p_computeToSize` (148-153). -/
def complexToRealSize (n : Nat) : Nat := n * 2

/-- `ValueTransferToLibrary<RealType, ComplexType>` (256-282). -/
def realToComplexLibrary (buf : List ℝ) : List ℂ := buf.map (fun (x : ℝ) => (x : ℂ))

/-- `ValueTransferFromLibrary<ComplexType, RealType>` (322-348). -/
def complexLibraryToReal (buf : List ℂ) : List ℝ := buf.map (fun z => z.re)

/-- `MatrixValueTransferToLibrary<ComplexType, RealType>::p_copy` (407-419). -/
def matrixToLibrary (buf : List ℂ) : List ℝ := buf.flatMap (fun z => [z.re, -z.im, z.im, z.re])

/-- `MatrixValueTransferFromLibrary<RealType, ComplexType>::p_copy` (477-486). -/
def matrixFromLibrary (buf : List ℝ) (n : Nat) : Option (List ℂ) :=
  (List.range ((n + 3) / 4)).mapM (fun t => do
    let a ← buf[4 * t]?
    let b ← buf[4 * t + 1]?
    pure ⟨a, -b⟩)

/-! ### Elements of PETSc objects over the reals -/

/-- One entry of `VecSetValues`: insert or add. -/
noncomputable def vecPut (add : Bool) (v : Nat → ℝ) (p : Nat × ℝ) : Nat → ℝ :=
  fun k => if k = p.1 then (if add then v k + p.2 else p.2) else v k

/-- `p_setOrAddElements` (petsc_vector_implementation.hpp 168-198), complex elements: the index array
(178-184), the converted values (187-188) and `VecSetValues` (189). -/
noncomputable def setOrAddElements (add : Bool) (v : Nat → ℝ) (ps : List (Nat × ℂ)) : Nat → ℝ :=
  ((ps.flatMap (fun p => [p.1 * 2, p.1 * 2 + 1])).zip (complexToReal (ps.map (·.2)))).foldl (vecPut add) v

/-- `p_getElements` (243-262). -/
def getElements (v : Nat → ℝ) (is : List Nat) : Option (List ℂ) :=
  realToComplex ((is.flatMap (fun i => [i * 2, i * 2 + 1])).map v) (is.length * 2)

/-- `p_setElement` of a matrix (petsc_matrix_implementation.hpp 334-358): the converted value is written as a
block of two rows and two columns.  Simplification: the effect of `MatSetValues` in closed form. -/
noncomputable def matSetElement (add : Bool) (m : Nat → Nat → ℝ) (i j : Nat) (x : ℂ) : Nat → Nat → ℝ :=
  fun r c =>
    if r / 2 = i ∧ c / 2 = j then
      (if add then m r c else 0) + (matrixToLibrary [x]).getD (2 * (r % 2) + c % 2) 0
    else m r c

/-- `p_getElement` of a matrix (390-411). -/
def matGetElement (m : Nat → Nat → ℝ) (i j : Nat) : Option (List ℂ) :=
  matrixFromLibrary [m (i * 2) (j * 2), m (i * 2) (j * 2 + 1), m (i * 2 + 1) (j * 2), m (i * 2 + 1) (j * 2 + 1)] 1

end GridPACK.ValueTransfer
