import Verif.Model.ValueTransfer
import Mathlib.Algebra.BigOperators.Group.Finset.Basic
import Mathlib.Algebra.BigOperators.Intervals
import Mathlib.Data.Complex.BigOperators
import Mathlib.Tactic.Ring
import Mathlib.Tactic.Linarith

/-! Properties C40 (transfer of values), C77 (complex elements on a real library). -/
namespace GridPACK.ValueTransfer

theorem complexToReal_length (zs : List ℂ) : (complexToReal zs).length = 2 * zs.length := by
  induction zs with
  | nil => rfl
  | cons z zs ih =>
    simp only [complexToReal, List.flatMap_cons, List.length_append, List.length_cons, List.length_nil] at *
    omega

theorem complexToReal_get (zs : List ℂ) (k : Nat) :
    (complexToReal zs)[2 * k]? = zs[k]?.map (·.re) ∧ (complexToReal zs)[2 * k + 1]? = zs[k]?.map (·.im) := by
  induction zs generalizing k with
  | nil => simp [complexToReal]
  | cons z zs ih =>
    cases k with
    | zero => simp [complexToReal]
    | succ k =>
      have h := ih k
      simp only [complexToReal, List.flatMap_cons] at *
      have e1 : 2 * (k + 1) = 2 * k + 1 + 1 := by ring
      rw [e1]
      simpa using h

theorem mapM_range_some {f : Nat → Option α} {l : List α} {n : Nat} (hl : l.length = n)
    (h : ∀ k (_ : k < n), f k = l[k]?) : (List.range n).mapM f = some l := by
  subst hl
  have : ∀ (s : Nat) (l' : List α), (∀ k, k < l'.length → f (s + k) = l'[k]?) →
      (List.range' s l'.length).mapM f = some l' := by
    intro s l'
    induction l' generalizing s with
    | nil => intro _; rfl
    | cons a l' ih =>
      intro h
      have h0 := h 0 (by simp)
      simp only [List.length_cons, List.range'_succ, List.mapM_cons]
      have h0' : f s = some a := by simpa using h0
      rw [h0']
      have := ih (s + 1) (fun k hk => by
        have := h (k + 1) (by simpa using hk)
        simpa [Nat.add_assoc, Nat.add_comm 1 k] using this)
      rw [this]
      rfl
  rw [List.range_eq_range']
  exact this 0 l (fun k hk => by simpa using h k hk)

/-- C40.  Complex values written as reals and read back are unchanged, for every buffer, and both buffer
sizes are right. -/
theorem C40_complex_round_trip (zs : List ℂ) :
    realToComplex (complexToReal zs) (complexToReal zs).length = some zs ∧
    (complexToReal zs).length = complexToRealSize zs.length ∧
    zs.length = realToComplexSize (complexToReal zs).length := by
  refine ⟨?_, ?_, ?_⟩
  · unfold realToComplex
    rw [complexToReal_length]
    have hn : (2 * zs.length + 1) / 2 = zs.length := by omega
    rw [hn]
    apply mapM_range_some rfl
    intro k hk
    obtain ⟨h1, h2⟩ := complexToReal_get zs k
    rw [h1, h2, List.getElem?_eq_getElem hk]
    rfl
  · rw [complexToReal_length]; unfold complexToRealSize; omega
  · rw [complexToReal_length]; unfold realToComplexSize; omega

theorem pairs_of_even (xs : List ℝ) (m : Nat) (h : xs.length = 2 * m) :
    ∃ zs : List ℂ, zs.length = m ∧ complexToReal zs = xs := by
  induction m generalizing xs with
  | zero => exact ⟨[], rfl, by simpa [complexToReal] using (List.length_eq_zero_iff.mp h).symm⟩
  | succ m ih =>
    match xs, h with
    | a :: b :: xs, h =>
      obtain ⟨zs, hz, he⟩ := ih xs (by simp at h; omega)
      refine ⟨⟨a, b⟩ :: zs, by simp [hz], ?_⟩
      simp only [complexToReal, List.flatMap_cons] at *
      rw [he]; rfl

/-- C40.  Real values of even number read as complex and written back are unchanged. -/
theorem C40_real_round_trip_partial (xs : List ℝ) (h : xs.length % 2 = 0) :
    ∃ zs, realToComplex xs xs.length = some zs ∧ complexToReal zs = xs ∧
      zs.length = realToComplexSize xs.length := by
  obtain ⟨zs, hz, he⟩ := pairs_of_even xs (xs.length / 2) (by omega)
  refine ⟨zs, ?_, he, hz⟩
  rw [← he]
  exact (C40_complex_round_trip zs).1

/-- C40 fails for an odd number of reals: the last step reads past the end of the buffer, and one more
value is written than the target was allocated for. -/
theorem C40_odd_violated (xs : List ℝ) (h : xs.length % 2 = 1) :
    realToComplex xs xs.length = none ∧ (xs.length + 1) / 2 > realToComplexSize xs.length := by
  constructor
  · unfold realToComplex
    have hn : (xs.length + 1) / 2 = xs.length / 2 + 1 := by omega
    rw [hn, List.range_succ, List.mapM_append]
    have hlast : 2 * (xs.length / 2) + 1 = xs.length := by omega
    cases (List.range (xs.length / 2)).mapM (fun t => do
      let a ← xs[2 * t]?
      let b ← xs[2 * t + 1]?
      pure (⟨a, b⟩ : ℂ)) with
    | none => rfl
    | some l =>
      simp only [List.mapM_cons, List.mapM_nil]
      rw [hlast]
      have : xs[xs.length]? = none := by simp
      rw [this]
      cases xs[2 * (xs.length / 2)]? <;> rfl
  · unfold realToComplexSize; omega

/-- C40, real numbers on a complex library: nothing is lost. -/
theorem C40_real_on_complex_library (xs : List ℝ) :
    complexLibraryToReal (realToComplexLibrary xs) = xs ∧
    (realToComplexLibrary xs).length = xs.length := by
  constructor
  · unfold complexLibraryToReal realToComplexLibrary
    rw [List.map_map]
    conv_rhs => rw [← List.map_id xs]
    apply List.map_congr_left
    intro x _
    simp
  · simp [realToComplexLibrary]

/-- C40, matrix values: four reals per complex value, and they come back unchanged. -/
theorem C40_matrix_round_trip (zs : List ℂ) :
    matrixFromLibrary (matrixToLibrary zs) (matrixToLibrary zs).length = some zs ∧
    (matrixToLibrary zs).length = 4 * zs.length := by
  have hlen : ∀ zs : List ℂ, (matrixToLibrary zs).length = 4 * zs.length := by
    intro zs
    induction zs with
    | nil => rfl
    | cons z zs ih =>
      simp only [matrixToLibrary, List.flatMap_cons, List.length_append, List.length_cons,
        List.length_nil] at *
      omega
  have hget : ∀ (zs : List ℂ) k, (matrixToLibrary zs)[4 * k]? = zs[k]?.map (·.re) ∧
      (matrixToLibrary zs)[4 * k + 1]? = zs[k]?.map (fun (z : ℂ) => -z.im) := by
    intro zs
    induction zs with
    | nil => simp [matrixToLibrary]
    | cons z zs ih =>
      intro k
      cases k with
      | zero => simp [matrixToLibrary]
      | succ k =>
        have h := ih k
        simp only [matrixToLibrary, List.flatMap_cons] at *
        have e1 : 4 * (k + 1) = 4 * k + 1 + 1 + 1 + 1 := by ring
        rw [e1]
        simpa using h
  refine ⟨?_, hlen zs⟩
  unfold matrixFromLibrary
  rw [hlen]
  have hn : (4 * zs.length + 3) / 4 = zs.length := by omega
  rw [hn]
  apply mapM_range_some rfl
  intro k hk
  obtain ⟨h1, h2⟩ := hget zs k
  rw [h1, h2, List.getElem?_eq_getElem hk]
  simp

example : realToComplex [1, 2, 3, 4] 4 = some [⟨1, 2⟩, ⟨3, 4⟩] := rfl
example : ([1, 2, 3] : List ℝ).length % 2 = 1 := rfl

/-! ### C77: complex elements on a real library -/

/-- The complex vector that a real vector stands for. -/
def cvec (v : Nat → ℝ) : Nat → ℂ := fun i => ⟨v (2 * i), v (2 * i + 1)⟩

/-- Specification: set or add one element of a complex vector. -/
noncomputable def cput (add : Bool) (w : Nat → ℂ) (p : Nat × ℂ) : Nat → ℂ :=
  fun k => if k = p.1 then (if add then w k + p.2 else p.2) else w k

/-- C77, vectors: setting or adding any list of elements (repeated indices included) changes the complex
vector exactly as the specification says, and reading any elements gives its entries. -/
theorem C77_vector (add : Bool) (v : Nat → ℝ) (ps : List (Nat × ℂ)) (is : List Nat) :
    cvec (setOrAddElements add v ps) = ps.foldl (cput add) (cvec v) ∧
    getElements v is = some (is.map (cvec v)) := by
  constructor
  · induction ps generalizing v with
    | nil => rfl
    | cons p ps ih =>
      have hstep : setOrAddElements add v (p :: ps) =
          setOrAddElements add (vecPut add (vecPut add v (p.1 * 2, p.2.re)) (p.1 * 2 + 1, p.2.im)) ps := rfl
      rw [hstep, ih, List.foldl_cons]
      congr 1
      funext k
      unfold cvec cput vecPut
      by_cases hk : k = p.1
      · subst hk
        cases add
        · have e1 : p.1 * 2 = 2 * p.1 := by ring
          simp only [e1]
          apply Complex.ext <;> simp
        · have e1 : p.1 * 2 = 2 * p.1 := by ring
          simp only [e1, if_true]
          apply Complex.ext <;> simp
      · have h1 : ¬ 2 * k = p.1 * 2 := by omega
        have h2 : ¬ 2 * k = p.1 * 2 + 1 := by omega
        have h3 : ¬ 2 * k + 1 = p.1 * 2 := by omega
        simp [hk, h1, h2, h3]
  · unfold getElements
    have : (is.flatMap (fun i => [i * 2, i * 2 + 1])).map v = complexToReal (is.map (cvec v)) := by
      induction is with
      | nil => rfl
      | cons i is ih =>
        simp only [List.flatMap_cons, List.map_append, ih, List.map_cons, complexToReal, List.map_nil, cvec,
          Nat.mul_comm]
    rw [this]
    have h := (C40_complex_round_trip (is.map (cvec v))).1
    rw [complexToReal_length, List.length_map] at h
    rw [Nat.mul_comm]
    exact h

/-- The complex matrix that a real matrix stands for. -/
def cmat (m : Nat → Nat → ℝ) : Nat → Nat → ℂ := fun i j => ⟨m (2 * i) (2 * j), -m (2 * i) (2 * j + 1)⟩

/-- Every block of two by two reals is a scaled rotation. -/
def Blocks (m : Nat → Nat → ℝ) : Prop :=
  ∀ i j, m (2 * i + 1) (2 * j + 1) = m (2 * i) (2 * j) ∧ m (2 * i + 1) (2 * j) = -m (2 * i) (2 * j + 1)

theorem blocks_zero : Blocks (fun _ _ => 0) := by intro i j; simp

/-- C77, matrices: setting or adding an element changes exactly that element of the complex matrix, keeps
the block form, and reading gives the entry. -/
theorem C77_matrix (add : Bool) (m : Nat → Nat → ℝ) (hm : Blocks m) (i j : Nat) (x : ℂ) :
    Blocks (matSetElement add m i j x) ∧
    (∀ k l, cmat (matSetElement add m i j x) k l =
      if k = i ∧ l = j then (if add then cmat m i j + x else x) else cmat m k l) ∧
    (∀ k l, matGetElement m k l = some [cmat m k l]) := by
  have p : ∀ k : Nat, (2 * k + 1) / 2 = k ∧ 2 * k / 2 = k ∧ (2 * k + 1) % 2 = 1 ∧ 2 * k % 2 = 0 := by
    intro k; omega
  refine ⟨?_, ?_, ?_⟩
  · intro k l
    obtain ⟨h1, h2⟩ := hm k l
    unfold matSetElement matrixToLibrary
    simp only [(p k).1, (p k).2.1, (p l).1, (p l).2.1, (p k).2.2.1, (p k).2.2.2, (p l).2.2.1, (p l).2.2.2]
    by_cases h : k = i ∧ l = j
    · cases add
      · simp [h]
      · simp [h]
        obtain ⟨rfl, rfl⟩ := h
        constructor
        · linarith
        · rw [h2]; ring
    · simp only [h, if_false]; exact ⟨h1, h2⟩
  · intro k l
    unfold cmat matSetElement matrixToLibrary
    simp only [(p k).2.1, (p l).1, (p l).2.1, (p k).2.2.2, (p l).2.2.1, (p l).2.2.2]
    by_cases h : k = i ∧ l = j
    · obtain ⟨rfl, rfl⟩ := h
      cases add
      · apply Complex.ext <;> simp
      · apply Complex.ext <;> simp
        ring
    · simp only [h, if_false]
  · intro k l
    show some _ = _
    unfold cmat
    simp [Nat.mul_comm]

/-- Product of a matrix of `n` columns with a vector, over the reals. -/
def rmul (n : Nat) (m : Nat → Nat → ℝ) (v : Nat → ℝ) : Nat → ℝ := fun r => ∑ c ∈ Finset.range n, m r c * v c

/-- C77, products: the library's real product of the stored matrix and vector stands for the complex
product. -/
theorem C77_product (n : Nat) (m : Nat → Nat → ℝ) (hm : Blocks m) (v : Nat → ℝ) (i : Nat) :
    cvec (rmul (2 * n) m v) i = ∑ j ∈ Finset.range n, cmat m i j * cvec v j := by
  induction n with
  | zero => simp [rmul, cvec]; rfl
  | succ n ih =>
    rw [Finset.sum_range_succ, ← ih]
    obtain ⟨h1, h2⟩ := hm i n
    have e : 2 * (n + 1) = 2 * n + 1 + 1 := by ring
    unfold rmul cvec
    rw [e]
    simp only [Finset.sum_range_succ]
    apply Complex.ext
    · simp [cmat]; ring
    · simp [cmat, h1, h2]; ring

/-- A matrix with one complex element, starting from zero. -/
example : cmat (matSetElement false (fun _ _ => 0) 1 2 ⟨3, 4⟩) 1 2 = ⟨3, 4⟩ := by
  have := (C77_matrix false (fun _ _ => 0) blocks_zero 1 2 ⟨3, 4⟩).2.1 1 2
  simpa using this

end GridPACK.ValueTransfer
