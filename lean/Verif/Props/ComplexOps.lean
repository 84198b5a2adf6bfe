import Verif.Lemmas.ComplexOps

/-! C253–C258: vectors and matrices of complex numbers held by a library of real numbers. -/
namespace GridPACK.ComplexOps

open ValueTransfer

/-- C253.  Every operation on one vector changes each element, on every process, as its name says, whatever the
distribution. -/
theorem C253_unary (v : List (List ℂ)) (a : ℂ) :
    fill a (stored v) = stored (v.map (fun l => l.map (fun _ => a))) ∧
    scale a (stored v) = stored (v.map (fun l => l.map (fun z => z * a))) ∧
    addScalar a (stored v) = stored (v.map (fun l => l.map (fun z => z + a))) ∧
    abs (stored v) = stored (v.map (fun l => l.map (fun z => ((‖z‖ : ℝ) : ℂ)))) ∧
    conjugate (stored v) = stored (v.map (fun l => l.map (fun z => (starRingEnd ℂ) z))) ∧
    exp (stored v) = stored (v.map (fun l => l.map Complex.exp)) :=
  ⟨apply_stored _ v, apply_stored _ v, apply_stored _ v, apply_stored _ v, apply_stored _ v, apply_stored _ v⟩

/-- C253.  The real and the imaginary parts: the result is again a complex vector, with imaginary parts zero. -/
theorem C253_parts (v : List (List ℂ)) :
    realParts (stored v) = some (stored (v.map (fun l => l.map (fun z => (z.re : ℂ))))) ∧
    imaginaryParts (stored v) = some (stored (v.map (fun l => l.map (fun z => (z.im : ℂ))))) := by
  have key : ∀ (g : ℂ → ℂ), (stored v).mapM (fun l => (realToComplex l l.length).map
      (fun zs => complexToReal (zs.map g))) = some (stored (v.map (fun l => l.map g))) := by
    intro g
    induction v with
    | nil => simp [stored]
    | cons a t ih =>
      have h := (C40_complex_round_trip a).1
      simp only [stored, List.map_cons, List.mapM_cons] at ih ⊢
      rw [ih]
      have h' : realToComplex (a.flatMap (fun z => [z.re, z.im])) (a.flatMap (fun z => [z.re, z.im])).length =
          some a := h
      rw [h']
      rfl
  exact ⟨key realValue, key imaginaryValue⟩

/-- C253.  Every operation with a second vector of the same distribution combines the elements at the same
places. -/
theorem C253_binary (v w : List (List ℂ)) (a : ℂ) (h : v.map List.length = w.map List.length) :
    addVector (stored v) (stored w) a = stored (List.zipWith (List.zipWith (fun x y => x + a * y)) v w) ∧
    elementMultiply (stored v) (stored w) = stored (List.zipWith (List.zipWith (fun x y => x * y)) v w) :=
  ⟨applyBinary_stored _ v w h, applyBinary_stored _ v w h⟩

/-- C253.  Reciprocals and quotients where no divisor is zero: the result times the divisor is one, or the
element. -/
theorem C253_quotients (v w : List (List ℂ)) (h : v.map List.length = w.map List.length)
    (hw : ∀ l ∈ w, ∀ z ∈ l, z ≠ 0) :
    (∃ u, recip (stored w) = stored u ∧
      List.zipWith (List.zipWith (fun x y => x * y)) u w = w.map (fun l => l.map (fun _ => 1))) ∧
    (∃ u, elementDivide (stored v) (stored w) = stored u ∧
      List.zipWith (List.zipWith (fun x y => x * y)) u w = v) := by
  constructor
  · refine ⟨w.map (fun (l : List ℂ) => l.map reciprocal), apply_stored reciprocal w, ?_⟩
    rw [List.zipWith_map_left, List.zipWith_self]
    apply List.map_congr_left
    intro l hl
    rw [List.zipWith_map_left, List.zipWith_self]
    apply List.map_congr_left
    intro z hz
    have := hw l hl z hz
    simp [reciprocal, this]
  · refine ⟨List.zipWith (List.zipWith (fun x y => x / y)) v w, applyBinary_stored _ v w h, ?_⟩
    have inner : ∀ (l l' : List ℂ), l.length = l'.length → (∀ z ∈ l', z ≠ 0) →
        List.zipWith (fun x y => x * y) (List.zipWith (fun x y => x / y) l l') l' = l := by
      intro l
      induction l with
      | nil => intro l' _ _; simp
      | cons a t ih =>
        intro l' hl hz
        cases l' with
        | nil => simp at hl
        | cons b t' =>
          have hb : b ≠ 0 := hz b (by simp)
          simp only [List.zipWith_cons_cons, List.cons.injEq]
          exact ⟨div_mul_cancel₀ a hb, ih t' (by simpa using hl) (fun z hz' => hz z (by simp [hz']))⟩
    induction v generalizing w with
    | nil => simp
    | cons a t ih =>
      cases w with
      | nil => simp at h
      | cons b t' =>
        simp only [List.map_cons, List.cons.injEq] at h
        simp only [List.zipWith_cons_cons, List.cons.injEq]
        exact ⟨inner a b h.1 (hw b (by simp)), ih t' h.2 (fun l hl => hw l (by simp [hl]))⟩

example : (∀ l ∈ [[Complex.I], [2, 1]], ∀ z ∈ l, (z : ℂ) ≠ 0) ∧
    [[Complex.I], [2, 1]].map List.length = [[(1 : ℂ)], [3, 4]].map List.length := by
  simp [Complex.I_ne_zero]

/-- C254.  The norms are those of the whole vector, for every distribution over the processes. -/
theorem C254_norms (v : List (List ℂ)) :
    norm1 (stored v) = (v.flatten.map (fun z => ‖z‖)).sum ∧
    norm2 (stored v) = Real.sqrt (v.flatten.map (fun z => ‖z‖ ^ 2)).sum := by
  have key : ∀ (f : ℝ → ℂ → ℝ) (g : ℂ → ℝ), (∀ a z, f a z = a + g z) →
      ((stored v).map (accumPairs f 0)).sum = (v.flatten.map g).sum := by
    intro f g hf
    have e : f = fun a z => a + g z := by funext a z; exact hf a z
    subst e
    induction v with
    | nil => simp [stored]
    | cons a t ih =>
      simp only [stored, List.map_cons, List.sum_cons] at ih ⊢
      rw [ih, accum_stored, foldl_add]
      simp
  refine ⟨key l1 _ (fun _ _ => rfl), ?_⟩
  unfold norm2
  rw [key l2 (fun z => ‖z‖ ^ 2) (fun a z => by simp [l2, pow_two])]

/-- C254.  The infinity norm is the largest absolute value of the whole vector. -/
theorem C254_infinity (v : List (List ℂ)) :
    (∀ z ∈ v.flatten, ‖z‖ ≤ normInfinity (stored v)) ∧
    (v.flatten ≠ [] → ∃ z ∈ v.flatten, normInfinity (stored v) = ‖z‖) ∧
    (v.flatten = [] → normInfinity (stored v) = 0) := by
  have key : (∀ z ∈ v.flatten, ‖z‖ ≤ normInfinity (stored v)) ∧ 0 ≤ normInfinity (stored v) ∧
      (normInfinity (stored v) = 0 ∨ ∃ z ∈ v.flatten, normInfinity (stored v) = ‖z‖) := by
    induction v with
    | nil => simp [stored, normInfinity]
    | cons a t ih =>
      obtain ⟨h1, h0, h2⟩ := ih
      obtain ⟨g1, g2, g3⟩ := linf_spec a 0
      have e : normInfinity (stored (a :: t)) = max (a.foldl linf 0) (normInfinity (stored t)) := by
        simp [normInfinity, stored, accum_stored]
      rw [e]
      refine ⟨?_, le_trans g1 (le_max_left _ _), ?_⟩
      · intro z hz
        rw [List.flatten_cons, List.mem_append] at hz
        rcases hz with hz | hz
        · exact le_trans (g2 z hz) (le_max_left _ _)
        · exact le_trans (h1 z hz) (le_max_right _ _)
      · rcases max_choice (a.foldl linf 0) (normInfinity (stored t)) with h | h
        · rw [h]
          rcases g3 with g3 | ⟨z, hz, g3⟩
          · exact Or.inl g3
          · exact Or.inr ⟨z, by simp [hz], g3⟩
        · rw [h]
          rcases h2 with h2 | ⟨z, hz, h2⟩
          · exact Or.inl h2
          · refine Or.inr ⟨z, ?_, h2⟩
            rw [List.flatten_cons, List.mem_append]
            exact Or.inr hz
  refine ⟨key.1, ?_, ?_⟩
  · intro hne
    rcases key.2.2 with h | h
    · obtain ⟨z, hz⟩ := List.exists_mem_of_ne_nil _ hne
      exact ⟨z, hz, le_antisymm (by rw [h]; exact norm_nonneg z) (key.1 z hz) |>.symm ▸ rfl⟩
    · exact h
  · intro he
    rcases key.2.2 with h | ⟨z, hz, _⟩
    · exact h
    · rw [he] at hz; simp at hz

/-- C255.  Products, sums and columns of the stored matrices are those of the complex matrices. -/
theorem C255_products (n : Nat) (z w : Nat → Nat → ℂ) (x : Nat → ℂ) (j : Nat) :
    multiply n (blocks z) (pairs x) = pairs (fun i => ∑ k ∈ Finset.range n, z i k * x k) ∧
    multiplyMatrix n (blocks z) (blocks w) = blocks (fun i k => ∑ l ∈ Finset.range n, z i l * w l k) ∧
    addMatrix (blocks z) (blocks w) = blocks (fun i k => z i k + w i k) ∧
    column (blocks z) j = pairs (fun i => z i j) := by
  refine ⟨multiply_blocks n z x, multiplyMatrix_blocks n z w, ?_, ?_⟩
  · funext r c
    rcases Nat.mod_two_eq_zero_or_one r with hr | hr <;> rcases Nat.mod_two_eq_zero_or_one c with hc | hc <;>
      simp [addMatrix, blocks, hr, hc]
    ring
  · funext r
    rcases Nat.mod_two_eq_zero_or_one r with hr | hr <;> simp [column, blocks, pairs, hr]

/-- C255.  The operations on the diagonal touch the diagonal of the first `n` rows and nothing else. -/
theorem C255_diagonal (n : Nat) (z : Nat → Nat → ℂ) (x d : Nat → ℂ) :
    diagonal n (blocks z) (pairs d) = pairs (fun i => if i < n then z i i else d i) ∧
    diagonalMatrix n x = blocks (fun i j => if i = j ∧ i < n then x i else 0) ∧
    addDiagonal n (blocks z) x = blocks (fun i j => if i = j ∧ i < n then z i j + x i else z i j) ∧
    multiplyDiagonal n (blocks z) x = blocks (fun i j => if i = j ∧ i < n then x i * z i j else z i j) ∧
    identity = blocks (fun i j => if i = j then 1 else 0) ∧
    identityNew n = blocks (fun i j => if i = j ∧ i < n then 1 else 0) := by
  have hz : (fun _ _ => (0 : ℝ)) = blocks (fun _ _ => 0) := by
    funext r c; simp [blocks]
  refine ⟨?_, ?_, foldl_diag_add x z n, ?_, identity_blocks, ?_⟩
  · unfold diagonal
    induction n with
    | zero => simp
    | succ k ih =>
      rw [List.range_succ, List.foldl_append, ih]
      funext c
      simp only [List.foldl_cons, List.foldl_nil, setOrAddElements, getElement_blocks]
      by_cases h : c / 2 = k
      · rcases Nat.mod_two_eq_zero_or_one c with hc | hc
        · have e : c = k * 2 := by omega
          subst e
          simp [complexToReal, vecPut, pairs]
        · have e : c = k * 2 + 1 := by omega
          subst e
          simp [complexToReal, vecPut, pairs, h]
      · have n1 : c ≠ k * 2 := by omega
        have n2 : c ≠ k * 2 + 1 := by omega
        have e : (c / 2 < k + 1) ↔ (c / 2 < k) := by omega
        simp [complexToReal, vecPut, pairs, n1, n2, e]
  · unfold diagonalMatrix
    rw [hz, foldl_diag_set]
  · unfold multiplyDiagonal
    simp only []
    have e : ∀ m, m ≤ n → (List.range m).foldl (fun t i => matSetElement false t i i
        (((List.range n).map (fun i => x i * getElement (blocks z) i i)).getD i 0)) (blocks z) =
        (List.range m).foldl (fun t i => matSetElement false t i i (x i * z i i)) (blocks z) := by
      intro m
      induction m with
      | zero => intro _; rfl
      | succ k ih =>
        intro hk
        rw [List.range_succ, List.foldl_append, List.foldl_append, ih (by omega)]
        have hk' : k < n := by omega
        simp [List.getD_eq_getElem?_getD, List.getElem?_map, hk', getElement_blocks]
    rw [e n (le_refl n), foldl_diag_set (fun i => x i * z i i)]
    congr 1
    funext a b
    by_cases h : a = b
    · subst h; rfl
    · simp [h]
  · unfold identityNew
    rw [hz, foldl_diag_set (fun _ => 1)]

/-- C255.  The norm of a matrix is the root of the sum of the squares of all its elements. -/
theorem C255_norm (rows cols : Nat) (z : Nat → Nat → ℂ) :
    matNorm2 rows cols (blocks z) =
      Real.sqrt (∑ i ∈ Finset.range rows, ∑ j ∈ Finset.range cols, ‖z i j‖ ^ 2) := by
  have inner : ∀ (i c : Nat) (acc : ℝ), (List.range c).foldl (fun acc j => l2 acc (getElement (blocks z) i j)) acc =
      acc + ∑ j ∈ Finset.range c, ‖z i j‖ ^ 2 := by
    intro i c acc
    induction c with
    | zero => simp
    | succ k ih =>
      rw [List.range_succ, List.foldl_append, ih, Finset.sum_range_succ]
      simp only [List.foldl_cons, List.foldl_nil, getElement_blocks, l2]
      ring
  unfold matNorm2
  congr 1
  induction rows with
  | zero => simp
  | succ k ih =>
    rw [List.range_succ, List.foldl_append, ih, Finset.sum_range_succ]
    simp only [List.foldl_cons, List.foldl_nil, inner]

/-- C256.  Scaling, conjugation, real and imaginary parts of a matrix whose storage holds whole complex elements:
every element stored is changed, nothing else. -/
theorem C256_elementwise_partial (q : Nat → Nat → Bool) (rows cols : Nat) (z : Nat → Nat → ℂ) (a : ℂ) :
    scaleMatrix a (blockPresent q) rows cols (blocks z) =
      some (blocks (applied (fun x => x * a) q rows cols z)) ∧
    conjugateMatrix (blockPresent q) rows cols (blocks z) =
      some (blocks (applied (fun x => (starRingEnd ℂ) x) q rows cols z)) ∧
    realMatrix (blockPresent q) rows cols (blocks z) =
      some (blocks (applied (fun x => (x.re : ℂ)) q rows cols z)) ∧
    imaginaryMatrix (blockPresent q) rows cols (blocks z) =
      some (blocks (applied (fun x => (x.im : ℂ)) q rows cols z)) :=
  ⟨applyMatrix_blocks _ q rows cols z, applyMatrix_blocks _ q rows cols z, applyMatrix_blocks _ q rows cols z,
    applyMatrix_blocks _ q rows cols z⟩

/-- C256.  The transpose of a matrix (zero outside its stored elements) is the plain transpose, not the conjugate
one. -/
theorem C256_transpose_partial (q : Nat → Nat → Bool) (rows cols : Nat) (z : Nat → Nat → ℂ)
    (hz : ∀ i j, ¬ (i < rows ∧ j < cols ∧ q i j = true) → z i j = 0) :
    transpose (blockPresent q) rows cols (blocks z) = some (blocks (fun i j => z j i)) := by
  unfold transpose conjugateMatrix
  rw [transpose_blocks]
  have : (fun r c => blockPresent q c r) = blockPresent (fun i j => q j i) := rfl
  rw [this, applyMatrix_blocks]
  congr 2
  funext i j
  unfold applied
  by_cases h : i < cols ∧ j < rows ∧ q j i = true
  · rw [if_pos h]; simp [conjugateValue]
  · have h' : ¬ (j < rows ∧ i < cols ∧ q j i = true) := fun ⟨x, y, w⟩ => h ⟨y, x, w⟩
    rw [if_neg h]; simp [conjugateValue, hz j i h']

example : ∃ (q : Nat → Nat → Bool) (z : Nat → Nat → ℂ),
    (∀ i j, ¬ (i < 2 ∧ j < 3 ∧ q i j = true) → z i j = 0) ∧ z 0 2 = Complex.I := by
  refine ⟨fun i j => i == 0 && j == 2, fun i j => if i = 0 ∧ j = 2 then Complex.I else 0, ?_, by simp⟩
  intro i j h
  have : ¬ (i = 0 ∧ j = 2) := by rintro ⟨rfl, rfl⟩; exact h (by simp)
  simp [this]

/-- C256.  After `identity()` on an assembled matrix that has all its diagonal stored, the operations still work. -/
theorem C256_after_identity_partial (op : ℂ → ℂ) (q : Nat → Nat → Bool) (rows cols : Nat)
    (hq : ∀ i, q i i = true) :
    applyMatrix op (shiftPresent (blockPresent q)) rows cols identity =
      some (blocks (applied op q rows cols (fun i j => if i = j then 1 else 0))) := by
  have : shiftPresent (blockPresent q) = blockPresent q := by
    funext r c
    by_cases h : r = c
    · subst h; simp [shiftPresent, blockPresent, hq]
    · simp [shiftPresent, h]
  rw [this, identity_blocks, applyMatrix_blocks]

/-- C256 fails after `identity()` on an assembled sparse matrix that lacks a diagonal element: the shift adds two
single real positions instead of a block of four, the row has an odd number of entries, and every later scaling,
conjugation or part reads past the end of the row. -/
theorem C256_after_identity_violated (op : ℂ → ℂ) (q : Nat → Nat → Bool) (rows cols i : Nat)
    (hi : i < rows) (hc : i < cols) (hq : q i i = false) :
    applyMatrix op (shiftPresent (blockPresent q)) rows cols identity = none := by
  unfold applyMatrix
  apply foldlM_none _ i _ _ (by simpa using hi)
  intro t
  unfold applyRow
  have hl : (rowEntries (shiftPresent (blockPresent q)) identity (i * 2) (cols * 2)).length % 2 = 1 := by
    have := shift_count q i hq cols
    rw [if_pos hc] at this
    unfold rowEntries
    rw [List.length_map, this]
    omega
  generalize rowEntries (shiftPresent (blockPresent q)) identity (i * 2) (cols * 2) = es at hl
  have := (C40_odd_violated (es.map (·.2)) (by simpa using hl)).1
  rw [List.length_map] at this
  simp [this]

example : ∃ q : Nat → Nat → Bool, q 0 1 = true ∧ q 0 0 = false := ⟨fun i j => i != j, by decide, by decide⟩

/-- C257.  `transposeMultiply` is right for every matrix with real elements only. -/
theorem C257_transposeMultiply_partial (n : Nat) (z : Nat → Nat → ℂ) (x : Nat → ℂ) (hz : ∀ i j, (z i j).im = 0) :
    transposeMultiply n (blocks z) (pairs x) = pairs (fun j => ∑ i ∈ Finset.range n, z i j * x i) := by
  rw [transposeMultiply_blocks]
  congr 1
  funext j
  apply Finset.sum_congr rfl
  intro i _
  rw [Complex.conj_eq_iff_im.mpr (hz i j)]

/-- C257 fails for complex matrices: `transposeMultiply` multiplies by the conjugate transpose, so for every matrix
with an element that is not real there is a vector (the unit vector of its row) whose product is wrong. -/
theorem C257_transposeMultiply_violated (n : Nat) (z : Nat → Nat → ℂ) (i j : Nat) (hi : i < n)
    (hz : (z i j).im ≠ 0) :
    transposeMultiply n (blocks z) (pairs (fun k => if k = i then 1 else 0)) ≠
      pairs (fun l => ∑ k ∈ Finset.range n, z k l * (if k = i then 1 else 0)) := by
  rw [transposeMultiply_blocks]
  intro h
  have := congrFun h (j * 2 + 1)
  have e1 : (j * 2 + 1) / 2 = j := by omega
  have e2 : (j * 2 + 1) % 2 = 1 := by omega
  simp [pairs, e1, e2, hi] at this
  apply hz
  linarith

example : ((fun _ _ => Complex.I : Nat → Nat → ℂ) 0 0).im ≠ 0 := by simp

/-- C258.  A block of rows, in any order and with repetitions, comes back in the order asked for. -/
theorem C258_rowBlock (cols : Nat) (z : Nat → Nat → ℂ) (perm inv : Nat → Nat) (rows : List Nat)
    (hp : ∀ i, i < rows.length → perm (inv i) = i) :
    getRowBlock cols (blocks z) perm inv rows =
      some (rows.map (fun r => (List.range cols).map (fun j => z r j))) := by
  have row : ∀ r, realToComplex (unaryPairs conjugateValue ((List.range (cols * 2)).map (blocks z (r * 2))))
      (cols * 2) = some ((List.range cols).map (fun j => z r j)) := by
    intro r
    have e : (List.range (cols * 2)).map (blocks z (r * 2)) =
        ((List.range cols).map (fun j => conjugateValue (z r j))).flatMap (fun y => [y.re, y.im]) := by
      induction cols with
      | zero => simp
      | succ k ih =>
        have e1 : (k * 2 + 1) / 2 = k := by omega
        have e2 : (k * 2 + 1) % 2 = 1 := by omega
        rw [show (k + 1) * 2 = k * 2 + 1 + 1 by ring, List.range_succ, List.range_succ, List.map_append,
          List.map_append, ih, List.range_succ, List.map_append, List.flatMap_append]
        simp [blocks, e1, e2, conjugateValue]
    have rt := (C40_complex_round_trip ((List.range cols).map (fun j => z r j))).1
    rw [complexToReal_length] at rt
    rw [e, unary_stored]
    have e3 : ((List.range cols).map (fun j => conjugateValue (z r j))).map conjugateValue =
        (List.range cols).map (fun j => z r j) := by
      simp [conjugateValue, Function.comp_def]
    rw [e3]
    simpa [complexToReal, Nat.mul_comm] using rt
  unfold getRowBlock
  simp only []
  apply mapM_range_some (by simp)
  intro k hk
  rw [hp k hk]
  have e : (rows.map (· * 2)).getD k 0 = rows[k] * 2 := by
    simp [List.getD_eq_getElem?_getD, hk]
  rw [e]
  have := row rows[k]
  simpa [hk] using this

example : ∀ i, i < [4, 0, 2].length → (fun k => [1, 2, 0].getD k 0) ((fun k => [2, 0, 1].getD k 0) i) = i := by
  decide

end GridPACK.ComplexOps
