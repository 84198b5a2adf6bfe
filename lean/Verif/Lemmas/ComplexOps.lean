import Mathlib.Tactic.Ring
import Mathlib.Algebra.BigOperators.Intervals
import Verif.Spec.ComplexOps
import Verif.Props.ValueTransfer

namespace GridPACK.ComplexOps

open ValueTransfer

theorem unary_stored (op : ℂ → ℂ) (l : List ℂ) :
    unaryPairs op (l.flatMap (fun z => [z.re, z.im])) = (l.map op).flatMap (fun z => [z.re, z.im]) := by
  induction l with
  | nil => simp [unaryPairs]
  | cons z t ih => simpa [unaryPairs, List.flatMap_cons] using ih

theorem apply_stored (op : ℂ → ℂ) (v : List (List ℂ)) :
    apply op (stored v) = stored (v.map (fun l => l.map op)) := by
  simp only [apply, stored, List.map_map]
  apply List.map_congr_left
  intro l _
  exact unary_stored op l

theorem binary_stored (op : ℂ → ℂ → ℂ) : ∀ (l l' : List ℂ), l.length = l'.length →
    binaryPairs op (l.flatMap (fun z => [z.re, z.im])) (l'.flatMap (fun z => [z.re, z.im])) =
      (List.zipWith op l l').flatMap (fun z => [z.re, z.im])
  | [], [], _ => by simp [binaryPairs]
  | [], _ :: _, h => by simp at h
  | _ :: _, [], h => by simp at h
  | a :: t, b :: t', h => by
    have := binary_stored op t t' (by simpa using h)
    simpa [binaryPairs, List.flatMap_cons] using this

theorem applyBinary_stored (op : ℂ → ℂ → ℂ) : ∀ (v w : List (List ℂ)), v.map List.length = w.map List.length →
    applyBinary op (stored v) (stored w) = stored (List.zipWith (List.zipWith op) v w)
  | [], [], _ => by simp [applyBinary, stored]
  | [], _ :: _, h => by simp at h
  | _ :: _, [], h => by simp at h
  | a :: t, b :: t', h => by
    simp only [List.map_cons, List.cons.injEq] at h
    have := applyBinary_stored op t t' h.2
    simp only [applyBinary, stored] at this
    simp [applyBinary, stored, binary_stored op a b h.1, this]

theorem accum_stored (f : ℝ → ℂ → ℝ) (l : List ℂ) : ∀ acc,
    accumPairs f acc (l.flatMap (fun z => [z.re, z.im])) = l.foldl f acc := by
  induction l with
  | nil => intro acc; simp [accumPairs]
  | cons z t ih => intro acc; simpa [accumPairs, List.flatMap_cons] using ih (f acc z)

theorem foldl_add (g : ℂ → ℝ) (l : List ℂ) : ∀ acc,
    l.foldl (fun a z => a + g z) acc = acc + (l.map g).sum := by
  induction l with
  | nil => intro acc; simp
  | cons z t ih => intro acc; simp [ih, add_assoc]

theorem linf_spec (l : List ℂ) : ∀ acc,
    acc ≤ l.foldl linf acc ∧ (∀ z ∈ l, ‖z‖ ≤ l.foldl linf acc) ∧
      (l.foldl linf acc = acc ∨ ∃ z ∈ l, l.foldl linf acc = ‖z‖) := by
  induction l with
  | nil => intro acc; simp
  | cons z t ih =>
    intro acc
    obtain ⟨h1, h2, h3⟩ := ih (linf acc z)
    simp only [List.foldl_cons]
    refine ⟨le_trans (le_max_left _ _) h1, ?_, ?_⟩
    · intro y hy
      rcases List.mem_cons.mp hy with rfl | hy
      · exact le_trans (le_max_right _ _) h1
      · exact h2 y hy
    · rcases h3 with h3 | ⟨y, hy, h3⟩
      · rw [h3]
        rcases max_choice acc ‖z‖ with h | h
        · exact Or.inl h
        · exact Or.inr ⟨z, by simp, h⟩
      · exact Or.inr ⟨y, by simp [hy], h3⟩

theorem blocks_set (z : Nat → Nat → ℂ) (i j : Nat) (w : ℂ) :
    matSetElement false (blocks z) i j w = blocks (fun a b => if a = i ∧ b = j then w else z a b) := by
  funext r c
  by_cases h : r / 2 = i ∧ c / 2 = j
  · rcases Nat.mod_two_eq_zero_or_one r with hr | hr <;> rcases Nat.mod_two_eq_zero_or_one c with hc | hc <;>
      simp [matSetElement, blocks, h, hr, hc, matrixToLibrary]
  · simp [matSetElement, blocks, h]

theorem blocks_add (z : Nat → Nat → ℂ) (i j : Nat) (w : ℂ) :
    matSetElement true (blocks z) i j w = blocks (fun a b => if a = i ∧ b = j then z a b + w else z a b) := by
  funext r c
  by_cases h : r / 2 = i ∧ c / 2 = j
  · rcases Nat.mod_two_eq_zero_or_one r with hr | hr <;> rcases Nat.mod_two_eq_zero_or_one c with hc | hc <;>
      simp [matSetElement, blocks, h, hr, hc, matrixToLibrary]
    ring
  · simp [matSetElement, blocks, h]

theorem getElement_blocks (z : Nat → Nat → ℂ) (i j : Nat) : getElement (blocks z) i j = z i j := by
  have h1 : (j * 2 + 1) / 2 = j := by omega
  have h2 : (j * 2 + 1) % 2 = 1 := by omega
  simp [getElement, matGetElement, matrixFromLibrary, blocks, h1, h2, List.range_succ]

theorem sum_pairs (f : Nat → ℝ) (m : Nat) :
    ∑ c ∈ Finset.range (m * 2), f c = ∑ j ∈ Finset.range m, (f (j * 2) + f (j * 2 + 1)) := by
  induction m with
  | zero => simp
  | succ k ih =>
    rw [Finset.sum_range_succ, ← ih, show (k + 1) * 2 = k * 2 + 1 + 1 by ring, Finset.sum_range_succ,
      Finset.sum_range_succ]
    ring

theorem foldl_diag_set (g : Nat → ℂ) (z : Nat → Nat → ℂ) (n : Nat) :
    (List.range n).foldl (fun t i => matSetElement false t i i (g i)) (blocks z) =
      blocks (fun a b => if a = b ∧ a < n then g a else z a b) := by
  induction n with
  | zero => simp
  | succ k ih =>
    rw [List.range_succ, List.foldl_append, ih]
    simp only [List.foldl_cons, List.foldl_nil, blocks_set]
    congr 1
    funext a b
    by_cases h : a = b
    · subst h
      by_cases h1 : a = k
      · subst h1; simp
      · have e : (a < k + 1) ↔ (a < k) := by omega
        simp [h1, e]
    · have : ¬ (a = k ∧ b = k) := by rintro ⟨rfl, rfl⟩; exact h rfl
      simp [h, this]

theorem foldl_diag_add (g : Nat → ℂ) (z : Nat → Nat → ℂ) (n : Nat) :
    (List.range n).foldl (fun t i => matSetElement true t i i (g i)) (blocks z) =
      blocks (fun a b => if a = b ∧ a < n then z a b + g a else z a b) := by
  induction n with
  | zero => simp
  | succ k ih =>
    rw [List.range_succ, List.foldl_append, ih]
    simp only [List.foldl_cons, List.foldl_nil, blocks_add]
    congr 1
    funext a b
    by_cases h : a = b
    · subst h
      by_cases h1 : a = k
      · subst h1; simp
      · have e : (a < k + 1) ↔ (a < k) := by omega
        simp [h1, e]
    · have : ¬ (a = k ∧ b = k) := by rintro ⟨rfl, rfl⟩; exact h rfl
      simp [h, this]

/-- The entries of an even row of a paired storage. -/
theorem rowEntries_blocks (q : Nat → Nat → Bool) (z : Nat → Nat → ℂ) (i m : Nat) :
    rowEntries (blockPresent q) (blocks z) (i * 2) (m * 2) =
      ((List.range m).filter (q i)).flatMap (fun j => [(j * 2, (z i j).re), (j * 2 + 1, -(z i j).im)]) := by
  induction m with
  | zero => simp [rowEntries]
  | succ k ih =>
    have e1 : (k * 2 + 1) / 2 = k := by omega
    have e2 : (k * 2 + 1) % 2 = 1 := by omega
    rw [show (k + 1) * 2 = k * 2 + 1 + 1 by ring]
    simp only [rowEntries] at ih ⊢
    rw [List.range_succ, List.range_succ, List.filter_append, List.filter_append, List.map_append,
      List.map_append, ih, List.range_succ, List.filter_append, List.flatMap_append, List.append_assoc]
    congr 1
    by_cases h : q i k
    · simp [blockPresent, blocks, e1, e2, h]
    · simp [blockPresent, e1, h]

theorem everyOther_flat (l : List Nat) (f g : Nat → Nat) :
    everyOther (l.flatMap (fun j => [f j, g j])) = l.map f := by
  induction l with
  | nil => simp [everyOther]
  | cons a t ih => simpa [everyOther, List.flatMap_cons] using ih

theorem foldl_row_set (i : Nat) (w : Nat → ℂ) (l : List Nat) : ∀ (z : Nat → Nat → ℂ),
    l.foldl (fun t j => matSetElement false t i j (w j)) (blocks z) =
      blocks (fun a b => if a = i ∧ b ∈ l then w b else z a b) := by
  induction l with
  | nil => intro z; simp
  | cons j t ih =>
    intro z
    rw [List.foldl_cons, blocks_set, ih]
    congr 1
    funext a b
    by_cases h1 : a = i <;> by_cases h2 : b ∈ t <;> by_cases h3 : b = j <;> simp [h1, h2, h3]

theorem applyRow_blocks (op : ℂ → ℂ) (q : Nat → Nat → Bool) (cols : Nat) (z t : Nat → Nat → ℂ) (i : Nat) :
    applyRow op (blockPresent q) cols (blocks z) (blocks t) i =
      some (blocks (fun a b => if a = i ∧ b < cols ∧ q i b = true then op (z i b) else t a b)) := by
  unfold applyRow
  rw [rowEntries_blocks]
  generalize hL : (List.range cols).filter (q i) = L
  have e2 : (L.flatMap (fun j => [(j * 2, (z i j).re), (j * 2 + 1, -(z i j).im)])).map (·.2) =
      complexToReal (L.map (fun j => conjugateValue (z i j))) := by
    simp [List.map_flatMap, complexToReal, List.flatMap_map, conjugateValue]
  have e1 : (L.flatMap (fun j => [(j * 2, (z i j).re), (j * 2 + 1, -(z i j).im)])).map (·.1) =
      L.flatMap (fun j => [j * 2, j * 2 + 1]) := by
    simp [List.map_flatMap]
  have e3 : (L.flatMap (fun j => [(j * 2, (z i j).re), (j * 2 + 1, -(z i j).im)])).length =
      (complexToReal (L.map (fun j => conjugateValue (z i j)))).length := by
    rw [← e2, List.length_map]
  have rt := C40_complex_round_trip (L.map (fun j => conjugateValue (z i j)))
  simp only [e1, e2, e3]
  rw [everyOther_flat L (fun j => j * 2) (fun j => j * 2 + 1), rt.1]
  have e4 : ((L.map (fun j => conjugateValue (z i j))).map conjugateValue).map op = L.map (fun j => op (z i j)) := by
    simp [conjugateValue, Function.comp_def]
  simp only [Option.bind_eq_bind, Option.bind_some, e4, List.zip_map', List.foldl_map, Option.pure_def,
    Nat.mul_div_cancel _ (by decide : 0 < 2)]
  rw [foldl_row_set i (fun j => op (z i j)) L t]
  congr 2
  funext a b
  have hm : b ∈ L ↔ b < cols ∧ q i b = true := by rw [← hL]; simp
  simp [hm]

theorem applyMatrix_blocks (op : ℂ → ℂ) (q : Nat → Nat → Bool) (rows cols : Nat) (z : Nat → Nat → ℂ) :
    applyMatrix op (blockPresent q) rows cols (blocks z) = some (blocks (applied op q rows cols z)) := by
  unfold applyMatrix
  induction rows with
  | zero =>
    have : applied op q 0 cols z = z := by funext a b; simp [applied]
    simp [this]
  | succ k ih =>
    rw [List.range_succ, List.foldlM_append, ih]
    simp only [Option.bind_eq_bind, Option.bind_some, List.foldlM_cons, List.foldlM_nil, applyRow_blocks,
      Option.pure_def]
    congr 2
    funext a b
    unfold applied
    by_cases h1 : a = k
    · subst h1; simp
    · have e : (a < k + 1) ↔ (a < k) := by omega
      simp [h1, e]

theorem transpose_blocks (z : Nat → Nat → ℂ) :
    (fun r c => blocks z c r) = blocks (fun i j => conjugateValue (z j i)) := by
  funext r c
  rcases Nat.mod_two_eq_zero_or_one r with hr | hr <;> rcases Nat.mod_two_eq_zero_or_one c with hc | hc <;>
    simp [blocks, hr, hc, conjugateValue]

theorem multiply_blocks (m : Nat) (z : Nat → Nat → ℂ) (x : Nat → ℂ) :
    multiply m (blocks z) (pairs x) = pairs (fun i => ∑ j ∈ Finset.range m, z i j * x j) := by
  funext r
  have e1 : ∀ j : Nat, (j * 2 + 1) / 2 = j := by intro j; omega
  have e2 : ∀ j : Nat, (j * 2 + 1) % 2 = 1 := by intro j; omega
  unfold multiply matMult
  rw [sum_pairs]
  rcases Nat.mod_two_eq_zero_or_one r with hr | hr
  · simp [blocks, pairs, hr, e1, e2, Complex.re_sum, Complex.mul_re, sub_eq_add_neg]
  · simp only [blocks, pairs, hr, e1, e2, Complex.im_sum, Complex.mul_im]
    simp
    apply Finset.sum_congr rfl
    intro j _
    ring

theorem multiplyMatrix_blocks (m : Nat) (z w : Nat → Nat → ℂ) :
    multiplyMatrix m (blocks z) (blocks w) = blocks (fun i j => ∑ k ∈ Finset.range m, z i k * w k j) := by
  funext r c
  have e1 : ∀ j : Nat, (j * 2 + 1) / 2 = j := by intro j; omega
  have e2 : ∀ j : Nat, (j * 2 + 1) % 2 = 1 := by intro j; omega
  unfold multiplyMatrix
  rw [sum_pairs]
  rcases Nat.mod_two_eq_zero_or_one r with hr | hr <;> rcases Nat.mod_two_eq_zero_or_one c with hc | hc <;>
    simp only [blocks, hr, hc, e1, e2, Complex.re_sum, Complex.im_sum, Complex.mul_re, Complex.mul_im] <;>
    simp <;>
    (try simp only [← Finset.sum_neg_distrib, ← Finset.sum_sub_distrib]) <;>
    apply Finset.sum_congr rfl <;> intro k _ <;> ring


theorem transposeMultiply_blocks (m : Nat) (z : Nat → Nat → ℂ) (x : Nat → ℂ) :
    transposeMultiply m (blocks z) (pairs x) =
      pairs (fun j => ∑ i ∈ Finset.range m, (starRingEnd ℂ) (z i j) * x i) := by
  have h := multiply_blocks m (fun i j => conjugateValue (z j i)) x
  rw [← transpose_blocks] at h
  exact h

theorem identity_blocks : identity = blocks (fun i j => if i = j then 1 else 0) := by
  funext r c
  by_cases h : r / 2 = c / 2
  · rcases Nat.mod_two_eq_zero_or_one r with hr | hr <;> rcases Nat.mod_two_eq_zero_or_one c with hc | hc
    · have : r = c := by omega
      simp [identity, blocks, this, hc]
    · have : r ≠ c := by omega
      simp [identity, blocks, this, hr, hc, h]
    · have : r ≠ c := by omega
      simp [identity, blocks, this, hr, hc, h]
    · have : r = c := by omega
      simp [identity, blocks, this, hc]
  · have : r ≠ c := by rintro rfl; exact h rfl
    simp [identity, blocks, this, h]

theorem shift_count (q : Nat → Nat → Bool) (i : Nat) (h : q i i = false) (m : Nat) :
    ((List.range (m * 2)).filter (shiftPresent (blockPresent q) (i * 2))).length =
      2 * ((List.range m).filter (q i)).length + (if i < m then 1 else 0) := by
  induction m with
  | zero => simp
  | succ k ih =>
    have e1 : (k * 2 + 1) / 2 = k := by omega
    rw [show (k + 1) * 2 = k * 2 + 1 + 1 by ring, List.range_succ, List.range_succ, List.filter_append,
      List.filter_append, List.length_append, List.length_append, ih, List.range_succ, List.filter_append,
      List.length_append]
    by_cases hk : i = k
    · subst hk
      have e2 : ¬ (i * 2 = i * 2 + 1) := by omega
      simp [List.filter_cons, shiftPresent, blockPresent, e1, h]
    · have e2 : ¬ (i * 2 = k * 2) := by omega
      have e3 : ¬ (i * 2 = k * 2 + 1) := by omega
      have e4 : (i < k + 1) ↔ i < k := by omega
      by_cases hq : q i k <;> simp [List.filter_cons, shiftPresent, blockPresent, e1, e3, e4, hq, hk]
      omega

theorem foldlM_none {α β : Type} (f : α → β → Option α) (b : β) (hb : ∀ a, f a b = none) (l : List β) :
    b ∈ l → ∀ a, l.foldlM f a = none := by
  induction l with
  | nil => intro h; simp at h
  | cons c t ih =>
    intro h a
    rw [List.foldlM_cons]
    rcases List.mem_cons.mp h with rfl | h
    · rw [hb]; rfl
    · cases hc : f a c with
      | none => rfl
      | some a' => exact ih h a'

end GridPACK.ComplexOps
