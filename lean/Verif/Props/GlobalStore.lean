import Verif.Model.GlobalStore
import Verif.Lemmas.Prefix
import Verif.Lemmas.PutFold
import Mathlib.Data.List.Nodup
import Mathlib.Data.List.Induction
import Mathlib.Tactic.Linarith
import Mathlib.Algebra.BigOperators.Group.List.Basic

/-! C93: storing vectors under an index and getting them back on any process. -/
namespace GridPACK.GlobalStore

variable {V : Type}

/-- All vectors added, on all processes. -/
def everything (n : Nat) (adds : Nat → List (Added V)) : List (Added V) := (List.range n).flatMap adds

theorem start_eq (s : Nat → Nat) (i : Nat) : start s i = Prefix.off s i := by
  induction i with
  | zero => rfl
  | succ i ih => rw [Prefix.off_succ, start, ih]

theorem mem_everything {n : Nat} {adds : Nat → List (Added V)} {x : Added V} :
    x ∈ everything n adds ↔ ∃ p, p < n ∧ x ∈ adds p := by
  simp [everything]

/-! The maximum -/

theorem foldl_max_ge (l : List (Added V)) (m : Int) :
    m ≤ l.foldl (fun m x => if x.1 > m then x.1 else m) m ∧
    ∀ x ∈ l, x.1 ≤ l.foldl (fun m x => if x.1 > m then x.1 else m) m := by
  induction l generalizing m with
  | nil => simp
  | cons a l ih =>
    rw [List.foldl_cons]
    obtain ⟨h1, h2⟩ := ih (if a.1 > m then a.1 else m)
    have h3 : m ≤ (if a.1 > m then a.1 else m) ∧ a.1 ≤ (if a.1 > m then a.1 else m) := by split <;> omega
    refine ⟨by omega, ?_⟩
    intro x hx
    rcases List.mem_cons.mp hx with rfl | hx
    · omega
    · exact h2 x hx

theorem lt_nsize {n : Nat} {adds : Nat → List (Added V)} {x : Added V} (h : x ∈ everything n adds) (h0 : 0 ≤ x.1) :
    x.1.toNat < (maxIdx n adds + 1).toNat ∧ x.1 < maxIdx n adds + 1 := by
  have := (foldl_max_ge (everything n adds) 0).2 x h
  change x.1 ≤ maxIdx n adds at this
  omega

theorem nsize_nonneg (n : Nat) (adds : Nat → List (Added V)) : 0 ≤ maxIdx n adds :=
  (foldl_max_ge (everything n adds) 0).1

/-! Counts and sizes -/

theorem localCount_eq (l : List (Added V)) (i : Nat) :
    localCount l i = (l.filter (fun x => decide (x.1.toNat = i))).length := by
  unfold localCount
  induction l using List.reverseRecOn with
  | nil => rfl
  | append_singleton l a ih =>
    rw [List.foldl_append, List.filter_append, List.length_append, ← ih]
    by_cases h : a.1.toNat = i
    · simp [h]
    · simp [h, Ne.symm h]

theorem sumOver_filter (n : Nat) (adds : Nat → List (Added V)) (q : Added V → Bool) (g : Added V → Nat) :
    ((List.range n).map (fun p => (((adds p).filter q).map g).sum)).sum =
      (((everything n adds).filter q).map g).sum := by
  unfold everything
  induction n with
  | zero => rfl
  | succ n ih =>
    rw [List.range_succ, List.map_append, List.sum_append, ih, List.flatMap_append, List.filter_append,
      List.map_append, List.sum_append]
    simp

theorem count_eq (n : Nat) (adds : Nat → List (Added V)) (i : Nat) :
    sumOver n (fun p => localCount (adds p)) i =
      ((everything n adds).filter (fun x => decide (x.1.toNat = i))).length := by
  have := sumOver_filter n adds (fun x => decide (x.1.toNat = i)) (fun _ => 1)
  have one : ∀ l : List (Added V), (l.map (fun _ => 1)).sum = l.length := fun l => by simp
  simp only [one] at this
  unfold sumOver
  simp only [localCount_eq]
  exact this

theorem localSize_eq (l : List (Added V)) (i : Nat) (h : (l.map (fun x => x.1.toNat)).Nodup) :
    localSize l i = ((l.filter (fun x => decide (x.1.toNat = i))).map (fun x => x.2.length)).sum := by
  unfold localSize
  induction l using List.reverseRecOn with
  | nil => rfl
  | append_singleton l a ih =>
    rw [List.map_append, List.nodup_append] at h
    rw [List.foldl_append, List.filter_append, List.map_append, List.sum_append, ← ih h.1]
    by_cases ha : a.1.toNat = i
    · have h0 : l.filter (fun x => decide (x.1.toNat = i)) = [] := by
        rw [List.filter_eq_nil_iff]
        intro x hx hc
        have := h.2.2 x.1.toNat (List.mem_map_of_mem hx) a.1.toNat (by simp)
        simp only [decide_eq_true_eq] at hc
        omega
      rw [ih h.1, h0]
      simp [ha]
    · simp [ha, Ne.symm ha]

theorem nodup_part {n : Nat} {adds : Nat → List (Added V)}
    (h : ((everything n adds).map (fun x => x.1.toNat)).Nodup) {p : Nat} (hp : p < n) :
    ((adds p).map (fun x => x.1.toNat)).Nodup := by
  refine h.sublist (List.Sublist.map _ ?_)
  unfold everything
  induction n with
  | zero => omega
  | succ n ih =>
    rw [List.range_succ, List.flatMap_append]
    by_cases hpn : p = n
    · subst hpn; simp
    · refine (ih ?_ (by omega)).trans (List.sublist_append_left _ _)
      refine h.sublist (List.Sublist.map _ ?_)
      unfold everything
      rw [List.range_succ, List.flatMap_append]
      exact List.sublist_append_left _ _

theorem size_eq (n : Nat) (adds : Nat → List (Added V))
    (h : ((everything n adds).map (fun x => x.1.toNat)).Nodup) (i : Nat) :
    size n adds i = (((everything n adds).filter (fun x => decide (x.1.toNat = i))).map (fun x => x.2.length)).sum := by
  rw [← sumOver_filter]
  unfold size sumOver
  congr 1
  apply List.map_congr_left
  intro p hp
  exact localSize_eq _ _ (nodup_part h (List.mem_range.mp hp))

theorem filter_one {l : List (Added V)} (h : (l.map (fun x => x.1.toNat)).Nodup) {x : Added V} (hx : x ∈ l) :
    l.filter (fun y => decide (y.1.toNat = x.1.toNat)) = [x] := by
  induction l with
  | nil => simp at hx
  | cons a l ih =>
    rw [List.map_cons, List.nodup_cons] at h
    rcases List.mem_cons.mp hx with rfl | hx
    · rw [List.filter_cons_of_pos (by simp)]
      congr 1
      rw [List.filter_eq_nil_iff]
      intro y hy hc
      simp only [decide_eq_true_eq] at hc
      exact h.1 (hc ▸ List.mem_map_of_mem (f := fun x : Added V => x.1.toNat) hy)
    · rw [List.filter_cons_of_neg]
      · exact ih h.2 hx
      · simp only [decide_eq_true_eq]
        intro hc
        exact h.1 (hc ▸ List.mem_map_of_mem (f := fun x : Added V => x.1.toNat) hx)

theorem size_of_mem {n : Nat} {adds : Nat → List (Added V)}
    (h : ((everything n adds).map (fun x => x.1.toNat)).Nodup) {x : Added V} (hx : x ∈ everything n adds) :
    size n adds x.1.toNat = x.2.length := by
  rw [size_eq n adds h, filter_one h hx]; simp

theorem nodup_toNat {l : List (Added V)} (h0 : ∀ x ∈ l, 0 ≤ x.1) :
    (l.map (fun x => x.1.toNat)).Nodup ↔ (l.map (·.1)).Nodup := by
  have e : l.map (fun x => x.1.toNat) = (l.map (·.1)).map Int.toNat := by simp
  rw [e]
  constructor
  · intro h; exact List.Nodup.of_map _ h
  · intro h
    refine List.Nodup.map_on ?_ h
    intro a ha b hb hab
    obtain ⟨x, hx, rfl⟩ := List.mem_map.mp ha
    obtain ⟨y, hy, rfl⟩ := List.mem_map.mp hb
    have := h0 x hx; have := h0 y hy
    omega

theorem count_dup (n : Nat) (adds : Nat → List (Added V)) (h0 : ∀ x ∈ everything n adds, 0 ≤ x.1) :
    (∃ i, i < (maxIdx n adds + 1).toNat ∧ sumOver n (fun p => localCount (adds p)) i > 1) ↔
      ¬ ((everything n adds).map (·.1)).Nodup := by
  rw [← nodup_toNat h0, List.nodup_iff_count_le_one]
  have hc : ∀ i, ((everything n adds).map (fun x => x.1.toNat)).count i =
      sumOver n (fun p => localCount (adds p)) i := by
    intro i
    rw [count_eq, List.count, List.countP_map, List.countP_eq_length_filter]
    congr 1
  push Not
  constructor
  · rintro ⟨i, -, h⟩; exact ⟨i, by rw [hc]; exact h⟩
  · rintro ⟨i, h⟩
    refine ⟨i, ?_, by rw [← hc]; exact h⟩
    have hm : i ∈ (everything n adds).map (fun x => x.1.toNat) := by
      rw [← List.count_pos_iff]; omega
    obtain ⟨x, hx, rfl⟩ := List.mem_map.mp hm
    exact (lt_nsize hx (h0 x hx)).1

/-! ### The claims -/

/-- C93: vectors that are not empty are added on any processes under different indices that are not negative.  In
whatever order the writes take effect, `upload` succeeds and afterwards each vector is returned for its index (on
every process: the result does not depend on it). -/
theorem C93_stored_partial (n : Nat) (adds : Nat → List (Added V)) (garbage : Nat → V) (ws : List (Nat × V))
    (hws : ws.Perm (allPuts n adds)) (h0 : ∀ x ∈ everything n adds, 0 ≤ x.1)
    (hne : ∀ x ∈ everything n adds, x.2 ≠ []) (hd : ((everything n adds).map (·.1)).Nodup)
    (hsome : everything n adds ≠ []) :
    ∃ s, upload n adds garbage ws = .ok s ∧ ∀ x ∈ everything n adds, getVector s x.1 = .vec x.2 := by
  have hnd := (nodup_toNat h0).mpr hd
  have hneg : ¬ ∃ p, p < n ∧ ∃ x ∈ adds p, x.1 < 0 := by
    rintro ⟨p, hp, x, hx, h⟩
    have := h0 x (mem_everything.mpr ⟨p, hp, hx⟩)
    omega
  have hdup : ¬ ∃ i, i < (maxIdx n adds + 1).toNat ∧ sumOver n (fun p => localCount (adds p)) i > 1 := by
    rw [count_dup n adds h0]; simpa using hd
  have hemp : ¬ ∃ p, p < n ∧ ∃ x ∈ adds p, x.2 = [] := by
    rintro ⟨p, hp, x, hx, h⟩
    exact hne x (mem_everything.mpr ⟨p, hp, hx⟩) h
  have hdata : ¬ ((List.range (maxIdx n adds + 1).toNat).map (size n adds)).sum < 1 := by
    obtain ⟨x, hx⟩ := List.exists_mem_of_ne_nil _ hsome
    have h1 := Prefix.off_block (size n adds) (lt_nsize hx (h0 x hx)).1
    have h2 := size_of_mem hnd hx
    have h3 : 0 < x.2.length := List.length_pos_iff.mpr (hne x hx)
    unfold Prefix.off at h1
    omega
  refine ⟨⟨(maxIdx n adds + 1).toNat, start (size n adds), fun i => start (size n adds) i + size n adds i,
    some (ws.foldl put garbage)⟩,
    by unfold upload; simp only [if_neg hneg, if_neg hdup, if_neg hdata, if_neg hemp], ?_⟩
  intro x hx
  have hlen := size_of_mem hnd hx
  have hpos : 0 < x.2.length := List.length_pos_iff.mpr (hne x hx)
  have h1 := lt_nsize hx (h0 x hx)
  have h2 := h0 x hx
  have h3 := nsize_nonneg n adds
  unfold getVector
  rw [if_neg (by simp only; omega)]
  simp only
  rw [if_neg (by omega), Nat.add_sub_cancel_left, hlen]
  congr 1
  apply List.ext_getElem?
  intro k
  by_cases hk : k < x.2.length
  · rw [List.getElem?_map, List.getElem?_range' hk, List.getElem?_eq_getElem hk]
    simp only [Option.map_some, Nat.one_mul]
    congr 1
    have := (PutFold.put_fold put (fun g w i => rfl) ws garbage
      (start (size n adds) x.1.toNat + k) x.2[k] ?_).1 ?_
    · exact this
    · intro w hw e
      rw [hws.mem_iff] at hw
      obtain ⟨y, hy, hw⟩ := List.mem_flatMap.mp hw
      obtain ⟨⟨v, j⟩, hvj, rfl⟩ := List.mem_map.mp hw
      simp only at e ⊢
      rw [List.mem_zipIdx_iff_getElem?] at hvj
      simp only at hvj
      have hj : j < y.2.length := (List.getElem?_eq_some_iff.mp hvj).1
      have hy' := size_of_mem hnd hy
      rw [start_eq, start_eq] at e
      obtain ⟨e1, e2⟩ := Prefix.decomp_unique (size n adds) (by omega) (by omega) e
      have hxy : y = x := by
        have hf := filter_one hnd hx
        have : y ∈ (everything n adds).filter (fun z => decide (z.1.toNat = x.1.toNat)) :=
          List.mem_filter.mpr ⟨hy, by simpa using e1⟩
        rw [hf] at this
        simpa using this
      subst hxy; subst e2
      rw [List.getElem?_eq_getElem hk] at hvj
      simpa using hvj.symm
    · refine ⟨(start (size n adds) x.1.toNat + k, x.2[k]), ?_, rfl⟩
      rw [hws.mem_iff]
      refine List.mem_flatMap.mpr ⟨x, hx, List.mem_map.mpr ⟨(x.2[k], k), ?_, rfl⟩⟩
      rw [List.mem_zipIdx_iff_getElem?]
      simp [List.getElem?_eq_getElem hk]
  · rw [List.getElem?_eq_none (by simpa using hk), List.getElem?_eq_none (by omega)]

/-- C93, duplicates: without negative indices `upload` ends with the exception about duplicates (on every process)
exactly if some index was used twice, on one process or on two. -/
theorem C93_duplicates (n : Nat) (adds : Nat → List (Added V)) (garbage : Nat → V) (ws : List (Nat × V))
    (h0 : ∀ x ∈ everything n adds, 0 ≤ x.1) :
    upload n adds garbage ws = .duplicate ↔ ¬ ((everything n adds).map (·.1)).Nodup := by
  have hneg : ¬ ∃ p, p < n ∧ ∃ x ∈ adds p, x.1 < 0 := by
    rintro ⟨p, hp, x, hx, h⟩
    have := h0 x (mem_everything.mpr ⟨p, hp, hx⟩)
    omega
  rw [← count_dup n adds h0]
  unfold upload
  simp only [if_neg hneg]
  split
  · rename_i h; exact ⟨fun _ => h, fun _ => rfl⟩
  · rename_i h
    simp only [h, iff_false]
    split
    · simp
    · split <;> simp

/-- C93, range: an index that is negative or larger than every index used gives an exception. -/
theorem C93_out_of_range (n : Nat) (adds : Nat → List (Added V)) (garbage : Nat → V) (ws : List (Nat × V))
    (s : Store V) (hs : upload n adds garbage ws = .ok s) (i : Int)
    (hi : i < 0 ∨ (0 < i ∧ ∀ x ∈ everything n adds, x.1 < i)) : getVector s i = .throws := by
  have hnum : s.numVecs = maxIdx n adds + 1 := by
    have h3 := nsize_nonneg n adds
    unfold upload at hs
    simp only at hs
    split at hs
    · cases hs
    · split at hs
      · cases hs
      · split at hs
        · injection hs with hs; rw [← hs]; simp only; omega
        · split at hs
          · cases hs
          · injection hs with hs; rw [← hs]; simp only; omega
  have hmax : ∀ (l : List (Added V)) (m : Int), 0 < i → m < i → (∀ x ∈ l, x.1 < i) →
      l.foldl (fun m x => if x.1 > m then x.1 else m) m < i := by
    intro l
    induction l with
    | nil => intro m _ h _; exact h
    | cons a l ih =>
      intro m hp hm h
      rw [List.foldl_cons]
      refine ih _ hp ?_ (fun x hx => h x (by simp [hx]))
      have := h a (by simp)
      split <;> omega
  unfold getVector
  rw [if_pos]
  rcases hi with hi | ⟨hp, hi⟩
  · exact Or.inl hi
  · refine Or.inr ?_
    have h := hmax (everything n adds) 0 hp hp hi
    change maxIdx n adds < i at h
    omega

/-- C93 fails for empty vectors: whenever one vector is empty and another is not, `upload` passes an empty range to
the global array. -/
theorem C93_empty_vector_violated (n : Nat) (adds : Nat → List (Added V)) (garbage : Nat → V) (ws : List (Nat × V))
    (h0 : ∀ x ∈ everything n adds, 0 ≤ x.1) (hd : ((everything n adds).map (·.1)).Nodup) (x y : Added V)
    (hx : x ∈ everything n adds) (hxe : x.2 = []) (hy : y ∈ everything n adds) (hye : y.2 ≠ []) :
    upload n adds garbage ws = .badRegion := by
  have hnd := (nodup_toNat h0).mpr hd
  have hneg : ¬ ∃ p, p < n ∧ ∃ x ∈ adds p, x.1 < 0 := by
    rintro ⟨p, hp, x, hx, h⟩
    have := h0 x (mem_everything.mpr ⟨p, hp, hx⟩)
    omega
  have hdup : ¬ ∃ i, i < (maxIdx n adds + 1).toNat ∧ sumOver n (fun p => localCount (adds p)) i > 1 := by
    rw [count_dup n adds h0]; simpa using hd
  have hemp : ∃ p, p < n ∧ ∃ x ∈ adds p, x.2 = [] := by
    obtain ⟨p, hp, h⟩ := mem_everything.mp hx
    exact ⟨p, hp, x, h, hxe⟩
  have hdata : ¬ ((List.range (maxIdx n adds + 1).toNat).map (size n adds)).sum < 1 := by
    have h1 := Prefix.off_block (size n adds) (lt_nsize hy (h0 y hy)).1
    have h2 := size_of_mem hnd hy
    have h3 : 0 < y.2.length := List.length_pos_iff.mpr hye
    unfold Prefix.off at h1
    omega
  unfold upload
  simp only [if_neg hneg, if_neg hdup, if_neg hdata, if_pos hemp]

/-- C93: an index below the largest one under which nothing was added is neither rejected nor answered with an empty
vector: an empty range is passed to the global array. -/
theorem C93_gap_violated (n : Nat) (adds : Nat → List (Added V)) (garbage : Nat → V) (ws : List (Nat × V))
    (h0 : ∀ x ∈ everything n adds, 0 ≤ x.1) (hd : ((everything n adds).map (·.1)).Nodup)
    (s : Store V) (hs : upload n adds garbage ws = .ok s) (i : Int) (hi : 0 ≤ i)
    (hgap : ∀ x ∈ everything n adds, x.1 ≠ i) (y : Added V) (hy : y ∈ everything n adds) (hlt : i < y.1) :
    getVector s i = .badRegion := by
  have hnd := (nodup_toNat h0).mpr hd
  have hsz : size n adds i.toNat = 0 := by
    rw [size_eq n adds hnd]
    have : (everything n adds).filter (fun x => decide (x.1.toNat = i.toNat)) = [] := by
      rw [List.filter_eq_nil_iff]
      intro x hx hc
      simp only [decide_eq_true_eq] at hc
      have := h0 x hx
      exact hgap x hx (by omega)
    rw [this]; rfl
  have h1 := lt_nsize hy (h0 y hy)
  have h3 := nsize_nonneg n adds
  have key : ∀ g : Option (Nat → V), getVector (⟨(maxIdx n adds + 1).toNat, start (size n adds),
      fun i => start (size n adds) i + size n adds i, g⟩ : Store V) i = .badRegion := by
    intro g
    unfold getVector
    rw [if_neg (by simp only; omega)]
    cases g with
    | none => rfl
    | some g => simp only [hsz]; rw [if_pos (by omega)]
  unfold upload at hs
  simp only at hs
  split at hs
  · cases hs
  · split at hs
    · cases hs
    · split at hs
      · injection hs with hs; rw [← hs]; exact key _
      · split at hs
        · cases hs
        · injection hs with hs; rw [← hs]; exact key _

/-- C93 fails across two uploads: a vector uploaded in the first round whose index is not used in the second (where
other vectors are) is not found any more. -/
theorem C93_second_upload_violated (n : Nat) (adds1 adds2 : Nat → List (Added V)) (garbage : Nat → V)
    (ws1 ws2 : List (Nat × V)) (h0 : ∀ x ∈ everything n adds2, 0 ≤ x.1)
    (hd : ((everything n adds2).map (·.1)).Nodup) (hsome : everything n adds2 ≠ []) (x : Added V) (hx0 : 0 ≤ x.1)
    (hgap : ∀ y ∈ everything n adds2, y.1 ≠ x.1) (s : Store V)
    (hs : uploadTwice n adds1 adds2 garbage ws1 ws2 = .ok s) : getVector s x.1 ≠ .vec x.2 := by
  have hs2 : upload n adds2 garbage ws2 = .ok s := by
    unfold uploadTwice at hs
    split at hs
    · exact hs
    · rename_i h; exact absurd hs (h s)
  by_cases h : ∃ y ∈ everything n adds2, x.1 < y.1
  · obtain ⟨y, hy, hlt⟩ := h
    rw [C93_gap_violated n adds2 garbage ws2 h0 hd s hs2 x.1 hx0 hgap y hy hlt]
    simp
  · push Not at h
    obtain ⟨y, hy⟩ := List.exists_mem_of_ne_nil _ hsome
    have h1 := h y hy
    have h2 := h0 y hy
    have h3 := hgap y hy
    rw [C93_out_of_range n adds2 garbage ws2 s hs2 x.1
      (Or.inr ⟨by omega, fun z hz => by have := h z hz; have := hgap z hz; omega⟩)]
    simp

/-- Three vectors on two processes. -/
def sample : Nat → List (Added Nat) := fun p => if p = 0 then [(2, [7, 8])] else if p = 1 then [(0, [5]), (4, [9])] else []

example : (∀ x ∈ everything 2 sample, 0 ≤ x.1) ∧ (∀ x ∈ everything 2 sample, x.2 ≠ []) ∧
    ((everything 2 sample).map (·.1)).Nodup ∧ everything 2 sample ≠ [] ∧
    allPuts 2 sample = [(1, 7), (2, 8), (0, 5), (3, 9)] ∧ (∀ x ∈ everything 2 sample, x.1 ≠ 1) := by decide

example : ¬ ((everything 2 (fun _ => [((3 : Int), [1])])).map (·.1)).Nodup := by decide

example : ∃ x ∈ everything 1 (fun _ => [((0 : Int), [1]), (1, [])]), x.2 = [] := by decide

end GridPACK.GlobalStore
