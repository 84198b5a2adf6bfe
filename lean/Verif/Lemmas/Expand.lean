import Verif.Spec.Expand
import Mathlib.Data.List.Perm.Basic
import Mathlib.Data.List.Nodup
import Mathlib.Algebra.BigOperators.Group.List.Basic

/-! Lemmas about the expansion of composite loads. -/
namespace GridPACK.Expand
open GridPACK.StringUtils (Str)

theorem comps_eq (p : Proc) : comps p = p.buses.zipIdx.flatMap (fun b => List.replicate (loadsAt b.1) b.2) := by
  unfold comps loadsAt
  congr 1
  funext b
  split_ifs
  · rw [List.map_const', List.count_eq_length_filter]
  · rfl

theorem zip_replicate_get {α : Type} (w : α → Nat) (l : List α) (s i n : Nat) (b : α) (hi : l[i]? = some b) (hn : n < w b) :
    ((l.zipIdx s).flatMap (fun b => List.replicate (w b.1) b.2))[((l.take i).map w).sum + n]? = some (s + i) := by
  induction l generalizing s i with
  | nil => simp at hi
  | cons a l ih =>
    rw [List.zipIdx_cons, List.flatMap_cons]
    cases i with
    | zero =>
      simp only [List.getElem?_cons_zero, Option.some.injEq] at hi
      subst hi
      simp [List.getElem?_append, hn]
    | succ i =>
      simp only [List.getElem?_cons_succ] at hi
      have := ih (s + 1) i hi
      rw [List.take_succ_cons, List.map_cons, List.sum_cons, List.getElem?_append_right (by simp; omega)]
      rw [List.length_replicate, show w a + ((l.take i).map w).sum + n - w a = ((l.take i).map w).sum + n by omega, this]
      congr 1; omega

theorem zip_replicate_length {α : Type} (w : α → Nat) (l : List α) (s : Nat) :
    ((l.zipIdx s).flatMap (fun b => List.replicate (w b.1) b.2)).length = (l.map w).sum := by
  induction l generalizing s with
  | nil => rfl
  | cons a l ih => rw [List.zipIdx_cons, List.flatMap_cons, List.length_append, ih]; simp

theorem zip_replicate_mem {α : Type} (w : α → Nat) (l : List α) (s x : Nat)
    (h : x ∈ (l.zipIdx s).flatMap (fun b => List.replicate (w b.1) b.2)) : s ≤ x ∧ x < s + l.length := by
  induction l generalizing s with
  | nil => simp at h
  | cons a l ih =>
    rw [List.zipIdx_cons, List.flatMap_cons, List.mem_append] at h
    rcases h with h | h
    · have := List.eq_of_mem_replicate h
      simp only at this
      simp; omega
    · have := ih (s + 1) h
      simp only [List.length_cons]; omega

theorem zip_replicate_count {α : Type} (w : α → Nat) (l : List α) (s i : Nat) (b : α) (hi : l[i]? = some b) :
    ((l.zipIdx s).flatMap (fun b => List.replicate (w b.1) b.2)).count (s + i) = w b := by
  induction l generalizing s i with
  | nil => simp at hi
  | cons a l ih =>
    rw [List.zipIdx_cons, List.flatMap_cons, List.count_append]
    cases i with
    | zero =>
      simp only [List.getElem?_cons_zero, Option.some.injEq] at hi
      subst hi
      rw [List.count_eq_zero_of_not_mem (l := (l.zipIdx (s + 1)).flatMap _)]
      · simp
      · intro h
        have := zip_replicate_mem w l (s + 1) _ h
        omega
    | succ i =>
      simp only [List.getElem?_cons_succ] at hi
      have := ih (s + 1) i hi
      rw [show s + (i + 1) = s + 1 + i by omega, this, List.count_replicate, if_neg (by simp; omega)]
      omega

theorem comps_length (p : Proc) : (comps p).length = (p.buses.map loadsAt).sum := by
  rw [comps_eq]; exact zip_replicate_length loadsAt p.buses 0

theorem comps_lt (p : Proc) (i : Nat) (h : i ∈ comps p) : i < p.buses.length := by
  rw [comps_eq] at h
  have := zip_replicate_mem loadsAt p.buses 0 i h
  omega

theorem comps_count (p : Proc) (i : Nat) (b : Bus) (hi : p.buses[i]? = some b) : (comps p).count i = loadsAt b := by
  have := zip_replicate_count loadsAt p.buses 0 i b hi
  rw [comps_eq]
  simpa using this

/-- The place of a composite load in the list. -/
def pos (p : Proc) (i n : Nat) : Nat := ((p.buses.take i).map loadsAt).sum + n

theorem comps_pos (p : Proc) (i n : Nat) (b : Bus) (hi : p.buses[i]? = some b) (hn : n < loadsAt b) :
    (comps p)[pos p i n]? = some i := by
  have := zip_replicate_get loadsAt p.buses 0 i n b hi hn
  rw [comps_eq]
  simpa [pos] using this

theorem take_sum_le (l : List Bus) (i j : Nat) (h : i ≤ j) : ((l.take i).map loadsAt).sum ≤ ((l.take j).map loadsAt).sum := by
  obtain ⟨k, rfl⟩ := Nat.le.dest h
  rw [List.take_add, List.map_append, List.sum_append]
  omega

theorem pos_lt (p : Proc) (i n j m : Nat) (b : Bus) (hi : p.buses[i]? = some b) (hn : n < loadsAt b) (hij : i < j) :
    pos p i n < pos p j m := by
  have h1 := take_sum_le p.buses (i + 1) j hij
  have h2 : ((p.buses.take (i + 1)).map loadsAt).sum = ((p.buses.take i).map loadsAt).sum + loadsAt b := by
    rw [List.take_add_one, hi]
    simp
  unfold pos
  omega

theorem pos_inj (p : Proc) (i n j m : Nat) (b c : Bus) (hi : p.buses[i]? = some b) (hn : n < loadsAt b)
    (hj : p.buses[j]? = some c) (hm : m < loadsAt c) (h : pos p i n = pos p j m) : i = j ∧ n = m := by
  rcases Nat.lt_trichotomy i j with hl | rfl | hl
  · exact absurd h (Nat.ne_of_lt (pos_lt p i n j m b hi hn hl))
  · unfold pos at h
    exact ⟨rfl, by omega⟩
  · exact absurd h.symm (Nat.ne_of_lt (pos_lt p j m i n c hj hm hl))

theorem pairs_get {α β : Type} (f g : α × Nat → β) (l : List α) (s k : Nat) (x : α) (h : l[k]? = some x) :
    ((l.zipIdx s).flatMap (fun c => [f c, g c]))[2 * k]? = some (f (x, s + k)) ∧
    ((l.zipIdx s).flatMap (fun c => [f c, g c]))[2 * k + 1]? = some (g (x, s + k)) := by
  induction l generalizing s k with
  | nil => simp at h
  | cons a l ih =>
    rw [List.zipIdx_cons, List.flatMap_cons]
    cases k with
    | zero =>
      simp only [List.getElem?_cons_zero, Option.some.injEq] at h
      subst h
      simp
    | succ k =>
      simp only [List.getElem?_cons_succ] at h
      have := ih (s + 1) k h
      rw [show 2 * (k + 1) = 2 * k + 1 + 1 by omega]
      simp only [List.cons_append, List.nil_append, List.getElem?_cons_succ]
      rw [show s + (k + 1) = s + 1 + k by omega]
      exact this

theorem pairs_length {α β : Type} (f g : α × Nat → β) (l : List α) (s : Nat) :
    ((l.zipIdx s).flatMap (fun c => [f c, g c])).length = 2 * l.length := by
  induction l generalizing s with
  | nil => rfl
  | cons a l ih => rw [List.zipIdx_cons, List.flatMap_cons, List.length_append, ih]; simp; omega

theorem newBuses_length (p : Proc) (base : Int) : (newBuses p base).length = 2 * (comps p).length := pairs_length _ _ _ _

theorem newBranches_length (p : Proc) (base : Int) : (newBranches p base).length = 2 * (comps p).length := pairs_length _ _ _ _

theorem newBuses_numbers (p : Proc) (base : Int) :
    (newBuses p base).map (·.number) = (List.range (2 * (comps p).length)).map (fun j : Nat => base + (j : Int)) := by
  have key : ∀ (l : List Nat) (s : Nat), ((l.zipIdx s).flatMap (fun c : Nat × Nat =>
      [(⟨base + 2 * c.2, true, [], []⟩ : Bus), ⟨base + 2 * c.2 + 1, true, [none, none, none, none], []⟩])).map (·.number) =
      (List.range' (2 * s) (2 * l.length)).map (fun j : Nat => base + (j : Int)) := by
    intro l
    induction l with
    | nil => intro s; rfl
    | cons a l ih =>
      intro s
      rw [List.zipIdx_cons, List.flatMap_cons, List.map_append, ih, List.length_cons,
        show 2 * (l.length + 1) = 2 * l.length + 1 + 1 by omega, List.range'_succ, List.range'_succ]
      simp only [List.map_cons, List.map_nil, List.cons_append, List.nil_append]
      rw [show 2 * s + 1 + 1 = 2 * (s + 1) by omega]
      simp [Int.add_assoc]
  unfold newBuses
  rw [key (comps p) 0, List.range_eq_range']

theorem newBuses_active (p : Proc) (base : Int) (b : Bus) (h : b ∈ newBuses p base) : b.active = true ∧ loadsAt b = 0 := by
  unfold newBuses at h
  rw [List.mem_flatMap] at h
  obtain ⟨c, -, h⟩ := h
  simp only [List.mem_cons, List.not_mem_nil, or_false] at h
  rcases h with rfl | rfl
  · exact ⟨rfl, rfl⟩
  · refine ⟨rfl, ?_⟩
    simp [loadsAt]

/-- The branches added to the list of a bus. -/
def links (l : List (Branch × Nat)) (n : Nat) : List Nat :=
  l.flatMap (fun e => (if e.1.l1 = n then [e.2] else []) ++ (if e.1.l2 = n then [e.2] else []))

theorem addNbr_get (bs : List Bus) (i k n : Nat) :
    (addNbr bs i k)[n]? = (bs[n]?).map (fun b => { b with nbrs := b.nbrs ++ if i = n then [k] else [] }) := by
  unfold addNbr
  rw [List.getElem?_modify]
  simp only [Option.map_eq_map]
  congr 1
  funext b
  split_ifs <;> simp

theorem linkAll_get (bs : List Bus) (l : List (Branch × Nat)) (n : Nat) :
    (linkAll bs l)[n]? = (bs[n]?).map (fun b => { b with nbrs := b.nbrs ++ links l n }) := by
  unfold linkAll links
  induction l generalizing bs with
  | nil => simp
  | cons e l ih =>
    rw [List.foldl_cons, ih, addNbr_get, addNbr_get]
    simp [Option.map_map, Function.comp_def]

theorem linkAll_length (bs : List Bus) (l : List (Branch × Nat)) : (linkAll bs l).length = bs.length := by
  unfold linkAll
  induction l generalizing bs with
  | nil => rfl
  | cons e l ih => rw [List.foldl_cons, ih]; simp [addNbr]

theorem linkAll_map {γ : Type} (f : Bus → γ) (hf : ∀ b ns, f { b with nbrs := ns } = f b) (bs : List Bus)
    (l : List (Branch × Nat)) : (linkAll bs l).map f = bs.map f := by
  apply List.ext_getElem?
  intro n
  rw [List.getElem?_map, List.getElem?_map, linkAll_get, Option.map_map]
  congr 1
  funext b
  exact hf b _

theorem links_mem (l : List (Branch × Nat)) (e : Branch × Nat) (he : e ∈ l) : e.2 ∈ links l e.1.l1 ∧ e.2 ∈ links l e.1.l2 := by
  unfold links
  constructor <;> exact List.mem_flatMap.2 ⟨e, he, by simp⟩

theorem links_new (p : Proc) (base : Int) (s i : Nat) (h : i < p.buses.length) :
    (links ((newBranches p base).zipIdx s) i).length = (comps p).count i := by
  have key : ∀ (l : List Nat) (r s : Nat), (links (((l.zipIdx r).flatMap (fun c : Nat × Nat =>
      [(⟨numberOf p c.1, base + 2 * c.2, c.1, p.buses.length + 2 * c.2, true⟩ : Branch),
        ⟨base + 2 * c.2, base + 2 * c.2 + 1, p.buses.length + 2 * c.2, p.buses.length + 2 * c.2 + 1, true⟩])).zipIdx s) i).length =
      l.count i := by
    intro l
    induction l with
    | nil => intro r s; rfl
    | cons a l ih =>
      intro r s
      rw [List.zipIdx_cons, List.flatMap_cons, List.zipIdx_append]
      unfold links at ih ⊢
      rw [List.flatMap_append, List.length_append, ih, List.count_cons]
      have e1 : ¬ p.buses.length + 2 * r = i := by omega
      have e2 : ¬ p.buses.length + 2 * r + 1 = i := by omega
      simp [List.zipIdx_cons, e1, e2]
      by_cases ha : a = i
      · simp [ha]; omega
      · simp [ha]
  exact key (comps p) 0 s

/-- The numbers of the buses owned by a process. -/
def ownedOf (p : Proc) : List Int := p.buses.filterMap (fun b => if b.active then some b.number else none)

theorem owned_eq (procs : List Proc) : owned procs = procs.flatMap ownedOf := by
  unfold owned ownedOf
  rw [List.filterMap_flatMap]

theorem owned_expandOn (procs : List Proc) (me : Nat) (p : Proc) :
    ownedOf (expandOn procs me p) = ownedOf p ++
      (List.range (added p)).map (fun j : Nat => (offset procs me + maxIdx procs + 1) + (j : Int)) := by
  have e : ∀ bs : List Bus, bs.filterMap (fun b => if b.active then some b.number else none) =
      (bs.map (fun b => if b.active then some b.number else none)).filterMap id := by
    intro bs; rw [List.filterMap_map]; rfl
  unfold ownedOf expandOn
  simp only
  rw [e, linkAll_map _ (fun b ns => rfl), ← e, List.filterMap_append]
  congr 1
  unfold added
  rw [← newBuses_numbers]
  generalize hN : newBuses p _ = N
  have ha : ∀ b ∈ N, b.active = true := fun b hb => (newBuses_active p _ b (hN ▸ hb)).1
  clear hN
  induction N with
  | nil => rfl
  | cons a N ih =>
    rw [List.filterMap_cons, ha a (by simp), ih (fun b hb => ha b (by simp [hb]))]
    simp

theorem localMax_le (p : Proc) (x : Int) (h : x ∈ ownedOf p) : x ≤ localMax p := by
  have key : ∀ (l : List Bus) (m : Int), m ≤ l.foldl (fun m b => if b.active && decide (m < b.number) then b.number else m) m ∧
      ∀ x ∈ l.filterMap (fun b => if b.active then some b.number else none),
        x ≤ l.foldl (fun m b => if b.active && decide (m < b.number) then b.number else m) m := by
    intro l
    induction l with
    | nil => intro m; exact ⟨Int.le_refl _, by simp⟩
    | cons a l ih =>
      intro m
      rw [List.foldl_cons]
      obtain ⟨h1, h2⟩ := ih (if a.active && decide (m < a.number) then a.number else m)
      have hm : m ≤ (if a.active && decide (m < a.number) then a.number else m) := by
        split_ifs with h
        · simp at h; omega
        · omega
      refine ⟨Int.le_trans hm h1, ?_⟩
      intro x hx
      rw [List.filterMap_cons] at hx
      by_cases ha : a.active = true
      · rw [ha] at hx
        simp only [if_true, List.mem_cons] at hx
        rcases hx with rfl | hx
        · refine Int.le_trans ?_ h1
          rw [ha]
          simp only [Bool.true_and]
          split_ifs with h
          · exact Int.le_refl _
          · simp at h; omega
        · exact h2 x hx
      · rw [if_neg ha] at hx
        exact h2 x hx
  exact (key p.buses (-1)).2 x h

theorem foldl_max_ge (l : List Int) (m : Int) : m ≤ l.foldl max m ∧ ∀ x ∈ l, x ≤ l.foldl max m := by
  induction l generalizing m with
  | nil => exact ⟨Int.le_refl _, by simp⟩
  | cons a l ih =>
    rw [List.foldl_cons]
    obtain ⟨h1, h2⟩ := ih (max m a)
    refine ⟨by omega, ?_⟩
    intro x hx
    rcases List.mem_cons.1 hx with rfl | hx
    · omega
    · exact h2 x hx

theorem owned_le (procs : List Proc) (x : Int) (h : x ∈ owned procs) : x ≤ maxIdx procs := by
  rw [owned_eq, List.mem_flatMap] at h
  obtain ⟨p, hp, hx⟩ := h
  exact Int.le_trans (localMax_le p x hx) ((foldl_max_ge _ _).2 _ (List.mem_map.2 ⟨p, hp, rfl⟩))

theorem new_numbers (m : Int) (pre l : List Proc) :
    (l.zipIdx pre.length).flatMap (fun p => (List.range (added p.1)).map (fun j : Nat => (offset (pre ++ l) p.2 + m + 1) + (j : Int))) =
      (List.range' ((pre.map added).sum) ((l.map added).sum)).map (fun j : Nat => m + 1 + (j : Int)) := by
  induction l generalizing pre with
  | nil => simp
  | cons a l ih =>
    have h := ih (pre ++ [a])
    rw [List.append_assoc, List.singleton_append, List.length_append, List.length_singleton] at h
    rw [List.zipIdx_cons, List.flatMap_cons, h, List.map_cons, List.sum_cons, List.map_append, List.sum_append]
    have ho : offset (pre ++ a :: l) pre.length = (pre.map added).sum := by
      unfold offset
      rw [List.take_left]
    simp only [List.map_cons, List.map_nil, List.sum_cons, List.sum_nil, Nat.add_zero]
    rw [ho, ← List.range'_append_1 (s := (pre.map added).sum), List.map_append]
    congr 1
    rw [List.range_eq_range', List.range'_eq_map_range (s := (pre.map added).sum), List.map_map, ← List.range_eq_range']
    apply List.map_congr_left
    intro j _
    simp only [Function.comp]
    push_cast
    omega

theorem sum_zero (l : List Nat) (h : l.sum = 0) : ∀ x ∈ l, x = 0 := by
  induction l with
  | nil => simp
  | cons a l ih =>
    rw [List.sum_cons] at h
    intro x hx
    rcases List.mem_cons.1 hx with rfl | hx
    · omega
    · exact ih (by omega) x hx

theorem owned_expand (procs : List Proc) :
    (owned (expand procs)).Perm
      (owned procs ++ (List.range ((procs.map added).sum)).map (fun j : Nat => maxIdx procs + 1 + (j : Int))) := by
  unfold expand
  split_ifs with h
  · have : (procs.map added).sum = 0 := by
      have e : ∀ l : List Proc, (l.map added).sum = 2 * (l.map (fun p => (comps p).length)).sum := by
        intro l
        induction l with
        | nil => rfl
        | cons a l ih => rw [List.map_cons, List.map_cons, List.sum_cons, List.sum_cons, ih]; unfold added; omega
      rw [e, h]
    rw [this]
    simp
  · rw [owned_eq, List.flatMap_map]
    have e : procs.zipIdx.flatMap (fun p => ownedOf (expandOn procs p.2 p.1)) =
        procs.zipIdx.flatMap (fun p => ownedOf p.1 ++
          (List.range (added p.1)).map (fun j : Nat => (offset procs p.2 + maxIdx procs + 1) + (j : Int))) := by
      congr 1
      funext p
      exact owned_expandOn procs p.2 p.1
    rw [e]
    refine (List.flatMap_append_perm _ _ _).symm.trans ?_
    have e1 : procs.zipIdx.flatMap (fun p => ownedOf p.1) = owned procs := by
      rw [owned_eq]
      conv_rhs => rw [← List.zipIdx_map_fst 0 procs, List.flatMap_map]
    have e2 := new_numbers (maxIdx procs) [] procs
    simp only [List.nil_append, List.length_nil, List.map_nil, List.sum_nil] at e2
    rw [e1, e2, List.range_eq_range']

theorem added_sum (procs : List Proc) : (procs.map added).sum = 2 * ((procs.flatMap (·.buses)).map loadsAt).sum := by
  induction procs with
  | nil => rfl
  | cons a l ih =>
    rw [List.map_cons, List.sum_cons, ih, List.flatMap_cons, List.map_append, List.sum_append]
    unfold added
    rw [comps_length]
    omega

theorem expand_get (procs : List Proc) (me : Nat) (p : Proc) (hp : procs[me]? = some p) :
    (expand procs)[me]? = some (expandOn procs me p) ∨ ((expand procs)[me]? = some p ∧ comps p = []) := by
  unfold expand
  split_ifs with h
  · right
    refine ⟨hp, ?_⟩
    have := sum_zero _ h (comps p).length (List.mem_map.2 ⟨p, List.mem_of_getElem? hp, rfl⟩)
    exact List.length_eq_zero_iff.1 this
  · left
    rw [List.getElem?_map, List.getElem?_zipIdx, hp]
    simp

end GridPACK.Expand
