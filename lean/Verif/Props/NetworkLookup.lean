import Verif.Model.NetworkLookup
import Mathlib.Tactic.Linarith

/-! Property C18: lookup of local indices by original number. -/
namespace GridPACK.NetworkLookup

variable {K V : Type}

/-- Requirements on a key order. -/
structure IsOrder (lt : K → K → Bool) : Prop where
  irrefl : ∀ a, lt a a = false
  trans : ∀ a b c, lt a b = true → lt b c = true → lt a c = true
  total : ∀ a b, lt a b = false → lt b a = false → a = b

theorem ltInt_order : IsOrder ltInt := by
  constructor <;> intros <;> simp_all [ltInt] <;> omega

theorem ltPair_order : IsOrder ltPair := by
  constructor
  · intro a; simp [ltPair]
  · rintro ⟨a, a'⟩ ⟨b, b'⟩ ⟨c, c'⟩ h1 h2
    simp [ltPair] at h1 h2 ⊢; omega
  · rintro ⟨a, a'⟩ ⟨b, b'⟩ h1 h2
    simp [ltPair] at h1 h2
    simp only [Prod.mk.injEq]; omega

/-- No later entry has a smaller key. -/
def Sorted (lt : K → K → Bool) (m : List (K × V)) : Prop :=
  m.Pairwise (fun a b => lt b.1 a.1 = false)

theorem lt_false_trans {lt : K → K → Bool} (ho : IsOrder lt) {a b c : K}
    (h1 : lt a b = true) (h2 : lt c b = false) : lt c a = false := by
  cases h : lt c a with
  | false => rfl
  | true => rw [ho.trans _ _ _ h h1] at h2; cases h2

theorem mem_insert (lt : K → K → Bool) (k : K) (v : V) (m : List (K × V)) (e : K × V) :
    e ∈ insert lt k v m ↔ e = (k, v) ∨ e ∈ m := by
  induction m with
  | nil => simp [insert]
  | cons x m ih =>
    unfold insert
    split
    · simp
    · simp [ih]; tauto

theorem insert_sorted {lt : K → K → Bool} (ho : IsOrder lt) (k : K) (v : V) (m : List (K × V))
    (h : Sorted lt m) : Sorted lt (insert lt k v m) := by
  induction m with
  | nil => simp [insert, Sorted]
  | cons x m ih =>
    unfold Sorted at h
    rw [List.pairwise_cons] at h
    unfold insert
    split
    · rename_i hk
      unfold Sorted
      rw [List.pairwise_cons]
      refine ⟨?_, List.pairwise_cons.mpr h⟩
      intro e he
      rcases List.mem_cons.mp he with rfl | he
      · cases hc : lt e.1 k with
        | false => simp
        | true =>
          have := ho.trans _ _ _ hk hc
          rw [ho.irrefl] at this; cases this
      · exact lt_false_trans ho hk (h.1 e he)
    · rename_i hk
      unfold Sorted
      rw [List.pairwise_cons]
      refine ⟨?_, ih h.2⟩
      intro e he
      rcases (mem_insert lt k v m e).mp he with rfl | he
      · simpa using hk
      · exact h.1 e he

theorem filter_insert [DecidableEq K] {lt : K → K → Bool} (ho : IsOrder lt) (k q : K) (v : V)
    (m : List (K × V)) (h : Sorted lt m) :
    (insert lt k v m).filter (fun e => decide (e.1 = q)) =
      m.filter (fun e => decide (e.1 = q)) ++ (if k = q then [(k, v)] else []) := by
  induction m with
  | nil => simp [insert, List.filter_cons]
  | cons x m ih =>
    unfold Sorted at h
    rw [List.pairwise_cons] at h
    unfold insert
    split
    · rename_i hk
      by_cases hq : k = q
      · subst hq
        have hno : ((x :: m).filter (fun e => decide (e.1 = k))) = [] := by
          rw [List.filter_eq_nil_iff]
          intro e he
          simp only [decide_eq_true_eq]
          intro hek
          rcases List.mem_cons.mp he with rfl | he
          · rw [hek, ho.irrefl] at hk; cases hk
          · have := h.1 e he
            rw [hek, hk] at this; cases this
        rw [List.filter_cons, if_pos (by simp), hno]
        simp
      · rw [List.filter_cons, if_neg (by simpa using hq), if_neg hq, List.append_nil]
    · rw [List.filter_cons, List.filter_cons (xs := m), ih h.2]
      split <;> simp

theorem collect_eq [DecidableEq K] {lt : K → K → Bool} (ho : IsOrder lt) (q : K) (m : List (K × V))
    (h : Sorted lt m) :
    collect lt q m = (m.filter (fun e => decide (e.1 = q))).map (·.2) := by
  unfold collect
  congr 1
  induction m with
  | nil => rfl
  | cons x m ih =>
    unfold Sorted at h
    rw [List.pairwise_cons] at h
    by_cases h1 : lt x.1 q = true
    · rw [List.dropWhile_cons, if_pos h1, ih h.2, List.filter_cons, if_neg]
      simp only [decide_eq_true_eq]
      intro he; rw [he, ho.irrefl] at h1; cases h1
    · rw [List.dropWhile_cons, if_neg h1]
      have h1' : lt x.1 q = false := by simpa using h1
      -- everything from here on is ≥ q
      have hd : m.dropWhile (fun e => lt e.1 q) = m := by
        cases m with
        | nil => rfl
        | cons y m =>
          rw [List.dropWhile_cons, if_neg]
          intro hy
          have := h.1 y (by simp)
          have h3 := lt_false_trans ho hy h1'
          have h4 := ho.total _ _ this h3
          rw [h4, h1'] at hy; cases hy
      by_cases h2 : lt q x.1 = true
      · rw [List.takeWhile_cons, if_neg (by simp [h2])]
        symm
        rw [List.filter_eq_nil_iff]
        intro e he
        simp only [decide_eq_true_eq]
        intro heq
        rcases List.mem_cons.mp he with rfl | he
        · rw [heq, ho.irrefl] at h2; cases h2
        · have := h.1 e he
          rw [heq, h2] at this; cases this
      · have h2' : lt q x.1 = false := by simpa using h2
        have hx : x.1 = q := ho.total _ _ h1' h2'
        rw [List.takeWhile_cons, if_pos (by simp [h2']), List.filter_cons, if_pos (by simpa using hx)]
        congr 1
        rw [← ih h.2, hd]

/-- The maps after `setMap`, for either kind of key. -/
theorem lookup_after_setMap [DecidableEq K] {lt : K → K → Bool} (ho : IsOrder lt) (keys : List K)
    (q : K) :
    collect lt q (keys.zipIdx.foldl (insertEntry lt) []) =
      (List.range keys.length).filter (fun i => decide (keys[i]? = some q)) := by
  have key : ∀ (es m : List (K × Nat)), Sorted lt m →
      Sorted lt (es.foldl (insertEntry lt) m) ∧
      (es.foldl (insertEntry lt) m).filter (fun e => decide (e.1 = q)) =
        m.filter (fun e => decide (e.1 = q)) ++ es.filter (fun e => decide (e.1 = q)) := by
    intro es
    induction es with
    | nil => intro m hm; exact ⟨hm, by simp⟩
    | cons e es ih =>
      intro m hm
      rw [List.foldl_cons]
      obtain ⟨h1, h2⟩ := ih (insertEntry lt m e) (insert_sorted ho e.1 e.2 m hm)
      refine ⟨h1, ?_⟩
      rw [h2, insertEntry, filter_insert ho _ _ _ _ hm, List.append_assoc]
      congr 1
      rw [List.filter_cons]
      by_cases he : e.1 = q
      · rw [if_pos he, if_pos (by simpa using he)]; rfl
      · rw [if_neg he, if_neg (by simpa using he)]; rfl
  obtain ⟨h1, h2⟩ := key keys.zipIdx [] List.Pairwise.nil
  rw [collect_eq ho q _ h1, h2, List.filter_nil, List.nil_append]
  have hz : ∀ (l : List K) (k : Nat),
      ((l.zipIdx k).filter (fun e => decide (e.1 = q))).map (·.2) =
        (List.range' k l.length).filter (fun i => decide (l[i - k]? = some q)) := by
    intro l
    induction l with
    | nil => intro k; rfl
    | cons x l ih =>
      intro k
      rw [List.zipIdx_cons, List.filter_cons, List.length_cons, List.range'_succ, List.filter_cons]
      have htail : (List.range' (k + 1) l.length).filter
            (fun i => decide ((x :: l)[i - k]? = some q)) =
          (List.range' (k + 1) l.length).filter (fun i => decide (l[i - (k + 1)]? = some q)) := by
        apply List.filter_congr
        intro i hi
        rw [List.mem_range'_1] at hi
        have : i - k = (i - (k + 1)) + 1 := by omega
        rw [this, List.getElem?_cons_succ]
      rw [htail, ← ih (k + 1)]
      simp only [Nat.sub_self, List.getElem?_cons_zero, Option.some.injEq]
      by_cases hx : x = q
      · simp [hx]
      · simp [hx]
  rw [hz keys 0, List.range_eq_range']
  rfl

/-- C18, buses.  After `setMap`, looking up a number gives, in ascending order, exactly the local
indices of the buses with that original number (all copies; nothing if there is none). -/
theorem C18_bus_lookup (n : Net) (q : Int) :
    getLocalBusIndices (setMap n) q =
      (List.range n.buses.length).filter (fun i => decide (n.buses[i]? = some q)) :=
  lookup_after_setMap ltInt_order n.buses q

/-- C18, branches.  After `setMap`, looking up a pair gives exactly the local branches stored with
those end points in that order; if there are none, exactly those stored in the opposite order. -/
theorem C18_branch_lookup (n : Net) (i j : Int) :
    let stored (a b : Int) : List Nat := (List.range n.branches.length).filter
      (fun l => decide (n.branches[l]? = some (a, b)))
    ((i, j) ∈ n.branches → getLocalBranchIndices (setMap n) i j = stored i j) ∧
    ((i, j) ∉ n.branches → getLocalBranchIndices (setMap n) i j = stored j i) := by
  intro stored
  have h1 : collect ltPair (i, j) (setMap n).branchMap = stored i j :=
    lookup_after_setMap ltPair_order n.branches (i, j)
  have h2 : collect ltPair (j, i) (setMap n).branchMap = stored j i :=
    lookup_after_setMap ltPair_order n.branches (j, i)
  unfold getLocalBranchIndices
  simp only [h1, h2]
  constructor
  · intro hm
    obtain ⟨l, hl⟩ := List.mem_iff_getElem?.mp hm
    have hlt := (List.getElem?_eq_some_iff.mp hl).1
    have : l ∈ stored i j := List.mem_filter.mpr ⟨by simpa using hlt, by simpa using hl⟩
    rw [if_neg]
    intro h0
    rw [List.length_eq_zero_iff.mp h0] at this
    cases this
  · intro hm
    rw [if_pos]
    rw [List.length_eq_zero_iff]
    refine List.filter_eq_nil_iff.mpr ?_
    intro l _
    simp only [decide_eq_true_eq]
    intro hl; exact hm (List.mem_of_getElem? hl)

/-- Consequence: when branches between the same two buses are stored in both orders, a lookup never
returns the ones stored in the order opposite to the one asked for. -/
theorem C18_opposite_orientation_hidden (n : Net) (i j : Int) (h : (i, j) ∈ n.branches)
    (l' : Nat) (h' : n.branches[l']? = some (j, i)) (hne : i ≠ j) :
    l' ∉ getLocalBranchIndices (setMap n) i j := by
  have := (C18_branch_lookup n i j).1 h
  rw [this]
  intro hm
  have := (List.mem_filter.mp hm).2
  rw [h'] at this
  simp at this
  omega

/-- The maps are not kept up to date: a bus added after `setMap` is not found until `setMap` is
called again, for every network and every number not present before. -/
theorem C18_stale_map (n : Net) (q : Int) (h : q ∉ n.buses) :
    getLocalBusIndices (addBus (setMap n) q) q = [] ∧
    getLocalBusIndices (setMap (addBus (setMap n) q)) q = [n.buses.length] := by
  constructor
  · have : getLocalBusIndices (addBus (setMap n) q) q = getLocalBusIndices (setMap n) q := rfl
    rw [this, C18_bus_lookup, List.filter_eq_nil_iff]
    intro i _
    simp only [decide_eq_true_eq]
    intro hi; exact h (List.mem_of_getElem? hi)
  · rw [C18_bus_lookup]
    have hb : (addBus (setMap n) q).buses = n.buses ++ [q] := rfl
    rw [hb, List.length_append, List.length_singleton, List.range_succ, List.filter_append]
    have h0 : (List.range n.buses.length).filter
        (fun i => decide ((n.buses ++ [q])[i]? = some q)) = [] := by
      rw [List.filter_eq_nil_iff]
      intro i hi
      simp only [decide_eq_true_eq]
      rw [List.mem_range] at hi
      rw [List.getElem?_append_left hi]
      intro hi; exact h (List.mem_of_getElem? hi)
    rw [h0]
    simp

/-- The same for branches. -/
theorem C18_stale_branch_map (n : Net) (i j : Int) (h : (i, j) ∉ n.branches) (h' : (j, i) ∉ n.branches) :
    getLocalBranchIndices (addBranch (setMap n) i j) i j = [] ∧
    getLocalBranchIndices (setMap (addBranch (setMap n) i j)) i j = [n.branches.length] := by
  constructor
  · have : getLocalBranchIndices (addBranch (setMap n) i j) i j = getLocalBranchIndices (setMap n) i j := rfl
    rw [this, (C18_branch_lookup n i j).2 h, List.filter_eq_nil_iff]
    intro l _
    simp only [decide_eq_true_eq]
    intro hl; exact h' (List.mem_of_getElem? hl)
  · have hb : (addBranch (setMap n) i j).branches = n.branches ++ [(i, j)] := rfl
    rw [(C18_branch_lookup _ i j).1 (by rw [hb]; simp)]
    dsimp only
    rw [hb, List.length_append, List.length_singleton, List.range_succ, List.filter_append]
    have h0 : (List.range n.branches.length).filter
        (fun l => decide ((n.branches ++ [(i, j)])[l]? = some (i, j))) = [] := by
      rw [List.filter_eq_nil_iff]
      intro l hl
      simp only [decide_eq_true_eq]
      rw [List.mem_range] at hl
      rw [List.getElem?_append_left hl]
      intro hl; exact h (List.mem_of_getElem? hl)
    rw [h0]
    simp

/-- Example: two copies of bus 7; a branch stored as (9,7) found when asked for (7,9). -/
example : getLocalBusIndices (setMap { buses := [7, 3, 7, 9], branches := [(9, 7), (3, 9)] }) 7
      = [0, 2] ∧
    getLocalBranchIndices (setMap { buses := [7, 3, 7, 9], branches := [(9, 7), (3, 9)] }) 7 9
      = [0] := by decide

end GridPACK.NetworkLookup
