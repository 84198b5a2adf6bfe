import Mathlib.Data.List.Perm.Basic

/-! Sorting a list into buckets loses and duplicates nothing. -/
namespace GridPACK.Buckets

theorem flatMap_insert {β : Type _} (g : Nat → List β) (x : β) (d n : Nat) (hd : d < n) :
    ((List.range n).flatMap (fun p => if d = p then x :: g p else g p)).Perm
      (x :: (List.range n).flatMap g) := by
  induction n with
  | zero => omega
  | succ n ih =>
    rw [List.range_succ, List.flatMap_append, List.flatMap_append]
    by_cases h : d = n
    · subst h
      have e : (List.range d).flatMap (fun p => if d = p then x :: g p else g p)
          = (List.range d).flatMap g := by
        apply List.flatMap_congr
        intro p hp
        have := List.mem_range.mp hp
        rw [if_neg (by omega)]
      rw [e]
      simp only [List.flatMap_cons, List.flatMap_nil, if_true, List.append_nil]
      exact List.perm_middle
    · have := ih (by omega)
      simp only [List.flatMap_cons, List.flatMap_nil, if_neg h, List.append_nil]
      exact this.append_right _

/-- Buckets `0..n-1` of a list whose elements all have a bucket contain each element once. -/
theorem flatMap_filter_perm {β : Type _} (f : β → Nat) (n : Nat) (L : List β)
    (h : ∀ x ∈ L, f x < n) :
    ((List.range n).flatMap (fun p => L.filter (fun x => decide (f x = p)))).Perm L := by
  induction L with
  | nil => simp
  | cons x L ih =>
    have e : (fun p => (x :: L).filter (fun x => decide (f x = p)))
        = (fun p => if f x = p then x :: L.filter (fun x => decide (f x = p))
            else L.filter (fun x => decide (f x = p))) := by
      funext p
      by_cases hx : f x = p <;> simp [hx]
    rw [e]
    refine (flatMap_insert _ x (f x) n (h x (by simp))).trans ?_
    exact (ih (fun y hy => h y (by simp [hy]))).cons x

theorem flatMap_swap {α β : Type _} (l : List α) (n : Nat) (g : α → Nat → List β) :
    (l.flatMap (fun a => (List.range n).flatMap (g a))).Perm
      ((List.range n).flatMap (fun p => l.flatMap (fun a => g a p))) := by
  induction n with
  | zero => simp
  | succ n ih =>
    rw [List.range_succ, List.flatMap_append]
    simp only [List.flatMap_append, List.flatMap_cons, List.flatMap_nil, List.append_nil]
    exact (List.flatMap_append_perm l _ _).symm.trans (ih.append_right _)

theorem sum_zero_mem (l : List Nat) (h : l.sum = 0) : ∀ x ∈ l, x = 0 := by
  induction l with
  | nil => simp
  | cons a l ih =>
    rw [List.sum_cons] at h
    intro x hx
    rcases List.mem_cons.mp hx with rfl | hx
    · omega
    · exact ih (by omega) x hx

theorem sum_zero_of (l : List Nat) (h : ∀ x ∈ l, x = 0) : l.sum = 0 := by
  induction l with
  | nil => rfl
  | cons a l ih =>
    rw [List.sum_cons, h a (by simp), ih (fun x hx => h x (by simp [hx]))]

end GridPACK.Buckets
