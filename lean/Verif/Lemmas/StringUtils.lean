import Verif.Model.StringUtils
import Mathlib.Tactic.Linarith

/-! Searching in strings given as concatenations. -/
namespace GridPACK.StringUtils

theorem findIdx?_append_cons (P : Char → Bool) (t : Str) (c : Char) (r : Str)
    (ht : ∀ x ∈ t, P x = false) (hc : P c = true) :
    (t ++ c :: r).findIdx? P = some t.length := by
  induction t with
  | nil => simp [List.findIdx?_cons, hc]
  | cons x t ih =>
    rw [List.cons_append, List.findIdx?_cons, ht x (by simp),
      ih (fun y hy => ht y (List.mem_cons_of_mem _ hy))]
    simp

theorem findIdx?_none (P : Char → Bool) (t : Str) (ht : ∀ x ∈ t, P x = false) :
    t.findIdx? P = none := by
  rw [List.findIdx?_eq_none_iff]
  intro x hx; simpa using ht x hx

theorem find_hit (c : Char) (pre t r : Str) (ht : c ∉ t) :
    find c (pre ++ (t ++ c :: r)) pre.length = pre.length + t.length := by
  unfold find
  rw [if_neg (by omega)]
  have : ((pre.length : Int)).toNat = pre.length := by omega
  rw [this, List.drop_left, findIdx?_append_cons _ t c r]
  · intro x hx; simp; rintro rfl; exact ht hx
  · simp

theorem find_miss (c : Char) (pre t : Str) (ht : c ∉ t) :
    find c (pre ++ t) pre.length = -1 := by
  unfold find
  rw [if_neg (by omega)]
  have : ((pre.length : Int)).toNat = pre.length := by omega
  rw [this, List.drop_left, findIdx?_none]
  intro x hx; simp; rintro rfl; exact ht hx

theorem find_neg (c : Char) (s : Str) : find c s (-1) = -1 := by unfold find; simp

theorem findNot_hit (c : Char) (pre : Str) (k : Nat) (d : Char) (r : Str) (hd : d ≠ c) :
    findNot c (pre ++ (List.replicate k c ++ d :: r)) pre.length = pre.length + k := by
  unfold findNot
  rw [if_neg (by omega)]
  have : ((pre.length : Int)).toNat = pre.length := by omega
  rw [this, List.drop_left, findIdx?_append_cons _ (List.replicate k c) d r]
  · simp
  · intro x hx; rw [List.eq_of_mem_replicate hx]; simp
  · simpa using hd

theorem findNot_miss (c : Char) (pre : Str) (k : Nat) :
    findNot c (pre ++ List.replicate k c) pre.length = -1 := by
  unfold findNot
  rw [if_neg (by omega)]
  have : ((pre.length : Int)).toNat = pre.length := by omega
  rw [this, List.drop_left, findIdx?_none]
  intro x hx; rw [List.eq_of_mem_replicate hx]; simp

theorem findNot_neg (c : Char) (s : Str) : findNot c s (-1) = -1 := by unfold findNot; simp

theorem substr_mid (pre t r : Str) (p n : Int) (hp : p = pre.length) (hn : n = t.length) :
    substr (pre ++ (t ++ r)) p n = some t := by
  subst hp hn
  unfold substr slen
  rw [if_neg (by simp; omega), if_neg (by omega)]
  have h1 : ((pre.length : Int)).toNat = pre.length := by omega
  have h2 : ((t.length : Int)).toNat = t.length := by omega
  rw [h1, h2, List.drop_left, List.take_left]

theorem substr_neg (s : Str) (n : Int) : substr s (-1) n = none := by
  unfold substr; simp

theorem charAt_mid (pre : Str) (c : Char) (r : Str) (p : Int) (hp : p = pre.length) :
    charAt (pre ++ c :: r) p = some c := by
  subst hp
  unfold charAt slen
  rw [if_neg (by omega), if_neg (by simp; omega)]
  have h1 : ((pre.length : Int)).toNat = pre.length := by omega
  rw [h1]; simp

end GridPACK.StringUtils
