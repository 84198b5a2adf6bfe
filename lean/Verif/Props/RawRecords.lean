import Verif.Model.RawRecords
import Mathlib.Tactic.Tauto
import Mathlib.Tactic.Conv
import Mathlib.Algebra.Group.Nat.Defs

/-! Property C172: comment lines in the transformer block. -/
namespace GridPACK.RawRecords

open GridPACK.StringUtils GridPACK.BlockParser

/-! ### Specification

A block is a list of transformers, each given by its lines: four for two windings, five for three.  Comment
lines stand before transformers. -/

/-- A comment: blanks, then `//` or `@!`. -/
def IsComment (s : Str) : Prop :=
  ∃ k rest, s = List.replicate k ' ' ++ '/' :: '/' :: rest ∨ s = List.replicate k ' ' ++ '@' :: '!' :: rest

structure Item where
  comments : List Str
  lines : List Str

/-- The lines of the block. -/
def Item.text (i : Item) : List Str := i.comments ++ i.lines

/-- A transformer with the right number of lines, none of them a comment; no line that begins it ends the
block. -/
structure Item.Good (three : Str → Bool) (i : Item) : Prop where
  comments : ∀ c ∈ i.comments, IsComment c
  lines : ∀ l ∈ i.lines, ¬ IsComment l
  first : ∃ l1 l2 l3 l4, testEnd l1 = true ∧
    ((three l1 = false ∧ i.lines = [l1, l2, l3, l4]) ∨ (three l1 = true ∧ ∃ l5, i.lines = [l1, l2, l3, l4, l5]))

/-- The transformers that are read: all but the three-winding ones that are skipped. -/
def kept (three : Str → Bool) (skip : Str → Str → Bool) (is : List Item) : List (List Str) :=
  (is.filter (fun i => match i.lines with
    | l1 :: l2 :: _ => !(three l1 && skip l1 l2)
    | _ => true)).map (fun i => i.lines)

theorem dropBlanks (k : ℕ) (c : Char) (s : Str) (hc : c ≠ ' ') :
    (List.replicate k ' ' ++ c :: s).dropWhile (· = ' ') = c :: s := by
  induction k with
  | zero => simp [hc]
  | succ k ih => simpa [List.replicate_succ] using ih

theorem allBlank (s : Str) : ∀ c ∈ s.takeWhile (· = ' '), c = ' ' := by
  induction s with
  | nil => simp
  | cons d s ih =>
    intro c hc
    by_cases hd : d = ' '
    · simp only [List.takeWhile_cons, hd, decide_true, if_true, List.mem_cons] at hc
      rcases hc with rfl | hc
      · rfl
      · exact ih c hc
    · simp [hd] at hc

theorem checkComment_iff (s : Str) : checkComment s = true ↔ IsComment s := by
  constructor
  · intro h
    have hs : s = List.replicate (s.takeWhile (· = ' ')).length ' ' ++ s.dropWhile (· = ' ') := by
      conv_lhs => rw [← List.takeWhile_append_dropWhile (p := (· = ' ')) (l := s)]
      congr 1
      rw [List.eq_replicate_iff]
      exact ⟨rfl, fun c hc => by simpa using allBlank s c hc⟩
    unfold checkComment at h
    split at h
    · rename_i rest he
      rw [he] at hs
      exact ⟨_, rest, Or.inl hs⟩
    · rename_i rest he
      rw [he] at hs
      exact ⟨_, rest, Or.inr hs⟩
    · cases h
  · rintro ⟨k, rest, rfl | rfl⟩
    · rw [checkComment, dropBlanks k '/' _ (by decide)]; rfl
    · rw [checkComment, dropBlanks k '@' _ (by decide)]; rfl

theorem comment_goes_on (s : Str) (h : IsComment s) : testEnd s = true := by
  have key : ∀ k c (s : Str), c ≠ '0' → c ≠ ' ' → testEnd (List.replicate k ' ' ++ c :: s) = true := by
    intro k c s h0 hb
    have hh : (List.replicate k ' ' ++ c :: s).head? ≠ some '0' := by
      cases k with
      | zero => simpa using h0
      | succ k => simp [List.replicate_succ]
    unfold testEnd
    rw [if_neg hh, dropBlanks k c s hb]
    simp [h0]
  obtain ⟨k, rest, rfl | rfl⟩ := h
  · exact key k '/' _ (by decide) (by decide)
  · exact key k '@' _ (by decide) (by decide)

theorem records_comments (three : Str → Bool) (skip : Str → Str → Bool) (cs : List Str) (rest : List Str)
    (h : ∀ c ∈ cs, IsComment c) : ∀ fuel,
    records three skip (fuel + cs.length) (cs ++ rest) = records three skip fuel rest := by
  induction cs with
  | nil => intro fuel; rfl
  | cons c cs ih =>
    intro fuel
    have hc : checkComment c = true ∧ testEnd c = true :=
      ⟨(checkComment_iff c).mpr (h c (by simp)), comment_goes_on c (h c (by simp))⟩
    have e : fuel + (c :: cs).length = (fuel + cs.length) + 1 := by simp; omega
    rw [e, List.cons_append, records]
    simp only [hc.1, hc.2, if_true]
    exact ih (fun x hx => h x (by simp [hx])) fuel

theorem cont_full (ls rest : List Str) (h : ∀ l ∈ ls, checkComment l = false) :
    cont ls.length (ls ++ rest) = .full ls rest := by
  induction ls with
  | nil => rfl
  | cons l ls ih =>
    simp [cont, h l (by simp), ih (fun x hx => h x (by simp [hx]))]

/-- C172, the part that holds: when comments stand between transformers only, the block is read as if they
were not there: exactly the transformers given, each with its own lines.  (What is missing: comments
inside a transformer.) -/
theorem C172_comments_partial (three : Str → Bool) (skip : Str → Str → Bool) (is : List Item)
    (h : ∀ i ∈ is, i.Good three) (cs : List Str) (hcs : ∀ c ∈ cs, IsComment c)
    (last : Str) (hlast : testEnd last = false) (rest : List Str) :
    ∃ n, ∀ m, n ≤ m →
      records three skip m ((is.map Item.text).flatten ++ (cs ++ last :: rest)) = some (kept three skip is) := by
  induction is with
  | nil =>
    refine ⟨cs.length + 1, fun m hm => ?_⟩
    obtain ⟨k, rfl⟩ : ∃ k, m = (k + 1) + cs.length := ⟨m - cs.length - 1, by omega⟩
    simp only [List.map_nil, List.flatten_nil, List.nil_append]
    rw [records_comments three skip cs _ hcs]
    simp [records, hlast, kept]
  | cons i is ih =>
    obtain ⟨n, hn⟩ := ih (fun x hx => h x (by simp [hx]))
    have hg := h i (by simp)
    obtain ⟨l1, l2, l3, l4, ht, hcase⟩ := hg.first
    refine ⟨n + 1 + i.comments.length, fun m hm => ?_⟩
    obtain ⟨k, rfl, hk⟩ : ∃ k, m = (k + 1) + i.comments.length ∧ n ≤ k := ⟨m - i.comments.length - 1, by omega, by omega⟩
    have hrest := hn k hk
    generalize hR : (is.map Item.text).flatten ++ (cs ++ last :: rest) = R at hrest
    have e : ((i :: is).map Item.text).flatten ++ (cs ++ last :: rest) = i.comments ++ (i.lines ++ R) := by
      simp [Item.text, ← hR]
    rw [e, records_comments three skip i.comments _ hg.comments]
    have hl : ∀ l ∈ i.lines, checkComment l = false := fun l hlm => by
      have := hg.lines l hlm
      rwa [← checkComment_iff, Bool.not_eq_true] at this
    rcases hcase with ⟨h3, hL⟩ | ⟨h3, l5, hL⟩
    · rw [hL] at hl ⊢
      have hc1 := hl l1 (by simp)
      have hc := cont_full [l2, l3, l4] R (fun l hlm => hl l (List.mem_cons_of_mem _ hlm))
      simp only [List.length_cons, List.length_nil, List.cons_append, List.nil_append] at hc ⊢
      rw [records]
      simp only [ht, if_true, hc1, h3, Bool.false_eq_true, if_false]
      simp only [Nat.reduceAdd, zero_add] at hc
      rw [hc]
      simp only [hrest, Option.map_some]
      simp [kept, hL, h3]
    · rw [hL] at hl ⊢
      have hc1 := hl l1 (by simp)
      have hca := cont_full [l2] (l3 :: l4 :: l5 :: R) (fun l hlm => hl l (by simp at hlm; simp [hlm]))
      have hcb := cont_full [l3, l4, l5] R (fun l hlm => hl l (by simp at hlm; simp; tauto))
      simp only [List.length_cons, List.length_nil, List.cons_append, List.nil_append, zero_add,
        Nat.reduceAdd] at hca hcb ⊢
      rw [records]
      simp only [ht, if_true, hc1, h3, Bool.false_eq_true, if_false, hca]
      by_cases hs : skip l1 l2 = true
      · simp [hs, hrest, kept, hL, h3]
      · simp only [Bool.not_eq_true] at hs
        simp [hs, hcb, hrest, kept, hL, h3]

/-- C172 fails for every two-winding transformer with a comment after its first line: the transformer is
lost, and its second line is taken for the first line of the next one. -/
theorem C172_inside_violated (three : Str → Bool) (skip : Str → Str → Bool) (l1 c : Str) (rest : List Str)
    (fuel : Nat) (h1 : testEnd l1 = true) (h2 : ¬ IsComment l1) (h3 : three l1 = false)
    (hc : IsComment c) :
    records three skip (fuel + 1) (l1 :: c :: rest) = records three skip fuel rest := by
  rw [← checkComment_iff] at h2 hc
  rw [records]
  simp [h1, h2, h3, cont, hc]

/-- A case: the second line begins with 0, so the block ends and all further transformers are lost too. -/
example : records (fun _ => false) (fun _ _ => false) 9
    ["1,2,0".toList, "// R, X, base".toList, "0.01,0.1,100".toList, "1.0,0.0".toList, "1.0,0.0".toList,
     "2,3,0".toList, "0.01,0.1,100".toList, "1.0,0.0".toList, "1.0,0.0".toList, "0".toList] = some [] := by
  decide

example : records (fun _ => false) (fun _ _ => false) 9
    ["1,2,0".toList, "0.01,0.1,100".toList, "1.0,0.0".toList, "1.0,0.0".toList, "// next".toList,
     "2,3,0".toList, "0.01,0.1,100".toList, "1.0,0.0".toList, "1.0,0.0".toList, "0".toList] =
    some [["1,2,0".toList, "0.01,0.1,100".toList, "1.0,0.0".toList, "1.0,0.0".toList],
      ["2,3,0".toList, "0.01,0.1,100".toList, "1.0,0.0".toList, "1.0,0.0".toList]] := by
  decide

/-- The hypotheses of the partial theorem hold for this block. -/
example : (⟨["// next".toList], ["2,3,0".toList, "0.01,0.1,100".toList, "1.0,0.0".toList,
    "1.0,0.0".toList]⟩ : Item).Good (fun _ => false) :=
  ⟨by simp only [← checkComment_iff]; decide, by simp only [← checkComment_iff]; decide, _, _, _, _, by decide,
    Or.inl ⟨rfl, rfl⟩⟩

end GridPACK.RawRecords
