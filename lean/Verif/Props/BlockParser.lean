import Verif.Model.BlockParser
import Verif.Props.StringUtils

/-! Properties C29 (end of block), C30 (quoted names), C31 (comments), C63 (fields of a line), C64 (bus
name and voltage) and C65 (reading a block ends). -/
namespace GridPACK.BlockParser
open StringUtils

/-! ### C29 -/

/-- What ends a block: blanks, then a `0` standing alone as a field. -/
def EndsBlock (s : Str) : Prop :=
  ∃ k r, s = List.replicate k ' ' ++ '0' :: r ∧
    (∀ d, r.head? = some d → d = ' ' ∨ d = ',' ∨ d = '/')

theorem dropWhile_blank (s : Str) :
    ∃ k, s = List.replicate k ' ' ++ s.dropWhile (· = ' ') ∧
      ∀ c, (s.dropWhile (· = ' ')).head? = some c → c ≠ ' ' := by
  obtain ⟨a, h1, h2, h3⟩ := dropWhile_split (fun c => decide (c = ' ')) s
  refine ⟨a.length, ?_, ?_⟩
  · have : a = List.replicate a.length ' ' := by
      rw [List.eq_replicate_iff]
      exact ⟨rfl, fun c hc => by simpa using h2 c hc⟩
    conv => lhs; rw [h1]
    conv => lhs; rw [this]
  · intro c hc
    simpa using h3 c hc

theorem replicate_blank_inj {k k' : Nat} {r r' : Str}
    (h : List.replicate k ' ' ++ r = List.replicate k' ' ' ++ r')
    (hr : ∀ c, r.head? = some c → c ≠ ' ') (hr' : ∀ c, r'.head? = some c → c ≠ ' ')
    (_hn : r ≠ []) (_hn' : r' ≠ []) : k = k' ∧ r = r' := by
  induction k generalizing k' with
  | zero =>
    cases k' with
    | zero => exact ⟨rfl, by simpa using h⟩
    | succ k' =>
      exfalso
      rw [List.replicate_zero, List.nil_append, List.replicate_succ, List.cons_append] at h
      exact hr ' ' (by rw [h]; rfl) rfl
  | succ k ih =>
    cases k' with
    | zero =>
      exfalso
      rw [List.replicate_zero, List.nil_append, List.replicate_succ, List.cons_append] at h
      exact hr' ' ' (by rw [← h]; rfl) rfl
    | succ k' =>
      rw [List.replicate_succ, List.replicate_succ, List.cons_append, List.cons_append,
        List.cons.injEq] at h
      obtain ⟨e1, e2⟩ := ih h.2
      exact ⟨by omega, e2⟩

/-- Exactly what the code does, for every line. -/
theorem C29_exact (s : Str) : testEnd s = false ↔
    (∃ r, s = '0' :: r) ∨
    (∃ k r, s = List.replicate k ' ' ++ '0' :: r ∧ (∀ d, r.head? = some d → d = ' ' ∨ d = '\\')) := by
  obtain ⟨k, hk, hne⟩ := dropWhile_blank s
  unfold testEnd
  by_cases h0 : s.head? = some '0'
  · rw [if_pos h0]
    cases s with
    | nil => simp at h0
    | cons c r =>
      simp at h0
      subst h0
      simp
  · rw [if_neg h0]
    have hno : ¬ ∃ r, s = '0' :: r := by rintro ⟨r, rfl⟩; exact h0 rfl
    simp only [hno, false_or]
    cases hd : s.dropWhile (· = ' ') with
    | nil =>
      simp only
      constructor
      · intro h; cases h
      · rintro ⟨k', r, he, _⟩
        exfalso
        rw [hd, List.append_nil] at hk
        have : '0' ∈ s := by rw [he]; simp
        rw [hk] at this
        exact absurd (List.eq_of_mem_replicate this) (by decide)
    | cons c r =>
      simp only
      rw [hd] at hk hne
      by_cases hc : c = '0'
      · subst hc
        rw [if_neg (by simp)]
        have huniq : ∀ k' r', s = List.replicate k' ' ' ++ '0' :: r' → r' = r := by
          intro k' r' he
          have := replicate_blank_inj (hk ▸ he : List.replicate k ' ' ++ '0' :: r = _) hne
            (by intro c hc; simp at hc; subst hc; decide) (by simp) (by simp)
          have := this.2
          simp at this
          exact this.symm
        cases r with
        | nil =>
          simp only [true_iff]
          exact ⟨k, [], hk, by simp⟩
        | cons d r =>
          simp only
          constructor
          · intro h
            split at h
            · rename_i hd'
              exact ⟨k, d :: r, hk, by intro x hx; simp at hx; subst hx; exact hd'⟩
            · cases h
          · rintro ⟨k', r', he, hr'⟩
            have := huniq k' r' he
            subst this
            rw [if_pos (hr' d rfl)]
      · rw [if_pos hc]
        constructor
        · intro h; cases h
        · rintro ⟨k', r', he, _⟩
          exfalso
          have := replicate_blank_inj (hk ▸ he : List.replicate k ' ' ++ c :: r = _) hne
            (by intro c hc; simp at hc; subst hc; decide) (by simp) (by simp)
          have := this.2
          simp at this
          exact hc this.1

/-- C29, the part that holds: it is correct on every line that is not a `0` in the first column followed
by more of the same field, and not a `0` preceded by blanks and followed by a comma, a comment mark or a
backslash. -/
theorem C29_test_end_partial (s : Str)
    (h1 : ∀ d r, s = '0' :: d :: r → d = ' ' ∨ d = ',' ∨ d = '/')
    (h2 : ∀ k d r, s = List.replicate (k + 1) ' ' ++ '0' :: d :: r → d ≠ ',' ∧ d ≠ '/' ∧ d ≠ '\\') :
    testEnd s = false ↔ EndsBlock s := by
  rw [C29_exact]
  constructor
  · rintro (⟨r, rfl⟩ | ⟨k, r, rfl, hr⟩)
    · refine ⟨0, r, by simp, ?_⟩
      intro d hd
      cases r with
      | nil => simp at hd
      | cons x r => simp at hd; subst hd; exact h1 x r rfl
    · refine ⟨k, r, rfl, ?_⟩
      intro d hd
      cases r with
      | nil => simp at hd
      | cons x r =>
        simp at hd; subst hd
        cases k with
        | zero => exact h1 x r rfl
        | succ k =>
          rcases hr x rfl with h | h
          · exact .inl h
          · exact absurd h (h2 k x r rfl).2.2
  · rintro ⟨k, r, rfl, hr⟩
    cases k with
    | zero => exact .inl ⟨r, by simp⟩
    | succ k =>
      refine .inr ⟨k + 1, r, rfl, ?_⟩
      intro d hd
      cases r with
      | nil => simp at hd
      | cons x r =>
        simp at hd; subst hd
        obtain ⟨n1, n2, _⟩ := h2 k x r rfl
        rcases hr x rfl with h | h | h
        · exact .inl h
        · exact absurd h n1
        · exact absurd h n2

/-- C29 fails for data lines such as `0123, …` or `0.95, …` starting in the first column (they end the
block) and for ` 0/ END OF BUS DATA` and ` 0,` after a blank (they do not). -/
theorem C29_violated :
    (testEnd "0123,1".toList = false ∧ ¬ EndsBlock "0123,1".toList) ∧
    (testEnd " 0/ END OF BUS DATA".toList = true ∧ EndsBlock " 0/ END OF BUS DATA".toList) := by
  refine ⟨⟨by decide, ?_⟩, by decide, ⟨1, "/ END OF BUS DATA".toList, by decide, by simp⟩⟩
  rintro ⟨k, r, he, hr⟩
  have := replicate_blank_inj (k := 0) (r := "0123,1".toList) (by simpa using he)
    (by intro c hc; simp at hc; subst hc; decide)
    (by intro c hc; simp at hc; subst hc; decide) (by simp) (by simp)
  have e := this.2
  simp at e
  rw [← e] at hr
  have := hr '1' rfl
  revert this; decide

example : testEnd "0 / END".toList = false ∧ testEnd "  1, 'A'".toList = true ∧
    testEnd "  0 ".toList = false := by decide

/-! ### C30 -/

/-- `t` is `s` without surrounding blanks. -/
def IsStripOf (t s : Str) : Prop :=
  ∃ a b, s = List.replicate a ' ' ++ t ++ List.replicate b ' ' ∧
    (∀ c, t.head? = some c → c ≠ ' ') ∧ (∀ c, t.getLast? = some c → c ≠ ' ')

theorem removeBlanks_spec (s : Str) (h : ∃ c ∈ s, c ≠ ' ') :
    ∃ t, removeBlanks s = .ok t ∧ IsStripOf t s := by
  refine ⟨((s.dropWhile (· = ' ')).reverse.dropWhile (· = ' ')).reverse, ?_, ?_⟩
  · unfold removeBlanks
    rw [if_neg]
    simp only [List.all_eq_true, decide_eq_true_eq, not_forall]
    obtain ⟨c, hc, hn⟩ := h
    exact ⟨c, hc, hn⟩
  · obtain ⟨a, h1, h2⟩ := dropWhile_blank s
    obtain ⟨b, g1, g2⟩ := dropWhile_blank (s.dropWhile (· = ' ')).reverse
    have e : s.dropWhile (· = ' ') =
        ((s.dropWhile (· = ' ')).reverse.dropWhile (· = ' ')).reverse ++ List.replicate b ' ' := by
      have := congrArg List.reverse g1
      rw [List.reverse_reverse, List.reverse_append, List.reverse_replicate] at this
      exact this
    refine ⟨a, b, ?_, ?_, ?_⟩
    · rw [List.append_assoc, ← e]; exact h1
    · intro c hc
      apply h2
      rw [e]
      cases hb : ((s.dropWhile (· = ' ')).reverse.dropWhile (· = ' ')).reverse with
      | nil => rw [hb] at hc; simp at hc
      | cons x l => rw [hb] at hc; simpa using hc
    · intro c hc
      apply g2
      rw [List.getLast?_reverse] at hc
      exact hc

theorem quoted_head (lead : Nat) (name post : Str) :
    findNot ' ' (List.replicate lead ' ' ++ '\'' :: (name ++ '\'' :: post)) 0 = lead ∧
    charAt (List.replicate lead ' ' ++ '\'' :: (name ++ '\'' :: post)) lead = some '\'' := by
  constructor
  · have := findNot_hit ' ' [] lead '\'' (name ++ '\'' :: post) (by decide)
    simpa using this
  · exact charAt_mid _ _ _ _ (by simp)

theorem quotedPart_eq (lead : Nat) (name post : Str) (hq : '\'' ∉ name) :
    quotedPart (List.replicate lead ' ' ++ '\'' :: (name ++ '\'' :: post)) =
      if name.length > 1 then name else [] := by
  have hs : List.replicate lead ' ' ++ '\'' :: (name ++ '\'' :: post) =
      (List.replicate lead ' ' ++ ['\'']) ++ (name ++ '\'' :: post) := by simp
  have g2 : find '\'' (List.replicate lead ' ' ++ '\'' :: (name ++ '\'' :: post)) (lead + 1) =
      lead + 1 + name.length := by
    have := find_hit '\'' (List.replicate lead ' ' ++ ['\'']) name post hq
    rw [← hs] at this
    simpa using this
  unfold quotedPart
  simp only
  rw [(quoted_head lead name post).1, g2]
  by_cases hl : name.length > 1
  · rw [if_pos (by omega), if_pos hl, hs, substr_mid _ name _ _ _ (by simp) (by omega)]
    rfl
  · rw [if_neg (by omega), if_neg (by omega), if_neg hl]

/-- C30, the part that holds: for every name of at least two characters without quote marks that is not
all blanks, in single quotes with blanks before and anything after, the result is the name without
surrounding blanks, and the string is recognised as a quoted one. -/
theorem C30_check_string_partial (lead : Nat) (name post : Str) (hq : '\'' ∉ name)
    (hl : 2 ≤ name.length) (hb : ∃ c ∈ name, c ≠ ' ') :
    ∃ t, checkString (List.replicate lead ' ' ++ ['\''] ++ name ++ ['\''] ++ post) = .ok (true, t) ∧
      IsStripOf t name := by
  obtain ⟨t, ht, hs⟩ := removeBlanks_spec name hb
  refine ⟨t, ?_, hs⟩
  have e : List.replicate lead ' ' ++ ['\''] ++ name ++ ['\''] ++ post =
      List.replicate lead ' ' ++ '\'' :: (name ++ '\'' :: post) := by simp
  obtain ⟨h1, h2⟩ := quoted_head lead name post
  have hqp : quotedPart (List.replicate lead ' ' ++ '\'' :: (name ++ '\'' :: post)) = name := by
    rw [quotedPart_eq lead name post hq, if_pos (by omega)]
  unfold checkString
  rw [e, h1, h2, hqp, if_pos ⟨by omega, rfl⟩, if_neg, ht]
  rintro rfl; simp at hl

/-- C30 fails for every name of one character: the name is lost. -/
theorem C30_one_character_violated (lead : Nat) (c : Char) (post : Str) (hq : c ≠ '\'') :
    checkString (List.replicate lead ' ' ++ ['\''] ++ [c] ++ ['\''] ++ post) = .ok (true, []) := by
  have e : List.replicate lead ' ' ++ ['\''] ++ [c] ++ ['\''] ++ post =
      List.replicate lead ' ' ++ '\'' :: ([c] ++ '\'' :: post) := by simp
  obtain ⟨h1, h2⟩ := quoted_head lead [c] post
  unfold checkString
  rw [e, h1, h2, if_pos ⟨by omega, rfl⟩, quotedPart_eq lead [c] post (by simpa using Ne.symm hq)]
  simp

/-- C30 fails for names made of blanks only (two or more): memory outside the string is read. -/
theorem C30_blank_name_violated (lead n : Nat) (post : Str) (hn : 2 ≤ n) :
    checkString (List.replicate lead ' ' ++ ['\''] ++ List.replicate n ' ' ++ ['\''] ++ post) =
      .undefined := by
  have e : List.replicate lead ' ' ++ ['\''] ++ List.replicate n ' ' ++ ['\''] ++ post =
      List.replicate lead ' ' ++ '\'' :: (List.replicate n ' ' ++ '\'' :: post) := by simp
  obtain ⟨h1, h2⟩ := quoted_head lead (List.replicate n ' ') post
  have hqp : quotedPart (List.replicate lead ' ' ++ '\'' :: (List.replicate n ' ' ++ '\'' :: post)) =
      List.replicate n ' ' := by
    rw [quotedPart_eq lead _ post (by
      intro h; exact absurd (List.eq_of_mem_replicate h) (by decide)), if_pos (by simp; omega)]
  unfold checkString
  rw [e, h1, h2, hqp, if_pos ⟨by omega, rfl⟩, if_neg (by simp; omega)]
  have : removeBlanks (List.replicate n ' ') = .undefined := by
    unfold removeBlanks; rw [if_pos]; simp
  rw [this]

example : checkString " 'BUS 1 ' ".toList = .ok (true, "BUS 1".toList) := by decide
example : checkString "'A'".toList = .ok (true, []) := by decide

/-! ### C31 -/

def quoteChar (c : Char) : Bool := c = '\'' || c = '"'

/-- Removal of the comment, read off the English: copy characters, keeping track of the quote that is
open, and stop at the first slash met with no quote open. -/
def strip : Option Char → Str → Str
  | _, [] => []
  | none, c :: s =>
    if c = '/' then [] else c :: strip (if quoteChar c then some c else none) s
  | some q, c :: s => c :: strip (if c = q then none else some q) s

theorem strip_none_plain (a r : Str) (h : ∀ c ∈ a, quoteChar c = false ∧ c ≠ '/') :
    strip none (a ++ r) = a ++ strip none r := by
  induction a with
  | nil => rfl
  | cons c a ih =>
    obtain ⟨h1, h2⟩ := h c (by simp)
    rw [List.cons_append, strip, if_neg h2, h1]
    simp only [Bool.false_eq_true, if_false]
    rw [ih (fun x hx => h x (List.mem_cons_of_mem _ hx)), List.cons_append]

theorem strip_open (q : Char) (b r : Str) (h : q ∉ b) :
    strip (some q) (b ++ q :: r) = b ++ q :: strip none r := by
  induction b with
  | nil => simp [strip]
  | cons c b ih =>
    simp only [List.mem_cons, not_or] at h
    rw [List.cons_append, strip, if_neg (Ne.symm h.1), ih h.2, List.cons_append]

/-- First slash of a string. -/
theorem split_slash (s : Str) (h : '/' ∈ s) : ∃ a r, s = a ++ '/' :: r ∧ '/' ∉ a := by
  obtain ⟨a, r, h⟩ := List.eq_append_cons_of_mem h
  exact ⟨a, r, h.1, h.2⟩

theorem find_zero_hit (c : Char) (a r : Str) (h : c ∉ a) : find c (a ++ c :: r) 0 = a.length := by
  have := find_hit c [] a r h
  simpa using this

theorem find_zero_miss (c : Char) (a : Str) (h : c ∉ a) : find c a 0 = -1 := by
  have := find_miss c [] a h
  simpa using this

theorem strip_no_slash (s : Str) (h : '/' ∉ s) (o : Option Char) : strip o s = s := by
  induction s generalizing o with
  | nil => cases o <;> rfl
  | cons c s ih =>
    simp only [List.mem_cons, not_or] at h
    cases o with
    | none => rw [strip, if_neg (Ne.symm h.1), ih h.2]
    | some q => rw [strip, ih h.2]

/-- C31 on lines without quotes: exact for every such line. -/
theorem C31_no_quotes_partial (s : Str) (h : ∀ c ∈ s, quoteChar c = false) :
    cleanComment s = strip none s := by
  have hq1 : '\'' ∉ s := fun hm => by simpa [quoteChar] using h _ hm
  have hq2 : '"' ∉ s := fun hm => by simpa [quoteChar] using h _ hm
  unfold cleanComment
  by_cases hs : '/' ∈ s
  · obtain ⟨a, r, rfl, ha⟩ := split_slash s hs
    rw [find_zero_hit '/' a r ha, if_neg (by omega), if_neg]
    · have : ((a.length : Int)).toNat = a.length := by omega
      rw [this, List.take_left, strip_none_plain a ('/' :: r)]
      · simp [strip]
      · intro c hc
        exact ⟨h c (by simp [hc]), by rintro rfl; exact ha hc⟩
    · rintro ⟨h1, _⟩
      apply h1
      unfold commentQuote
      rw [if_pos (find_zero_miss _ _ hq1), if_neg]
      simpa using find_zero_miss _ _ hq2
  · rw [if_pos (find_zero_miss _ _ hs), strip_no_slash s hs]

theorem section_quotes (q : Char) (hq : isQuote q) (a b c : Str)
    (ha : ∀ x ∈ a, quoteChar x = false) (hb : ∀ x ∈ b, quoteChar x = false)
    (hc : ∀ x ∈ c, quoteChar x = false) :
    (commentQuote (a ++ q :: (b ++ q :: c))) = ((a.length : Int), q) ∧
    commentQuote2 (a ++ q :: (b ++ q :: c)) = a.length + 1 + b.length := by
  have nm : ∀ (l : Str), (∀ x ∈ l, quoteChar x = false) → '\'' ∉ l ∧ '"' ∉ l := by
    intro l hl
    exact ⟨fun hm => by simpa [quoteChar] using hl _ hm, fun hm => by simpa [quoteChar] using hl _ hm⟩
  have hqa : q ∉ a := by rcases hq with rfl | rfl; exact (nm a ha).1; exact (nm a ha).2
  have hqb : q ∉ b := by rcases hq with rfl | rfl; exact (nm b hb).1; exact (nm b hb).2
  have h1 : commentQuote (a ++ q :: (b ++ q :: c)) = ((a.length : Int), q) := by
    unfold commentQuote
    rcases hq with rfl | rfl
    · rw [find_zero_hit _ a _ hqa, if_neg (by omega)]
    · have : '\'' ∉ a ++ '"' :: (b ++ '"' :: c) := by
        have n1 := (nm a ha).1
        have n2 := (nm b hb).1
        have n3 := (nm c hc).1
        simp only [List.mem_append, List.mem_cons, not_or]
        exact ⟨n1, by decide, n2, by decide, n3⟩
      rw [if_pos (find_zero_miss _ _ this), find_zero_hit _ a _ hqa, if_pos (by omega)]
  refine ⟨h1, ?_⟩
  unfold commentQuote2
  rw [h1]
  simp only
  rw [if_pos]
  · have hs : a ++ q :: (b ++ q :: c) = (a ++ [q]) ++ (b ++ q :: c) := by simp
    have := find_hit q (a ++ [q]) b c hqb
    rw [← hs] at this
    simpa using this
  · refine ⟨by omega, ?_⟩
    simp [slen]; omega

/-- C31 on lines with one quoted section (single or double quotes): exact whenever there is no slash
both inside the section and after it. -/
theorem C31_one_section_partial (q : Char) (hq : isQuote q) (a b c : Str)
    (ha : ∀ x ∈ a, quoteChar x = false) (hb : ∀ x ∈ b, quoteChar x = false)
    (hc : ∀ x ∈ c, quoteChar x = false) (hslash : '/' ∈ a ∨ '/' ∉ b ∨ '/' ∉ c) :
    cleanComment (a ++ [q] ++ b ++ [q] ++ c) = strip none (a ++ [q] ++ b ++ [q] ++ c) := by
  have e : a ++ [q] ++ b ++ [q] ++ c = a ++ q :: (b ++ q :: c) := by simp
  rw [e]
  obtain ⟨h1, h2⟩ := section_quotes q hq a b c ha hb hc
  have hqs : q ≠ '/' := by rcases hq with rfl | rfl <;> decide
  have hqq : quoteChar q = true := by rcases hq with rfl | rfl <;> decide
  have hqb : q ∉ b := by
    intro hm
    have := hb q hm
    rw [hqq] at this; cases this
  unfold cleanComment
  rw [h1, h2]
  simp only
  by_cases hsa : '/' ∈ a
  · -- slash before the section
    obtain ⟨a1, a2, rfl, hn⟩ := split_slash a hsa
    have hf : find '/' (a1 ++ '/' :: a2 ++ q :: (b ++ q :: c)) 0 = a1.length := by
      have := find_zero_hit '/' a1 (a2 ++ q :: (b ++ q :: c)) hn
      simpa using this
    rw [hf, if_neg (by omega), if_neg]
    · have : ((a1.length : Int)).toNat = a1.length := by omega
      rw [this]
      have e2 : a1 ++ '/' :: a2 ++ q :: (b ++ q :: c) = a1 ++ '/' :: (a2 ++ q :: (b ++ q :: c)) := by
        simp
      rw [e2, List.take_left, strip_none_plain a1]
      · simp [strip]
      · intro x hx
        exact ⟨ha x (by simp [hx]), by rintro rfl; exact hn hx⟩
    · rintro ⟨_, _, h, _⟩
      simp at h
      omega
  · have hstrip : strip none (a ++ q :: (b ++ q :: c)) = a ++ q :: (b ++ q :: strip none c) := by
      rw [strip_none_plain a _ (fun x hx => ⟨ha x hx, by rintro rfl; exact hsa hx⟩), strip,
        if_neg hqs, hqq, if_pos rfl, strip_open q b c hqb]
    rw [hstrip]
    by_cases hsb : '/' ∈ b
    · -- slash inside the section
      have hsc : '/' ∉ c := by
        rcases hslash with h | h | h
        · exact absurd h hsa
        · exact absurd hsb h
        · exact h
      obtain ⟨b1, b2, rfl, hn⟩ := split_slash b hsb
      have hf : find '/' (a ++ q :: (b1 ++ '/' :: b2 ++ q :: c)) 0 = a.length + 1 + b1.length := by
        have := find_zero_hit '/' (a ++ q :: b1) (b2 ++ q :: c) (by
          simp only [List.mem_append, List.mem_cons, not_or]
          exact ⟨hsa, Ne.symm hqs, hn⟩)
        simp at this ⊢
        rw [this]; omega
      rw [hf, if_neg (by omega), if_pos, strip_no_slash c hsc]
      simp
      omega
    · by_cases hsc : '/' ∈ c
      · obtain ⟨c1, c2, rfl, hn⟩ := split_slash c hsc
        have hf : find '/' (a ++ q :: (b ++ q :: (c1 ++ '/' :: c2))) 0 =
            (a ++ q :: (b ++ q :: c1)).length := by
          have := find_zero_hit '/' (a ++ q :: (b ++ q :: c1)) c2 (by
            simp only [List.mem_append, List.mem_cons, not_or]
            exact ⟨hsa, Ne.symm hqs, hsb, Ne.symm hqs, hn⟩)
          rw [← this]
          simp
        rw [hf, if_neg (by omega), if_neg]
        · have h3 : (((a ++ q :: (b ++ q :: c1)).length : Nat) : Int).toNat =
              (a ++ q :: (b ++ q :: c1)).length := by omega
          have e2 : a ++ q :: (b ++ q :: (c1 ++ '/' :: c2)) =
              (a ++ q :: (b ++ q :: c1)) ++ '/' :: c2 := by simp
          rw [h3, e2, List.take_left, strip_none_plain c1 _ (fun x hx =>
            ⟨hc x (by simp [hx]), by rintro rfl; exact hn hx⟩)]
          simp [strip]
        · rintro ⟨_, _, _, h⟩
          simp at h
          omega
      · have : '/' ∉ a ++ q :: (b ++ q :: c) := by
          simp only [List.mem_append, List.mem_cons, not_or]
          exact ⟨hsa, Ne.symm hqs, hsb, Ne.symm hqs, hsc⟩
        rw [if_pos (find_zero_miss _ _ this), strip_no_slash c hsc]

/-- C31 fails for every line with a slash inside its quoted section and a comment after it: the comment
is kept whole. -/
theorem C31_comment_kept_violated (q : Char) (hq : isQuote q) (a b1 b2 c1 c2 : Str)
    (ha : ∀ x ∈ a, quoteChar x = false ∧ x ≠ '/') (hb1 : ∀ x ∈ b1, quoteChar x = false ∧ x ≠ '/')
    (hb2 : ∀ x ∈ b2, quoteChar x = false) (hc1 : ∀ x ∈ c1, quoteChar x = false ∧ x ≠ '/')
    (hc2 : ∀ x ∈ c2, quoteChar x = false) :
    let line := a ++ q :: (b1 ++ '/' :: b2 ++ q :: (c1 ++ '/' :: c2))
    cleanComment line = line ∧ strip none line = a ++ q :: (b1 ++ '/' :: b2 ++ q :: c1) := by
  intro line
  have hb : ∀ x ∈ b1 ++ '/' :: b2, quoteChar x = false := by
    intro x hx
    simp only [List.mem_append, List.mem_cons] at hx
    rcases hx with hx | rfl | hx
    · exact (hb1 x hx).1
    · decide
    · exact hb2 x hx
  have hc : ∀ x ∈ c1 ++ '/' :: c2, quoteChar x = false := by
    intro x hx
    simp only [List.mem_append, List.mem_cons] at hx
    rcases hx with hx | rfl | hx
    · exact (hc1 x hx).1
    · decide
    · exact hc2 x hx
  have hqs : q ≠ '/' := by rcases hq with rfl | rfl <;> decide
  have hqq : quoteChar q = true := by rcases hq with rfl | rfl <;> decide
  have hqb : q ∉ b1 ++ '/' :: b2 := by
    intro hm
    have := hb q hm
    rw [hqq] at this; cases this
  obtain ⟨h1, h2⟩ := section_quotes q hq a (b1 ++ '/' :: b2) (c1 ++ '/' :: c2)
    (fun x hx => (ha x hx).1) hb hc
  constructor
  · have hf : find '/' line 0 = a.length + 1 + b1.length := by
      have := find_zero_hit '/' (a ++ q :: b1) (b2 ++ q :: (c1 ++ '/' :: c2)) (by
        simp only [List.mem_append, List.mem_cons, not_or]
        exact ⟨fun hm => (ha _ hm).2 rfl, Ne.symm hqs, fun hm => (hb1 _ hm).2 rfl⟩)
      simp only [line]
      simp at this ⊢
      rw [this]; omega
    unfold cleanComment
    rw [hf, if_neg (by omega), h1, h2, if_pos]
    simp
    omega
  · simp only [line]
    rw [strip_none_plain a _ ha, strip, if_neg hqs, hqq, if_pos rfl, strip_open q _ _ hqb,
      strip_none_plain c1 _ hc1]
    simp [strip]

/-- C31 also fails with two quoted sections: text in the second one is cut off. -/
theorem C31_two_sections_violated :
    cleanComment "'A','B/C',1".toList = "'A','B".toList ∧
    strip none "'A','B/C',1".toList = "'A','B/C',1".toList := by decide

example : cleanComment "1,'A/B',2".toList = "1,'A/B',2".toList := by decide
example : cleanComment "1,'AB',2 / note".toList = "1,'AB',2 ".toList := by decide

/-! ### C63 -/

/-- One comma-separated field: blank, or tokens separated by blanks. -/
inductive Field : Str → List Str → Prop
  | blank (k : Nat) : Field (List.replicate k ' ') ["0".toList]
  | tokens (s : Str) (lead : Nat) (ws : List (Str × Nat)) (h : BlankTokens ws) (hne : ws ≠ [])
      (hs : s.map tabBlank = render ' ' lead ws) : Field s (ws.map (·.1))

/-- Fields joined by commas. -/
def joinComma : List Str → Str
  | [] => []
  | [f] => f
  | f :: g :: fs => f ++ ',' :: joinComma (g :: fs)

theorem splitComma_append (f r : Str) (hf : ',' ∉ f) :
    splitComma (f ++ ',' :: r) = f :: splitComma r := by
  induction f with
  | nil => simp [splitComma]
  | cons c f ih =>
    simp only [List.mem_cons, not_or] at hf
    rw [List.cons_append, splitComma, if_neg (Ne.symm hf.1), ih hf.2]

theorem splitComma_single (f : Str) (hf : ',' ∉ f) : splitComma f = [f] := by
  induction f with
  | nil => rfl
  | cons c f ih =>
    simp only [List.mem_cons, not_or] at hf
    rw [splitComma, if_neg (Ne.symm hf.1), ih hf.2]

theorem splitComma_join (fs : List Str) (hne : fs ≠ []) (h : ∀ f ∈ fs, ',' ∉ f) :
    splitComma (joinComma fs) = fs := by
  induction fs with
  | nil => exact absurd rfl hne
  | cons f fs ih =>
    cases fs with
    | nil => exact splitComma_single f (h f (by simp))
    | cons g fs =>
      rw [joinComma, splitComma_append f _ (h f (by simp)),
        ih (by simp) (fun x hx => h x (List.mem_cons_of_mem _ hx))]

theorem psseStep_field (ret : List Str) (f : Str) (ts : List Str) (h : Field f ts) :
    psseStep (.ok ret) f = .ok (ret ++ ts) := by
  unfold psseStep
  simp only
  cases h with
  | blank k =>
    have := findNot_miss ' ' [] k
    simp only [List.length_nil, Int.natCast_zero, List.nil_append] at this
    rw [if_pos]
    unfold isBlank
    simp [this]
  | tokens _ lead ws h hne hs =>
    rw [if_neg, C27_blankTokenizer_partial f lead ws h hne hs]
    intro hb
    unfold isBlank at hb
    simp only [decide_eq_true_eq] at hb
    obtain ⟨w, ws, rfl⟩ := List.exists_cons_of_ne_nil hne
    obtain ⟨htok, _, _⟩ := h.head
    obtain ⟨d, t', hw1, hd⟩ := htok.first
    have hmem : d ∈ f.map tabBlank := by rw [hs]; simp [render, hw1]
    obtain ⟨x, hx, he⟩ := List.mem_map.mp hmem
    refine findNot_exists ' ' f ⟨x, hx, ?_⟩ hb
    rintro rfl
    apply hd
    rw [← he]; rfl

/-- C63, the part that holds: for every line whose comma-separated fields are blank or made of tokens
separated by blanks, without commas inside tokens, the result is the tokens in order, with `0` for
each blank field. -/
theorem C63_splitPSSELine_partial (fs : List (Str × List Str)) (hne : fs ≠ [])
    (h : ∀ f ∈ fs, ',' ∉ f.1 ∧ Field f.1 f.2) :
    splitPSSELine (joinComma (fs.map (·.1))) = .ok (fs.flatMap (·.2)) := by
  unfold splitPSSELine
  rw [splitComma_join _ (by simpa using hne) (by
    intro f hf
    obtain ⟨x, hx, rfl⟩ := List.mem_map.mp hf
    exact (h x hx).1)]
  have key : ∀ (fs : List (Str × List Str)) (ret : List Str), (∀ f ∈ fs, Field f.1 f.2) →
      (fs.map (·.1)).foldl psseStep (.ok ret) = .ok (ret ++ fs.flatMap (·.2)) := by
    intro fs
    induction fs with
    | nil => intro ret _; simp
    | cons f fs ih =>
      intro ret h
      rw [List.map_cons, List.foldl_cons, psseStep_field ret f.1 f.2 (h f (by simp)),
        ih _ (fun g hg => h g (List.mem_cons_of_mem _ hg))]
      simp
  rw [key fs [] (fun f hf => (h f hf).2)]
  simp

/-- C63 fails for commas inside quotes (`'A,B'` becomes three wrong pieces) and for a field holding only
a tab (memory outside the string is read). -/
theorem C63_violated :
    splitPSSELine "1,'A,B',2".toList =
      .ok ["1".toList, "".toList, "'A".toList, "B'".toList, "2".toList] ∧
    splitPSSELine "1,\t,2".toList = .undefined := by decide

example : splitPSSELine "1, ,'BUS A' 3".toList =
    .ok ["1".toList, "0".toList, "'BUS A'".toList, "3".toList] := by decide

/-! ### C64 -/

theorem findTriple_none_short (s : Str) (h : s.length < 3) : findTriple s = none := by
  match s, h with
  | [], _ => rfl
  | [a], _ => simp [findTriple]
  | [a, b], _ => simp [findTriple]

/-- A name followed by three blanks: the first triple blank is right after the name, if the name contains
none and does not end with a blank. -/
theorem findTriple_name (name rest : Str) (h : findTriple name = none)
    (hlast : ∀ c, name.getLast? = some c → c ≠ ' ') :
    findTriple (name ++ ' ' :: ' ' :: ' ' :: rest) = some name.length := by
  induction name with
  | nil => rfl
  | cons c name ih =>
    have hn : findTriple name = none := by
      unfold findTriple at h
      split at h
      · cases h
      · rename_i heq
        injection heq with _ h2
        subst h2
        simpa using h
      · rename_i heq; cases heq
    have hl : ∀ d, name.getLast? = some d → d ≠ ' ' := by
      intro d hd
      apply hlast
      cases name with
      | nil => simp at hd
      | cons x l => rw [List.getLast?_cons_cons]; exact hd
    rw [List.cons_append]
    unfold findTriple
    split
    · exfalso
      rename_i r heq
      injection heq with e1 e2
      subst e1
      match name, e2, h, hlast with
      | [], _, _, hlast => exact hlast ' ' rfl rfl
      | [a], e2, _, hlast =>
        simp at e2
        rw [e2.1] at hlast
        exact hlast ' ' rfl rfl
      | a :: b :: l, e2, h, _ =>
        simp at e2
        rw [e2.1, e2.2.1] at h
        simp [findTriple] at h
    · rename_i heq
      injection heq with _ e2
      rw [← e2, ih hn hl]
      rfl
    · rename_i heq; cases heq

/-- C64.  A bus string made of a name (no three consecutive blanks, not ending in a blank), at least three
blanks and a voltage text, more than 12 characters long in total, is split into exactly the name and
the voltage text. -/
theorem C64_parseBusName (name volt : Str) (k : Nat) (c : Char) (h : findTriple name = none)
    (hlast : ∀ d, name.getLast? = some d → d ≠ ' ') (hc : c ≠ ' ')
    (hlen : 12 < (name ++ List.replicate (k + 3) ' ' ++ c :: volt).length) :
    parseBusName (name ++ List.replicate (k + 3) ' ' ++ c :: volt) = (name, some (c :: volt)) := by
  unfold parseBusName
  rw [if_pos hlen]
  have e : name ++ List.replicate (k + 3) ' ' ++ c :: volt =
      name ++ ' ' :: ' ' :: ' ' :: (List.replicate k ' ' ++ c :: volt) := by
    simp [List.replicate_succ]
  have hf := findTriple_name name (List.replicate k ' ' ++ c :: volt) h hlast
  rw [e, hf]
  simp only
  rw [List.take_left, List.drop_left]
  have e3 : (' ' :: ' ' :: ' ' :: (List.replicate k ' ' ++ c :: volt)) =
      List.replicate (k + 3) ' ' ++ c :: volt := by simp [List.replicate_succ]
  rw [e3, if_neg]
  · congr 1
    have : ∀ n, (List.replicate n ' ' ++ c :: volt).dropWhile (fun x => decide (x = ' ')) =
        c :: volt := by
      intro n
      induction n with
      | zero => simp [hc]
      | succ n ih => rw [List.replicate_succ, List.cons_append, List.dropWhile_cons]; simpa using ih
    rw [this]
  · simp only [List.all_eq_true, decide_eq_true_eq, not_forall]
    exact ⟨c, by simp, hc⟩

/-- C64 for short strings: 12 characters or fewer are taken as a name. -/
theorem C64_short_name (s : Str) (h : s.length ≤ 12) : parseBusName s = (s, none) := by
  unfold parseBusName; rw [if_neg (by omega)]

example : parseBusName "BUS 1     138.00".toList = ("BUS 1".toList, some "138.00".toList) := by decide

/-! ### C65 -/

/-- C65, the part that holds: when some line ends the block, reading stops there and the processed lines
are exactly the lines before the first such line. -/
theorem C65_block_partial (eof : Str → Str) (pre : List Str) (last : Str) (rest : List Str)
    (hpre : ∀ l ∈ pre, testEnd l = true) (hlast : testEnd last = false) (fuel : Nat)
    (hf : pre.length < fuel) :
    ∀ first tail, pre ++ last :: rest = first :: tail →
      readBlock eof fuel first tail = some pre := by
  induction pre generalizing fuel with
  | nil =>
    intro first tail h
    obtain ⟨fuel, rfl⟩ : ∃ m, fuel = m + 1 := ⟨fuel - 1, by omega⟩
    simp at h
    obtain ⟨rfl, rfl⟩ := h
    simp [readBlock, hlast]
  | cons l pre ih =>
    intro first tail h
    obtain ⟨fuel, rfl⟩ : ∃ m, fuel = m + 1 := ⟨fuel - 1, by omega⟩
    rw [List.cons_append, List.cons.injEq] at h
    obtain ⟨rfl, rfl⟩ := h
    rw [readBlock.eq_def]
    simp only [hpre _ List.mem_cons_self, if_true]
    cases hx : pre ++ last :: rest with
    | nil => simp at hx
    | cons next tail =>
      simp only
      rw [ih (fun l hl => hpre l (List.mem_cons_of_mem _ hl)) fuel (by simp at hf; omega) next tail hx]
      rfl

/-- C65 is violated when the input ends before the terminating line: for every such input the loop never
stops, since the line left in the variable (the last one, or an empty one) does not end the block. -/
theorem C65_truncated_input_violated (eof : Str → Str) (he : ∀ l, eof l = l ∨ eof l = [])
    (first : Str) (rest : List Str) (h1 : testEnd first = true) (h2 : ∀ l ∈ rest, testEnd l = true)
    (fuel : Nat) : readBlock eof fuel first rest = none := by
  induction fuel generalizing first rest with
  | zero => rfl
  | succ fuel ih =>
    rw [readBlock.eq_def]
    simp only [h1, if_true]
    cases rest with
    | nil =>
      simp only
      rw [ih (eof first) [] _ (by simp)]
      · rfl
      · rcases he first with h | h
        · rw [h]; exact h1
        · rw [h]; rfl
    | cons next rest =>
      simp only
      rw [ih next rest (h2 next (by simp)) (fun l hl => h2 l (List.mem_cons_of_mem _ hl))]
      rfl

example : readBlock id 5 "1,'A'".toList ["2,'B'".toList, "0 / END".toList, "x".toList] =
    some ["1,'A'".toList, "2,'B'".toList] := by decide

end GridPACK.BlockParser
