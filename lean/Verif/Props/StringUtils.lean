import Verif.Lemmas.StringUtils

/-! Properties C25 (trim), C26 (charTokenizer), C27 (blankTokenizer), C28 (clean2Char) and C61
(trimQuotes). -/
namespace GridPACK.StringUtils

/-! ### C25 -/

/-- Newline, tab and carriage return read as a blank. -/
def asBlank (c : Char) : Char := if c = '\n' ∨ c = '\t' ∨ c = '\r' then ' ' else c

/-- White space: blank, tab, newline, carriage return, vertical tab, form feed. -/
def white (c : Char) : Bool := decide (c ∈ [' ', '\t', '\n', '\r', '\x0b', '\x0c'])

/-- `t` is `s` without its surrounding white space. -/
def IsTrimOf (t s : Str) : Prop :=
  ∃ a b, s = a ++ t ++ b ∧ (∀ c ∈ a, white c = true) ∧ (∀ c ∈ b, white c = true) ∧
    (∀ c, t.head? = some c → white c = false) ∧ (∀ c, t.getLast? = some c → white c = false)

theorem replaceLoop_eq (c : Char) (hc : c ≠ ' ') (fuel : Nat) (pre suf : Str)
    (hf : suf.length < fuel) :
    replaceLoop c fuel (pre ++ suf) (find c (pre ++ suf) pre.length) =
      pre ++ suf.map (fun x => if x = c then ' ' else x) := by
  induction fuel generalizing pre suf with
  | zero => omega
  | succ fuel ih =>
    by_cases hmem : c ∈ suf
    · obtain ⟨t, r, rfl, ht⟩ : ∃ t r, suf = t ++ c :: r ∧ c ∉ t := by
        obtain ⟨t, r, h⟩ := List.eq_append_cons_of_mem hmem
        exact ⟨t, r, h.1, h.2⟩
      rw [find_hit c pre t r ht]
      unfold replaceLoop
      rw [if_neg (by omega)]
      have h1 : (((pre.length : Int) + (t.length : Int))).toNat = (pre ++ t).length := by
        rw [List.length_append]; omega
      have h2 : (pre ++ (t ++ c :: r)).set (pre ++ t).length ' ' = (pre ++ t ++ [' ']) ++ r := by
        rw [← List.append_assoc, List.set_append_right _ _ (by omega)]
        simp
      have h3 : ((pre.length : Int) + (t.length : Int) + 1) =
          (((pre ++ t ++ [' ']).length : Nat) : Int) := by
        simp only [List.length_append, List.length_singleton]; omega
      rw [h1, h2, h3, ih _ _ (by simp at hf; omega)]
      have h4 : t.map (fun x => if x = c then ' ' else x) = t := by
        conv => rhs; rw [← List.map_id t]
        apply List.map_congr_left
        intro x hx
        have : x ≠ c := by rintro rfl; exact ht hx
        simp [this]
      rw [List.map_append, List.map_cons, h4]
      simp
    · rw [find_miss c pre suf hmem]
      unfold replaceLoop
      rw [if_pos rfl]
      congr 1
      conv => lhs; rw [← List.map_id suf]
      apply List.map_congr_left
      intro x hx
      have : x ≠ c := by rintro rfl; exact hmem hx
      simp [this]

theorem replace_eq (c : Char) (hc : c ≠ ' ') (s : Str) :
    replace c s = s.map (fun x => if x = c then ' ' else x) := by
  have := replaceLoop_eq c hc (s.length + 1) [] s (by omega)
  simpa [replace] using this

theorem replace_all (s : Str) :
    replace '\r' (replace '\t' (replace '\n' s)) = s.map asBlank := by
  rw [replace_eq _ (by decide), replace_eq _ (by decide), replace_eq _ (by decide), List.map_map,
    List.map_map]
  apply List.map_congr_left
  intro x _
  simp only [Function.comp, asBlank]
  by_cases h1 : x = '\n'
  · subst h1; decide
  · by_cases h2 : x = '\t'
    · subst h2; decide
    · by_cases h3 : x = '\r'
      · subst h3; decide
      · simp [h1, h2, h3]

theorem dropWhile_split (P : Char → Bool) (s : Str) :
    ∃ a, s = a ++ s.dropWhile P ∧ (∀ c ∈ a, P c = true) ∧
      ∀ c, (s.dropWhile P).head? = some c → P c = false := by
  induction s with
  | nil => exact ⟨[], rfl, by simp, by simp⟩
  | cons x s ih =>
    rw [List.dropWhile_cons]
    by_cases h : P x = true
    · obtain ⟨a, h1, h2, h3⟩ := ih
      rw [if_pos h]
      refine ⟨x :: a, by rw [List.cons_append, ← h1], ?_, h3⟩
      intro c hc
      rcases List.mem_cons.mp hc with rfl | hc
      · exact h
      · exact h2 c hc
    · rw [if_neg h]
      refine ⟨[], rfl, by simp, ?_⟩
      intro c hc
      simp at hc
      subst hc
      simpa using h

theorem white_eq : isSpace = white := by
  funext c
  rw [Bool.eq_iff_iff]
  simp [isSpace, white, or_assoc]

theorem boostTrim_eq (s : Str) :
    boostTrim s = ((s.dropWhile white).reverse.dropWhile white).reverse := by
  unfold boostTrim
  rw [white_eq]

theorem boostTrim_spec (s : Str) : IsTrimOf (boostTrim s) s := by
  obtain ⟨a, h1, h2, h3⟩ := dropWhile_split white s
  obtain ⟨b, g1, g2, g3⟩ := dropWhile_split white (s.dropWhile white).reverse
  have e : s.dropWhile white = boostTrim s ++ b.reverse := by
    have := congrArg List.reverse g1
    rw [List.reverse_reverse, List.reverse_append] at this
    rw [boostTrim_eq]
    exact this
  refine ⟨a, b.reverse, ?_, h2, ?_, ?_, ?_⟩
  · rw [List.append_assoc, ← e]; exact h1
  · intro c hc; exact g2 c (by simpa using hc)
  · intro c hc
    apply h3
    rw [e]
    cases hb : boostTrim s with
    | nil => rw [hb] at hc; simp at hc
    | cons x l => rw [hb] at hc; simpa using hc
  · intro c hc
    apply g3
    rw [boostTrim_eq] at hc
    rw [List.getLast?_reverse] at hc
    exact hc

/-- A trimmed string is unique: the specification determines it. -/
theorem IsTrimOf.unique {t t' s : Str} (h : IsTrimOf t s) (h' : IsTrimOf t' s) : t = t' := by
  have key : ∀ (a a' u u' : Str), a ++ u = a' ++ u' → (∀ c ∈ a, white c = true) →
      (∀ c ∈ a', white c = true) → (∀ c, u.head? = some c → white c = false) →
      (∀ c, u'.head? = some c → white c = false) → (u ≠ [] ∨ u' = [] ) →
      (u' ≠ [] ∨ u = []) → u = u' := by
    intro a
    induction a with
    | nil =>
      intro a' u u' he h1 h2 h3 h4 h5 h6
      cases a' with
      | nil => exact he
      | cons x a' =>
        exfalso
        rw [List.nil_append] at he
        have := h3 x (by rw [he]; rfl)
        rw [h2 x (by simp)] at this; cases this
    | cons x a ih =>
      intro a' u u' he h1 h2 h3 h4 h5 h6
      cases a' with
      | nil =>
        exfalso
        rw [List.nil_append] at he
        have := h4 x (by rw [← he]; rfl)
        rw [h1 x (by simp)] at this; cases this
      | cons y a' =>
        simp only [List.cons_append, List.cons.injEq] at he
        exact ih a' u u' he.2 (fun c hc => h1 c (List.mem_cons_of_mem _ hc))
          (fun c hc => h2 c (List.mem_cons_of_mem _ hc)) h3 h4 h5 h6
  have empty : ∀ (t s : Str), IsTrimOf t s → (∀ c ∈ s, white c = true) → t = [] := by
    rintro t s ⟨a, b, rfl, _, _, h, _⟩ hall
    cases t with
    | nil => rfl
    | cons x l =>
      have h1 := h x rfl
      rw [hall x (by simp)] at h1; cases h1
  by_cases hall : ∀ c ∈ s, white c = true
  · rw [empty t s h hall, empty t' s h' hall]
  · have hne : ∀ u, IsTrimOf u s → u ≠ [] := by
      rintro u ⟨a, b, rfl, h1, h2, _, _⟩ rfl
      apply hall
      intro c hc
      simp only [List.append_nil, List.mem_append] at hc
      rcases hc with hc | hc
      · exact h1 c hc
      · exact h2 c hc
    have n1 := hne t h
    have n2 := hne t' h'
    obtain ⟨a, b, e, h1, h2, h3, h4⟩ := h
    obtain ⟨a', b', e', h1', h2', h3', h4'⟩ := h'
    have hh : ∀ (t b : Str), t ≠ [] → (∀ c, t.head? = some c → white c = false) →
        ∀ c, (t ++ b).head? = some c → white c = false := by
      intro t b hn h c hc
      cases t with
      | nil => exact absurd rfl hn
      | cons x l => exact h c (by simpa using hc)
    have e1 : t ++ b = t' ++ b' := by
      refine key a a' (t ++ b) (t' ++ b') ?_ h1 h1' (hh t b n1 h3) (hh t' b' n2 h3') ?_ ?_
      · rw [← List.append_assoc, ← List.append_assoc, ← e, e']
      · left; simp [n1]
      · left; simp [n2]
    have e2 : b.reverse ++ t.reverse = b'.reverse ++ t'.reverse := by
      rw [← List.reverse_append, ← List.reverse_append, e1]
    have e3 : t.reverse = t'.reverse := by
      refine key b.reverse b'.reverse t.reverse t'.reverse e2 ?_ ?_ ?_ ?_ ?_ ?_
      · intro c hc; exact h2 c (by simpa using hc)
      · intro c hc; exact h2' c (by simpa using hc)
      · intro c hc; exact h4 c (by simpa using hc)
      · intro c hc; exact h4' c (by simpa using hc)
      · left; simpa using n1
      · left; simpa using n2
    simpa using congrArg List.reverse e3

/-- C25, the part that holds: for every string, `trim` returns the string without its surrounding
white space, read with newline, tab and carriage return as blanks. -/
theorem C25_trim_partial (s : Str) : IsTrimOf (trim s) (s.map asBlank) := by
  unfold trim
  rw [replace_all]
  exact boostTrim_spec _

/-- C25 in full for strings without tab, newline or carriage return inside. -/
theorem C25_trim_plain_partial (s : Str) (h : ∀ c ∈ s, c ≠ '\n' ∧ c ≠ '\t' ∧ c ≠ '\r') :
    IsTrimOf (trim s) s := by
  have := C25_trim_partial s
  have e : s.map asBlank = s := by
    conv => rhs; rw [← List.map_id s]
    apply List.map_congr_left
    intro c hc
    obtain ⟨h1, h2, h3⟩ := h c hc
    simp [asBlank, h1, h2, h3]
  rwa [e] at this

/-- C25, idempotence: for every string. -/
theorem C25_idempotent (s : Str) : trim (trim s) = trim s := by
  have h1 := C25_trim_partial s
  have hno : (trim s).map asBlank = trim s := by
    obtain ⟨a, b, e, _⟩ := h1
    have hall : ∀ c ∈ s.map asBlank, asBlank c = c := by
      intro c hc
      obtain ⟨x, _, rfl⟩ := List.mem_map.mp hc
      unfold asBlank
      by_cases h : x = '\n' ∨ x = '\t' ∨ x = '\r'
      · rw [if_pos h]; decide
      · rw [if_neg h, if_neg h]
    conv => rhs; rw [← List.map_id (trim s)]
    apply List.map_congr_left
    intro c hc
    exact hall c (by rw [e]; simp [hc])
  have h2 := C25_trim_partial (trim s)
  rw [hno] at h2
  refine h2.unique ?_
  obtain ⟨_, _, _, _, _, h3, h4⟩ := h1
  exact ⟨[], [], by simp, by simp, by simp, h3, h4⟩

/-- C25 does not hold literally: a tab between words is changed into a blank, for all words. -/
theorem C25_inner_tab_violated :
    trim "a\tb".toList = "a b".toList ∧ ¬ IsTrimOf (trim "a\tb".toList) "a\tb".toList := by
  have h : trim "a\tb".toList = "a b".toList := by decide
  refine ⟨h, ?_⟩
  rw [h]
  rintro ⟨a, b, e, _⟩
  have : ' ' ∈ "a\tb".toList := by rw [e]; simp
  revert this; decide

example : trim " \t x y \r\n".toList = "x y".toList := by decide

/-! ### C26 -/

/-- A string written as tokens: `lead` separators, then each token followed by its separators. -/
def render (sep : Char) (lead : Nat) (ws : List (Str × Nat)) : Str :=
  List.replicate lead sep ++ ws.flatMap (fun w => w.1 ++ List.replicate w.2 sep)

/-- The tokens are non-empty and free of the separator; consecutive tokens are separated. -/
def Tokens (sep : Char) : List (Str × Nat) → Prop
  | [] => True
  | [w] => w.1 ≠ [] ∧ sep ∉ w.1
  | w :: w' :: ws => w.1 ≠ [] ∧ sep ∉ w.1 ∧ 0 < w.2 ∧ Tokens sep (w' :: ws)

/-- Number of separators after the last token. -/
def trailing (ws : List (Str × Nat)) : Nat := (ws.getLast?.map (·.2)).getD 0

/-- Every string has such a form, so the theorems below speak about all strings. -/
theorem C26_every_string_has_tokens (sep : Char) (s : Str) :
    ∃ lead ws, Tokens sep ws ∧ s = render sep lead ws := by
  induction s with
  | nil => exact ⟨0, [], trivial, rfl⟩
  | cons c s ih =>
    obtain ⟨lead, ws, ht, rfl⟩ := ih
    by_cases hc : c = sep
    · subst hc
      exact ⟨lead + 1, ws, ht, by simp [render, List.replicate_succ]⟩
    · cases lead with
      | zero =>
        cases ws with
        | nil => exact ⟨0, [([c], 0)], ⟨by simp, by simpa using Ne.symm hc⟩, by simp [render]⟩
        | cons w ws =>
          refine ⟨0, (c :: w.1, w.2) :: ws, ?_, by simp [render]⟩
          cases ws with
          | nil => exact ⟨by simp, by simp [Ne.symm hc, ht.2]⟩
          | cons w' ws => exact ⟨by simp, by simp [Ne.symm hc, ht.2.1], ht.2.2⟩
      | succ lead =>
        refine ⟨0, ([c], lead + 1) :: ws, ?_, by simp [render]⟩
        cases ws with
        | nil => exact ⟨by simp, by simpa using Ne.symm hc⟩
        | cons w' ws => exact ⟨by simp, by simpa using Ne.symm hc, by simp, ht⟩

theorem Tokens.head {sep : Char} {w : Str × Nat} {ws : List (Str × Nat)}
    (h : Tokens sep (w :: ws)) : w.1 ≠ [] ∧ sep ∉ w.1 ∧ Tokens sep ws ∧ (ws ≠ [] → 0 < w.2) := by
  cases ws with
  | nil => exact ⟨h.1, h.2, trivial, fun h => absurd rfl h⟩
  | cons w' ws => exact ⟨h.1, h.2.1, h.2.2.2, fun _ => h.2.2.1⟩

/-- Finding one token that starts after `k` separators. -/
theorem next_token (sep : Char) (pre : Str) (k : Nat) (w : Str × Nat) (ws : List (Str × Nat))
    (hw : Tokens sep (w :: ws)) (s : Str)
    (hs : s = pre ++ (List.replicate k sep ++ render sep 0 (w :: ws))) :
    findNot sep s pre.length = pre.length + k ∧
    endOr s (find sep s (pre.length + k)) = pre.length + k + w.1.length := by
  obtain ⟨hne, hnot, htl, hpos⟩ := hw.head
  obtain ⟨d, t', hw1⟩ := List.exists_cons_of_ne_nil hne
  have hd : d ≠ sep := by rintro rfl; apply hnot; rw [hw1]; simp
  have hr : render sep 0 (w :: ws) = w.1 ++ (List.replicate w.2 sep ++ render sep 0 ws) := by
    simp [render]
  constructor
  · rw [hs, hr, hw1, List.cons_append, findNot_hit sep pre k d _ hd]
  · have hs' : s = (pre ++ List.replicate k sep) ++
        (w.1 ++ (List.replicate w.2 sep ++ render sep 0 ws)) := by
      rw [hs, hr, List.append_assoc]
    have hlen : ((pre.length : Int) + (k : Int)) =
        (((pre ++ List.replicate k sep).length : Nat) : Int) := by simp
    rw [hlen]
    cases hk : w.2 with
    | zero =>
      have hws : ws = [] := by
        by_contra hx
        have := hpos hx
        omega
      subst hws
      rw [hk] at hs'
      have : s = (pre ++ List.replicate k sep) ++ w.1 := by rw [hs']; simp [render]
      rw [this, find_miss sep _ _ hnot]
      simp [endOr, slen]
      omega
    | succ n =>
      rw [hs', hk, List.replicate_succ, List.cons_append, find_hit sep _ w.1 _ hnot]
      rw [endOr, if_neg (by omega)]

theorem charLoop_eq (sep : Char) (s : Str) (fuel : Nat) (ws : List (Str × Nat)) (pre : Str)
    (k : Nat) (n1 : Int) (acc : List Str) (hws : Tokens sep ws) (hk : ws ≠ [] → 0 < k)
    (hs : s = pre ++ (List.replicate k sep ++ render sep 0 ws)) (hn1 : n1 ≠ -1)
    (hf : ws.length < fuel) :
    (if ws = [] then k else trailing ws) ≤ 1 →
      charLoop sep s fuel n1 pre.length acc = .ok (acc ++ ws.map (·.1)) := by
  induction ws generalizing pre k n1 acc fuel with
  | nil =>
    intro ht
    obtain ⟨fuel, rfl⟩ : ∃ m, fuel = m + 1 := ⟨fuel - 1, by omega⟩
    simp only [if_true] at ht
    unfold charLoop
    rw [if_neg]
    · simp
    · rintro ⟨h, _⟩
      rw [hs] at h
      simp [slen, render] at h
      omega
  | cons w ws ih =>
    intro ht
    obtain ⟨fuel, rfl⟩ : ∃ m, fuel = m + 1 := ⟨fuel - 1, by omega⟩
    obtain ⟨e1, e2⟩ := next_token sep pre k w ws hws s hs
    obtain ⟨hne, hnot, htl, hpos⟩ := hws.head
    have hr : render sep 0 (w :: ws) = w.1 ++ (List.replicate w.2 sep ++ render sep 0 ws) := by
      simp [render]
    have hs' : s = (pre ++ List.replicate k sep) ++
        (w.1 ++ (List.replicate w.2 sep ++ render sep 0 ws)) := by
      rw [hs, hr, List.append_assoc]
    have hwl : 0 < w.1.length := List.length_pos_iff.mpr hne
    unfold charLoop
    rw [if_pos, e1, e2, if_pos (by omega)]
    · have hsub : substr s (↑pre.length + ↑k) (↑pre.length + ↑k + ↑w.1.length - (↑pre.length + ↑k))
          = some w.1 := by
        rw [hs']
        exact substr_mid _ _ _ _ _ (by simp) (by omega)
      rw [hsub]
      simp only
      have hpl : ((pre.length : Int) + (k : Int) + (w.1.length : Int)) =
          (((pre ++ List.replicate k sep ++ w.1).length : Nat) : Int) := by simp; omega
      rw [hpl]
      have := ih fuel (pre ++ List.replicate k sep ++ w.1) w.2 (pre.length + k) (acc ++ [w.1]) htl
        hpos (by rw [hs']; simp) (by omega) (by simp at hf; omega) (by
          rw [if_neg (by simp)] at ht
          unfold trailing at ht
          by_cases hx : ws = []
          · subst hx; simpa using ht
          · rw [if_neg hx]
            obtain ⟨w', ws', rfl⟩ := List.exists_cons_of_ne_nil hx
            simpa [trailing] using ht)
      rw [this]
      simp
    · refine ⟨?_, hn1⟩
      have hk' := hk (by simp)
      have : slen s = pre.length + k + w.1.length + (w.2 + (render sep 0 ws).length) := by
        rw [hs']; simp [slen]; omega
      omega

theorem charLoop_throws (sep : Char) (s : Str) (fuel : Nat) (ws : List (Str × Nat)) (pre : Str)
    (k : Nat) (n1 : Int) (acc : List Str) (hws : Tokens sep ws) (hk : ws ≠ [] → 0 < k)
    (hs : s = pre ++ (List.replicate k sep ++ render sep 0 ws)) (hn1 : n1 ≠ -1)
    (hf : ws.length < fuel) :
    2 ≤ (if ws = [] then k else trailing ws) → charLoop sep s fuel n1 pre.length acc = .throws := by
  induction ws generalizing pre k n1 acc fuel with
  | nil =>
    intro ht
    obtain ⟨fuel, rfl⟩ : ∃ m, fuel = m + 1 := ⟨fuel - 1, by omega⟩
    simp only [if_true] at ht
    have hs2 : s = pre ++ List.replicate k sep := by rw [hs]; simp [render]
    unfold charLoop
    rw [if_pos]
    · rw [hs2, findNot_miss, find_neg, substr_neg, if_pos]
      simp [endOr, slen]; omega
    · refine ⟨?_, hn1⟩
      rw [hs2]
      simp [slen]
      omega
  | cons w ws ih =>
    intro ht
    obtain ⟨fuel, rfl⟩ : ∃ m, fuel = m + 1 := ⟨fuel - 1, by omega⟩
    obtain ⟨e1, e2⟩ := next_token sep pre k w ws hws s hs
    obtain ⟨hne, hnot, htl, hpos⟩ := hws.head
    have hr : render sep 0 (w :: ws) = w.1 ++ (List.replicate w.2 sep ++ render sep 0 ws) := by
      simp [render]
    have hs' : s = (pre ++ List.replicate k sep) ++
        (w.1 ++ (List.replicate w.2 sep ++ render sep 0 ws)) := by
      rw [hs, hr, List.append_assoc]
    have hwl : 0 < w.1.length := List.length_pos_iff.mpr hne
    unfold charLoop
    rw [if_pos, e1, e2, if_pos (by omega)]
    · have hsub : substr s (↑pre.length + ↑k) (↑pre.length + ↑k + ↑w.1.length - (↑pre.length + ↑k))
          = some w.1 := by
        rw [hs']
        exact substr_mid _ _ _ _ _ (by simp) (by omega)
      rw [hsub]
      simp only
      have hpl : ((pre.length : Int) + (k : Int) + (w.1.length : Int)) =
          (((pre ++ List.replicate k sep ++ w.1).length : Nat) : Int) := by simp; omega
      rw [hpl]
      exact ih fuel (pre ++ List.replicate k sep ++ w.1) w.2 (pre.length + k) (acc ++ [w.1]) htl
        hpos (by rw [hs']; simp) (by omega) (by simp at hf; omega) (by
          rw [if_neg (by simp)] at ht
          unfold trailing at ht
          by_cases hx : ws = []
          · subst hx; simpa using ht
          · rw [if_neg hx]
            obtain ⟨w', ws', rfl⟩ := List.exists_cons_of_ne_nil hx
            simpa [trailing] using ht)
    · refine ⟨?_, hn1⟩
      have hk' := hk (by simp)
      have : slen s = pre.length + k + w.1.length + (w.2 + (render sep 0 ws).length) := by
        rw [hs']; simp [slen]; omega
      omega

theorem tokens_length_le (sep : Char) (ws : List (Str × Nat)) (h : Tokens sep ws) :
    ws.length ≤ (render sep 0 ws).length := by
  induction ws with
  | nil => simp
  | cons w ws ih =>
    obtain ⟨hne, _, htl, _⟩ := h.head
    have := ih htl
    have hwl : 0 < w.1.length := List.length_pos_iff.mpr hne
    simp [render] at this ⊢
    omega

theorem charTokenizer_first (sep : Char) (lead : Nat) (w : Str × Nat) (ws : List (Str × Nat))
    (h : Tokens sep (w :: ws)) :
    charTokenizer (render sep lead (w :: ws)) sep =
      charLoop sep (render sep lead (w :: ws)) ((render sep lead (w :: ws)).length + 1) lead
        ((List.replicate lead sep ++ w.1).length : Nat) [w.1] := by
  have hs : render sep lead (w :: ws) = [] ++ (List.replicate lead sep ++ render sep 0 (w :: ws)) := by
    simp [render]
  obtain ⟨e1, e2⟩ := next_token sep [] lead w ws h _ hs
  simp only [List.length_nil, Int.natCast_zero, Int.zero_add] at e1 e2
  have hs' : render sep lead (w :: ws) = List.replicate lead sep ++
        (w.1 ++ (List.replicate w.2 sep ++ render sep 0 ws)) := by
      simp [render]
  unfold charTokenizer
  rw [e1, e2, if_pos (by omega)]
  have hsub : substr (render sep lead (w :: ws)) lead (↑lead + ↑w.1.length - ↑lead) = some w.1 := by
    rw [hs']
    exact substr_mid _ _ _ _ _ (by simp) (by omega)
  rw [hsub]
  simp

/-- C26, the part that holds: for every separator and every string with at least one token and at
most one separator at the end, the result is exactly the tokens, in order. -/
theorem C26_charTokenizer_partial (sep : Char) (lead : Nat) (ws : List (Str × Nat))
    (h : Tokens sep ws) (hne : ws ≠ []) (ht : trailing ws ≤ 1) :
    charTokenizer (render sep lead ws) sep = .ok (ws.map (·.1)) := by
  obtain ⟨w, ws, rfl⟩ := List.exists_cons_of_ne_nil hne
  rw [charTokenizer_first sep lead w ws h]
  obtain ⟨_, _, htl, hpos⟩ := h.head
  rw [charLoop_eq sep _ _ ws (List.replicate lead sep ++ w.1) w.2 lead [w.1] htl hpos (by simp [render])
    (by omega)]
  · simp
  · have := tokens_length_le sep ws htl
    simp [render] at this ⊢
    omega
  · unfold trailing at ht
    by_cases hx : ws = []
    · subst hx; simpa using ht
    · rw [if_neg hx]
      obtain ⟨w', ws', rfl⟩ := List.exists_cons_of_ne_nil hx
      simpa [trailing] using ht

/-- C26 fails for exactly the other strings: those without any token (the empty string included) and
those ending in two or more separators make the call throw. -/
theorem C26_throws_violated (sep : Char) (lead : Nat) (ws : List (Str × Nat)) (h : Tokens sep ws)
    (hbad : ws = [] ∨ 2 ≤ trailing ws) : charTokenizer (render sep lead ws) sep = .throws := by
  cases ws with
  | nil =>
    have e : render sep lead [] = [] ++ List.replicate lead sep := by simp [render]
    unfold charTokenizer
    have := findNot_miss sep [] lead
    rw [List.length_nil, Int.natCast_zero, ← e] at this
    rw [this, find_neg, substr_neg, if_pos]
    simp [endOr, slen]
  | cons w ws =>
    have ht : 2 ≤ trailing (w :: ws) := by
      rcases hbad with h | h
      · cases h
      · exact h
    rw [charTokenizer_first sep lead w ws h]
    obtain ⟨_, _, htl, hpos⟩ := h.head
    apply charLoop_throws sep _ _ ws (List.replicate lead sep ++ w.1) w.2 lead [w.1] htl hpos
      (by simp [render]) (by omega)
    · have := tokens_length_le sep ws htl
      simp [render] at this ⊢
      omega
    · unfold trailing at ht
      by_cases hx : ws = []
      · subst hx; simpa using ht
      · rw [if_neg hx]
        obtain ⟨w', ws', rfl⟩ := List.exists_cons_of_ne_nil hx
        simpa [trailing] using ht

example : Tokens ',' [("a".toList, 2), ("bc".toList, 1)] ∧
    render ',' 1 [("a".toList, 2), ("bc".toList, 1)] = ",a,,bc,".toList ∧
    charTokenizer ",a,,bc,".toList ',' = .ok ["a".toList, "bc".toList] := by
  refine ⟨⟨by decide, by decide, by decide, by decide, by decide⟩, by decide, by decide⟩

example : charTokenizer "a,,".toList ',' = .throws := by decide

/-! ### C27 -/

/-- A token: a quoted section (quotes included, no such quote inside), or a word of non-blank
characters that does not start with a quote and is not just carriage returns. -/
inductive IsToken : Str → Prop
  | quoted (q : Char) (body : Str) (hq : q = '\'' ∨ q = '"') (hb : q ∉ body) :
      IsToken (q :: (body ++ [q]))
  | word (c : Char) (w : Str) (h1 : c ≠ '\'') (h2 : c ≠ '"') (hb : ' ' ∉ c :: w)
      (hcr : ∃ x ∈ c :: w, x ≠ '\r') : IsToken (c :: w)

/-- A tab counts as a blank. -/
def tabBlank (c : Char) : Char := if c = '\t' then ' ' else c

theorem tabToBlank_eq : tabToBlank = tabBlank := rfl

/-- Tokens separated by blanks. -/
def BlankTokens : List (Str × Nat) → Prop
  | [] => True
  | [w] => IsToken w.1
  | w :: w' :: ws => IsToken w.1 ∧ 0 < w.2 ∧ BlankTokens (w' :: ws)

theorem BlankTokens.head {w : Str × Nat} {ws : List (Str × Nat)}
    (h : BlankTokens (w :: ws)) : IsToken w.1 ∧ BlankTokens ws ∧ (ws ≠ [] → 0 < w.2) := by
  cases ws with
  | nil => exact ⟨h, trivial, fun h => absurd rfl h⟩
  | cons w' ws => exact ⟨h.1, h.2.2, fun _ => h.2.1⟩

theorem IsToken.first {t : Str} (h : IsToken t) : ∃ c t', t = c :: t' ∧ c ≠ ' ' := by
  cases h with
  | quoted q body hq hb =>
    refine ⟨q, _, rfl, ?_⟩
    rcases hq with rfl | rfl <;> decide
  | word c w h1 h2 hb hcr =>
    refine ⟨c, w, rfl, ?_⟩
    rintro rfl
    exact hb (by simp)

/-- Where a token ends, for both versions of the code. -/
theorem token_end (pre : Str) (t : Str) (k : Nat) (r : Str) (ht : IsToken t)
    (hk : r ≠ [] → 0 < k) (s : Str) (hs : s = pre ++ (t ++ (List.replicate k ' ' ++ r))) :
    ∃ c, charAt s pre.length = some c ∧
      firstEnd s pre.length c = pre.length + t.length ∧
      nextEnd s pre.length c = pre.length + t.length := by
  have hquote : ∀ (q : Char) (body : Str), q ∉ body → t = q :: (body ++ [q]) →
      find q s (pre.length + 1) = pre.length + 1 + body.length := by
    intro q body hb he
    have : s = (pre ++ [q]) ++ (body ++ q :: (List.replicate k ' ' ++ r)) := by
      rw [hs, he]; simp
    rw [this]
    have h := find_hit q (pre ++ [q]) body (List.replicate k ' ' ++ r) hb
    have e : ((pre.length : Int) + 1) = (((pre ++ [q]).length : Nat) : Int) := by simp
    rw [e]; exact h
  cases ht with
  | quoted q body hq hb =>
    have hf := hquote q body hb rfl
    refine ⟨q, ?_, ?_, ?_⟩
    · rw [hs]; exact charAt_mid pre q _ _ rfl
    · unfold firstEnd
      rcases hq with rfl | rfl
      · rw [if_pos rfl, hf]; simp; omega
      · rw [if_neg (by decide), if_pos rfl, hf]; simp; omega
    · unfold nextEnd
      rcases hq with rfl | rfl
      · rw [if_pos rfl, hf, if_pos (by omega)]; simp; omega
      · rw [if_neg (by decide), if_pos rfl, hf, if_pos (by omega)]; simp; omega
  | word c w h1 h2 hb hcr =>
    have he : endOr s (find ' ' s pre.length) = pre.length + (c :: w).length := by
      cases k with
      | zero =>
        have hr : r = [] := by
          by_contra hx
          have := hk hx
          omega
        subst hr
        have : s = pre ++ (c :: w) := by rw [hs]; simp
        rw [this, find_miss ' ' pre (c :: w) hb]
        simp [endOr, slen]
      | succ n =>
        have := find_hit ' ' pre (c :: w) (List.replicate n ' ' ++ r) hb
        rw [hs, List.replicate_succ, List.cons_append (as := List.replicate n ' '), this, endOr,
          if_neg (by omega)]
    refine ⟨c, ?_, ?_, ?_⟩
    · rw [hs]; exact charAt_mid pre c _ _ rfl
    · unfold firstEnd; rw [if_neg h1, if_neg h2, he]
    · unfold nextEnd; rw [if_neg h1, if_neg h2, he]

theorem findNot_exists (c : Char) (t : Str) (h : ∃ x ∈ t, x ≠ c) : findNot c t 0 ≠ -1 := by
  unfold findNot
  rw [if_neg (by omega)]
  cases hf : (t.drop (0 : Int).toNat).findIdx? (fun x => x ≠ c) with
  | none =>
    exfalso
    rw [List.findIdx?_eq_none_iff] at hf
    obtain ⟨x, hx, hc⟩ := h
    have := hf x (by simpa using hx)
    simp [hc] at this
  | some i => simp only; omega

theorem keep_token {t : Str} (h : IsToken t) : keep t = true := by
  have h1 : findNot ' ' t 0 ≠ -1 := by
    obtain ⟨c, t', rfl, hc⟩ := h.first
    exact findNot_exists _ _ ⟨c, by simp, hc⟩
  have h2 : findNot '\r' t 0 ≠ -1 := by
    apply findNot_exists
    cases h with
    | quoted q body hq hb =>
      refine ⟨q, by simp, ?_⟩
      rcases hq with rfl | rfl <;> decide
    | word c w _ _ _ hcr => exact hcr
  unfold keep
  simp [h1, h2]

theorem render_zero_cons (sep : Char) (w : Str × Nat) (ws : List (Str × Nat)) :
    render sep 0 (w :: ws) = w.1 ++ (List.replicate w.2 sep ++ render sep 0 ws) := by
  simp [render]

theorem render_ne_nil {ws : List (Str × Nat)} (h : BlankTokens ws)
    (hr : render ' ' 0 ws ≠ []) : ws ≠ [] := by
  rintro rfl; exact hr rfl

theorem blankLoop_eq (s : Str) (fuel : Nat) (ws : List (Str × Nat)) (pre : Str) (k : Nat) (n1 : Int)
    (acc : List Str) (hws : BlankTokens ws) (hk : ws ≠ [] → 0 < k)
    (hs : s = pre ++ (List.replicate k ' ' ++ render ' ' 0 ws)) (hn1 : n1 ≠ -1)
    (hf : ws.length + 1 < fuel) :
    blankLoop s fuel n1 pre.length acc = .ok (acc ++ ws.map (·.1)) := by
  induction ws generalizing pre k n1 acc fuel with
  | nil =>
    obtain ⟨fuel, rfl⟩ : ∃ m, fuel = m + 2 := ⟨fuel - 2, by simp at hf; omega⟩
    have hs2 : s = pre ++ List.replicate k ' ' := by rw [hs]; simp [render]
    unfold blankLoop
    split
    · rw [hs2, findNot_miss, if_pos rfl]
      unfold blankLoop
      rw [if_neg (by simp)]
      simp
    · simp
  | cons w ws ih =>
    obtain ⟨fuel, rfl⟩ : ∃ m, fuel = m + 1 := ⟨fuel - 1, by omega⟩
    obtain ⟨htok, htl, hpos⟩ := hws.head
    obtain ⟨d, t', hw1, hd⟩ := htok.first
    have hs' : s = (pre ++ List.replicate k ' ') ++
        (w.1 ++ (List.replicate w.2 ' ' ++ render ' ' 0 ws)) := by
      rw [hs, render_zero_cons, List.append_assoc]
    have e1 : findNot ' ' s pre.length = (((pre ++ List.replicate k ' ').length : Nat) : Int) := by
      rw [hs, render_zero_cons, hw1, List.cons_append, findNot_hit ' ' pre k d _ hd]
      simp
    obtain ⟨c, hc, _, hend⟩ := token_end (pre ++ List.replicate k ' ') w.1 w.2 (render ' ' 0 ws) htok
      (fun h => hpos (render_ne_nil htl h)) s hs'
    have hwl : 0 < w.1.length := by rw [hw1]; simp
    unfold blankLoop
    rw [if_pos, e1, if_neg (by omega), hc]
    · simp only
      rw [hend]
      have hsub : substr s (((pre ++ List.replicate k ' ').length : Nat) : Int)
          (((pre ++ List.replicate k ' ').length : Nat) + w.1.length -
            ((pre ++ List.replicate k ' ').length : Nat)) = some w.1 := by
        rw [hs']
        exact substr_mid _ _ _ _ _ rfl (by omega)
      rw [hsub]
      simp only
      rw [keep_token htok, if_pos rfl]
      have hpl : (((pre ++ List.replicate k ' ').length : Nat) + (w.1.length : Int)) =
          (((pre ++ List.replicate k ' ' ++ w.1).length : Nat) : Int) := by
        rw [List.length_append (bs := w.1)]; omega
      rw [hpl, ih fuel (pre ++ List.replicate k ' ' ++ w.1) w.2 _ (acc ++ [w.1]) htl hpos
        (by rw [hs']; simp) (by omega) (by simp at hf; omega)]
      simp
    · refine ⟨?_, hn1⟩
      have hk' := hk (by simp)
      have : slen s = pre.length + k + w.1.length + (w.2 + (render ' ' 0 ws).length) := by
        rw [hs']; simp [slen]; omega
      omega

/-- C27, the part that holds: for every string that, with tabs read as blanks, consists of quoted
sections and words separated by blanks, with at least one token, the result is the list of tokens. -/
theorem C27_blankTokenizer_partial (str : Str) (lead : Nat) (ws : List (Str × Nat))
    (h : BlankTokens ws) (hne : ws ≠ []) (hs : str.map tabBlank = render ' ' lead ws) :
    blankTokenizer str = .ok (ws.map (·.1)) := by
  obtain ⟨w, ws, rfl⟩ := List.exists_cons_of_ne_nil hne
  unfold blankTokenizer
  rw [tabToBlank_eq, hs]
  obtain ⟨htok, htl, hpos⟩ := h.head
  obtain ⟨d, t', hw1, hd⟩ := htok.first
  have hs' : render ' ' lead (w :: ws) = List.replicate lead ' ' ++
      (w.1 ++ (List.replicate w.2 ' ' ++ render ' ' 0 ws)) := by simp [render]
  have e1 : findNot ' ' (render ' ' lead (w :: ws)) 0 =
      (((List.replicate lead ' ').length : Nat) : Int) := by
    have := findNot_hit ' ' [] lead d (t' ++ (List.replicate w.2 ' ' ++ render ' ' 0 ws)) hd
    rw [hs', hw1]
    simpa using this
  obtain ⟨c, hc, hend, _⟩ := token_end (List.replicate lead ' ') w.1 w.2 (render ' ' 0 ws) htok
    (fun h => hpos (render_ne_nil htl h)) _ hs'
  unfold blankScan
  rw [e1, hc]
  simp only
  rw [hend]
  have hsub : substr (render ' ' lead (w :: ws)) (((List.replicate lead ' ').length : Nat) : Int)
      (((List.replicate lead ' ').length : Nat) + w.1.length -
        ((List.replicate lead ' ').length : Nat)) = some w.1 := by
    rw [hs']
    exact substr_mid _ _ _ _ _ rfl (by omega)
  rw [hsub]
  simp only
  have hpl : (((List.replicate lead ' ').length : Nat) + (w.1.length : Int)) =
      (((List.replicate lead ' ' ++ w.1).length : Nat) : Int) := by
    rw [List.length_append]; omega
  rw [hpl, blankLoop_eq _ _ ws (List.replicate lead ' ' ++ w.1) w.2 _ [w.1] htl hpos
    (by rw [hs']; simp) (by omega)]
  · simp
  · have hcount : ∀ (ws : List (Str × Nat)), BlankTokens ws →
        ws.length ≤ (render ' ' 0 ws).length := by
      intro ws
      induction ws with
      | nil => intro _; simp
      | cons w ws ih =>
        intro h
        obtain ⟨ht, htl, _⟩ := h.head
        obtain ⟨d, t', hw1, _⟩ := ht.first
        have := ih htl
        rw [render_zero_cons, hw1]
        simp
        omega
    have := hcount ws htl
    have hwl : 0 < w.1.length := by rw [hw1]; simp
    rw [hs']
    simp
    omega

/-- C27 fails on every blank line (also the empty one): a character before the string is read. -/
theorem C27_blank_line_violated (k : Nat) (str : Str)
    (h : str.map tabBlank = List.replicate k ' ') : blankTokenizer str = .undefined := by
  unfold blankTokenizer blankScan
  rw [tabToBlank_eq, h]
  have := findNot_miss ' ' [] k
  simp only [List.length_nil, Int.natCast_zero, List.nil_append] at this
  rw [this]
  simp [charAt]

/-- C27 outside its hypotheses: an unterminated quote at the start is returned twice (or with an
empty token in front), and one character
directly after a closing quote at the end of the line is dropped. -/
theorem C27_malformed_violated :
    blankTokenizer " 'ab".toList = .ok ["'ab".toList, "'ab".toList] ∧
    blankTokenizer "'ab".toList = .ok ["".toList, "'ab".toList] ∧
    blankTokenizer "'a'b".toList = .ok ["'a'".toList] ∧
    blankTokenizer "'a'bc".toList = .ok ["'a'".toList, "bc".toList] := by decide

example : BlankTokens [("1".toList, 2), ("'BUS A'".toList, 1), ("x".toList, 0)] :=
  ⟨.word '1' [] (by decide) (by decide) (by decide) ⟨'1', by decide, by decide⟩, by decide,
   .quoted '\'' "BUS A".toList (.inl rfl) (by decide), by decide,
   .word 'x' [] (by decide) (by decide) (by decide) ⟨'x', by decide, by decide⟩⟩

example : blankTokenizer "\t1  'BUS A' x".toList =
    .ok ["1".toList, "'BUS A'".toList, "x".toList] := by decide

/-! ### C28 and C61 -/

def isQuote (q : Char) : Prop := q = '\'' ∨ q = '"'

/-- Result of the quote search on a string without quotes. -/
theorem unquote_plain (lead : Nat) (c : Char) (r : Str) (hc : c ≠ ' ')
    (h1 : '\'' ∉ c :: r) (h2 : '"' ∉ c :: r) :
    unquote (List.replicate lead ' ' ++ c :: r) = some (c :: r) := by
  have g1 : find '\'' (List.replicate lead ' ' ++ c :: r) 0 = -1 := by
    have := find_miss '\'' [] (List.replicate lead ' ' ++ c :: r) (by
      rw [List.mem_append]; rintro (h | h)
      · exact absurd (List.eq_of_mem_replicate h) (by decide)
      · exact h1 h)
    simpa using this
  have g2 : find '"' (List.replicate lead ' ' ++ c :: r) 0 = -1 := by
    have := find_miss '"' [] (List.replicate lead ' ' ++ c :: r) (by
      rw [List.mem_append]; rintro (h | h)
      · exact absurd (List.eq_of_mem_replicate h) (by decide)
      · exact h2 h)
    simpa using this
  have g3 : findNot ' ' (List.replicate lead ' ' ++ c :: r) 0 = lead := by
    have := findNot_hit ' ' [] lead c r hc
    simpa using this
  have hcq : c ≠ '\'' := by rintro rfl; exact h1 (by simp)
  unfold unquote quoteStart
  rw [if_pos g1, if_pos g2, g3]
  simp only [Bool.false_eq_true, if_false]
  unfold between
  have g4 : findNot '\'' (List.replicate lead ' ' ++ c :: r) lead = lead := by
    have := findNot_hit '\'' (List.replicate lead ' ') 0 c r hcq
    simpa using this
  have g5 : find '\'' (List.replicate lead ' ' ++ c :: r) lead = -1 := by
    have := find_miss '\'' (List.replicate lead ' ') (c :: r) h1
    simpa using this
  rw [g4, g5]
  have := substr_mid (List.replicate lead ' ') (c :: r) [] lead
    (endOr (List.replicate lead ' ' ++ c :: r) (-1) - lead) (by simp)
    (by simp [endOr, slen])
  simpa using this

/-- Result of the quote search on a quoted string. -/
theorem unquote_quoted (q : Char) (hq : isQuote q) (pre : Str) (c : Char) (body post : Str)
    (hpre : '\'' ∉ pre ∧ '"' ∉ pre) (hbody : '\'' ∉ c :: body ∧ '"' ∉ c :: body)
    (hpost : q = '"' → '\'' ∉ post) :
    unquote (pre ++ q :: (c :: body ++ q :: post)) = some (c :: body) := by
  have hs : pre ++ q :: (c :: body ++ q :: post) = (pre ++ [q]) ++ ((c :: body) ++ q :: post) := by
    simp
  have hqb : q ∉ c :: body := by rcases hq with rfl | rfl; exact hbody.1; exact hbody.2
  have hqp : q ∉ pre := by rcases hq with rfl | rfl; exact hpre.1; exact hpre.2
  have hcq : c ≠ q := by rintro rfl; exact hqb (by simp)
  have g1 : find q (pre ++ q :: (c :: body ++ q :: post)) 0 = pre.length := by
    have := find_hit q [] pre (c :: body ++ q :: post) hqp
    simpa using this
  have g4 : findNot q (pre ++ q :: (c :: body ++ q :: post)) pre.length = (pre ++ [q]).length := by
    have := findNot_hit q pre 1 c (body ++ q :: post) hcq
    simpa using this
  have g5 : find q (pre ++ q :: (c :: body ++ q :: post)) (pre ++ [q]).length =
      (pre ++ [q]).length + (c :: body).length := by
    rw [hs]; exact find_hit q _ (c :: body) post hqb
  have hb : between (pre ++ q :: (c :: body ++ q :: post)) q pre.length = some (c :: body) := by
    unfold between
    rw [g4, g5, endOr, if_neg (by omega), hs]
    exact substr_mid _ _ _ _ _ rfl (by omega)
  have hstart : quoteStart (pre ++ q :: (c :: body ++ q :: post)) =
      ((pre.length : Int), if q = '"' then true else false) := by
    unfold quoteStart
    rcases hq with rfl | rfl
    · rw [g1, if_neg (by omega)]; simp
    · have g0 : find '\'' (pre ++ '"' :: (c :: body ++ '"' :: post)) 0 = -1 := by
        have := find_miss '\'' [] (pre ++ '"' :: (c :: body ++ '"' :: post)) (by
          have h1 := hpre.1
          have h2 := hbody.1
          have h3 := hpost rfl
          simp only [List.mem_append, List.mem_cons, not_or] at h1 h2 h3 ⊢
          exact ⟨h1, by decide, ⟨h2.1, h2.2⟩, by decide, h3⟩)
        simpa using this
      rw [if_pos g0, g1, if_neg (by omega)]; simp
  unfold unquote
  rw [hstart]
  rcases hq with rfl | rfl
  · simpa using hb
  · simpa using hb

theorem firstWord_eq (k : Nat) (c : Char) (w : Str) (m : Nat) (hw : ' ' ∉ c :: w) :
    firstWord (List.replicate k ' ' ++ (c :: w ++ List.replicate m ' ')) = some (c :: w) := by
  have hc : c ≠ ' ' := by rintro rfl; exact hw (by simp)
  have g1 : findNot ' ' (List.replicate k ' ' ++ (c :: w ++ List.replicate m ' ')) 0 =
      (List.replicate k ' ').length := by
    have := findNot_hit ' ' [] k c (w ++ List.replicate m ' ') hc
    simpa using this
  unfold firstWord
  rw [g1]
  have g2 : endOr (List.replicate k ' ' ++ (c :: w ++ List.replicate m ' '))
      (find ' ' (List.replicate k ' ' ++ (c :: w ++ List.replicate m ' '))
        (List.replicate k ' ').length) = (List.replicate k ' ').length + (c :: w).length := by
    cases m with
    | zero =>
      have := find_miss ' ' (List.replicate k ' ') (c :: w) hw
      simp only [List.replicate_zero, List.append_nil]
      rw [this]
      simp [endOr, slen]
    | succ m =>
      have := find_hit ' ' (List.replicate k ' ') (c :: w) (List.replicate m ' ') hw
      rw [List.replicate_succ, this, endOr, if_neg (by omega)]
  rw [g2]
  exact substr_mid _ _ _ _ _ rfl (by omega)

/-- The two-character form of an identifier. -/
def padded : Str → Str
  | [c] => [c, ' ']
  | t => t

/-- An identifier of one or two characters, none of them blank, quote or carriage return. -/
def IsId (id : Str) : Prop :=
  (id.length = 1 ∨ id.length = 2) ∧ ∀ c ∈ id, c ≠ ' ' ∧ c ≠ '\'' ∧ c ≠ '"' ∧ c ≠ '\r'

theorem pad2_id {id : Str} (h : IsId id) : pad2 id = padded id := by
  obtain ⟨hl, hc⟩ := h
  match id with
  | [] => simp at hl
  | [c] => rfl
  | [c, d] =>
    have := (hc d (by simp)).2.2.2
    simp [pad2, padded, this]
  | _ :: _ :: _ :: _ => simp at hl

/-- C28, the part that holds: an identifier of one or two characters is mapped to the same
two-character form whether it is unquoted, in single quotes or in double quotes, and with any number of
blanks around the identifier and around the quotes. -/
theorem C28_clean2Char_partial (id : Str) (h : IsId id) (a b c d : Nat) (q : Char) (hq : isQuote q) :
    clean2Char (List.replicate a ' ' ++ id ++ List.replicate b ' ') = .ok (padded id) ∧
    clean2Char (List.replicate a ' ' ++ [q] ++ List.replicate c ' ' ++ id ++ List.replicate d ' ' ++
      [q] ++ List.replicate b ' ') = .ok (padded id) := by
  have hp := pad2_id h
  obtain ⟨hl, hc⟩ := h
  obtain ⟨x, w, rfl⟩ : ∃ x w, id = x :: w := by
    cases id with
    | nil => simp at hl
    | cons x w => exact ⟨x, w, rfl⟩
  have hblank : ' ' ∉ x :: w := fun hm => (hc _ hm).1 rfl
  have hs1 : '\'' ∉ x :: w := fun hm => (hc _ hm).2.1 rfl
  have hs2 : '"' ∉ x :: w := fun hm => (hc _ hm).2.2.1 rfl
  have hr1 : ∀ n, '\'' ∉ List.replicate n ' ' := by
    intro n hm; exact absurd (List.eq_of_mem_replicate hm) (by decide)
  have hr2 : ∀ n, '"' ∉ List.replicate n ' ' := by
    intro n hm; exact absurd (List.eq_of_mem_replicate hm) (by decide)
  constructor
  · unfold clean2Char
    have e : List.replicate a ' ' ++ x :: w ++ List.replicate b ' ' =
        List.replicate a ' ' ++ x :: (w ++ List.replicate b ' ') := by simp
    rw [e, unquote_plain a x (w ++ List.replicate b ' ') (hc x (by simp)).1]
    · simp only
      have := firstWord_eq 0 x w b hblank
      simp only [List.replicate_zero, List.nil_append, List.cons_append] at this
      rw [this]
      simp only [hp]
    · rw [← List.cons_append, List.mem_append]; rintro (hm | hm)
      · exact hs1 hm
      · exact hr1 _ hm
    · rw [← List.cons_append, List.mem_append]; rintro (hm | hm)
      · exact hs2 hm
      · exact hr2 _ hm
  · unfold clean2Char
    have e : List.replicate a ' ' ++ [q] ++ List.replicate c ' ' ++ x :: w ++ List.replicate d ' ' ++
      [q] ++ List.replicate b ' ' = List.replicate a ' ' ++ q :: ((List.replicate c ' ' ++
        (x :: w ++ List.replicate d ' ')) ++ q :: List.replicate b ' ') := by simp
    rw [e]
    obtain ⟨y, body, hbody⟩ : ∃ y body, List.replicate c ' ' ++ (x :: w ++ List.replicate d ' ') =
        y :: body := by
      cases hx : List.replicate c ' ' ++ (x :: w ++ List.replicate d ' ') with
      | nil => simp at hx
      | cons y body => exact ⟨y, body, rfl⟩
    have hb1 : '\'' ∉ y :: body := by
      rw [← hbody, List.mem_append, List.mem_append]
      rintro (hm | hm | hm)
      · exact hr1 _ hm
      · exact hs1 hm
      · exact hr1 _ hm
    have hb2 : '"' ∉ y :: body := by
      rw [← hbody, List.mem_append, List.mem_append]
      rintro (hm | hm | hm)
      · exact hr2 _ hm
      · exact hs2 hm
      · exact hr2 _ hm
    rw [hbody, unquote_quoted q hq _ y body _ ⟨hr1 _, hr2 _⟩ ⟨hb1, hb2⟩ (fun _ => hr1 _), ← hbody]
    simp only
    rw [firstWord_eq c x w d hblank]
    simp only [hp]

/-- C28, idempotence: the two-character form is mapped to itself. -/
theorem C28_idempotent (id : Str) (h : IsId id) : clean2Char (padded id) = .ok (padded id) := by
  have hq : isQuote '\'' := .inl rfl
  have hl := h.1
  match id, hl, h with
  | [c], _, h => exact (C28_clean2Char_partial [c] h 0 1 0 0 '\'' hq).1
  | [c, d], _, h => exact (C28_clean2Char_partial [c, d] h 0 0 0 0 '\'' hq).1

/-- C28, carriage return at the end of the line: removed after a one-character identifier … -/
theorem C28_carriage_return_one_char (c : Char) (h : IsId [c]) (a b : Nat) :
    clean2Char (List.replicate a ' ' ++ [c, '\r'] ++ List.replicate b ' ') = .ok [c, ' '] := by
  obtain ⟨hc0, hc1, hc2, _⟩ := h.2 c (by simp)
  have hr : ∀ n (x : Char), x ≠ ' ' → x ∉ List.replicate n ' ' := by
    intro n x hx hm; exact hx (List.eq_of_mem_replicate hm)
  have hw : ' ' ∉ c :: ['\r'] := by simp [Ne.symm hc0]
  unfold clean2Char
  have e : List.replicate a ' ' ++ [c, '\r'] ++ List.replicate b ' ' =
        List.replicate a ' ' ++ c :: (['\r'] ++ List.replicate b ' ') := by simp
  rw [e, unquote_plain a c _ hc0]
  · simp only
    have := firstWord_eq 0 c ['\r'] b hw
    simp only [List.replicate_zero, List.nil_append, List.cons_append] at this
    rw [List.singleton_append, this]
    rfl
  · have := hr b '\'' (by decide)
    simp [Ne.symm hc1, this]
  · have := hr b '"' (by decide)
    simp [Ne.symm hc2, this]

/-- … but kept after a two-character identifier, tabs are not treated as padding, and an empty or blank
identifier makes the call throw, so C28 does not hold for those inputs. -/
theorem C28_violated :
    clean2Char "AB\r".toList = .ok "AB\r".toList ∧ clean2Char "\t1".toList = .ok "\t1".toList ∧
    clean2Char "".toList = .throws ∧ clean2Char "' '".toList = .throws ∧
    clean2Char "''".toList = .throws := by decide

example : IsId ['1'] ∧ IsId ['A', 'B'] :=
  ⟨⟨.inl rfl, by decide⟩, ⟨.inr rfl, by decide⟩⟩
example : clean2Char " ' 1'".toList = .ok "1 ".toList := by decide

/-- C61, the part that holds: on a text enclosed in quotes, `trimQuotes` returns the text with
surrounding white space removed, for every text without quote characters. -/
theorem C61_trimQuotes_quoted_partial (q : Char) (hq : isQuote q) (pre body post : Str)
    (hpre : '\'' ∉ pre ∧ '"' ∉ pre) (hb : '\'' ∉ body ∧ '"' ∉ body) (hne : body ≠ [])
    (hpost : '\'' ∉ post) :
    trimQuotes (pre ++ [q] ++ body ++ [q] ++ post) = .ok (trim body) := by
  obtain ⟨c, body, rfl⟩ := List.exists_cons_of_ne_nil hne
  unfold trimQuotes
  have e : pre ++ [q] ++ (c :: body) ++ [q] ++ post = pre ++ q :: (c :: body ++ q :: post) := by simp
  rw [e, unquote_quoted q hq pre c body post hpre hb (fun _ => hpost)]

/-- C61, unquoted text: surrounding blanks are removed and nothing else is lost. -/
theorem C61_trimQuotes_plain_partial (lead : Nat) (c : Char) (r : Str) (hc : c ≠ ' ')
    (h : '\'' ∉ c :: r ∧ '"' ∉ c :: r) :
    trimQuotes (List.replicate lead ' ' ++ c :: r) = .ok (trim (c :: r)) := by
  unfold trimQuotes
  rw [unquote_plain lead c r hc h.1 h.2]

/-- C61 fails when the other kind of quote occurs in the text, and on empty texts. -/
theorem C61_violated :
    trimQuotes "\"it's\"".toList = .ok "s\"".toList ∧ trimQuotes "''".toList = .throws ∧
    trimQuotes "".toList = .throws := by decide

example : trimQuotes " 'GEN ROU ' ".toList = .ok "GEN ROU".toList := by decide

/-! ### C62 -/

theorem lower_eq : lower = Char.toLower := by
  funext c
  unfold lower Char.toLower
  by_cases h : 'A'.toNat ≤ c.toNat ∧ c.toNat ≤ 'Z'.toNat
  · rw [if_pos h, dif_pos ⟨h.1, h.2⟩]
    have h1 : 65 ≤ c.toNat := h.1
    have h2 : c.toNat ≤ 90 := h.2
    have hv : Nat.isValidChar (c.toNat + 32) := by left; omega
    apply Char.ext
    apply UInt32.toNat_inj.1
    simp only [Char.ofNat, hv, dif_pos, Char.ofNatAux, UInt32.toNat_add]
    show c.toNat + 32 = (c.toNat + 32) % 4294967296
    omega
  · rw [if_neg h, dif_neg (by intro hc; exact h ⟨hc.1, hc.2⟩)]

/-- C62.  For every string, `getBool` is true exactly when the string, without its surrounding white
space and in any letter case, is one of the five documented words. -/
theorem C62_getBool (s : Str) : getBool s = true ↔
    ∃ t, IsTrimOf t (s.map asBlank) ∧
      t.map Char.toLower ∈ ["true".toList, "yes".toList, "t".toList, "y".toList, "1".toList] := by
  have h0 := C25_trim_partial s
  have h1 : getBool s = true ↔
      (trim s).map Char.toLower ∈ ["true".toList, "yes".toList, "t".toList, "y".toList, "1".toList] := by
    unfold getBool
    rw [lower_eq]
    simp only
    constructor
    · intro h
      (repeat' split at h) <;> simp_all
    · intro h
      simp only [List.mem_cons, List.not_mem_nil, or_false] at h
      rcases h with h | h | h | h | h <;> rw [h] <;> decide
  rw [h1]
  constructor
  · intro h; exact ⟨trim s, h0, h⟩
  · rintro ⟨t, ht, h⟩
    rw [h0.unique ht]; exact h

example : getBool " Yes\n".toList = true := by decide
example : getBool "maybe".toList = false := by decide

end GridPACK.StringUtils
