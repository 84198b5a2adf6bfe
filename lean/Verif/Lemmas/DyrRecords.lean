import Verif.Props.BlockParser
import Verif.Model.DyrRecords
import Verif.Spec.DyrRecords

namespace GridPACK.DyrRecords
open StringUtils BlockParser

/-! ### Tokens of a text -/

theorem splitComma_eq (s : Str) : splitComma s = s.splitOnP (· = ',') := by
  induction s with
  | nil => rfl
  | cons c s ih =>
    rw [splitComma, List.splitOnP_cons_eq_if_modifyHead, ih]
    by_cases hc : c = ','
    · simp [hc]
    · simp only [hc, if_false, decide_false, Bool.false_eq_true]
      cases h : s.splitOnP (· = ',') with
      | nil => exact absurd h (List.splitOnP_ne_nil _ _)
      | cons f fs => rfl

theorem words_append (a b : Str) : words (a ++ ' ' :: b) = words a ++ words b := by
  unfold words
  rw [List.splitOnP_append_cons a b (by simp), List.filter_append]

theorem words_nil : words [] = [] := by simp [words]

theorem words_single {w : Str} (hne : w ≠ []) (h : ' ' ∉ w) : words w = [w] := by
  unfold words
  rw [List.splitOnP_eq_singleton (by
    intro x hx
    simp only [decide_eq_false_iff_not]
    rintro rfl
    exact h hx)]
  simp [hne]

theorem words_blanks (k : Nat) (s : Str) : words (List.replicate k ' ' ++ s) = words s := by
  induction k with
  | zero => rfl
  | succ k ih =>
    have := words_append [] (List.replicate k ' ' ++ s)
    rw [words_nil] at this
    simpa [List.replicate_succ, ih] using this

theorem words_render (lead : Nat) (ws : List (Str × Nat)) (h : Tokens ' ' ws) :
    words (render ' ' lead ws) = ws.map (·.1) := by
  unfold render
  rw [words_blanks]
  induction ws with
  | nil => exact words_nil
  | cons w ws ih =>
    cases ws with
    | nil =>
      obtain ⟨h1, h2⟩ := h
      simp only [List.flatMap_cons, List.flatMap_nil, List.append_nil, List.map_cons, List.map_nil]
      cases hk : w.2 with
      | zero => simp [words_single h1 h2]
      | succ k =>
        rw [List.replicate_succ, words_append, words_single h1 h2]
        have := words_blanks k []
        rw [List.append_nil, words_nil] at this
        rw [this]; rfl
    | cons w' ws =>
      obtain ⟨h1, h2, h3, h4⟩ := h
      rw [List.flatMap_cons]
      obtain ⟨k, hk⟩ : ∃ k, w.2 = k + 1 := ⟨w.2 - 1, by omega⟩
      rw [hk, List.replicate_succ, List.append_assoc, List.cons_append, words_append, words_blanks, ih h4,
        words_single h1 h2]
      rfl

theorem TokenOk.isToken {w : Str} (h : TokenOk w) (hb : ' ' ∉ w) (hr : '\r' ∉ w) : IsToken w := by
  rcases h with ⟨q, body, hq, hbody, rfl⟩ | ⟨c, w', h1, h2, rfl⟩
  · exact .quoted q body hq hbody
  · refine .word c w' h1 h2 hb ⟨c, by simp, ?_⟩
    rintro rfl
    exact hr (by simp)

theorem mem_render {c : Char} {lead : Nat} {ws : List (Str × Nat)} {w : Str × Nat} (hw : w ∈ ws) (hc : c ∈ w.1) :
    c ∈ render ' ' lead ws := by
  unfold render
  rw [List.mem_append]
  right
  rw [List.mem_flatMap]
  exact ⟨w, hw, by simp [hc]⟩

/-- A field without tabs and returns, with words in the right form, is read as its tokens. -/
theorem field_tokens {f : Str} (ht : '\t' ∉ f) (hr : '\r' ∉ f) (hw : ∀ w ∈ fieldTokens f, TokenOk w) :
    Field f (fieldTokens f) := by
  obtain ⟨lead, ws, hws, rfl⟩ := C26_every_string_has_tokens ' ' f
  unfold fieldTokens at hw ⊢
  rw [words_render lead ws hws] at hw ⊢
  cases ws with
  | nil =>
    have := Field.blank lead
    simpa [render] using this
  | cons w ws =>
    rw [if_neg (by simp)] at hw ⊢
    refine .tokens _ lead (w :: ws) ?_ (by simp) ?_
    · have hr' : ∀ x ∈ w :: ws, '\r' ∉ x.1 := fun x hx hc => hr (mem_render hx hc)
      have hw' : ∀ x ∈ w :: ws, TokenOk x.1 := fun x hx => hw _ (List.mem_map_of_mem hx)
      clear hw hr ht
      induction ws generalizing w with
      | nil => exact (hw' w (by simp)).isToken hws.2 (hr' w (by simp))
      | cons w' ws ih =>
        obtain ⟨h1, h2, h3, h4⟩ := hws
        refine ⟨(hw' w (by simp)).isToken h2 (hr' w (by simp)), h3, ih w' h4 ?_ ?_⟩
        · exact fun x hx => hr' x (by simp [List.mem_cons.mp hx])
        · exact fun x hx => hw' x (by simp [List.mem_cons.mp hx])
    · have : ∀ s : Str, '\t' ∉ s → s.map tabBlank = s := by
        intro s
        induction s with
        | nil => intro _; rfl
        | cons c s ih =>
          intro h
          simp only [List.mem_cons, not_or] at h
          rw [List.map_cons, ih h.2, tabBlank, if_neg (Ne.symm h.1)]
      exact this _ ht

theorem joinComma_split (s : Str) : joinComma (s.splitOnP (· = ',')) = s := by
  induction s with
  | nil => rfl
  | cons c s ih =>
    rw [List.splitOnP_cons_eq_if_modifyHead]
    obtain ⟨f, fs, hfs⟩ := List.exists_cons_of_ne_nil (List.splitOnP_ne_nil (· = ',') s)
    by_cases hc : c = ','
    · simp only [hc, decide_true, if_true]
      rw [hfs] at ih ⊢
      simp [joinComma, ih]
    · simp only [hc, decide_false, Bool.false_eq_true, if_false]
      rw [hfs] at ih ⊢
      rw [List.modifyHead_cons]
      cases fs with
      | nil => simpa [joinComma] using ih
      | cons g fs => simpa [joinComma] using ih

theorem mem_split {s f : Str} (hf : f ∈ s.splitOnP (· = ',')) : ',' ∉ f ∧ ∀ c ∈ f, c ∈ s := by
  induction s generalizing f with
  | nil => simp at hf; subst hf; simp
  | cons c s ih =>
    rw [List.splitOnP_cons_eq_if_modifyHead] at hf
    by_cases hc : c = ','
    · simp only [hc, decide_true, if_true, List.mem_cons] at hf
      rcases hf with rfl | hf
      · simp
      · exact ⟨(ih hf).1, fun x hx => List.mem_cons_of_mem _ ((ih hf).2 x hx)⟩
    · simp only [hc, decide_false, Bool.false_eq_true, if_false] at hf
      obtain ⟨g, gs, hgs⟩ := List.exists_cons_of_ne_nil (List.splitOnP_ne_nil (· = ',') s)
      rw [hgs, List.modifyHead_cons, List.mem_cons] at hf
      rcases hf with rfl | hf
      · have := ih (f := g) (by rw [hgs]; simp)
        refine ⟨by simp [Ne.symm hc, this.1], ?_⟩
        intro x hx
        rcases List.mem_cons.mp hx with rfl | hx
        · simp
        · exact List.mem_cons_of_mem _ (this.2 x hx)
      · have := ih (f := f) (by rw [hgs]; simp [hf])
        exact ⟨this.1, fun x hx => List.mem_cons_of_mem _ (this.2 x hx)⟩

/-- `splitPSSELine` gives the tokens of a text. -/
theorem split_tokens {s : Str} (ht : '\t' ∉ s) (hr : '\r' ∉ s) (hw : ∀ w ∈ tokens s, TokenOk w) :
    splitPSSELine s = .ok (tokens s) := by
  have := C63_splitPSSELine_partial ((s.splitOnP (· = ',')).map (fun f => (f, fieldTokens f)))
    (by simp [List.splitOnP_ne_nil]) (by
      intro f hf
      obtain ⟨g, hg, rfl⟩ := List.mem_map.mp hf
      have hm := mem_split hg
      refine ⟨hm.1, field_tokens (fun h => ht (hm.2 _ h)) (fun h => hr (hm.2 _ h)) ?_⟩
      intro w hw'
      exact hw w (List.mem_flatMap.mpr ⟨g, hg, hw'⟩))
  rw [List.map_map] at this
  have e : ((fun x : Str × List Str => x.1) ∘ fun f => (f, fieldTokens f)) = id := rfl
  rw [e, List.map_id, joinComma_split, List.flatMap_map] at this
  exact this

/-! ### Ends of lines -/

/-- The field in which a text ends. -/
theorem split_at (p : Char → Bool) (a : Str) : ∃ fs x, ∀ r, (a ++ r).splitOnP p =
    fs ++ (r.splitOnP p).modifyHead (x ++ ·) := by
  induction a with
  | nil =>
    refine ⟨[], [], ?_⟩
    intro r
    cases h : r.splitOnP p <;> simp [h]
  | cons c a ih =>
    obtain ⟨fs, x, h⟩ := ih
    by_cases hc : p c = true
    · refine ⟨[] :: fs, x, ?_⟩
      intro r
      rw [List.cons_append, List.splitOnP_cons_eq_if_modifyHead, h r]
      simp [hc]
    · cases fs with
      | nil =>
        refine ⟨[], c :: x, ?_⟩
        intro r
        rw [List.cons_append, List.splitOnP_cons_eq_if_modifyHead, h r]
        simp only [hc, Bool.false_eq_true, if_false, List.nil_append]
        cases r.splitOnP p <;> simp
      | cons f fs =>
        refine ⟨(c :: f) :: fs, x, ?_⟩
        intro r
        rw [List.cons_append, List.splitOnP_cons_eq_if_modifyHead, h r]
        simp [hc]

theorem split_at_snoc (p : Char → Bool) (a : Str) (c : Char) (hc : p c = false) : ∃ fs x, ∀ r,
    (a ++ c :: r).splitOnP p = fs ++ (r.splitOnP p).modifyHead (fun y => x ++ c :: y) := by
  obtain ⟨fs, x, h⟩ := split_at p a
  refine ⟨fs, x, ?_⟩
  intro r
  rw [h, List.splitOnP_cons_eq_if_modifyHead]
  simp only [hc, Bool.false_eq_true, if_false]
  cases r.splitOnP p <;> simp

theorem split_front (a : Str) : ∃ fs x, ∀ r, (a ++ r).splitOnP (· = ',') =
    fs ++ (r.splitOnP (· = ',')).modifyHead (x ++ ·) := split_at _ a

theorem split_front_snoc (a : Str) (c : Char) (hc : c ≠ ',') : ∃ fs x, ∀ r, (a ++ c :: r).splitOnP (· = ',') =
    fs ++ (r.splitOnP (· = ',')).modifyHead (fun y => x ++ c :: y) := split_at_snoc _ a c (by simpa using hc)

theorem fieldTokens_lead (f : Str) : fieldTokens (' ' :: f) = fieldTokens f := by
  have := words_append [] f
  rw [words_nil, List.nil_append, List.nil_append] at this
  unfold fieldTokens
  rw [this]

theorem fieldTokens_two (x y : Str) : fieldTokens (x ++ ' ' :: ' ' :: y) = fieldTokens (x ++ ' ' :: y) := by
  have := words_append [] y
  rw [words_nil, List.nil_append, List.nil_append] at this
  unfold fieldTokens
  rw [words_append, words_append, this]

theorem fieldTokens_trail (x : Str) : fieldTokens (x ++ [' ']) = fieldTokens x := by
  unfold fieldTokens
  rw [words_append, words_nil, List.append_nil]

theorem blank_field (y : Str) : (' ' :: y).splitOnP (· = ',') = (y.splitOnP (· = ',')).modifyHead (' ' :: ·) := by
  rw [List.splitOnP_cons_eq_if_modifyHead]
  simp

theorem comma_field (y : Str) : (',' :: y).splitOnP (· = ',') = [] :: y.splitOnP (· = ',') := by
  rw [List.splitOnP_cons_eq_if_modifyHead]
  simp

/-- A blank beside a blank or a comma makes no difference. -/
theorem tokens_join (a b : Str) (h : b = [] ∨ Apart a b) : tokens (a ++ ' ' :: b) = tokens (a ++ b) := by
  unfold tokens
  rcases h with rfl | h | h | h | h
  · obtain ⟨fs, x, hx⟩ := split_front a
    rw [hx, hx]
    simp [blank_field, fieldTokens_trail]
  · obtain ⟨a', rfl⟩ := List.getLast?_eq_some_iff.mp h
    obtain ⟨fs, x, hx⟩ := split_front_snoc a' ' ' (by decide)
    rw [List.append_assoc, List.append_assoc, List.singleton_append, List.singleton_append, hx, hx, blank_field]
    cases b.splitOnP (· = ',') <;> simp [fieldTokens_two]
  · obtain ⟨a', rfl⟩ := List.getLast?_eq_some_iff.mp h
    rw [List.append_assoc, List.append_assoc, List.singleton_append, List.singleton_append,
      List.splitOnP_append_cons _ _ (by simp), List.splitOnP_append_cons _ _ (by simp), blank_field]
    cases b.splitOnP (· = ',') <;> simp [fieldTokens_lead]
  · obtain ⟨b', rfl⟩ := List.head?_eq_some_iff.mp h
    obtain ⟨fs, x, hx⟩ := split_front a
    rw [hx, hx, blank_field, blank_field]
    cases b'.splitOnP (· = ',') <;> simp [fieldTokens_two]
  · obtain ⟨b', rfl⟩ := List.head?_eq_some_iff.mp h
    obtain ⟨fs, x, hx⟩ := split_front a
    rw [hx, hx, blank_field, comma_field]
    simp [fieldTokens_trail]

theorem tokens_lines (l : List Str) (h : Joined l) (p : Str) :
    tokens (p ++ [' '].intercalate l) = tokens (p ++ l.flatten) := by
  induction l generalizing p with
  | nil => rfl
  | cons a l ih =>
    cases l with
    | nil => simp
    | cons b l =>
      obtain ⟨h1, h2⟩ := h
      have e : [' '].intercalate (a :: b :: l) = a ++ ' ' :: [' '].intercalate (b :: l) := by
        simp [List.intercalate]
      have ih' := ih h2 (p ++ a ++ [' '])
      rw [e]
      have e2 : p ++ (a ++ ' ' :: [' '].intercalate (b :: l)) = p ++ a ++ [' '] ++ [' '].intercalate (b :: l) := by
        simp
      rw [e2, ih']
      have e3 : p ++ a ++ [' '] ++ (b :: l).flatten = (p ++ a) ++ ' ' :: (b :: l).flatten := by simp
      rw [e3, tokens_join]
      · simp
      · rcases h1 with h1 | ⟨rfl, rfl⟩
        · right
          have hl : ∀ c, a.getLast? = some c → (p ++ a).getLast? = some c := by
            intro c hc
            obtain ⟨a', rfl⟩ := List.getLast?_eq_some_iff.mp hc
            rw [← List.append_assoc]; simp
          have hh : ∀ c, b.head? = some c → (b :: l).flatten.head? = some c := by
            intro c hc
            obtain ⟨b', rfl⟩ := List.head?_eq_some_iff.mp hc
            simp
          rcases h1 with h1 | h1 | h1 | h1
          · exact .inl (hl _ h1)
          · exact .inr (.inl (hl _ h1))
          · exact .inr (.inr (.inl (hh _ h1)))
          · exact .inr (.inr (.inr (hh _ h1)))
        · left; simp

theorem Rec.tokens_eq {r : Rec} (h : r.Ok) : tokens r.parts.flatten = tokens r.text := by
  have := tokens_lines r.parts h.apart []
  simpa [Rec.text] using this.symm

/-! ### The loops -/

theorem find_zero_miss {c : Char} {s : Str} (h : c ∉ s) : find c s 0 = -1 := by
  simpa using find_miss c [] s h

theorem find_zero_hit {c : Char} {t : Str} (r : Str) (h : c ∉ t) : find c (t ++ c :: r) 0 = t.length := by
  simpa using find_hit c [] t r h

theorem gather_lines {eof : Str → Str} {last behind : Str} {rest : List Str} (hl : '/' ∉ last) (ls : List Str) :
    ∀ (line record : Str) (fuel : Nat), (∀ l ∈ line :: ls, '/' ∉ l) → ls.length + 1 < fuel →
    gather eof fuel line record (ls ++ (last ++ '/' :: behind) :: rest) =
      some (record ++ ls.flatten ++ (last ++ '/' :: behind), rest) := by
  induction ls with
  | nil =>
    intro line record fuel h hf
    obtain ⟨fuel, rfl⟩ : ∃ m, fuel = m + 2 := ⟨fuel - 2, by simp at hf; omega⟩
    rw [gather.eq_def]
    simp only [find_zero_miss (h line (by simp)), if_true, List.nil_append]
    rw [gather.eq_def]
    simp only [find_zero_hit behind hl]
    rw [if_neg (by omega)]
    simp
  | cons l ls ih =>
    intro line record fuel h hf
    obtain ⟨fuel, rfl⟩ : ∃ m, fuel = m + 1 := ⟨fuel - 1, by omega⟩
    rw [gather.eq_def]
    simp only [find_zero_miss (h line (by simp)), if_true, List.cons_append]
    rw [ih l _ fuel (fun x hx => h x (List.mem_cons_of_mem _ hx)) (by simp at hf; omega)]
    simp

theorem gather_rec {eof : Str → Str} {r : Rec} (h : ∀ l ∈ r.parts, '/' ∉ l) {line : Str} {ls rest : List Str}
    (hfile : r.file = line :: ls) {fuel : Nat} (hf : ls.length < fuel) :
    gather eof fuel line line (ls ++ rest) = some (r.parts.flatten ++ '/' :: r.behind, rest) := by
  obtain ⟨lines, last, behind⟩ := r
  cases lines with
  | nil =>
    simp only [Rec.file, List.nil_append, List.cons.injEq] at hfile
    obtain ⟨rfl, rfl⟩ := hfile
    obtain ⟨fuel, rfl⟩ : ∃ m, fuel = m + 1 := ⟨fuel - 1, by omega⟩
    rw [gather.eq_def]
    simp only [find_zero_hit behind (h last (by simp [Rec.parts]))]
    rw [if_neg (by omega)]
    simp [Rec.parts]
  | cons l lines =>
    simp only [Rec.file, List.cons_append, List.cons.injEq] at hfile
    obtain ⟨rfl, rfl⟩ := hfile
    rw [List.append_assoc, List.singleton_append, gather_lines (h last (by simp [Rec.parts]))]
    · simp [Rec.parts]
    · intro x hx
      apply h x
      simp only [Rec.parts, List.cons_append, List.mem_cons, List.mem_append] at hx ⊢
      tauto
    · simp at hf; omega

theorem cut_text (t behind : Str) (h : '/' ∉ t) : cut (t ++ '/' :: behind) = t := by
  unfold cut
  rw [find_zero_hit behind h, if_pos (by omega)]
  simp

theorem skipDirect_blank (n : Nat) : skipDirect (List.replicate n ' ') = true := by
  have := findNot_miss ' ' [] n
  simpa [skipDirect] using this

theorem skipShared_blank (n : Nat) : skipShared (List.replicate n ' ') = true := by
  have := findNot_miss ' ' [] n
  simp only [List.nil_append, List.length_nil, Int.natCast_zero] at this
  simp [skipShared, this]

theorem skipShared_returns (n : Nat) : skipShared (List.replicate n '\r') = true := by
  have := findNot_miss '\r' [] n
  simp only [List.nil_append, List.length_nil, Int.natCast_zero] at this
  simp [skipShared, this]

theorem skipShared_comment (n : Nat) (c : Char) (t : Str) :
    skipShared (List.replicate n ' ' ++ '/' :: '/' :: c :: t) = true := by
  have h := findNot_hit ' ' [] n '/' ('/' :: c :: t) (by decide)
  simp only [List.nil_append, List.length_nil, Int.natCast_zero, Int.zero_add] at h
  unfold skipShared
  rw [h]
  simp only [decide_eq_true_eq]
  right; right
  have hlen : slen (List.replicate n ' ' ++ '/' :: '/' :: c :: t) = n + 3 + t.length := by
    simp [slen]; omega
  refine ⟨?_, by omega, ?_⟩
  · rw [charAt, if_neg (by omega), if_neg (by omega)]
    simp
  · rw [charAt, if_neg (by omega), if_neg (by omega)]
    have e : ((n : Int) + 1).toNat = n + 1 := by omega
    rw [e, List.getElem?_append_right (by simp)]
    simp

theorem first_char {l : Str} (h : ∃ c ∈ l, c ≠ ' ') : ∃ k d r, l = List.replicate k ' ' ++ d :: r ∧ d ≠ ' ' := by
  induction l with
  | nil => simp at h
  | cons c l ih =>
    by_cases hc : c = ' '
    · obtain ⟨k, d, r, rfl, hd⟩ := ih (by
        obtain ⟨x, hx, hne⟩ := h
        rcases List.mem_cons.mp hx with rfl | hx
        · exact absurd hc hne
        · exact ⟨x, hx, hne⟩)
      exact ⟨k + 1, d, r, by simp [hc, List.replicate_succ], hd⟩
    · exact ⟨0, c, l, rfl, hc⟩

theorem noskip_direct (k : Nat) (d : Char) (r : Str) (hd : d ≠ ' ') :
    skipDirect (List.replicate k ' ' ++ d :: r) = false := by
  have := findNot_exists ' ' (List.replicate k ' ' ++ d :: r) ⟨d, by simp, hd⟩
  simp [skipDirect, this]

theorem noskip_shared (k : Nat) (d : Char) (r : Str) (hd : d ≠ ' ') (hr : d ≠ '\r') (hs : d ≠ '/') :
    skipShared (List.replicate k ' ' ++ d :: r) = false := by
  have h1 := findNot_exists '\r' (List.replicate k ' ' ++ d :: r) ⟨d, by simp, hr⟩
  have h2 := findNot_hit ' ' [] k d r hd
  simp only [List.nil_append, List.length_nil, Int.natCast_zero, Int.zero_add] at h2
  have hlen : slen (List.replicate k ' ' ++ d :: r) = k + 1 + r.length := by simp [slen]; omega
  have h3 : charAt (List.replicate k ' ' ++ d :: r) k = some d := by
    rw [charAt, if_neg (by omega), if_neg (by omega)]
    simp
  unfold skipShared
  rw [h2, h3]
  simp only [decide_eq_false_iff_not, not_or, not_and]
  refine ⟨by omega, h1, ?_⟩
  intro h
  exact absurd (Option.some.inj h) hs

/-- The first line of a record is not passed over. -/
theorem Rec.begins {r : Rec} (h : r.Ok) : ∃ line ls, r.file = line :: ls ∧ skipDirect line = false ∧
    skipShared line = false := by
  obtain ⟨lines, last, behind⟩ := r
  obtain ⟨l, hl, hc⟩ := h.first
  have hmem : l ∈ (Rec.mk lines last behind).parts := List.mem_of_head? hl
  obtain ⟨k, d, x, hx, hd⟩ := first_char hc
  have hd' := h.chars l hmem d (by rw [hx]; simp)
  cases lines with
  | nil =>
    simp only [Rec.parts, List.nil_append, List.head?_cons, Option.some.injEq] at hl
    refine ⟨last ++ '/' :: behind, [], rfl, ?_⟩
    rw [hl, hx, List.append_assoc, List.cons_append]
    exact ⟨noskip_direct _ _ _ hd, noskip_shared _ _ _ hd hd'.2.2 hd'.1⟩
  | cons l' lines =>
    simp only [Rec.parts, List.cons_append, List.head?_cons, Option.some.injEq] at hl
    refine ⟨l', lines ++ [last ++ '/' :: behind], rfl, ?_⟩
    rw [hl, hx]
    exact ⟨noskip_direct _ _ _ hd, noskip_shared _ _ _ hd hd'.2.2 hd'.1⟩

theorem Rec.split {r : Rec} (h : r.Ok) : splitPSSELine r.parts.flatten = .ok (tokens r.text) := by
  have hm : ∀ c ∈ r.parts.flatten, c ≠ '/' ∧ c ≠ '\t' ∧ c ≠ '\r' := by
    intro c hc
    obtain ⟨l, hl, hc⟩ := List.mem_flatten.mp hc
    exact h.chars l hl c hc
  rw [← Rec.tokens_eq h]
  refine split_tokens (fun hc => (hm _ hc).2.1 rfl) (fun hc => (hm _ hc).2.2 rfl) ?_
  rw [Rec.tokens_eq h]
  exact h.quotes

/-- The loop over the parts of a file, whatever comes behind. -/
theorem records_items {skip : Str → Bool} {eof : Str → Str} (items : List Item) (hok : ∀ i ∈ items, i.Ok)
    (hskip : ∀ i ∈ items, (∀ r, i ≠ .record r) → ∀ l ∈ i.file, skip l = true)
    (hno : ∀ r, Item.record r ∈ items → ∀ line ls, r.file = line :: ls → skip line = false) (rest : List Str) :
    ∀ fuel, (items.flatMap Item.file).length < fuel → ∃ fuel', fuel ≤ fuel' + (items.flatMap Item.file).length ∧
      ∃ texts, texts.map splitPSSELine = (items.flatMap Item.meaning).map .ok ∧
      records skip eof fuel (items.flatMap Item.file ++ rest) = (records skip eof fuel' rest).map (texts ++ ·) := by
  induction items with
  | nil =>
    intro fuel hf
    refine ⟨fuel, by simp, [], rfl, ?_⟩
    simp
  | cons i items ih =>
    intro fuel hf
    have ih' := ih (fun j hj => hok j (List.mem_cons_of_mem _ hj)) (fun j hj => hskip j (List.mem_cons_of_mem _ hj))
      (fun r hr => hno r (List.mem_cons_of_mem _ hr))
    rw [List.flatMap_cons, List.length_append] at hf
    have pass : (∀ r, i ≠ .record r) → (∃ l, i.file = [l]) → i.meaning = [] → ∃ fuel',
        fuel ≤ fuel' + ((i :: items).flatMap Item.file).length ∧
      ∃ texts, texts.map splitPSSELine = ((i :: items).flatMap Item.meaning).map .ok ∧
      records skip eof fuel ((i :: items).flatMap Item.file ++ rest) =
        (records skip eof fuel' rest).map (texts ++ ·) := by
      rintro hi ⟨l, hl⟩ hm
      have hs := hskip i (by simp) hi l (by simp [hl])
      rw [hl] at hf
      simp only [List.length_singleton] at hf
      obtain ⟨fuel, rfl⟩ : ∃ m, fuel = m + 1 := ⟨fuel - 1, by omega⟩
      obtain ⟨fuel', h1, texts, h2, h3⟩ := ih' fuel (by omega)
      refine ⟨fuel', ?_, texts, ?_, ?_⟩
      · rw [List.flatMap_cons, hl, List.length_append, List.length_singleton]; omega
      · rw [List.flatMap_cons, hm, List.nil_append, h2]
      · rw [List.flatMap_cons, hl, List.append_assoc, List.singleton_append, records.eq_def]
        simp only [hs, if_true]
        exact h3
    cases i with
    | blank n => exact pass (by simp) ⟨_, rfl⟩ rfl
    | returns n => exact pass (by simp) ⟨_, rfl⟩ rfl
    | comment n c t => exact pass (by simp) ⟨_, rfl⟩ rfl
    | record r =>
      have hr : r.Ok := hok (.record r) (by simp)
      obtain ⟨line, ls, hfile, -, -⟩ := Rec.begins hr
      have hs := hno r (by simp) line ls hfile
      simp only [Item.file] at hf ⊢
      rw [hfile] at hf
      simp only [List.length_cons] at hf
      obtain ⟨fuel, rfl⟩ : ∃ m, fuel = m + 1 := ⟨fuel - 1, by omega⟩
      obtain ⟨fuel', h1, texts, h2, h3⟩ := ih' fuel (by omega)
      have hslash : ∀ l ∈ r.parts, '/' ∉ l := fun l hl hc => (hr.chars l hl _ hc).1 rfl
      refine ⟨fuel', ?_, r.parts.flatten :: texts, ?_, ?_⟩
      · rw [List.flatMap_cons, Item.file, hfile, List.length_append, List.length_cons]; omega
      · rw [List.flatMap_cons, List.map_cons, h2, Rec.split hr]
        rfl
      · rw [List.flatMap_cons, Item.file, hfile, List.append_assoc, List.cons_append, records.eq_def]
        simp only [hs, Bool.false_eq_true, if_false]
        rw [gather_rec hslash hfile (by omega)]
        simp only
        rw [h3, cut_text]
        · cases records skip eof fuel' rest <;> rfl
        · intro hc
          obtain ⟨l, hl, hc⟩ := List.mem_flatten.mp hc
          exact hslash l hl hc

end GridPACK.DyrRecords
