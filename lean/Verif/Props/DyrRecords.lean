import Verif.Lemmas.DyrRecords
import Verif.Model.DyrFile

/-! C201: the records of a .dyr file. -/
namespace GridPACK.DyrRecords
open StringUtils BlockParser

/-- C201, the part that holds for the reader that hands the records out: for every file of blank lines, comments and
records in the right form, each with its slash, the records are found in their order with exactly their tokens. -/
theorem C201_shared_partial (eof : Str → Str) (items : List Item) (hok : ∀ i ∈ items, i.Ok) (fuel : Nat)
    (hf : (items.flatMap Item.file).length < fuel) :
    read skipShared eof fuel (items.flatMap Item.file) = some ((items.flatMap Item.meaning).map .ok) := by
  obtain ⟨fuel', h1, texts, h2, h3⟩ := records_items (skip := skipShared) (eof := eof) items hok (by
    intro i _ hi l hl
    cases i with
    | blank n => rw [List.mem_singleton.mp hl]; exact skipShared_blank n
    | returns n => rw [List.mem_singleton.mp hl]; exact skipShared_returns n
    | comment n c t => rw [List.mem_singleton.mp hl]; exact skipShared_comment n c t
    | record r => exact absurd rfl (hi r)) (by
    intro r hr line ls hfile
    obtain ⟨line', ls', hfile', -, h⟩ := Rec.begins (hok _ hr)
    rw [hfile, List.cons.injEq] at hfile'
    rw [hfile'.1]; exact h) [] fuel hf
  obtain ⟨m, rfl⟩ : ∃ m, fuel' = m + 1 := ⟨fuel' - 1, by omega⟩
  rw [List.append_nil] at h3
  rw [read, h3, records.eq_def]
  simp [h2]

/-- C201, the part that holds for the reader working on its own data: the same for files without comments and
without lines consisting of a carriage return. -/
theorem C201_direct_partial (eof : Str → Str) (items : List Item) (hok : ∀ i ∈ items, i.Ok)
    (hsimple : ∀ i ∈ items, i.Simple) (fuel : Nat) (hf : (items.flatMap Item.file).length < fuel) :
    read skipDirect eof fuel (items.flatMap Item.file) = some ((items.flatMap Item.meaning).map .ok) := by
  obtain ⟨fuel', h1, texts, h2, h3⟩ := records_items (skip := skipDirect) (eof := eof) items hok (by
    intro i hm hi l hl
    cases i with
    | blank n => rw [List.mem_singleton.mp hl]; exact skipDirect_blank n
    | returns n => exact (hsimple _ hm).elim
    | comment n c t => exact (hsimple _ hm).elim
    | record r => exact absurd rfl (hi r)) (by
    intro r hr line ls hfile
    obtain ⟨line', ls', hfile', h, -⟩ := Rec.begins (hok _ hr)
    rw [hfile, List.cons.injEq] at hfile'
    rw [hfile'.1]; exact h) [] fuel hf
  obtain ⟨m, rfl⟩ : ∃ m, fuel' = m + 1 := ⟨fuel' - 1, by omega⟩
  rw [List.append_nil] at h3
  rw [read, h3, records.eq_def]
  simp [h2]

/-! ### Examples -/

def exRec1 : Rec := ⟨["   1 'GENROU' 1  6.5 0.05,".toList, "0.8 0.05".toList], " 3.0 0.0".toList, " old".toList⟩

def exRec2 : Rec := ⟨[], "   2 'GENCLS' 1  5.0 0.0 ".toList, []⟩

def exItems : List Item := [.comment 0 ' ' "Machines".toList, .record exRec1, .blank 3, .record exRec2, .returns 1]

theorem tokenOk_word (c : Char) (w : Str) (h1 : c ≠ '\'') (h2 : c ≠ '"') : TokenOk (c :: w) := .inr ⟨c, w, h1, h2, rfl⟩

theorem exRec1_ok : exRec1.Ok where
  chars := by decide
  first := ⟨"   1 'GENROU' 1  6.5 0.05,".toList, rfl, '1', by decide⟩
  quotes := by
    have e : tokens exRec1.text = ["1".toList, "'GENROU'".toList, "1".toList, "6.5".toList, "0.05".toList,
      "0.8".toList, "0.05".toList, "3.0".toList, "0.0".toList] := by decide +kernel
    rw [e]
    intro w hw
    simp only [List.mem_cons, List.not_mem_nil, or_false] at hw
    rcases hw with rfl | rfl | rfl | rfl | rfl | rfl | rfl | rfl | rfl
    · exact tokenOk_word _ _ (by decide) (by decide)
    · exact .inl ⟨'\'', "GENROU".toList, .inl rfl, by decide, rfl⟩
    all_goals exact tokenOk_word _ _ (by decide) (by decide)
  apart := ⟨.inl (.inr (.inl (by decide))), .inl (.inr (.inr (.inl (by decide)))), trivial⟩

theorem exRec2_ok : exRec2.Ok where
  chars := by decide
  first := ⟨_, rfl, '2', by decide⟩
  quotes := by
    have e : tokens exRec2.text = ["2".toList, "'GENCLS'".toList, "1".toList, "5.0".toList, "0.0".toList] := by
      decide +kernel
    rw [e]
    intro w hw
    simp only [List.mem_cons, List.not_mem_nil, or_false] at hw
    rcases hw with rfl | rfl | rfl | rfl | rfl
    · exact tokenOk_word _ _ (by decide) (by decide)
    · exact .inl ⟨'\'', "GENCLS".toList, .inl rfl, by decide, rfl⟩
    all_goals exact tokenOk_word _ _ (by decide) (by decide)
  apart := trivial

theorem exItems_ok : ∀ i ∈ exItems, i.Ok := by
  intro i hi
  simp only [exItems, List.mem_cons, List.not_mem_nil, or_false] at hi
  rcases hi with rfl | rfl | rfl | rfl | rfl
  · trivial
  · exact exRec1_ok
  · trivial
  · exact exRec2_ok
  · trivial

example : read skipShared id 8 (exItems.flatMap Item.file) = some [
    .ok ["1".toList, "'GENROU'".toList, "1".toList, "6.5".toList, "0.05".toList, "0.8".toList, "0.05".toList,
      "3.0".toList, "0.0".toList],
    .ok ["2".toList, "'GENCLS'".toList, "1".toList, "5.0".toList, "0.0".toList]] := by
  rw [C201_shared_partial id exItems exItems_ok 8 (by decide)]
  decide +kernel

example : read skipDirect id 5 ([Item.record exRec1, .record exRec2].flatMap Item.file) = some [
    .ok ["1".toList, "'GENROU'".toList, "1".toList, "6.5".toList, "0.05".toList, "0.8".toList, "0.05".toList,
      "3.0".toList, "0.0".toList],
    .ok ["2".toList, "'GENCLS'".toList, "1".toList, "5.0".toList, "0.0".toList]] := by
  rw [C201_direct_partial id _ (by
    intro i hi
    simp only [List.mem_cons, List.not_mem_nil, or_false] at hi
    rcases hi with rfl | rfl
    · exact exRec1_ok
    · exact exRec2_ok) (by
    intro i hi
    simp only [List.mem_cons, List.not_mem_nil, or_false] at hi
    rcases hi with rfl | rfl <;> trivial) 5 (by decide)]
  decide +kernel

/-! ### Where it fails -/

theorem gather_endless {eof : Str → Str} (he : ∀ l, eof l = l ∨ eof l = []) (fuel : Nat) :
    ∀ line record rest, (∀ l ∈ line :: rest, '/' ∉ l) → gather eof fuel line record rest = none := by
  induction fuel with
  | zero => intros; rfl
  | succ fuel ih =>
    intro line record rest h
    rw [gather.eq_def]
    simp only [find_zero_miss (h line (by simp)), if_true]
    cases rest with
    | nil =>
      simp only
      apply ih
      intro l hl
      rw [List.mem_singleton.mp hl]
      rcases he line with e | e <;> rw [e]
      · exact h line (by simp)
      · simp
    | cons next rest =>
      simp only
      exact ih _ _ _ (fun l hl => h l (List.mem_cons_of_mem _ hl))

theorem records_endless {skip : Str → Bool} {eof : Str → Str} (he : ∀ l, eof l = l ∨ eof l = []) {line : Str}
    {rest : List Str} (hs : skip line = false) (h : ∀ l ∈ line :: rest, '/' ∉ l) (fuel : Nat) :
    records skip eof fuel (line :: rest) = none := by
  cases fuel with
  | zero => rfl
  | succ fuel =>
    rw [records.eq_def]
    simp only [hs, Bool.false_eq_true, if_false]
    rw [gather_endless he fuel line line rest h]

/-- C201 is violated when the slash of the last record is missing: neither reader ever comes to an end, whatever
records (in the right form) the file has before. -/
theorem C201_no_slash_violated (eof : Str → Str) (he : ∀ l, eof l = l ∨ eof l = []) (items : List Item)
    (hok : ∀ i ∈ items, i.Ok) (hsimple : ∀ i ∈ items, i.Simple) (line : Str) (rest : List Str)
    (hs : ∃ c ∈ line, c ≠ ' ') (hr : '\r' ∉ line) (h : ∀ l ∈ line :: rest, '/' ∉ l) (fuel : Nat)
    (hf : (items.flatMap Item.file).length < fuel) :
    read skipDirect eof fuel (items.flatMap Item.file ++ line :: rest) = none ∧
    read skipShared eof fuel (items.flatMap Item.file ++ line :: rest) = none := by
  obtain ⟨k, d, x, rfl, hd⟩ := first_char hs
  have hd1 : d ≠ '\r' := by rintro rfl; exact hr (by simp)
  have hd2 : d ≠ '/' := by rintro rfl; exact h _ List.mem_cons_self (by simp)
  constructor
  · obtain ⟨fuel', -, texts, -, h3⟩ := records_items (skip := skipDirect) (eof := eof) items hok (by
      intro i hm hi l hl
      cases i with
      | blank n => rw [List.mem_singleton.mp hl]; exact skipDirect_blank n
      | returns n => exact (hsimple _ hm).elim
      | comment n c t => exact (hsimple _ hm).elim
      | record r => exact absurd rfl (hi r)) (by
      intro r hr line ls hfile
      obtain ⟨line', ls', hfile', h, -⟩ := Rec.begins (hok _ hr)
      rw [hfile, List.cons.injEq] at hfile'
      rw [hfile'.1]; exact h) ((List.replicate k ' ' ++ d :: x) :: rest) fuel hf
    rw [read, h3, records_endless he (noskip_direct _ _ _ hd) h]
    rfl
  · obtain ⟨fuel', -, texts, -, h3⟩ := records_items (skip := skipShared) (eof := eof) items hok (by
      intro i hm hi l hl
      cases i with
      | blank n => rw [List.mem_singleton.mp hl]; exact skipShared_blank n
      | returns n => exact (hsimple _ hm).elim
      | comment n c t => exact (hsimple _ hm).elim
      | record r => exact absurd rfl (hi r)) (by
      intro r hr line ls hfile
      obtain ⟨line', ls', hfile', -, h⟩ := Rec.begins (hok _ hr)
      rw [hfile, List.cons.injEq] at hfile'
      rw [hfile'.1]; exact h) ((List.replicate k ' ' ++ d :: x) :: rest) fuel hf
    rw [read, h3, records_endless he (noskip_shared _ _ _ hd hd1 hd2) h]
    rfl

example : read skipShared id 20 ["1 'GENCLS' 1 5.0 0.0 /".toList, "2 'GENCLS' 1 5.0 0.0".toList] = none := by
  decide +kernel

/-- No number of steps is enough. -/
example (fuel : Nat) : read skipShared id (fuel + 1) ["2 'GENCLS' 1 5.0".toList, "0.0".toList] = none :=
  (C201_no_slash_violated id (fun _ => .inl rfl) [] (by simp) (by simp) "2 'GENCLS' 1 5.0".toList ["0.0".toList]
    ⟨'2', by decide⟩ (by decide) (by decide) (fuel + 1) (by simp)).2

theorem split_blanks (n : Nat) : splitPSSELine (List.replicate n ' ') = .ok [['0']] := by
  have h1 : '\t' ∉ List.replicate n ' ' := by
    intro h; exact absurd (List.eq_of_mem_replicate h) (by decide)
  have h2 : '\r' ∉ List.replicate n ' ' := by
    intro h; exact absurd (List.eq_of_mem_replicate h) (by decide)
  have h3 : tokens (List.replicate n ' ') = [['0']] := by
    unfold tokens
    rw [List.splitOnP_eq_singleton (by
      intro x hx
      rw [List.eq_of_mem_replicate hx]; rfl)]
    have := words_blanks n []
    rw [List.append_nil, words_nil] at this
    simp [fieldTokens, this]
  rw [split_tokens h1 h2 (by
    intro w hw
    rw [h3, List.mem_singleton] at hw
    subst hw
    exact tokenOk_word _ _ (by decide) (by decide)), h3]

theorem records_slash {skip : Str → Bool} {eof : Str → Str} (n : Nat) (t : Str) (rest : List Str)
    (hs : skip (List.replicate n ' ' ++ '/' :: t) = false) (fuel : Nat) :
    records skip eof (fuel + 2) ((List.replicate n ' ' ++ '/' :: t) :: rest) =
      (records skip eof (fuel + 1) rest).map (List.replicate n ' ' :: ·) := by
  have hb : '/' ∉ List.replicate n ' ' := by
    intro h; exact absurd (List.eq_of_mem_replicate h) (by decide)
  rw [records.eq_def]
  simp only [hs, Bool.false_eq_true, if_false]
  rw [gather.eq_def]
  simp only [find_zero_hit t hb]
  rw [if_neg (by omega)]
  simp only [cut_text _ _ hb]

/-- C201 is violated by comments in the reader working on its own data: a comment line is taken for a record whose
only token is `0`, and looking for the name of its model reads outside the list of tokens, for every network. -/
theorem C201_comment_violated (eof : Str → Str) (n : Nat) (t : Str) (rest : List Str) (fuel : Nat)
    (ts : List (R (List Str)))
    (h : read skipDirect eof (fuel + 2) ((List.replicate n ' ' ++ '/' :: '/' :: t) :: rest) = some ts) :
    ts.head? = some (.ok [['0']]) ∧ ∀ cv net, Dyr.directRec cv [['0']] net = none := by
  refine ⟨?_, fun cv net => rfl⟩
  rw [read, records_slash n ('/' :: t) rest (noskip_direct _ _ _ (by decide)) fuel] at h
  cases hr : records skipDirect eof (fuel + 1) rest with
  | none => rw [hr] at h; cases h
  | some l =>
    rw [hr] at h
    simp only [Option.map_some, List.map_cons, Option.some.injEq] at h
    rw [← h, split_blanks]; rfl

example : read skipDirect id 3 ["// Machines".toList] = some [.ok [['0']]] := by decide +kernel

/-- C201 is violated by a comment of two slashes alone, in the other reader as well. -/
theorem C201_empty_comment_violated (eof : Str → Str) (n : Nat) (rest : List Str) (fuel : Nat)
    (ts : List (R (List Str)))
    (h : read skipShared eof (fuel + 2) ((List.replicate n ' ' ++ ['/', '/']) :: rest) = some ts) :
    ts.head? = some (.ok [['0']]) ∧ ∀ cv junk, Dyr.storeRec cv junk [['0']] = none := by
  refine ⟨?_, fun cv junk => rfl⟩
  have hs : skipShared (List.replicate n ' ' ++ ['/', '/']) = false := by
    have h1 := findNot_exists '\r' (List.replicate n ' ' ++ ['/', '/']) ⟨'/', by simp, by decide⟩
    have h2 := findNot_hit ' ' [] n '/' ['/'] (by decide)
    simp only [List.nil_append, List.length_nil, Int.natCast_zero, Int.zero_add] at h2
    have hlen : slen (List.replicate n ' ' ++ ['/', '/']) = n + 2 := by simp [slen]
    unfold skipShared
    rw [h2, hlen]
    simp only [decide_eq_false_iff_not, not_or, not_and]
    exact ⟨by omega, h1, fun _ h => absurd h (by omega)⟩
  rw [read, records_slash n ['/'] rest hs fuel] at h
  cases hr : records skipShared eof (fuel + 1) rest with
  | none => rw [hr] at h; cases h
  | some l =>
    rw [hr] at h
    simp only [Option.map_some, List.map_cons, Option.some.injEq] at h
    rw [← h, split_blanks]; rfl

example : read skipShared id 3 ["//".toList] = some [.ok [['0']]] := by decide +kernel

/-! Lines without blank or comma between them. -/

theorem words_ne {s : Str} (h : ∃ c ∈ s, c ≠ ' ') : words s ≠ [] := by
  obtain ⟨k, d, r, rfl, hd⟩ := first_char h
  obtain ⟨lead, ws, hws, hw⟩ := C26_every_string_has_tokens ' ' (List.replicate k ' ' ++ d :: r)
  rw [hw, words_render _ _ hws]
  intro he
  rw [List.map_eq_nil_iff] at he
  subst he
  have : d ∈ render ' ' lead [] := by rw [← hw]; simp
  simp only [render, List.flatMap_nil, List.append_nil] at this
  exact hd (List.eq_of_mem_replicate this)

theorem words_fused (x y : Str) (c d : Char) (hc : c ≠ ' ') (hd : d ≠ ' ') :
    (words (x ++ c :: ' ' :: d :: y)).length = (words (x ++ c :: d :: y)).length + 1 := by
  obtain ⟨fs, z, h⟩ := split_at_snoc (· = ' ') x c (by simpa using hc)
  have hb : (d :: y).splitOnP (· = ' ') = (y.splitOnP (· = ' ')).modifyHead (d :: ·) := by
    rw [List.splitOnP_cons_eq_if_modifyHead]; simp [hd]
  have hs : (' ' :: d :: y).splitOnP (· = ' ') = [] :: (d :: y).splitOnP (· = ' ') := by
    rw [List.splitOnP_cons_eq_if_modifyHead]; simp
  unfold words
  rw [h, h, hs, hb]
  obtain ⟨w, ws, hw⟩ := List.exists_cons_of_ne_nil (List.splitOnP_ne_nil (· = ' ') y)
  rw [hw]
  simp
  omega

theorem tokens_fused (a b : Str) (c d : Char) (hc : c ≠ ' ' ∧ c ≠ ',') (hd : d ≠ ' ' ∧ d ≠ ',') :
    (tokens (a ++ c :: ' ' :: d :: b)).length = (tokens (a ++ c :: d :: b)).length + 1 := by
  obtain ⟨fs, x, h⟩ := split_front_snoc a c hc.2
  have hb : (d :: b).splitOnP (· = ',') = (b.splitOnP (· = ',')).modifyHead (d :: ·) := by
    rw [List.splitOnP_cons_eq_if_modifyHead]; simp [hd.2]
  unfold tokens
  rw [h, h, blank_field, hb]
  obtain ⟨y, ys, hy⟩ := List.exists_cons_of_ne_nil (List.splitOnP_ne_nil (· = ',') b)
  rw [hy]
  have h1 := words_fused x y c d hc.1 hd.1
  have h2 : words (x ++ c :: d :: y) ≠ [] := words_ne ⟨c, by simp, hc.1⟩
  have h3 : words (x ++ c :: ' ' :: d :: y) ≠ [] := words_ne ⟨c, by simp, hc.1⟩
  simp [fieldTokens, h1, h2, h3]
  omega

/-- C201 is violated when the lines of a record have neither blank nor comma between them: the last token of one line
and the first token of the next become one, so that a token is missing.  So it is for every such record of two lines,
in both readers. -/
theorem C201_fused_violated (skip : Str → Bool) (hskip : skip = skipDirect ∨ skip = skipShared) (eof : Str → Str)
    (a b behind : Str) (c d : Char) (hc : c ≠ ' ' ∧ c ≠ ',') (hd : d ≠ ' ' ∧ d ≠ ',')
    (hchars : ∀ x ∈ a ++ c :: d :: b, x ≠ '/' ∧ x ≠ '\t' ∧ x ≠ '\r')
    (hquotes : ∀ w ∈ tokens (a ++ c :: d :: b), TokenOk w) (fuel : Nat) (hf : 2 < fuel) :
    let r : Rec := ⟨[a ++ [c]], d :: b, behind⟩
    ∃ ts, read skip eof fuel r.file = some [.ok ts] ∧ ts.length + 1 = (tokens r.text).length := by
  intro r
  have hslash : ∀ l ∈ r.parts, '/' ∉ l := by
    intro l hl hx
    refine (hchars '/' ?_).1 rfl
    simp only [r, Rec.parts, List.cons_append, List.nil_append, List.mem_cons, List.not_mem_nil, or_false] at hl
    rcases hl with rfl | rfl
    · simp only [List.mem_append, List.mem_singleton, List.mem_cons] at hx ⊢; tauto
    · simp only [List.mem_append, List.mem_cons] at hx ⊢; tauto
  have hflat : r.parts.flatten = a ++ c :: d :: b := by simp [r, Rec.parts]
  obtain ⟨k, e, x, hx, he⟩ := first_char (l := a ++ [c]) ⟨c, by simp, hc.1⟩
  have he' : e ≠ '/' ∧ e ≠ '\t' ∧ e ≠ '\r' := by
    apply hchars
    have : e ∈ a ++ [c] := by rw [hx]; simp
    simp only [List.mem_append, List.mem_singleton, List.mem_cons] at this ⊢; tauto
  have hs : skip (a ++ [c]) = false := by
    rw [hx]
    rcases hskip with rfl | rfl
    · exact noskip_direct _ _ _ he
    · exact noskip_shared _ _ _ he he'.2.2 he'.1
  refine ⟨tokens (a ++ c :: d :: b), ?_, ?_⟩
  · obtain ⟨fuel, rfl⟩ : ∃ m, fuel = m + 3 := ⟨fuel - 3, by omega⟩
    have hfile : r.file = (a ++ [c]) :: [d :: b ++ '/' :: behind] := rfl
    have hg := gather_rec (eof := eof) (rest := []) hslash hfile (fuel := fuel + 2) (by simp)
    rw [List.append_nil] at hg
    rw [read, hfile, records.eq_def]
    simp only [hs, Bool.false_eq_true, if_false]
    rw [hg]
    simp only
    rw [records.eq_def]
    simp only [Option.map_some, List.map_cons, List.map_nil]
    rw [cut_text _ _ (by
      intro hx
      obtain ⟨l, hl, hx⟩ := List.mem_flatten.mp hx
      exact hslash l hl hx), hflat, split_tokens _ _ hquotes]
    · exact fun hx => (hchars _ hx).2.1 rfl
    · exact fun hx => (hchars _ hx).2.2 rfl
  · have ht : r.text = a ++ c :: ' ' :: d :: b := by simp [r, Rec.text, Rec.parts, List.intercalate]
    rw [ht, tokens_fused a b c d hc hd]

example : read skipShared id 4 ["1 'GENCLS' 1 5.0".toList, "0.25 /".toList] =
    some [.ok ["1".toList, "'GENCLS'".toList, "1".toList, "5.00.25".toList]] := by decide +kernel

/-- C201 is violated by a slash in quotes, which ends the record, and by a comma at the end of a line of a file with
the line ends of other systems, which makes the carriage return a token of its own. -/
theorem C201_quotes_and_returns_violated :
    read skipShared id 4 ["1 'USRLOD' 1 'A/B' 2 /".toList] =
      some [.ok ["1".toList, "'USRLOD'".toList, "1".toList, "'A".toList]] ∧
    read skipShared id 4 ["1,'GENCLS',1,\r".toList, " 5.0, 0.25 /\r".toList] =
      some [.ok ["1".toList, "'GENCLS'".toList, "1".toList, "\r".toList, "5.0".toList, "0.25".toList]] := by
  decide +kernel

end GridPACK.DyrRecords
