import Verif.Lemmas.Raw23Xf
import Verif.Props.BusTable

/-! Properties C215–C221: files of version 23, and the first line of a file. -/
namespace GridPACK.Raw23
open StringUtils BlockParser DataCollection RawBus RawBranch

/-! ### C215: the first line -/

theorem splitAux_cons (b : Bool) (s : Str) : ∃ w ts, BusTable.splitAux b s = w :: ts := by
  induction s generalizing b with
  | nil => exact ⟨[], [], rfl⟩
  | cons c s ih =>
    rw [BusTable.splitAux]
    split_ifs
    · exact ih true
    · exact ⟨_, _, rfl⟩
    · obtain ⟨w, ts, h⟩ := ih false
      exact ⟨c :: w, ts, by rw [h]; rfl⟩

theorem splitAux_head (s : Str) : ∃ ts, BusTable.splitAux false s = s.takeWhile (· ≠ ' ') :: ts := by
  induction s with
  | nil => exact ⟨[], rfl⟩
  | cons c s ih =>
    rw [BusTable.splitAux]
    by_cases hc : c = ' '
    · subst hc
      exact ⟨BusTable.splitAux true s, by simp⟩
    · obtain ⟨ts, h⟩ := ih
      exact ⟨ts, by simp [hc, h, BusTable.consHead]⟩

/-- A line without quotes before its comment. -/
theorem clean_line (s cm : Str) (hs : ∀ c ∈ s, c ≠ '/' ∧ c ≠ '\'' ∧ c ≠ '"')
    (hcm : cm = [] ∨ cm.head? = some '/') (hq : ∀ c ∈ cm, c ≠ '\'' ∧ c ≠ '"') : cleanComment (s ++ cm) = s := by
  rw [C31_no_quotes_partial]
  · rw [strip_none_plain s cm]
    · rcases hcm with rfl | h
      · simp [strip]
      · cases cm with
        | nil => simp at h
        | cons c cm =>
          simp only [List.head?_cons, Option.some.injEq] at h
          simp [strip, h]
    · intro c hc
      obtain ⟨h1, h2, h3⟩ := hs c hc
      exact ⟨by simp [quoteChar, h2, h3], h1⟩
  · intro c hc
    rcases List.mem_append.mp hc with hc | hc
    · obtain ⟨_, h2, h3⟩ := hs c hc
      simp [quoteChar, h2, h3]
    · obtain ⟨h2, h3⟩ := hq c hc
      simp [quoteChar, h2, h3]

/-- A comment at the end of a line, or nothing. -/
def Comment (cm : Str) : Prop := (cm = [] ∨ cm.head? = some '/') ∧ ∀ c ∈ cm, c ≠ '\'' ∧ c ≠ '"'

theorem Plain.noBlank {a : Str} (h : Plain a) : ' ' ∉ a := fun hm => (h.2 _ hm).1 rfl

theorem line_chars {a b x : Str} (ha : Plain a) (hb : Plain b) (hx : Tail x) (k : ℕ) (sep : Str)
    (hsep : sep = [] ∨ sep = [',']) :
    ∀ c ∈ a ++ sep ++ List.replicate k ' ' ++ b ++ x, c ≠ '/' ∧ c ≠ '\'' ∧ c ≠ '"' := by
  intro c hc
  simp only [List.mem_append, List.mem_replicate] at hc
  rcases hc with (((hc | hc) | hc) | hc) | hc
  · exact ⟨(ha.2 c hc).2.2.1, (ha.2 c hc).2.2.2.1, (ha.2 c hc).2.2.2.2⟩
  · rcases hsep with rfl | rfl
    · simp at hc
    · simp only [List.mem_singleton] at hc; subst hc; decide
  · rw [hc.2]; decide
  · exact ⟨(hb.2 c hc).2.2.1, (hb.2 c hc).2.2.2.1, (hb.2 c hc).2.2.2.2⟩
  · exact hx.2 c hc

/-- The second word of a line. -/
theorem second_word (cv : Conv) (hcv : Reads cv) (b x : Str) (hb : Plain b) (hx : Tail x) (k : ℕ) :
    ∃ w ts, BusTable.splitAux true (List.replicate k ' ' ++ (b ++ x)) = w :: ts ∧ cv.atof w = cv.atof b := by
  rw [BusTable.splitAux_blanks, BusTable.splitAux_word b x true hb.noBlank hb.1]
  obtain ⟨ts, h⟩ := splitAux_head x
  rw [h, BusTable.consHead_word]
  refine ⟨_, _, rfl, ?_⟩
  have := hcv 0 b (x.takeWhile (· ≠ ' ')) hb.1 hb.noBlank (fun hm => (hb.2 _ hm).2.1 rfl) (by
    rcases hx.1 with rfl | h | h
    · left; rfl
    · left
      cases x with
      | nil => rfl
      | cons c x => simp only [List.head?_cons, Option.some.injEq] at h; subst h; simp
    · right; right
      cases x with
      | nil => simp at h
      | cons c x => simp only [List.head?_cons, Option.some.injEq] at h; subst h; simp)
  simpa using this

/-- C215 for version 23: if the line starts with the case number and a blank follows it (after a comma, or without
one), the system base is the second value of the line. -/
theorem C215_v23_partial (cv : Conv) (hcv : Reads cv) (a b x cm sep : Str) (k : ℕ) (ha : Plain a) (hb : Plain b)
    (hx : Tail x) (hcm : Comment cm) (hsep : sep = [] ∨ sep = [',']) :
    (header cv (a ++ sep ++ List.replicate (k + 1) ' ' ++ b ++ x ++ cm)).map Prod.snd = some (cv.atof b) := by
  unfold header
  rw [clean_line _ cm (line_chars ha hb hx (k + 1) sep hsep) hcm.1 hcm.2]
  have hw : ' ' ∉ a ++ sep := by
    intro hm
    rcases List.mem_append.mp hm with hm | hm
    · exact ha.noBlank hm
    · rcases hsep with rfl | rfl <;> simp at hm
  have hne : a ++ sep ≠ [] := by simp [ha.1]
  obtain ⟨w, ts, h, hv⟩ := second_word cv hcv b x hb hx k
  have e : BusTable.split (a ++ sep ++ List.replicate (k + 1) ' ' ++ b ++ x) = (a ++ sep) :: w :: ts := by
    unfold BusTable.split
    have : a ++ sep ++ List.replicate (k + 1) ' ' ++ b ++ x =
        (a ++ sep) ++ (' ' :: (List.replicate k ' ' ++ (b ++ x))) := by
      simp [List.replicate_succ]
    rw [this, BusTable.splitAux_word _ _ _ hw hne, BusTable.splitAux]
    simp only [if_true, Bool.false_eq_true, if_false, h]
    rw [BusTable.consHead_word, List.append_nil]
  rw [e]
  simp [hv]

/-- C215 fails for version 23 when the line starts with a blank, as in the files PSS/E writes: the case number is
taken for the system base. -/
theorem C215_v23_leading_violated (cv : Conv) (a b x cm : Str) (j k : ℕ) (ha : Plain a) (hb : Plain b)
    (hx : Tail x) (hcm : Comment cm) (hne : cv.atof a ≠ cv.atof b) :
    let line := List.replicate (j + 1) ' ' ++ a ++ List.replicate (k + 1) ' ' ++ b ++ x ++ cm
    (header cv line).map Prod.snd = some (cv.atof a) ∧ (header cv line).map Prod.snd ≠ some (cv.atof b) := by
  intro line
  have h : (header cv line).map Prod.snd = some (cv.atof a) := by
    unfold header
    rw [clean_line _ cm _ hcm.1 hcm.2]
    · have : List.replicate (j + 1) ' ' ++ a ++ List.replicate (k + 1) ' ' ++ b ++ x =
          ' ' :: (List.replicate j ' ' ++ (a ++ (' ' :: (List.replicate k ' ' ++ (b ++ x))))) := by
        simp [List.replicate_succ]
      unfold BusTable.split
      rw [this, BusTable.splitAux]
      simp only [if_true, Bool.false_eq_true, if_false]
      rw [BusTable.splitAux_blanks, BusTable.splitAux_word a _ _ ha.noBlank ha.1, BusTable.splitAux]
      simp only [if_true, Bool.false_eq_true, if_false]
      rw [BusTable.consHead_word]
      simp
    · intro c hc
      simp only [List.append_assoc] at hc
      rcases List.mem_append.mp hc with hc | hc
      · rw [List.eq_of_mem_replicate hc]; decide
      · exact line_chars ha hb hx (k + 1) [] (Or.inl rfl) c (by simpa using hc)
  exact ⟨h, by rw [h]; simpa using hne⟩

/-- C215 fails for version 23 when commas separate the values and there is no blank: what is read is undefined. -/
theorem C215_v23_comma_violated (cv : Conv) (a b x cm : Str) (ha : Plain a) (hb : Plain b) (hx : Tail x)
    (hx' : ' ' ∉ x) (hcm : Comment cm) : header cv (a ++ [','] ++ b ++ x ++ cm) = none := by
  unfold header
  have hl := line_chars ha hb hx 0 [','] (Or.inr rfl)
  rw [clean_line _ cm (by simpa using hl) hcm.1 hcm.2]
  have hw : ' ' ∉ a ++ [','] ++ b ++ x := by
    simp only [List.mem_append, List.mem_singleton, not_or]
    exact ⟨⟨⟨ha.noBlank, by decide⟩, hb.noBlank⟩, hx'⟩
  unfold BusTable.split
  have := BusTable.splitAux_word (a ++ [','] ++ b ++ x) [] false hw (by simp)
  rw [List.append_nil] at this
  rw [this]
  simp only [BusTable.splitAux]
  rw [BusTable.consHead_word]

/-- C215 for versions 33 to 35: if a comma follows the first value, with any blanks around, the system base is the
second value of the line. -/
theorem C215_v33_partial (cv : Conv) (hcv : Reads cv) (a b x cm : Str) (i j k : ℕ) (ha : Plain a) (hb : Plain b)
    (hx : Tail x) (hcm : Comment cm) :
    (header33 cv (List.replicate i ' ' ++ a ++ List.replicate j ' ' ++ [','] ++ List.replicate k ' ' ++ b ++ x ++
      cm)).map Prod.snd = some (cv.atof b) := by
  unfold header33
  rw [clean_line _ cm _ hcm.1 hcm.2]
  · have e : List.replicate i ' ' ++ a ++ List.replicate j ' ' ++ [','] ++ List.replicate k ' ' ++ b ++ x =
        (List.replicate i ' ' ++ a ++ List.replicate j ' ') ++ ',' :: (List.replicate k ' ' ++ b ++ x) := by simp
    rw [e, splitComma_append]
    · have hc : ∀ y : Str, (∀ c, y.head? = some c → c = ' ' ∨ c = ',') →
          ∃ w ts, splitComma ((List.replicate k ' ' ++ b) ++ y) = w :: ts ∧ cv.atof w = cv.atof b := by
        intro y hy
        have hnc : ',' ∉ List.replicate k ' ' ++ b := by
          simp only [List.mem_append, List.mem_replicate, not_or]
          exact ⟨by rintro ⟨_, h⟩; simp at h, fun hm => (hb.2 _ hm).2.1 rfl⟩
        by_cases hin : ',' ∈ y
        · obtain ⟨p, q, rfl, hp⟩ : ∃ p q, y = p ++ ',' :: q ∧ ',' ∉ p := by
            clear hy
            induction y with
            | nil => simp at hin
            | cons c y ih =>
              by_cases hcc : c = ','
              · exact ⟨[], y, by simp [hcc], by simp⟩
              · obtain ⟨p, q, h1, h2⟩ := ih (by simpa [Ne.symm hcc] using hin)
                exact ⟨c :: p, q, by simp [h1], by simp [Ne.symm hcc, h2]⟩
          refine ⟨(List.replicate k ' ' ++ b) ++ p, splitComma q, ?_, ?_⟩
          · rw [← List.append_assoc, splitComma_append _ _ (by simp only [List.mem_append] at hnc ⊢; tauto)]
          · refine hcv k b p hb.1 hb.noBlank (fun hm => (hb.2 _ hm).2.1 rfl) ?_
            cases p with
            | nil => left; rfl
            | cons c p =>
              rcases hy c (by simp) with rfl | rfl
              · right; left; rfl
              · right; right; rfl
        · refine ⟨_, _, splitComma_single _ (by simp only [List.mem_append] at hnc ⊢; tauto), ?_⟩
          refine hcv k b y hb.1 hb.noBlank (fun hm => (hb.2 _ hm).2.1 rfl) ?_
          cases y with
          | nil => left; rfl
          | cons c y =>
            rcases hy c (by simp) with rfl | rfl
            · right; left; rfl
            · right; right; rfl
      obtain ⟨w, ts, h, hv⟩ := hc x (by
        intro c hc
        rcases hx.1 with rfl | h | h
        · simp at hc
        · rw [h] at hc; simp at hc; exact Or.inl hc.symm
        · rw [h] at hc; simp at hc; exact Or.inr hc.symm)
      rw [h]
      simp [hv]
    · simp only [List.mem_append, List.mem_replicate, not_or]
      exact ⟨⟨by rintro ⟨_, h⟩; simp at h, fun hm => (ha.2 _ hm).2.1 rfl⟩, by rintro ⟨_, h⟩; simp at h⟩
  · intro c hc
    have := line_chars ha hb hx k [] (Or.inl rfl)
    simp only [List.mem_append, List.mem_replicate, List.mem_singleton] at hc this
    rcases hc with (((((hc | hc) | hc) | hc) | hc) | hc) | hc
    · rw [hc.2]; decide
    · exact this c (by tauto)
    · rw [hc.2]; decide
    · rw [hc]; decide
    · rw [hc.2]; decide
    · exact this c (by tauto)
    · exact this c (by tauto)

/-- C215 fails for versions 33 to 35 when blanks separate the values: what is read is undefined. -/
theorem C215_v33_blank_violated (cv : Conv) (a b x cm : Str) (k : ℕ) (ha : Plain a) (hb : Plain b) (hx : Tail x)
    (hx' : ',' ∉ x) (hcm : Comment cm) : header33 cv (a ++ List.replicate (k + 1) ' ' ++ b ++ x ++ cm) = none := by
  unfold header33
  have hl := line_chars ha hb hx (k + 1) [] (Or.inl rfl)
  rw [clean_line _ cm (by simpa using hl) hcm.1 hcm.2, splitComma_single]
  simp only [List.mem_append, List.mem_replicate, not_or]
  exact ⟨⟨⟨fun hm => (ha.2 _ hm).2.1 rfl, by rintro ⟨_, h⟩; simp at h⟩, fun hm => (hb.2 _ hm).2.1 rfl⟩, hx'⟩

/-! #### Examples -/

/-- Decimal numbers, as `atoi` and `atof` read them. -/
noncomputable def dec : Conv where
  atoi s := (RawBus.nat ((s.dropWhile (· = ' ')).takeWhile (fun c => c ≠ ' ' && c ≠ ',')) : Int)
  atof s := (RawBus.nat ((s.dropWhile (· = ' ')).takeWhile (fun c => c ≠ ' ' && c ≠ ',')) : ℝ)
  tag s := s

theorem dec_reads : Reads dec := by
  have key : ∀ (k : ℕ) (b x : Str), b ≠ [] → ' ' ∉ b → ',' ∉ b →
      (x = [] ∨ x.head? = some ' ' ∨ x.head? = some ',') →
      ((List.replicate k ' ' ++ b ++ x).dropWhile (· = ' ')).takeWhile (fun c => c ≠ ' ' && c ≠ ',') = b := by
    intro k b x hb h1 h2 hx
    have e1 : (List.replicate k ' ' ++ b ++ x).dropWhile (· = ' ') = b ++ x := by
      induction k with
      | zero =>
        cases b with
        | nil => exact absurd rfl hb
        | cons c b =>
          have : c ≠ ' ' := fun h => h1 (by simp [h])
          simp [List.dropWhile_cons, this]
      | succ k ih => simpa [List.replicate_succ] using ih
    rw [e1]
    rw [List.takeWhile_append_of_pos]
    · have : x.takeWhile (fun c => c ≠ ' ' && c ≠ ',') = [] := by
        cases x with
        | nil => rfl
        | cons c x =>
          rcases hx with h | h | h
          · simp at h
          · simp only [List.head?_cons, Option.some.injEq] at h; simp [h]
          · simp only [List.head?_cons, Option.some.injEq] at h; simp [h]
      rw [this, List.append_nil]
    · intro c hc
      have n1 : c ≠ ' ' := fun h => h1 (h ▸ hc)
      have n2 : c ≠ ',' := fun h => h2 (h ▸ hc)
      simp [n1, n2]
  intro k b x hb h1 h2 hx
  show (RawBus.nat _ : ℝ) = (RawBus.nat _ : ℝ)
  rw [key k b x hb h1 h2 hx]
  have := key 0 b [] hb h1 h2 (Or.inl rfl)
  simp only [List.replicate_zero, List.nil_append, List.append_nil] at this
  rw [this]

theorem plain_num (s : Str) (h : s ≠ []) (hd : s.all Char.isDigit = true) : Plain s := by
  refine ⟨h, ?_⟩
  intro c hc
  have := List.all_eq_true.mp hd c hc
  refine ⟨?_, ?_, ?_, ?_, ?_⟩ <;> (rintro rfl; revert this; decide)

theorem tail_rev : Tail ",33 ".toList := ⟨Or.inr (Or.inr (by decide)), by decide⟩
theorem comment_date : Comment "/ WED, JUL 3".toList := ⟨Or.inr (by decide), by decide⟩

example : (header dec "0,  100,33 / WED, JUL 3".toList).map Prod.snd = some (100 : ℝ) := by
  have h := C215_v23_partial dec dec_reads "0".toList "100".toList ",33 ".toList "/ WED, JUL 3".toList ",".toList 1
    (plain_num _ (by decide) (by decide)) (plain_num _ (by decide) (by decide)) tail_rev comment_date (Or.inr rfl)
  have e : dec.atof "100".toList = 100 := by
    show ((RawBus.nat _ : ℕ) : ℝ) = 100
    rw [show RawBus.nat (("100".toList.dropWhile (· = ' ')).takeWhile (fun c => c ≠ ' ' && c ≠ ',')) = 100 by decide]
    norm_num
  rw [e] at h
  exact h

example : (header33 dec " 0 , 100,33 / WED, JUL 3".toList).map Prod.snd = some (dec.atof "100".toList) :=
  C215_v33_partial dec dec_reads "0".toList "100".toList ",33 ".toList "/ WED, JUL 3".toList 1 1 1
    (plain_num _ (by decide) (by decide)) (plain_num _ (by decide) (by decide)) tail_rev comment_date

theorem dec_differ : dec.atof "0".toList ≠ dec.atof "100".toList := by
  show ((RawBus.nat _ : ℕ) : ℝ) ≠ ((RawBus.nat _ : ℕ) : ℝ)
  rw [show RawBus.nat (("100".toList.dropWhile (· = ' ')).takeWhile (fun c => c ≠ ' ' && c ≠ ',')) = 100 by decide,
    show RawBus.nat (("0".toList.dropWhile (· = ' ')).takeWhile (fun c => c ≠ ' ' && c ≠ ',')) = 0 by decide]
  norm_num

example : (header dec " 0 100,33 / WED, JUL 3".toList).map Prod.snd ≠ some (dec.atof "100".toList) :=
  (C215_v23_leading_violated dec "0".toList "100".toList ",33 ".toList "/ WED, JUL 3".toList 0 0
    (plain_num _ (by decide) (by decide)) (plain_num _ (by decide) (by decide)) tail_rev comment_date dec_differ).2

example : header dec "0,100".toList = none :=
  C215_v23_comma_violated dec "0".toList "100".toList [] []
    (plain_num _ (by decide) (by decide)) (plain_num _ (by decide) (by decide)) ⟨Or.inl rfl, by simp⟩ (by simp)
    ⟨Or.inl rfl, by simp⟩

example : header33 dec "0 100".toList = none :=
  C215_v33_blank_violated dec "0".toList "100".toList [] [] 0
    (plain_num _ (by decide) (by decide)) (plain_num _ (by decide) (by decide)) ⟨Or.inl rfl, by simp⟩ (by simp)
    ⟨Or.inl rfl, by simp⟩

/-! ### A whole file -/

/-- What a file leaves. -/
theorem case_spec (cv : Conv) (f : File) (h : Good cv f) (net : Data) (hnet : NoAreas net) :
    ∃ k m, (∀ n, f.xfs.length ≤ n → getCase cv n [] net f = .done (k, m)) ∧
      k.buses.length = f.buses.length ∧
      (∀ (l : ℕ) r, f.buses[l]? = some r → ∃ c, k.buses[l]? = some c ∧ TellsBus cv f c r ∧ TellsLoad cv c r ∧
        TellsShunt cv c r ∧ Tells cv genColumns c (f.gens.filter (fun d => num cv d = num cv r)) ∧
        TellsSw cv c (f.switched.filter (fun d => num cv d = num cv r)) ∧
        ∀ old : Str, getValue c .string ⟨"BUS_NAME".toList, none⟩ old = answer (r[9]?.map busName) old) ∧
      TellsAreas cv k.net f.areas ∧
      (∃ st, st.map = m ∧ st.branches = k.branches ∧ LinesInv cv f.lines st ∧
        ((∀ l ∈ f.lines, SameShunts cv l ∨ ∀ x ∈ f.lines, ¬ Opposite cv l x) →
          Adds [] k.branches (f.lines.map (link cv)))) ∧
      k.adj.map Prod.snd = f.xfs ∧ ∀ p ∈ k.adj, Leads cv k.branches p.1 p.2 := by
  obtain ⟨t, t', h1, h2, h3, h4⟩ := buses_spec cv f h
  obtain ⟨st, e1, e2, e3⟩ := readLines_spec cv f.lines h.lines [] _ (LinesInv.start cv)
  simp only [List.nil_append] at e2 e3
  obtain ⟨adj, x1, x2, x3⟩ := readXfs_ok cv f.lines st e2 f.xfs h.xfs h.direction []
  simp only [List.nil_append] at x1
  obtain ⟨c, a1, a2⟩ := areas_tell cv net hnet f.areas h.areas h.few.2
  refine ⟨⟨t'.bus, st.branches, adj, c⟩, st.map, ?_, h3, ?_, a2, ⟨st, rfl, rfl, e2, e3⟩, x2, x3⟩
  · intro n hn
    simp only [getCase, h1, e1, x1 n hn, a1, h2]
  · intro l r hr
    obtain ⟨c0, c1, c2, g1, g2, g3, g4⟩ := h4 l r hr
    obtain ⟨q1, q2, q3, q4⟩ := bus_tells cv f r (h.buses r (List.mem_of_getElem? hr)) c0 c1 c2 _ _ g2 g3 g4
    refine ⟨c2, g1, q1, q2, q3, gen_tells cv _ c0 c1 c2 _ _ ?_ g3 g4, sw_tells cv f r c0 c1 c2 _ _ g2 g3 g4, q4⟩
    exact (List.length_filter_le _ _).trans h.few.1

/-- C216: reading a file ends, and for every bus of the file a user finds the values of its line, its load and shunt,
exactly the generators whose records name the bus, in their order, and the switched shunt if there is one record for
the bus. -/
theorem C216_buses (cv : Conv) (f : File) (h : Good cv f) (net : Data) (hnet : NoAreas net) :
    ∃ k m, (∀ n, f.xfs.length ≤ n → getCase cv n [] net f = .done (k, m)) ∧ k.buses.length = f.buses.length ∧
      ∀ (l : ℕ) r, f.buses[l]? = some r → ∃ c, k.buses[l]? = some c ∧ TellsBus cv f c r ∧ TellsLoad cv c r ∧
        TellsShunt cv c r ∧ Tells cv genColumns c (f.gens.filter (fun d => num cv d = num cv r)) ∧
        TellsSw cv c (f.switched.filter (fun d => num cv d = num cv r)) := by
  obtain ⟨k, m, h1, h2, h3, _⟩ := case_spec cv f h net hnet
  refine ⟨k, m, h1, h2, ?_⟩
  intro l r hr
  obtain ⟨c, g1, g2, g3, g4, g5, g6, _⟩ := h3 l r hr
  exact ⟨c, g1, g2, g3, g4, g5, g6⟩

/-! ### C217: names of buses -/

/-- C217: a name written without quotes is found as it is in the file. -/
theorem C217_names_partial (cv : Conv) (f : File) (h : Good cv f) (net : Data) (hnet : NoAreas net) :
    ∃ k m, (∀ n, f.xfs.length ≤ n → getCase cv n [] net f = .done (k, m)) ∧
      ∀ (l : ℕ) r (name : Str), f.buses[l]? = some r → r[9]? = some name → '\'' ∉ name →
        ∃ c, k.buses[l]? = some c ∧
          ∀ old : Str, getValue c .string ⟨"BUS_NAME".toList, none⟩ old = some (true, name) := by
  obtain ⟨k, m, h1, h2, h3, _⟩ := case_spec cv f h net hnet
  refine ⟨k, m, h1, ?_⟩
  intro l r name hr hn hq
  obtain ⟨c, g1, _, _, _, _, _, g7⟩ := h3 l r hr
  refine ⟨c, g1, ?_⟩
  intro old
  have hb : r[9]?.map busName = some name := by rw [hn]; simp [busName, hq]
  exact (g7 old).trans (by rw [hb]; rfl)

/-- Trimming keeps quotes. -/
theorem trim_quote (t : Str) (h : '\'' ∈ t) : '\'' ∈ trim t := by
  obtain ⟨a, b, he, ha, hb, _⟩ := C25_trim_partial t
  have hm : '\'' ∈ t.map asBlank := List.mem_map.mpr ⟨'\'', h, by decide⟩
  rw [he] at hm
  simp only [List.mem_append] at hm
  rcases hm with (hm | hm) | hm
  · have := ha _ hm
    simp [white] at this
  · exact hm
  · have := hb _ hm
    simp [white] at this

/-- C217 fails for every name written in quotes, as the format asks: the quotes are part of the name that is found, so
that it is not the text between them. -/
theorem C217_quotes_violated (cv : Conv) (f : File) (h : Good cv f) (net : Data) (hnet : NoAreas net) :
    ∃ k m, (∀ n, f.xfs.length ≤ n → getCase cv n [] net f = .done (k, m)) ∧
      ∀ (l : ℕ) r (tok name : Str), f.buses[l]? = some r → r[9]? = some tok → Quoted tok name →
        ∃ c, k.buses[l]? = some c ∧
          ∀ old : Str, getValue c .string ⟨"BUS_NAME".toList, none⟩ old ≠ some (true, name) := by
  obtain ⟨k, m, h1, h2, h3, _⟩ := case_spec cv f h net hnet
  refine ⟨k, m, h1, ?_⟩
  intro l r tok name hr hn hq
  obtain ⟨c, g1, _, _, _, _, _, g7⟩ := h3 l r hr
  refine ⟨c, g1, ?_⟩
  intro old hc
  obtain ⟨lead, x, post, htok, hx, _, _, a, b, hs, _⟩ := hq
  have hin : '\'' ∈ tok := by rw [htok]; simp
  have hb : r[9]?.map busName = some (trim tok) := by rw [hn]; simp [busName, hin]
  have h5 := (g7 old).symm.trans hc
  rw [hb] at h5
  have h6 : trim tok = name := by
    have h7 : (some (true, trim tok) : Option (Bool × Str)) = some (true, name) := h5
    simpa using h7
  refine hx ?_
  rw [hs]
  have := trim_quote tok hin
  rw [h6] at this
  simp [this]

/-! ### C218: lines and transformers -/

/-- C218: the admittance matrix built from the branches of a file is that of the two-ports of its records: every
record counts once, at its own buses and in its own direction.  (What is missing: a record whose shunts at the two
ends differ must have no record in the opposite direction; see `C218_shunts_violated`.) -/
theorem C218_network_partial (cv : Conv) (f : File) (h : Good cv f) (net : Data) (hnet : NoAreas net)
    (hs : ∀ l ∈ f.lines, SameShunts cv l ∨ ∀ x ∈ f.lines, ¬ Opposite cv l x) :
    ∃ k m, (∀ n, f.xfs.length ≤ n → getCase cv n [] net f = .done (k, m)) ∧ ∀ rv,
      (∀ p q, entry rv k.branches p q = linkEntry (f.lines.map (link cv)) p q) ∧
      ∀ p, diag rv k.branches p = linkDiag (f.lines.map (link cv)) p := by
  obtain ⟨k, m, h1, _, _, _, ⟨st, _, _, _, h2⟩, _⟩ := case_spec cv f h net hnet
  refine ⟨k, m, h1, ?_⟩
  intro rv
  obtain ⟨g1, g2⟩ := h2 hs rv
  refine ⟨fun p q => ?_, fun p => ?_⟩
  · rw [g1]; simp [entry]
  · rw [g2]; simp [diag]

/-- C218 fails whenever a record in service has a record before it in the opposite direction and different shunts at
its two ends: each shunt is counted at the other bus. -/
theorem C218_shunts_violated (cv : Conv) (f : File) (h : Good cv f) (net : Data) (hnet : NoAreas net)
    (x y : List Str) (hf : f.lines = [x, y]) (ho : Opposite cv x y) (hab : (link cv x).a ≠ (link cv x).b)
    (hst : cv.atoi (y.getD 15 []) ≠ 0) (hne : ¬ SameShunts cv y) :
    ∃ k m, (∀ n, f.xfs.length ≤ n → getCase cv n [] net f = .done (k, m)) ∧ ∀ rv,
      diag rv k.branches (link cv y).a ≠ linkDiag (f.lines.map (link cv)) (link cv y).a := by
  obtain ⟨t, t', h1, h2, h3, h4⟩ := buses_spec cv f h
  obtain ⟨c, a1, a2⟩ := areas_tell cv net hnet f.areas h.areas h.few.2
  have lx : 16 ≤ x.length := h.lines x (by simp [hf])
  have ly : 16 ≤ y.length := h.lines y (by simp [hf])
  obtain ⟨e, he, _, hacts⟩ := acts_el cv x lx
  obtain ⟨e', he', _, hacts'⟩ := acts_el_switched cv y ly
  have hkx : ends cv x = ((link cv x).a, (link cv x).b) := ends_link cv x
  have hky : ends cv y = ((link cv x).b, (link cv x).a) := by rw [ends_link, ho.1, ho.2]
  have hne' : ((link cv x).a, (link cv x).b) ≠ ((link cv x).b, (link cv x).a) := by
    intro hh
    simp only [Prod.mk.injEq] at hh
    exact hab hh.1
  obtain ⟨st, e1, e2, _⟩ := readLines_spec cv f.lines h.lines [] _ (LinesInv.start cv)
  simp only [List.nil_append] at e2
  obtain ⟨adj, x1, _⟩ := readXfs_ok cv f.lines st e2 f.xfs h.xfs h.direction []
  simp only [List.nil_append] at x1
  refine ⟨⟨t'.bus, st.branches, adj, c⟩, st.map, ?_, ?_⟩
  · intro n hn
    simp only [getCase, h1, e1, x1 n hn, a1, h2]
  · have hbr : st.branches = [⟨(link cv x).a, (link cv x).b, 0, [e, e']⟩] := by
      have h5 := e1
      rw [hf] at h5
      simp only [readLines, readLine, hkx, hky, RawBranch.find, RawBranch.insert, he, he', List.find?_nil,
        Option.map_none, Option.map_some, Option.bind_some, List.nil_append, Option.isSome_none, Bool.false_eq_true,
        if_false, List.find?_cons, hne', decide_false, decide_true, List.getElem?_cons_zero, RawBranch.addEl,
        List.modify_zero_cons, List.cons_append, Option.some.injEq] at h5
      rw [← h5]
    intro rv
    have b0 := adds_new [] (link cv x).a (link cv x).b 0 e _ hacts
    have b1 := adds_at [⟨(link cv x).a, (link cv x).b, 0, [e]⟩] 0 _ rfl e' _ hacts'
    have b2 := ((b0.trans b1) rv).2 (link cv y).a
    simp only [List.nil_append, RawBranch.addEl, List.modify_zero_cons, List.cons_append] at b2
    simp only [hbr]
    rw [b2, hf]
    have hya : (link cv y).a = (link cv x).b := ho.1
    have hyb : (link cv y).b = (link cv x).a := ho.2
    simp only [diag, linkDiag, List.map_nil, List.map_cons, List.sum_nil, List.sum_cons, hya, hyb, hab, if_false,
      if_true, zero_add, add_zero]
    intro hh
    have h7 := add_left_cancel hh
    simp only [portSwitched, link, hst, if_false] at h7
    have h8 := add_left_cancel h7
    apply hne
    have h9 := congrArg Complex.re h8
    have h10 := congrArg Complex.im h8
    exact ⟨h9.symm, h10.symm⟩

/-! ### C219: adjustment of transformers -/

/-- A user finds the values of the line at element `i` of branch `n`. -/
def TellsXf (cv : Conv) (k : Case) (n i : ℕ) (x : List Str) : Prop :=
  xfInt cv k.adj n i "TRANSFORMER_CONTROL" = x[3]?.map cv.atoi ∧
    ∀ p ∈ xfDbls, xfDbl cv k.adj n i p.1 = x[p.2]?.map cv.atof

/-- A user finds no values at element `i` of branch `n`. -/
def NoXf (cv : Conv) (k : Case) (n i : ℕ) : Prop :=
  xfInt cv k.adj n i "TRANSFORMER_CONTROL" = none ∧ ∀ p ∈ xfDbls, xfDbl cv k.adj n i p.1 = none

/-- C219: the values of a transformer line are found at an element with its buses and circuit (those of the first
line if there are several), and an element without transformer line has none.  (What is missing: lines in the
direction of a record of the branch block, and such a record must exist; see the `_violated` theorems.) -/
theorem C219_transformers_partial (cv : Conv) (f : File) (h : Good cv f) (net : Data) (hnet : NoAreas net) :
    ∃ k m, (∀ n, f.xfs.length ≤ n → getCase cv n [] net f = .done (k, m)) ∧
      (∀ (j : ℕ) x, f.xfs[j]? = some x → (∀ i < j, ∀ y, f.xfs[i]? = some y → ¬ SameCircuit cv y x) →
        ∃ n i b e, k.branches[n]? = some b ∧ b.elems[i]? = some e ∧ b.frm = (link cv x).a ∧ b.tob = (link cv x).b ∧
          e.ckt = cv.tag (x.getD 2 []) ∧ TellsXf cv k n i x) ∧
      ∀ (n i : ℕ), (∀ x ∈ f.xfs, ∀ b e, k.branches[n]? = some b → b.elems[i]? = some e →
          ¬ (b.frm = (link cv x).a ∧ b.tob = (link cv x).b ∧ e.ckt = cv.tag (x.getD 2 []))) → NoXf cv k n i := by
  obtain ⟨k, m, h1, _, _, _, _, h2, h3⟩ := case_spec cv f h net hnet
  refine ⟨k, m, h1, ?_, ?_⟩
  · intro j x hx hfirst
    rw [← h2, List.getElem?_map] at hx
    cases hp : k.adj[j]? with
    | none => rw [hp] at hx; simp at hx
    | some p =>
      obtain ⟨q, x'⟩ := p
      rw [hp] at hx
      simp only [Option.map_some, Option.some.injEq] at hx
      subst hx
      obtain ⟨b, e, g1, g2, g3, g4, g5⟩ := h3 _ (List.mem_of_getElem? hp)
      have hl := lookup_first cv k.branches k.adj h3 j q x' hp (by
        intro i hi p' hp'
        exact hfirst i hi p'.2 (by rw [← h2, List.getElem?_map, hp']; rfl))
      refine ⟨q.1, q.2, b, e, g1, g2, g3, g4, g5, ?_, ?_⟩
      · rw [xfInt_eq, hl]; rfl
      · intro p' hp'
        rw [xfDbl_eq cv k.adj q.1 q.2 p' hp', hl]; rfl
  · intro n i hno
    have hl : lookup k.adj (n, i) = none := by
      cases hl : lookup k.adj (n, i) with
      | none => rfl
      | some x =>
        exfalso
        have hm := lookup_in _ _ _ hl
        obtain ⟨b, e, g1, g2, g3, g4, g5⟩ := h3 _ hm
        exact hno x (by rw [← h2]; exact List.mem_map.mpr ⟨_, hm, rfl⟩) b e g1 g2 ⟨g3, g4, g5⟩
    refine ⟨?_, ?_⟩
    · rw [xfInt_eq, hl]; rfl
    · intro p hp
      rw [xfDbl_eq cv k.adj n i p hp, hl]; rfl

/-- C219 fails for every transformer line that names the buses of its branch in the opposite order: its values are
lost without a message. -/
theorem C219_direction_violated (cv : Conv) (f : File) (h : Good cv { f with xfs := [] }) (net : Data)
    (hnet : NoAreas net)
    (hx : ∀ x ∈ f.xfs, 2 ≤ x.length ∧
      (∃ l ∈ f.lines, Opposite cv x l ∧ cv.tag (x.getD 2 []) = cv.tag (l.getD 2 [])) ∧
      ∀ l ∈ f.lines, ¬ ((link cv l).a = (link cv x).a ∧ (link cv l).b = (link cv x).b)) :
    ∃ k m, (∀ n, f.xfs.length ≤ n → getCase cv n [] net f = .done (k, m)) ∧ ∀ n i, NoXf cv k n i := by
  obtain ⟨t, t', h1, h2, h3, h4⟩ := buses_spec cv { f with xfs := [] } h
  obtain ⟨c, a1, a2⟩ := areas_tell cv net hnet f.areas h.areas h.few.2
  obtain ⟨st, e1, e2, _⟩ := readLines_spec cv f.lines h.lines [] _ (LinesInv.start cv)
  simp only [List.nil_append] at e2
  have hxs : ∀ xs : List (List Str), (∀ x ∈ xs, x ∈ f.xfs) → ∀ n, xs.length ≤ n →
      readXfs cv st n [] xs = .done [] := by
    intro xs
    induction xs with
    | nil => intro _ n _; cases n <;> rfl
    | cons x xs ih =>
      intro hm n hn
      cases n with
      | zero => simp at hn
      | succ n =>
        simp only [List.length_cons] at hn
        obtain ⟨g1, _, g3⟩ := hx x (hm x (by simp))
        have n1 : ¬ x.length < 2 := by omega
        have hnone : RawBranch.find st.map (ends cv x) = none := by
          cases hf : RawBranch.find st.map (ends cv x) with
          | none => rfl
          | some i =>
            exfalso
            obtain ⟨l, hl, hk⟩ := e2.keys _ _ hf
            rw [ends_link, ends_link] at hk
            simp only [Prod.mk.injEq] at hk
            exact g3 l hl hk
        simp only [readXfs, xfPass, if_neg n1, hnone]
        exact ih (fun y hy => hm y (by simp [hy])) n (by omega)
  refine ⟨⟨t'.bus, st.branches, [], c⟩, st.map, ?_, ?_⟩
  · intro n hn
    simp only at h1 h2
    simp only [getCase, h1, e1, hxs f.xfs (fun _ hx => hx) n hn, a1, h2]
  · intro n i
    refine ⟨?_, ?_⟩
    · rw [xfInt_eq]; rfl
    · intro p hp
      rw [xfDbl_eq _ _ _ _ p hp]; rfl

/-- C219 fails for every file whose first transformer line names a circuit that no record between its buses has:
reading never ends. -/
theorem C219_circuit_violated (cv : Conv) (f : File) (h : Good cv { f with xfs := [] }) (net : Data)
    (x : List Str) (xs : List (List Str)) (hx : f.xfs = x :: xs) (hlen : 3 ≤ x.length)
    (hl : ∃ l ∈ f.lines, (link cv x).a = (link cv l).a ∧ (link cv x).b = (link cv l).b)
    (hd : ∀ l ∈ f.lines, ¬ Opposite cv x l)
    (hc : ∀ l ∈ f.lines, (link cv x).a = (link cv l).a → (link cv x).b = (link cv l).b →
      cv.tag (x.getD 2 []) ≠ cv.tag (l.getD 2 [])) :
    ∀ n, getCase cv n [] net f = .running := by
  obtain ⟨t, t', h1, h2, h3, h4⟩ := buses_spec cv { f with xfs := [] } h
  obtain ⟨st, e1, e2, _⟩ := readLines_spec cv f.lines h.lines [] _ (LinesInv.start cv)
  simp only [List.nil_append] at e2
  obtain ⟨l, hl, ha, hb⟩ := hl
  obtain ⟨i, b, g1, g2, g3, g4, _⟩ := find_line cv f.lines st e2 x l hl ha hb hd
  have h2' : x[2]? = some (x.getD 2 []) := by
    rw [List.getD_eq_getElem?_getD, List.getElem?_eq_getElem (by omega)]; rfl
  have n1 : ¬ x.length < 2 := by omega
  have hnone : b.elems.findIdx? (fun e => decide (e.ckt = cv.tag (x.getD 2 []))) = none := by
    rw [List.findIdx?_eq_none_iff]
    intro e he
    obtain ⟨y, hy, hck, hab⟩ := e2.from_ b (List.mem_of_getElem? g2) e he
    rcases hab with ⟨p1, p2⟩ | ⟨p1, p2⟩
    · have := hc y hy (by rw [p1, g3]) (by rw [p2, g4])
      rw [hck]
      simpa using Ne.symm this
    · exact absurd ⟨by rw [p1, g4], by rw [p2, g3]⟩ (hd y hy)
  have hrun : ∀ n, readXfs cv st n [] (x :: xs) = .running := by
    intro n
    induction n with
    | zero => rfl
    | succ n ih =>
      simp only [readXfs, xfPass, if_neg n1, g1, h2', g2, hnone]
      exact ih
  intro n
  simp only at h1
  simp only [getCase, h1, e1, hx, hrun]

/-! ### C220: two files -/

/-- Simulation: entries of earlier files that are never met do not matter. -/
theorem find_append (old m : List ((Int × Int) × Nat)) (k : Int × Int) (h : RawBranch.find old k = none) :
    RawBranch.find (old ++ m) k = RawBranch.find m k := by
  unfold RawBranch.find at h ⊢
  rw [List.find?_append]
  cases ho : old.find? (fun e => decide (e.1 = k)) with
  | none => simp
  | some e => rw [ho] at h; simp at h

/-- The state with the entries of earlier files. -/
def withOld (old : List ((Int × Int) × Nat)) (st : St) : St := { st with map := old ++ st.map }

theorem readLine_old (cv : Conv) (old : List ((Int × Int) × Nat)) (st : St) (l : List Str)
    (h1 : RawBranch.find old (ends cv l) = none) (h2 : RawBranch.find old ((ends cv l).2, (ends cv l).1) = none) :
    readLine cv (withOld old st) l = (readLine cv st l).map (withOld old) := by
  unfold readLine withOld
  simp only [find_append old st.map _ h1, find_append old st.map _ h2, RawBranch.insert]
  cases RawBranch.find st.map (ends cv l) with
  | some n =>
    simp only
    cases st.branches[n]? <;> cases lineEl cv false l <;> rfl
  | none =>
    cases RawBranch.find st.map ((ends cv l).2, (ends cv l).1) with
    | some n =>
      simp only
      cases st.branches[n]? <;> cases lineEl cv true l <;> rfl
    | none =>
      simp only
      cases lineEl cv false l <;> simp

theorem readLines_old (cv : Conv) (old : List ((Int × Int) × Nat)) : ∀ (ls : List (List Str)) (st : St),
    (∀ l ∈ ls, RawBranch.find old (ends cv l) = none ∧ RawBranch.find old ((ends cv l).2, (ends cv l).1) = none) →
    readLines cv (withOld old st) ls = (readLines cv st ls).map (withOld old) := by
  intro ls
  induction ls with
  | nil => intro st _; rfl
  | cons l ls ih =>
    intro st h
    obtain ⟨h1, h2⟩ := h l (by simp)
    rw [readLines, readLines, readLine_old cv old st l h1 h2]
    cases readLine cv st l with
    | none => rfl
    | some s => exact ih s (fun x hx => h x (by simp [hx]))

theorem readXfs_old (cv : Conv) (old : List ((Int × Int) × Nat)) (st : St) : ∀ (n : ℕ) (xs : List (List Str)) (adj : Adj),
    (∀ x ∈ xs, RawBranch.find old (ends cv x) = none) →
    readXfs cv (withOld old st) n adj xs = readXfs cv st n adj xs := by
  intro n
  induction n with
  | zero => intro xs adj _; cases xs <;> rfl
  | succ n ih =>
    intro xs adj h
    cases xs with
    | nil => rfl
    | cons x xs =>
      have hp : xfPass cv (withOld old st) adj x = xfPass cv st adj x := by
        unfold xfPass withOld
        simp only [find_append old st.map _ (h x (by simp))]
      rw [readXfs, readXfs, hp]
      cases xfPass cv st adj x with
      | none => rfl
      | some r =>
        obtain ⟨a, b⟩ := r
        cases b
        · exact ih (x :: xs) a h
        · exact ih xs a (fun y hy => h y (by simp [hy]))

/-- The buses of a record. -/
def Joins (cv : Conv) (r : List Str) (p q : Int) : Prop :=
  ((link cv r).a = p ∧ (link cv r).b = q) ∨ ((link cv r).a = q ∧ (link cv r).b = p)

/-- What a run reads. -/
def Run.case : Run (Case × List ((Int × Int) × Nat)) → Run Case
  | .done p => .done p.1
  | .running => .running
  | .undefined => .undefined

/-- C220: if no line and no transformer line of the second file joins two buses that a line of the first file joins,
the same parser reads the second file as a new parser does. -/
theorem C220_again_partial (cv : Conv) (f g : File) (h : Good cv f) (net net' : Data) (n₁ : ℕ)
    (k₁ : Case) (m₁ : List ((Int × Int) × Nat)) (hf : getCase cv n₁ [] net f = .done (k₁, m₁))
    (hno : ∀ l ∈ f.lines, ∀ r ∈ g.lines ++ g.xfs, ¬ Joins cv r (link cv l).a (link cv l).b) :
    ∀ n, (getCase cv n m₁ net' g).case = (getCase cv n [] net' g).case := by
  obtain ⟨st, e1, e2, _⟩ := readLines_spec cv f.lines h.lines [] _ (LinesInv.start cv)
  simp only [List.nil_append] at e2
  have hm : m₁ = st.map := by
    unfold getCase at hf
    rw [e1] at hf
    split at hf
    · rename_i t s _ hs
      simp only [Option.some.injEq] at hs
      subst hs
      split at hf
      · split at hf
        · simp only [Run.done.injEq, Prod.mk.injEq] at hf
          exact hf.2.symm
        · simp at hf
      · simp at hf
      · simp at hf
    · simp at hf
  have hfind : ∀ r ∈ g.lines ++ g.xfs, RawBranch.find m₁ (ends cv r) = none ∧
      RawBranch.find m₁ ((ends cv r).2, (ends cv r).1) = none := by
    intro r hr
    constructor
    · cases hc : RawBranch.find m₁ (ends cv r) with
      | none => rfl
      | some i =>
        exfalso
        rw [hm] at hc
        obtain ⟨l, hl, hk⟩ := e2.keys _ _ hc
        rw [ends_link, ends_link] at hk
        simp only [Prod.mk.injEq] at hk
        exact hno l hl r hr (Or.inl ⟨hk.1.symm, hk.2.symm⟩)
    · cases hc : RawBranch.find m₁ ((ends cv r).2, (ends cv r).1) with
      | none => rfl
      | some i =>
        exfalso
        rw [hm] at hc
        obtain ⟨l, hl, hk⟩ := e2.keys _ _ hc
        rw [ends_link, ends_link] at hk
        simp only [Prod.mk.injEq] at hk
        exact hno l hl r hr (Or.inr ⟨hk.2.symm, hk.1.symm⟩)
  intro n
  have hL := readLines_old cv m₁ g.lines ⟨[], [], 0, 0, []⟩ (fun l hl => hfind l (by simp [hl]))
  have hstart : withOld m₁ ⟨[], [], 0, 0, []⟩ = ⟨[], m₁, 0, 0, []⟩ := by simp [withOld]
  rw [hstart] at hL
  unfold getCase
  rw [hL]
  cases (readBuses cv g.sbase g.caseId ⟨[], [], []⟩ g.buses).bind (fun t => readGens cv t g.gens) with
  | none => rfl
  | some t =>
    cases readLines cv ⟨[], [], 0, 0, []⟩ g.lines with
    | none => rfl
    | some s =>
      simp only [Option.map_some]
      rw [readXfs_old cv m₁ s n g.xfs [] (fun x hx => (hfind x (by simp [hx])).1)]
      cases readXfs cv s n [] g.xfs with
      | running => rfl
      | undefined => rfl
      | done adj =>
        simp only
        cases readAreas cv 0 net' g.areas with
        | none => rfl
        | some c => cases readSws cv t g.switched <;> rfl

/-- C220 fails: if the first line of the second file joins two buses that a line of the first file joins, such as when
a file is read again, what the parser does is undefined. -/
theorem C220_again_violated (cv : Conv) (f g : File) (h : Good cv f) (net net' : Data) (n₁ : ℕ)
    (k₁ : Case) (m₁ : List ((Int × Int) × Nat)) (hf : getCase cv n₁ [] net f = .done (k₁, m₁))
    (l r : List Str) (rs : List (List Str)) (hl : l ∈ f.lines) (hr : g.lines = r :: rs)
    (hj : Joins cv r (link cv l).a (link cv l).b) : ∀ n, getCase cv n m₁ net' g = .undefined := by
  obtain ⟨st, e1, e2, _⟩ := readLines_spec cv f.lines h.lines [] _ (LinesInv.start cv)
  simp only [List.nil_append] at e2
  have hm : m₁ = st.map := by
    unfold getCase at hf
    rw [e1] at hf
    split at hf
    · rename_i t s _ hs
      simp only [Option.some.injEq] at hs
      subst hs
      split at hf
      · split at hf
        · simp only [Run.done.injEq, Prod.mk.injEq] at hf
          exact hf.2.symm
        · simp at hf
      · simp at hf
      · simp at hf
    · simp at hf
  have hline : readLine cv ⟨[], m₁, 0, 0, []⟩ r = none := by
    have hfind : (RawBranch.find m₁ (ends cv r)).isSome ∨ (RawBranch.find m₁ ((ends cv r).2, (ends cv r).1)).isSome := by
      rw [hm]
      have h5 := e2.all l hl
      rw [ends_link] at h5
      rw [ends_link cv r]
      rcases hj with ⟨p1, p2⟩ | ⟨p1, p2⟩
      · simp only [p1, p2]; exact h5
      · simp only [p1, p2]; exact h5.symm
    unfold readLine
    simp only
    cases h6 : RawBranch.find m₁ (ends cv r) with
    | some i => simp
    | none =>
      rw [h6] at hfind
      simp only [Option.isSome_none, Bool.false_eq_true, false_or] at hfind
      obtain ⟨i, hi⟩ := Option.isSome_iff_exists.mp hfind
      simp [hi]
  intro n
  unfold getCase
  simp only [hr, readLines, hline, Option.bind_none]
  cases (readBuses cv g.sbase g.caseId ⟨[], [], []⟩ g.buses).bind (fun t => readGens cv t g.gens) <;> rfl

/-! ### C221: areas -/

/-- C221: a user finds the areas of the file, in their order, and their number. -/
theorem C221_areas (cv : Conv) (f : File) (h : Good cv f) (net : Data) (hnet : NoAreas net) :
    ∃ k m, (∀ n, f.xfs.length ≤ n → getCase cv n [] net f = .done (k, m)) ∧ TellsAreas cv k.net f.areas := by
  obtain ⟨k, m, h1, _, _, h2, _⟩ := case_spec cv f h net hnet
  exact ⟨k, m, h1, h2⟩

/-! ### An example -/

/-- Tokens of a line. -/
def toks (s : String) : List Str := splitComma s.toList

/-- Two buses with a load, a generator, a switched shunt, two lines and a transformer. -/
noncomputable def small : File where
  sbase := 100
  caseId := 0
  buses := [toks "1,3,0,0,0,0,1,1,0,'ONE',230,1", toks "2,1,50,20,0,5,1,1,0,TWO,230,1"]
  gens := [toks "1,1,50,20,100,0,1,0,100,0,1,0,0,1,1,100,80,10"]
  lines := [toks "1,2,1,1,10,0,0,0,0,0,0,0,0,0,0,1", toks "1,2,2,1,10,0,0,0,0,1,0,0,0,0,0,1"]
  xfs := [toks "1,2,2,0,2,1,2,1,1,0"]
  areas := [toks "1,1,0,10,AREA"]
  switched := [toks "2,1,1,1,0,10,2,5"]

theorem small_good : Good RawBus.dec small where
  buses := by decide
  distinct := by decide
  gens := by decide
  few := by decide
  switched := by decide
  areas := by decide
  lines := by decide
  xfs := by
    intro x hx
    simp only [small, List.mem_singleton] at hx
    subst hx
    exact ⟨by decide, _, List.mem_cons_of_mem _ List.mem_cons_self, by decide, by decide, by decide⟩
  direction := by
    intro x hx l hl
    simp only [small, List.mem_singleton, List.mem_cons, List.not_mem_nil, or_false] at hx hl
    subst hx
    rcases hl with rfl | rfl <;> (intro h; exact absurd h.1 (by decide))

/-- A network without data. -/
theorem empty_noAreas : NoAreas DataCollection.empty := by
  intro name _ u idx old v h
  unfold getValue at h
  cases hm : mapKey ⟨name.toList, idx⟩ with
  | none => simp [hm] at h
  | some s => simp [hm, DataCollection.empty, DataCollection.find] at h

example := C216_buses RawBus.dec small small_good _ empty_noAreas
example := C217_names_partial RawBus.dec small small_good _ empty_noAreas
example := C219_transformers_partial RawBus.dec small small_good _ empty_noAreas
example := C221_areas RawBus.dec small small_good _ empty_noAreas

/-- The token of the first bus of the example is a name in quotes. -/
example : Quoted "'ONE'".toList "ONE".toList :=
  ⟨0, "ONE".toList, [], rfl, by decide, by decide, ⟨'O', by decide, by decide⟩, 0, 0, by decide, by decide, by decide⟩

example := C217_quotes_violated RawBus.dec small small_good _ empty_noAreas

example := C218_network_partial RawBus.dec small small_good _ empty_noAreas (by
  intro l hl
  left
  simp only [small, List.mem_cons, List.not_mem_nil, or_false] at hl
  rcases hl with rfl | rfl
  · exact ⟨rfl, rfl⟩
  · exact ⟨rfl, rfl⟩)

/-- A file with lines and transformer lines only. -/
noncomputable def wires (lines xfs : List (List Str)) : File := ⟨100, 0, [], [], lines, xfs, [], []⟩

theorem wires_good (lines : List (List Str)) (h : ∀ r ∈ lines, 16 ≤ r.length) : Good RawBus.dec (wires lines []) where
  buses := by simp [wires]
  distinct := by simp [wires]
  gens := by simp [wires]
  few := by simp [wires]
  switched := by simp [wires]
  areas := by simp [wires]
  lines := h
  xfs := by simp [wires]
  direction := by simp [wires]

def there : List Str := toks "1,2,1,1,10,0,0,0,0,0,0,0,0,0,0,1"
def back : List Str := toks "2,1,2,1,10,0,0,0,0,0,0,0,7,0,0,1"

theorem nat_digit : (RawBus.nat "7".toList : ℝ) ≠ (RawBus.nat "0".toList : ℝ) := by
  rw [show RawBus.nat "7".toList = 7 by decide, show RawBus.nat "0".toList = 0 by decide]
  norm_num

example := C218_shunts_violated RawBus.dec (wires [there, back] []) (wires_good _ (by decide)) _ empty_noAreas there back
  rfl ⟨by decide, by decide⟩ (by decide) (by decide) (fun h => nat_digit h.2)

example := C219_direction_violated RawBus.dec (wires [there] [toks "2,1,1,0,2,1,2,1,1,0"]) (wires_good _ (by decide)) _
  empty_noAreas (by
    intro x hx
    simp only [wires, List.mem_singleton] at hx
    subst hx
    refine ⟨by decide, ⟨there, by simp [wires], ⟨by decide, by decide⟩, by decide⟩, ?_⟩
    intro l hl
    simp only [wires, List.mem_singleton] at hl
    subst hl
    rintro ⟨h, _⟩
    exact absurd h (by decide))

example := C219_circuit_violated RawBus.dec (wires [there] [toks "1,2,9,0,2,1,2,1,1,0"]) (wires_good _ (by decide))
  DataCollection.empty _ [] rfl (by decide) ⟨there, by simp [wires], by decide, by decide⟩
  (by
    intro l hl
    simp only [wires, List.mem_singleton] at hl
    subst hl
    rintro ⟨h, _⟩
    exact absurd h (by decide))
  (by
    intro l hl _ _
    simp only [wires, List.mem_singleton] at hl
    subst hl
    decide)

/-- Reading the same file twice. -/
example (k : Case) (m : List ((Int × Int) × Nat)) (h : getCase RawBus.dec 0 [] DataCollection.empty (wires [there] []) = .done (k, m)) :
    ∀ n, getCase RawBus.dec n m DataCollection.empty (wires [there] []) = .undefined :=
  C220_again_violated RawBus.dec _ _ (wires_good _ (by decide)) _ _ 0 k m h there there [] (by simp [wires]) rfl
    (Or.inl ⟨rfl, rfl⟩)

example : ∃ k m, getCase RawBus.dec 0 [] DataCollection.empty (wires [there] []) = .done (k, m) := by
  obtain ⟨k, m, h, _⟩ := C216_buses RawBus.dec (wires [there] []) (wires_good _ (by decide)) _ empty_noAreas
  exact ⟨k, m, h 0 (by simp [wires])⟩

example (k : Case) (m : List ((Int × Int) × Nat)) (h : getCase RawBus.dec 0 [] DataCollection.empty (wires [there] []) = .done (k, m)) :=
  C220_again_partial RawBus.dec _ (wires [toks "2,3,1,1,10,0,0,0,0,0,0,0,0,0,0,1"] []) (wires_good _ (by decide)) _
    DataCollection.empty 0 k m h (by
      intro l hl r hr
      simp only [wires, List.mem_singleton, List.append_nil] at hl hr
      subst hl hr
      rintro (⟨h1, _⟩ | ⟨_, h1⟩) <;> exact absurd h1 (by decide))

end GridPACK.Raw23
