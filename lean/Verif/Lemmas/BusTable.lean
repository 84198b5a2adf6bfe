import Verif.Spec.BusTable
import Verif.Props.HashDistr
import Mathlib.Tactic.Ring
import Mathlib.Tactic.Linarith

/-! Lemmas for tables of bus data. -/
namespace GridPACK.BusTable
open GridPACK.StringUtils GridPACK.Exchange
variable {D : Type}

theorem consHead_word (w : Str) (t : Str) (ts : List Str) :
    w.foldr consHead (t :: ts) = (w ++ t) :: ts := by
  induction w with
  | nil => rfl
  | cons c w ih => simp [ih, consHead]

theorem splitAux_word (w s : Str) (b : Bool) (hw : ' ' ∉ w) (hne : w ≠ []) :
    splitAux b (w ++ s) = w.foldr consHead (splitAux false s) := by
  induction w generalizing b with
  | nil => exact absurd rfl hne
  | cons c w ih =>
    have hc : c ≠ ' ' := fun h => hw (by simp [h])
    rw [List.cons_append, splitAux, if_neg hc, List.foldr_cons]
    by_cases h : w = []
    · subst h; rfl
    · rw [ih _ (fun h => hw (List.mem_cons_of_mem _ h)) h]

theorem splitAux_blanks (k : Nat) (s : Str) : splitAux true (List.replicate k ' ' ++ s) = splitAux true s := by
  induction k with
  | zero => rfl
  | succ k ih => rw [List.replicate_succ, List.cons_append, splitAux, if_pos rfl, if_pos rfl, ih]

theorem IsWord.noBlank {w : Str} (h : IsWord w) : ' ' ∉ w := by
  intro hm
  have := h.2 _ hm
  simp [white] at this

theorem split_words (w : Str) (ws : List (Nat × Str)) (b : Bool) (hw : IsWord w)
    (hws : ∀ v ∈ ws, IsWord v.2) : splitAux b (w ++ spaced ws) = w :: ws.map (·.2) := by
  induction ws generalizing w b with
  | nil =>
    simp only [spaced, List.flatMap_nil]
    rw [splitAux_word w [] b hw.noBlank hw.1]
    simp [splitAux, consHead_word]
  | cons v ws ih =>
    rw [splitAux_word w _ b hw.noBlank hw.1]
    have e : spaced (v :: ws) = ' ' :: (List.replicate v.1 ' ' ++ (v.2 ++ spaced ws)) := by
      simp [spaced, List.replicate_succ]
    rw [e, splitAux, if_pos rfl]
    simp only [Bool.false_eq_true, if_false]
    rw [splitAux_blanks, ih v.2 true (hws v (by simp)) (fun x hx => hws x (List.mem_cons_of_mem _ hx)),
      consHead_word]
    simp

/-- The middle of a line. -/
def TextRow.body (r : TextRow) : Str := r.bus ++ spaced ((r.tagGap, r.tag) :: r.vals)

theorem spaced_last (ws : List (Nat × Str)) (hws : ∀ v ∈ ws, IsWord v.2) (c : Char)
    (h : (spaced ws).getLast? = some c) : white c = false := by
  induction ws using List.reverseRecOn with
  | nil => simp [spaced] at h
  | append_singleton ws v _ =>
    have hv := hws v (by simp)
    have : spaced (ws ++ [v]) = (spaced ws ++ List.replicate (v.1 + 1) ' ') ++ v.2 := by
      simp [spaced]
    rw [this, List.getLast?_append_of_ne_nil _ hv.1] at h
    exact hv.2 c (List.mem_of_getLast? h)

theorem spaced_chars (ws : List (Nat × Str)) (hws : ∀ v ∈ ws, IsWord v.2) (c : Char)
    (h : c ∈ spaced ws) : c = ' ' ∨ white c = false := by
  obtain ⟨v, hv, hc⟩ := List.mem_flatMap.1 h
  rcases List.mem_append.1 hc with hc | hc
  · exact .inl (List.eq_of_mem_replicate hc)
  · exact .inr ((hws v hv).2 c hc)

theorem TextRow.Ok.words {nval : Nat} {r : TextRow} (h : r.Ok nval) :
    ∀ v ∈ (r.tagGap, r.tag) :: r.vals, IsWord v.2 := by
  intro v hv
  rcases List.mem_cons.1 hv with rfl | hv
  · exact h.tag
  · exact h.vals v hv

theorem trim_text {nval : Nat} {r : TextRow} (h : r.Ok nval) : trim r.text = r.body := by
  have hch : ∀ c ∈ r.text, c = ' ' ∨ white c = false := by
    intro c hc
    rcases List.mem_append.1 hc with hc | hc
    · rcases List.mem_append.1 hc with hc | hc
      · exact .inl (List.eq_of_mem_replicate hc)
      · rcases List.mem_append.1 hc with hc | hc
        · exact .inr (h.bus.2 c hc)
        · exact spaced_chars _ h.words c hc
    · exact .inl (List.eq_of_mem_replicate hc)
  have h1 : IsTrimOf (trim r.text) r.text := C25_trim_plain_partial _ (by
    intro c hc
    rcases hch c hc with rfl | hw
    · decide
    · refine ⟨?_, ?_, ?_⟩ <;> (rintro rfl; simp [white] at hw))
  have h2 : IsTrimOf r.body r.text := by
    refine ⟨_, _, rfl, ?_, ?_, ?_, ?_⟩
    · intro c hc; rw [List.eq_of_mem_replicate hc]; decide
    · intro c hc; rw [List.eq_of_mem_replicate hc]; decide
    · intro c hc
      unfold TextRow.body at hc
      rw [List.head?_append_of_ne_nil _ h.bus.1] at hc
      exact h.bus.2 c (List.mem_of_head? hc)
    · intro c hc
      unfold TextRow.body at hc
      rw [List.getLast?_append_of_ne_nil _ (by simp [spaced])] at hc
      exact spaced_last _ h.words c hc
  exact h1.unique h2

theorem split_text {nval : Nat} {r : TextRow} (h : r.Ok nval) :
    split (trim r.text) = r.bus :: r.tag :: r.vals.map (·.2) := by
  rw [trim_text h]
  exact split_words _ _ _ h.bus h.words

theorem body_not_comment {nval : Nat} {r : TextRow} (h : r.Ok nval) : isComment r.body = false := by
  unfold isComment TextRow.body
  rw [List.head?_append_of_ne_nil _ h.bus.1]
  simpa using h.noComment

theorem text_not_comment {nval : Nat} {r : TextRow} (h : r.Ok nval) : isComment r.text = false := by
  unfold isComment TextRow.text
  cases r.lead with
  | zero =>
    have := h.noComment
    simp only [List.replicate_zero, List.nil_append]
    rw [List.append_assoc, List.head?_append_of_ne_nil _ h.bus.1]
    simpa using this
  | succ k => rw [List.replicate_succ]; simp

theorem allSome_map_some {α : Type} (l : List α) : allSome (l.map some) = some l := by
  induction l with
  | nil => rfl
  | cons a l ih => simp [allSome, ih]

theorem allSome_map_of {α β : Type} (f : α → Option β) (g : α → β) (l : List α)
    (h : ∀ a ∈ l, f a = some (g a)) : allSome (l.map f) = some (l.map g) := by
  rw [← allSome_map_some, List.map_map]
  congr 1
  exact List.map_congr_left h

theorem take_padded {id : Str} (h : IsId id) : (padded id).take 2 = padded id := by
  match id, h.1 with
  | [c], _ => rfl
  | [c, d], _ => rfl

theorem clean_tag {nval : Nat} {r : TextRow} (h : r.Ok nval) : clean2Char r.tag = .ok (padded r.id) := by
  rcases h.quoted with e | ⟨q, hq, e⟩
  · have := (C28_clean2Char_partial r.id h.id 0 0 0 0 '\'' (.inl rfl)).1
    rw [e]; simpa using this
  · have := (C28_clean2Char_partial r.id h.id 0 0 0 0 q hq).2
    rw [e]; simpa using this

/-- The line as rank 0 keeps it. -/
def TextRow.row (atoi : Str → Int) (atof : Str → D) (r : TextRow) : Row D :=
  ⟨atoi r.bus, padded r.id, r.vals.map fun v => atof v.2⟩

theorem readRow_text (atoi : Str → Int) (atof : Str → D) {nval : Nat} {r : TextRow} (h : r.Ok nval) :
    readRow atoi atof nval r.text = some (r.row atoi atof) := by
  unfold readRow
  rw [split_text h]
  have e : allSome ((List.range nval).map fun i =>
      ((r.bus :: r.tag :: r.vals.map (·.2))[i + 2]?).map atof) = some (r.vals.map fun v => atof v.2) := by
    have : (List.range nval).map (fun i => ((r.bus :: r.tag :: r.vals.map (·.2))[i + 2]?).map atof)
        = (r.vals.map fun v => atof v.2).map some := by
      apply List.ext_getElem
      · simp [h.count]
      · intro i h1 h2
        simp at h1 h2
        simp [List.getElem?_eq_getElem h2]
    rw [this, allSome_map_some]
  simp only [List.getElem?_cons_succ, List.getElem?_cons_zero, clean_tag h] at e ⊢
  rw [e]
  simp [TextRow.row, take_padded h.id]

theorem pass2_row (atoi : Str → Int) (atof : Str → D) (nval : Nat) (rest : Str) (line : Str)
    (more : List Str) (h : isComment line = false) : pass2 atoi atof nval rest (line :: more) =
      match readRow atoi atof nval line, pass2 atoi atof nval rest more with
      | some r, some rs => some (r :: rs)
      | _, _ => none := by
  cases more with
  | nil =>
    rw [pass2.eq_def]
    simp only [h, Bool.false_eq_true, if_false]
    cases readRow atoi atof nval line <;> cases pass2 atoi atof nval rest [] <;> rfl
  | cons a b =>
    rw [pass2.eq_def]
    simp only [h, Bool.false_eq_true, if_false]
    cases readRow atoi atof nval line <;> cases pass2 atoi atof nval rest (a :: b) <;> rfl

theorem pass2_skip (atoi : Str → Int) (atof : Str → D) (nval : Nat) (rest : Str) (line : Str)
    (more : List Str) (h : isComment line = true) (hm : more ≠ []) :
    pass2 atoi atof nval rest (line :: more) = pass2 atoi atof nval rest more := by
  cases more with
  | nil => exact absurd rfl hm
  | cons a b => rw [pass2, if_pos h]

theorem pass2_rows (atoi : Str → Int) (atof : Str → D) {nval : Nat} (rest : Str) (rows : List TextRow)
    (h : ∀ r ∈ rows, r.Ok nval) : pass2 atoi atof nval rest (rows.map TextRow.text)
      = some (rows.map (TextRow.row atoi atof)) := by
  induction rows with
  | nil => rfl
  | cons r rows ih =>
    have hr := h r (by simp)
    rw [List.map_cons, pass2_row _ _ _ _ _ _ (text_not_comment hr)]
    rw [readRow_text atoi atof hr, ih (fun x hx => h x (List.mem_cons_of_mem _ hx))]
    rfl

theorem pass2_comments (atoi : Str → Int) (atof : Str → D) (nval : Nat) (rest : Str) (cs lines : List Str)
    (hl : lines ≠ []) : pass2 atoi atof nval rest (cs.map ('#' :: ·) ++ lines)
      = pass2 atoi atof nval rest lines := by
  induction cs with
  | nil => rfl
  | cons c cs ih =>
    rw [List.map_cons, List.cons_append, pass2_skip _ _ _ _ _ _ rfl, ih]
    intro hx
    exact hl (List.append_eq_nil_iff.1 hx).2

theorem skip_comments (cs : List Str) (line : Str) (more hs : List Str) (c : Str)
    (hline : isComment line = false) :
    skipComments ('#' :: c) (cs.map ('#' :: ·) ++ line :: more) hs =
      (hs ++ (c :: cs).map (fun c => header ('#' :: c)), some (line, more)) := by
  induction cs generalizing c hs with
  | nil =>
    rw [List.map_nil, List.nil_append, skipComments, if_pos (show isComment ('#' :: c) = true from rfl)]
    cases more <;> simp [skipComments, hline]
  | cons d cs ih =>
    rw [List.map_cons, List.cons_append, skipComments,
      if_pos (show isComment ('#' :: c) = true from rfl), ih]
    simp

theorem boostTrim_blank (x : Str) : boostTrim (' ' :: x) = boostTrim x := by
  unfold boostTrim
  rw [List.dropWhile_cons_of_pos (by decide)]

theorem dropWhile_all (b : Str) (hb : ∀ c ∈ b, isSpace c = true) : b.dropWhile isSpace = [] := by
  induction b with
  | nil => rfl
  | cons x b ih => rw [List.dropWhile_cons_of_pos (hb x (by simp)), ih (fun c hc => hb c (by simp [hc]))]

theorem boostTrim_append (x b : Str) (hb : ∀ c ∈ b, isSpace c = true) : boostTrim (x ++ b) = boostTrim x := by
  have hr : b.reverse.dropWhile isSpace = [] := by
    apply dropWhile_all
    intro c hc
    exact hb c (by simpa using hc)
  unfold boostTrim
  rw [List.dropWhile_append]
  split_ifs with h
  · rw [List.isEmpty_iff] at h
    rw [h]
    have : b.dropWhile isSpace = [] := dropWhile_all b hb
    rw [this]
  · rw [List.reverse_append, List.dropWhile_append, hr]
    simp

theorem header_eq (c : Str) : header ('#' :: c) = trim c := by
  unfold header trim
  rw [replace_all, replace_all, List.tail_cons, List.map_cons]
  exact boostTrim_blank _

theorem asBlank_idem (c : Char) : asBlank (asBlank c) = asBlank c := by
  unfold asBlank
  split_ifs <;> simp_all

theorem trim_comment (c : Str) : ∃ c', trim ('#' :: c) = '#' :: c' ∧ trim c' = trim c := by
  obtain ⟨a, b, e, ha, hb, h1, h2⟩ := C25_trim_partial ('#' :: c)
  rw [List.map_cons] at e
  have hs : asBlank '#' = '#' := by decide
  rw [hs] at e
  cases a with
  | cons x a =>
    simp only [List.cons_append, List.cons.injEq] at e
    have := ha x (by simp)
    rw [← e.1] at this
    exact absurd this (by decide)
  | nil =>
    rw [List.nil_append] at e
    cases ht : trim ('#' :: c) with
    | cons x t =>
      rw [ht] at e
      simp only [List.cons_append, List.cons.injEq] at e
      refine ⟨t, by rw [e.1], ?_⟩
      have hm : t.map asBlank = t := by
        conv => rhs; rw [← List.map_id t]
        apply List.map_congr_left
        intro y hy
        have : y ∈ c.map asBlank := by rw [e.2]; simp [hy]
        obtain ⟨z, -, hz⟩ := List.mem_map.1 this
        rw [← hz, asBlank_idem]
        rfl
      unfold trim
      rw [replace_all, replace_all, e.2, hm, boostTrim_append _ _ (by rw [white_eq]; exact hb)]
    | nil =>
      rw [ht, List.nil_append] at e
      have := hb '#' (by rw [← e]; simp)
      exact absurd this (by decide)

theorem pass1_file (cs : List Str) (r : TextRow) {nval : Nat} (hn : 0 < nval)
    (hr : r.Ok nval) (lines : List Str) (rest : Str) :
    pass1 ⟨cs.map ('#' :: ·) ++ r.text :: lines, rest⟩ = some (cs.map trim, (nval : Int), lines.length + 1) := by
  have hlen : (((split (trim r.text)).length : Int) - 2) = nval := by
    rw [split_text hr]; simp [hr.count]; omega
  have hpos : (nval : Int) > 0 := by omega
  cases cs with
  | nil =>
    have e : skipComments (trim r.text) lines [] = ([], some (trim r.text, lines)) := by
      rw [trim_text hr]
      cases lines <;> simp [skipComments, body_not_comment hr]
    simp only [pass1, List.map_nil, List.nil_append, e, C25_idempotent, hlen, hpos, if_true]
    simp [Nat.add_comm]
  | cons c cs =>
    obtain ⟨c', hc, hc'⟩ := trim_comment c
    have e := skip_comments cs r.text lines [] c' (text_not_comment hr)
    simp only [pass1, List.map_cons, List.cons_append, hc, e, hlen, hpos, if_true]
    simp [Nat.add_comm, header_eq, hc']

/-- What the fill loop maintains. -/
structure FillOk (nval : Nat) (flat : List D) (s : Fill D) : Prop where
  size : flat.length = s.ncnt * nval
  lo : s.lo + s.pend.length = flat.length
  pend : s.pend.length = (s.ncnt % numSlices) * nval
  low : ∀ i, i < s.lo → s.mem i = flat[i]?
  high : ∀ i, s.pend[i]? = flat[s.lo + i]?

theorem fillStep_ok {nval : Nat} {flat : List D} {s : Fill D} (h : FillOk nval flat s) (vals : List D)
    (hv : vals.length = nval) : FillOk nval (flat ++ vals) (fillStep nval s vals) := by
  have hlo := h.lo
  have hp := h.pend
  have hsz := h.size
  have hpend : ∀ i, (s.pend ++ vals)[i]? = (flat ++ vals)[s.lo + i]? := by
    intro i
    by_cases hi : i < s.pend.length
    · rw [List.getElem?_append_left hi, List.getElem?_append_left (by omega), h.high]
    · rw [List.getElem?_append_right (by omega), List.getElem?_append_right (by omega)]
      congr 1; omega
  have hlow : ∀ i, i < s.lo → s.mem i = (flat ++ vals)[i]? := by
    intro i hi
    rw [h.low i hi, List.getElem?_append_left (by omega)]
  have hmul : (s.ncnt + 1) * nval = s.ncnt * nval + nval := by ring
  unfold fillStep
  by_cases hm : (s.ncnt + 1) % numSlices = 0
  · simp only [hm, if_true]
    refine ⟨by simp [hsz, hv, hmul], by simp [hsz, hv, hmul], by simp [hm], ?_, ?_⟩
    · intro i hi
      simp only [put]
      have hi' : i < (s.ncnt + 1) * nval := hi
      split
      · rename_i hc
        rw [hpend]; congr 1; omega
      · rename_i hc
        apply hlow
        rw [List.length_append] at hc
        omega
    · intro i
      simp only [List.getElem?_nil]
      rw [List.getElem?_eq_none]
      simp [hsz, hv, hmul]
  · simp only [hm, if_false]
    have hmod : (s.ncnt + 1) % numSlices = s.ncnt % numSlices + 1 := by
      unfold numSlices at *
      omega
    refine ⟨by simp [hsz, hv, hmul], by simp; omega, ?_, hlow, hpend⟩
    simp only [List.length_append, hp, hv, hmod]; ring

theorem fillLoop_ok {nval : Nat} (rows : List (List D)) (hv : ∀ r ∈ rows, r.length = nval)
    (flat : List D) (s : Fill D) (h : FillOk nval flat s) :
    FillOk nval (flat ++ rows.flatten) (rows.foldl (fillStep nval) s) ∧
    (rows.foldl (fillStep nval) s).ncnt = s.ncnt + rows.length := by
  induction rows generalizing flat s with
  | nil => simpa using h
  | cons r rows ih =>
    have h1 := fillStep_ok h r (hv r (by simp))
    obtain ⟨h2, h3⟩ := ih (fun x hx => hv x (List.mem_cons_of_mem _ hx)) _ _ h1
    rw [List.foldl_cons]
    refine ⟨by simpa using h2, ?_⟩
    rw [h3]
    have : (fillStep nval s r).ncnt = s.ncnt + 1 := by
      unfold fillStep; dsimp only; split <;> rfl
    rw [this, List.length_cons]; omega

theorem fill_ok {nval : Nat} (rows : List (List D)) (hv : ∀ r ∈ rows, r.length = nval) (extra : Nat)
    (hx : rows.length % numSlices = 0 ∨ rows.length % numSlices + extra ≤ numSlices) :
    ∃ mem, fill nval (rows.length + extra) rows = some mem ∧
      ∀ i, i < rows.length * nval → mem i = rows.flatten[i]? := by
  have h0 : FillOk nval ([] : List D) ⟨fun _ => none, 0, 0, []⟩ :=
    ⟨by simp, by simp, by simp, by intro i hi; exact absurd hi (by simp), by intro i; simp⟩
  obtain ⟨h, hn⟩ := fillLoop_ok rows hv [] _ h0
  rw [List.nil_append] at h
  simp only [Nat.zero_add] at hn
  set s := rows.foldl (fillStep nval) ⟨fun _ => none, 0, 0, []⟩ with hs
  unfold fill
  simp only [← hs]
  have hsz := h.size
  have hlo := h.lo
  have hp := h.pend
  rw [hn] at hsz hp
  by_cases hm : rows.length % numSlices = 0
  · rw [hn, if_neg (by simpa using hm)]
    refine ⟨s.mem, rfl, ?_⟩
    intro i hi
    apply h.low
    rw [hm] at hp
    omega
  · rw [hn, if_pos hm]
    have hle : (rows.length + extra) * nval - s.lo ≤ numSlices * nval := by
      have e1 : (rows.length + extra) * nval = rows.length * nval + extra * nval := by ring
      have e2 : s.lo + (rows.length % numSlices) * nval = rows.length * nval := by omega
      have e3 : (rows.length % numSlices + extra) * nval ≤ numSlices * nval := by
        apply Nat.mul_le_mul_right
        rcases hx with hx | hx
        · exact absurd hx hm
        · exact hx
      have e4 : (rows.length % numSlices + extra) * nval
          = (rows.length % numSlices) * nval + extra * nval := by ring
      omega
    rw [if_pos hle]
    refine ⟨_, rfl, ?_⟩
    intro i hi
    have e1 : (rows.length + extra) * nval = rows.length * nval + extra * nval := by ring
    split
    · rename_i hc
      rw [h.high]; congr 1; omega
    · rename_i hc
      apply h.low
      have : rows.length * nval ≤ (rows.length + extra) * nval := by rw [e1]; exact Nat.le_add_right _ _
      omega

theorem fill_bad {nval : Nat} (hn : 0 < nval) (rows : List (List D)) (hv : ∀ r ∈ rows, r.length = nval)
    (extra : Nat) (hm : rows.length % numSlices ≠ 0)
    (hx : numSlices < rows.length % numSlices + extra) : fill nval (rows.length + extra) rows = none := by
  have h0 : FillOk nval ([] : List D) ⟨fun _ => none, 0, 0, []⟩ :=
    ⟨by simp, by simp, by simp, by intro i hi; exact absurd hi (by simp), by intro i; simp⟩
  obtain ⟨h, hn'⟩ := fillLoop_ok rows hv [] _ h0
  rw [List.nil_append] at h
  simp only [Nat.zero_add] at hn'
  set s := rows.foldl (fillStep nval) ⟨fun _ => none, 0, 0, []⟩ with hs
  unfold fill
  simp only [← hs]
  have hsz := h.size
  have hlo := h.lo
  have hp := h.pend
  rw [hn'] at hsz hp
  rw [hn', if_pos hm, if_neg]
  have e1 : (rows.length + extra) * nval = rows.length * nval + extra * nval := by ring
  have e3 : (numSlices + 1) * nval ≤ (rows.length % numSlices + extra) * nval :=
    Nat.mul_le_mul_right _ hx
  have e4 : (rows.length % numSlices + extra) * nval
      = (rows.length % numSlices) * nval + extra * nval := by ring
  have e5 : (numSlices + 1) * nval = numSlices * nval + nval := by ring
  omega

/-- Lines of equal length written one after the other. -/
theorem flatten_get {nval : Nat} (rows : List (List D)) (hv : ∀ r ∈ rows, r.length = nval) (k c : Nat)
    (hc : c < nval) : rows.flatten[nval * k + c]? = (rows[k]?).bind (·[c]?) := by
  induction rows generalizing k with
  | nil => simp
  | cons r rows ih =>
    have hr := hv r (by simp)
    rw [List.flatten_cons]
    cases k with
    | zero => rw [List.getElem?_append_left (by omega)]; simp
    | succ k =>
      rw [List.getElem?_append_right (by rw [hr]; nlinarith)]
      rw [List.getElem?_cons_succ, ← ih (fun x hx => hv x (List.mem_cons_of_mem _ hx))]
      congr 1
      rw [hr, Nat.mul_succ]; omega

/-- What the rows on rank 0 give on a rank, column `c`. -/
def seen (rows : List (Row D)) (orig : List Int) (c : Nat) : List (Nat × Str × D) :=
  rows.flatMap fun r => ((List.range orig.length).filter fun i => orig[i]? = some r.bus).flatMap
    fun i => (r.vals[c]?).toList.map fun v => (i, r.tag, v)

theorem zip3 {α β γ δ : Type} (l : List α) (f : α → β) (g : α → γ) (k : α → δ) :
    (l.map f).zip ((l.map g).zip (l.map k)) = l.map fun a => (f a, g a, k a) := by
  induction l with
  | nil => rfl
  | cons a l ih => simp [ih]

/-- Once the file has been parsed, every rank sees the rows. -/
theorem read_core (atoi : Str → Int) (atof : Str → D) (n : Nat) (hn : 0 < n) (bound : Nat → Nat → Nat)
    (hb : ∀ total, HashDistr.BoundOk n total (bound total)) (puts : List Nat)
    (hp : puts.Perm (List.range n)) (f : File) (rows : List (Row D)) (nval : Nat) (hnv : 0 < nval)
    (hs : List Str) (extra : Nat) (h1 : pass1 f = some (hs, (nval : Int), rows.length + extra))
    (h2 : pass2 atoi atof nval f.rest f.lines = some rows) (hne : rows ≠ [])
    (hv : ∀ r ∈ rows, r.vals.length = nval) (ht : ∀ r ∈ rows, clean2Char r.tag = .ok r.tag)
    (hx : rows.length % numSlices = 0 ∨ rows.length % numSlices + extra ≤ numSlices)
    (orig : List Int) (me : Nat) :
    ∃ t, readTable atoi atof n bound puts f orig me = some (some t) ∧ t.nvals = nval ∧
      ∀ c, c < nval → Sees t c (seen rows orig c) := by
  have hlen : 0 < rows.length := List.length_pos_iff.2 hne
  have hvals : ∀ r ∈ rows.map (·.vals), r.length = nval := by
    intro r hr
    obtain ⟨x, hx, rfl⟩ := List.mem_map.1 hr
    exact hv x hx
  obtain ⟨mem, hmem, hcells⟩ := fill_ok (rows.map (·.vals)) hvals extra (by simpa using hx)
  rw [List.length_map] at hmem hcells
  set inp : Nat → List (Int × (Str × Nat)) := fun p =>
    if p = 0 then rows.zipIdx.map (fun r => (r.1.bus, (r.1.tag, r.2))) else [] with hinp
  have hall : (List.range n).flatMap inp = rows.zipIdx.map (fun r => (r.1.bus, (r.1.tag, r.2))) := by
    obtain ⟨m, rfl⟩ : ∃ m, n = m + 1 := ⟨n - 1, by omega⟩
    rw [List.range_succ_eq_map, List.flatMap_cons]
    have : (List.map Nat.succ (List.range m)).flatMap inp = [] := by
      rw [List.flatMap_eq_nil_iff]
      intro x hx
      obtain ⟨y, _, rfl⟩ := List.mem_map.1 hx
      simp [hinp]
    rw [this, List.append_nil, hinp]
    simp
  obtain ⟨out, hout, hperm⟩ := HashDistr.C10_distribute_exact n hn (bound rows.length) inp puts hp
    (by rw [hall]; simpa using hb rows.length) orig me
  rw [hall] at hperm
  have hmemout : ∀ e ∈ out, ∃ r, rows[e.2.2]? = some r ∧ e.2.1 = r.tag := by
    intro e he
    have := hperm.mem_iff.1 he
    obtain ⟨kv, hkv, he⟩ := List.mem_flatMap.1 this
    obtain ⟨i, _, rfl⟩ := List.mem_map.1 he
    obtain ⟨x, hx, rfl⟩ := List.mem_map.1 hkv
    exact ⟨x.1, by simpa using List.mk_mem_zipIdx_iff_getElem?.1 hx, rfl⟩
  have hent : allSome (out.map toEntry) = some (out.map fun e => (e.1, e.2.1, e.2.2)) := by
    apply allSome_map_of
    intro e he
    obtain ⟨r, hr, htag⟩ := hmemout e he
    unfold toEntry
    rw [htag, ht r (List.mem_of_getElem? hr)]
  refine ⟨⟨mem, (rows.length + extra) * nval, nval, out.map fun e => (e.1, e.2.1, e.2.2)⟩, ?_, rfl, ?_⟩
  · unfold readTable
    rw [h1]
    have hc : ((nval : Int) > 0 ∧ rows.length + extra > 0) := ⟨by omega, by omega⟩
    simp only [hc, and_self, if_true, Int.toNat_natCast, h2, hmem]
    rw [show HashDistr.distribute n (bound rows.length) (fun p => if p = 0 then
      rows.zipIdx.map (fun r => (r.1.bus, (r.1.tag, r.2))) else []) puts orig me = some out from hout]
    simp only [hent]
  · intro c hc
    have hval : ∀ e ∈ out, ∃ r v, rows[e.2.2]? = some r ∧ e.2.1 = r.tag ∧ r.vals[c]? = some v ∧
        nval * e.2.2 + c < (rows.length + extra) * nval ∧ mem (nval * e.2.2 + c) = some v := by
      intro e he
      obtain ⟨r, hr, htag⟩ := hmemout e he
      have hlt : e.2.2 < rows.length := (List.getElem?_eq_some_iff.1 hr).1
      have hrl := hv r (List.mem_of_getElem? hr)
      have hcell : nval * e.2.2 + c < rows.length * nval := by
        have : nval * (e.2.2 + 1) ≤ nval * rows.length := Nat.mul_le_mul_left _ hlt
        rw [Nat.mul_succ] at this
        rw [Nat.mul_comm rows.length]
        omega
      have hge : rows.length * nval ≤ (rows.length + extra) * nval := Nat.mul_le_mul_right _ (by omega)
      refine ⟨r, r.vals[c], hr, htag, List.getElem?_eq_getElem (by omega), by omega, ?_⟩
      rw [hcells _ hcell, flatten_get _ hvals _ _ hc]
      simp [hr, List.getElem?_eq_getElem (show c < r.vals.length by omega)]
    have hget : ∀ e : Nat × (Str × Nat), ∃ v : Option D, e ∈ out → ∃ w r, v = some w ∧
        rows[e.2.2]? = some r ∧ e.2.1 = r.tag ∧ r.vals[c]? = some w ∧
        nval * e.2.2 + c < (rows.length + extra) * nval ∧ mem (nval * e.2.2 + c) = some w := by
      intro e
      by_cases he : e ∈ out
      · obtain ⟨r, v, h⟩ := hval e he
        exact ⟨some v, fun _ => ⟨v, r, rfl, h⟩⟩
      · exact ⟨none, fun h => absurd h he⟩
    -- the values in the order of the entries
    obtain ⟨vs, hvs, hzip⟩ : ∃ vs : List D, (out.map fun e => if nval * e.2.2 + c <
        (rows.length + extra) * nval then mem (nval * e.2.2 + c) else none) = vs.map some ∧
        (out.map (·.1)).zip ((out.map (·.2.1)).zip vs) = out.flatMap (fun e =>
          ((rows[e.2.2]?).bind (·.vals[c]?)).toList.map fun v => (e.1, e.2.1, v)) := by
      clear hent hperm hout hmemout hget
      induction out with
      | nil => exact ⟨[], rfl, rfl⟩
      | cons e out ih =>
        obtain ⟨vs, h1, h2⟩ := ih (fun x hx => hval x (List.mem_cons_of_mem _ hx))
        obtain ⟨r, v, hr, _, hrv, hlt, hm⟩ := hval e (by simp)
        refine ⟨v :: vs, ?_, ?_⟩
        · rw [List.map_cons, if_pos hlt, hm, h1, List.map_cons]
        · rw [List.map_cons, List.map_cons, List.zip_cons_cons, List.zip_cons_cons, h2,
            List.flatMap_cons]
          simp [hr, hrv]
    have hvl : vs.length = out.length := by
      have := congrArg List.length hvs
      simpa using this.symm
    refine ⟨vs, ?_, by simp [Table.localIndices, hvl], by simp [Table.tags, hvl], ?_⟩
    · unfold Table.values
      simp only [List.map_map, Function.comp_def]
      rw [hvs, allSome_map_some]
    · simp only [Table.localIndices, Table.tags, List.map_map, Function.comp_def]
      rw [hzip]
      refine (hperm.flatMap_right _).trans ?_
      rw [List.flatMap_assoc]
      have : (rows.zipIdx.map (fun r => (r.1.bus, (r.1.tag, r.2)))).flatMap (fun kv =>
          (((List.range orig.length).filter (fun i => decide (orig[i]? = some kv.1))).map
            (fun i => (i, kv.2))).flatMap (fun e =>
              ((rows[e.2.2]?).bind (·.vals[c]?)).toList.map fun v => (e.1, e.2.1, v)))
          = rows.zipIdx.flatMap (fun r => ((List.range orig.length).filter
              fun i => orig[i]? = some r.1.bus).flatMap
                fun i => (r.1.vals[c]?).toList.map fun v => (i, r.1.tag, v)) := by
        rw [List.flatMap_map]
        apply List.flatMap_congr
        intro x hx
        have hx' : rows[x.2]? = some x.1 := List.mk_mem_zipIdx_iff_getElem?.1 hx
        rw [List.flatMap_map]
        simp only [hx', Option.bind_some]
      rw [this]
      unfold seen
      have e : rows = rows.zipIdx.map (·.1) := by simp
      conv => rhs; rw [e]
      rw [List.flatMap_map]

end GridPACK.BusTable
