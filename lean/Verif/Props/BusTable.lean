import Verif.Lemmas.BusTable

/-! Claim C200: a table of bus data is delivered to the ranks that hold the buses. -/
namespace GridPACK.BusTable
open GridPACK.StringUtils GridPACK.Exchange
variable {D : Type}

/-- What is assumed of the distribution: every rounding of the chunk boundaries is covered, and the ranks
write in any order. -/
structure Ranks (n : Nat) (bound : Nat → Nat → Nat) (puts : List Nat) : Prop where
  pos : 0 < n
  bounds : ∀ total, HashDistr.BoundOk n total (bound total)
  order : puts.Perm (List.range n)

theorem rows_vals (atoi : Str → Int) (atof : Str → D) {nval : Nat} {rows : List TextRow}
    (h : ∀ r ∈ rows, r.Ok nval) :
    ∀ r ∈ rows.map (TextRow.row atoi atof), r.vals.length = nval := by
  intro r hr
  obtain ⟨x, hx, rfl⟩ := List.mem_map.1 hr
  simpa [TextRow.row] using (h x hx).count

theorem rows_tags (atoi : Str → Int) (atof : Str → D) {nval : Nat} {rows : List TextRow}
    (h : ∀ r ∈ rows, r.Ok nval) :
    ∀ r ∈ rows.map (TextRow.row atoi atof), clean2Char r.tag = .ok r.tag := by
  intro r hr
  obtain ⟨x, hx, rfl⟩ := List.mem_map.1 hr
  exact C28_idempotent x.id (h x hx).id

theorem seen_rows (atoi : Str → Int) (atof : Str → D) (rows : List TextRow) (orig : List Int) (c : Nat) :
    seen (rows.map (TextRow.row atoi atof)) orig c = expected atoi atof rows orig c := by
  unfold seen expected
  rw [List.flatMap_map]
  apply List.flatMap_congr
  intro r _
  apply List.flatMap_congr
  intro i _
  simp only [TextRow.row, List.getElem?_map]
  cases r.vals[c]? <;> rfl

/-- C200, the part that holds: a file of comment lines followed by proper lines, each ended by a newline,
is read on every rank; the table has as many columns as there are values on a line; and for every
column the rank sees, for every line and every local bus with its number (ghost copies included), exactly
one entry with the position of the bus, the tag and the value.  Missing: other layouts of the file, see the
theorems below. -/
theorem C200_table_partial (atoi : Str → Int) (atof : Str → D) {n : Nat} {bound : Nat → Nat → Nat}
    {puts : List Nat} (hr : Ranks n bound puts) (comments : List Str) (rows : List TextRow) (nval : Nat)
    (hn : 0 < nval) (hne : rows ≠ []) (hok : ∀ r ∈ rows, r.Ok nval) (orig : List Int) (me : Nat) :
    ∃ t, readTable atoi atof n bound puts (fileOf comments rows) orig me = some (some t) ∧
      t.nvals = nval ∧ ∀ c, c < nval → Sees t c (expected atoi atof rows orig c) := by
  obtain ⟨r, rs, rfl⟩ := List.exists_cons_of_ne_nil hne
  have h1 := pass1_file comments r hn (hok r (by simp)) (rs.map TextRow.text) []
  have h2 : pass2 atoi atof nval [] (fileOf comments (r :: rs)).lines
      = some ((r :: rs).map (TextRow.row atoi atof)) := by
    unfold fileOf
    rw [pass2_comments _ _ _ _ _ _ (by simp), pass2_rows _ _ _ _ hok]
  have := read_core atoi atof n hr.pos bound hr.bounds puts hr.order (fileOf comments (r :: rs))
    ((r :: rs).map (TextRow.row atoi atof)) nval hn _ 0 (by
      unfold fileOf; rw [List.map_cons]; simpa using h1) h2 (by simp) (rows_vals _ _ hok)
    (rows_tags _ _ hok) (.inr (by
      have := Nat.mod_lt ((r :: rs).map (TextRow.row atoi atof)).length (show numSlices > 0 by decide)
      omega)) orig me
  simp only [seen_rows] at this
  exact this

/-- C200 is violated: a last line that is not ended by a newline is ignored. -/
theorem C200_last_line_violated (atoi : Str → Int) (atof : Str → D) (n : Nat) (bound : Nat → Nat → Nat)
    (puts : List Nat) (comments : List Str) (rows : List TextRow) (nval : Nat) (hn : 0 < nval)
    (hne : rows ≠ []) (hok : ∀ r ∈ rows, r.Ok nval) (last : TextRow) (orig : List Int) (me : Nat) :
    readTable atoi atof n bound puts ⟨(fileOf comments rows).lines, last.text⟩ orig me =
      readTable atoi atof n bound puts (fileOf comments rows) orig me := by
  obtain ⟨r, rs, rfl⟩ := List.exists_cons_of_ne_nil hne
  have h1 := pass1_file comments r hn (hok r (by simp)) (rs.map TextRow.text) []
  have h2 : ∀ rest, pass2 atoi atof nval rest (fileOf comments (r :: rs)).lines
      = some ((r :: rs).map (TextRow.row atoi atof)) := by
    intro rest
    unfold fileOf
    rw [pass2_comments _ _ _ _ _ _ (by simp), pass2_rows _ _ _ _ hok]
  have h1' : ∀ rest, pass1 ⟨(fileOf comments (r :: rs)).lines, rest⟩
      = some (comments.map trim, (nval : Int), (rs.map TextRow.text).length + 1) := by
    intro rest
    have : ∀ f f' : File, f.lines = f'.lines → pass1 f = pass1 f' := by
      intro f f' h; unfold pass1; rw [h]
    rw [← h1]; apply this; rfl
  unfold readTable
  rw [h1', show pass1 (fileOf comments (r :: rs)) = _ from h1' []]
  simp only [Int.toNat_natCast, h2]

/-- The second pass on lines of data interrupted by comments. -/
theorem pass2_inner (atoi : Str → Int) (atof : Str → D) {nval : Nat} (rest : Str) (rows rows' : List TextRow)
    (cs : List Str) (h : ∀ r ∈ rows, r.Ok nval) (h' : ∀ r ∈ rows', r.Ok nval) (hne : rows' ≠ []) :
    pass2 atoi atof nval rest (rows.map TextRow.text ++ (cs.map ('#' :: ·) ++ rows'.map TextRow.text))
      = some ((rows ++ rows').map (TextRow.row atoi atof)) := by
  induction rows with
  | nil =>
    rw [List.map_nil, List.nil_append, List.nil_append, pass2_comments _ _ _ _ _ _ (by simpa using hne),
      pass2_rows _ _ _ _ h']
  | cons r rows ih =>
    have hr := h r (by simp)
    rw [List.map_cons, List.cons_append, pass2_row _ _ _ _ _ _ (text_not_comment hr),
      readRow_text atoi atof hr, ih (fun x hx => h x (List.mem_cons_of_mem _ hx))]
    rfl

/-- C200 is violated: comment lines between the lines of data are counted as lines of data.  When the lines
in the last block of ten together with the comments are more than ten, memory behind the buffer is read. -/
theorem C200_inner_comment_violated (atoi : Str → Int) (atof : Str → D) (n : Nat)
    (bound : Nat → Nat → Nat) (puts : List Nat) (rows rows' : List TextRow) (cs : List Str) (nval : Nat)
    (hn : 0 < nval) (hne : rows ≠ []) (hne' : rows' ≠ []) (hok : ∀ r ∈ rows ++ rows', r.Ok nval)
    (h0 : (rows ++ rows').length % 10 ≠ 0) (hx : 10 < (rows ++ rows').length % 10 + cs.length)
    (orig : List Int) (me : Nat) :
    readTable atoi atof n bound puts
      ⟨rows.map TextRow.text ++ (cs.map ('#' :: ·) ++ rows'.map TextRow.text), []⟩ orig me = none := by
  have h2 := pass2_inner atoi atof (nval := nval) [] rows rows' cs
    (fun r hr => hok r (List.mem_append_left _ hr)) (fun r hr => hok r (List.mem_append_right _ hr)) hne'
  obtain ⟨r, rs, rfl⟩ := List.exists_cons_of_ne_nil hne
  have h1 := pass1_file [] r hn (hok r (by simp))
    (rs.map TextRow.text ++ (cs.map ('#' :: ·) ++ rows'.map TextRow.text)) []
  have hlen : (rs.map TextRow.text ++ (cs.map ('#' :: ·) ++ rows'.map TextRow.text)).length + 1
      = ((r :: rs ++ rows').map (TextRow.row atoi atof)).length + cs.length := by
    simp; omega
  rw [hlen] at h1
  have hv := rows_vals atoi atof hok
  have hb := fill_bad hn (((r :: rs ++ rows').map (TextRow.row atoi atof)).map (·.vals)) (by
    intro v hv'
    obtain ⟨x, hx, rfl⟩ := List.mem_map.1 hv'
    exact hv x hx) cs.length (by simpa [numSlices] using h0) (by simpa [numSlices] using hx)
  unfold readTable
  rw [show pass1 ⟨(r :: rs).map TextRow.text ++ (cs.map ('#' :: ·) ++ rows'.map TextRow.text), []⟩ = _
    from h1]
  have hc : ((nval : Int) > 0 ∧ ((r :: rs ++ rows').map (TextRow.row atoi atof)).length + cs.length > 0) :=
    ⟨by omega, by simp⟩
  simp only [hc, and_self, if_true, Int.toNat_natCast, h2]
  rw [List.length_map] at hb
  rw [hb]

/-- A line of blanks has no second word. -/
theorem readRow_blank (atoi : Str → Int) (atof : Str → D) (nval k : Nat) :
    readRow atoi atof nval (List.replicate k ' ') = none := by
  have : trim (List.replicate k ' ') = [] := by
    have h1 : IsTrimOf (trim (List.replicate k ' ')) (List.replicate k ' ') :=
      C25_trim_plain_partial _ (by
        intro c hc; rw [List.eq_of_mem_replicate hc]; decide)
    refine h1.unique ⟨List.replicate k ' ', [], by simp, ?_, by simp, by simp, by simp⟩
    intro c hc; rw [List.eq_of_mem_replicate hc]; decide
  unfold readRow
  rw [this]
  rfl

theorem pass2_bad (atoi : Str → Int) (atof : Str → D) {nval : Nat} (rest : Str) (rows : List TextRow)
    (h : ∀ r ∈ rows, r.Ok nval) (tail : List Str) (ht : pass2 atoi atof nval rest tail = none) :
    pass2 atoi atof nval rest (rows.map TextRow.text ++ tail) = none := by
  induction rows with
  | nil => exact ht
  | cons r rows ih =>
    have hr := h r (by simp)
    rw [List.map_cons, List.cons_append, pass2_row _ _ _ _ _ _ (text_not_comment hr),
      readRow_text atoi atof hr, ih (fun x hx => h x (List.mem_cons_of_mem _ hx))]

/-- C200 is violated: an empty line behind the data, or a comment at the end of the file, makes the reader
use a word that does not exist. -/
theorem C200_blank_line_violated (atoi : Str → Int) (atof : Str → D) (n : Nat) (bound : Nat → Nat → Nat)
    (puts : List Nat) (comments : List Str) (rows : List TextRow) (nval : Nat) (hn : 0 < nval)
    (hne : rows ≠ []) (hok : ∀ r ∈ rows, r.Ok nval) (orig : List Int) (me : Nat) :
    (∀ (k : Nat) (more : List Str), readTable atoi atof n bound puts
      ⟨(fileOf comments rows).lines ++ List.replicate k ' ' :: more, []⟩ orig me = none) ∧
    (∀ c : Str, readTable atoi atof n bound puts
      ⟨(fileOf comments rows).lines ++ ['#' :: c], []⟩ orig me = none) := by
  obtain ⟨r, rs, rfl⟩ := List.exists_cons_of_ne_nil hne
  have key : ∀ tail : List Str, pass2 atoi atof nval [] tail = none →
      readTable atoi atof n bound puts ⟨(fileOf comments (r :: rs)).lines ++ tail, []⟩ orig me = none := by
    intro tail ht
    have h1 := pass1_file comments r hn (hok r (by simp)) (rs.map TextRow.text ++ tail) []
    have e : (fileOf comments (r :: rs)).lines ++ tail
        = comments.map ('#' :: ·) ++ ((r :: rs).map TextRow.text ++ tail) := by simp [fileOf]
    have h2 : pass2 atoi atof nval [] ((fileOf comments (r :: rs)).lines ++ tail) = none := by
      rw [e, pass2_comments _ _ _ _ _ _ (by simp), pass2_bad _ _ _ _ hok _ ht]
    have h1' : pass1 ⟨(fileOf comments (r :: rs)).lines ++ tail, []⟩
        = some (comments.map trim, (nval : Int), (rs.map TextRow.text ++ tail).length + 1) := by rw [e]; exact h1
    unfold readTable
    rw [h1']
    have hc : ((nval : Int) > 0 ∧ (rs.map TextRow.text ++ tail).length + 1 > 0) := ⟨by omega, by omega⟩
    simp only [hc, and_self, if_true, Int.toNat_natCast, h2]
  constructor
  · intro k more
    apply key
    have hb : isComment (List.replicate k ' ') = false := by
      cases k <;> rfl
    rw [pass2_row _ _ _ _ _ _ hb, readRow_blank]
  · intro c
    apply key
    have : readRow atoi atof nval ([] : Str) = none := readRow_blank atoi atof nval 0
    rw [pass2.eq_def]
    have hb : isComment ('#' :: c) = true := rfl
    simp only [hb, if_true, this]
    rfl

/-- C200 is violated: a tag in quotes that contains a blank, as in `7 '1 ' 5`, is taken for two words; the
second quote becomes the first value and the table has a column too many. -/
theorem C200_quoted_violated (atoi : Str → Int) (atof : Str → D) {n : Nat} {bound : Nat → Nat → Nat}
    {puts : List Nat} (hr : Ranks n bound puts) (h7 : atoi "7".toList = 7) (me : Nat) :
    ∃ t, readTable atoi atof n bound puts ⟨["7 '1 ' 5".toList], []⟩ [7] me = some (some t) ∧
      t.nvals = 2 ∧ Sees t 0 [(0, "1 ".toList, atof "'".toList)] ∧
      Sees t 1 [(0, "1 ".toList, atof "5".toList)] := by
  have hw : split (trim "7 '1 ' 5".toList) = ["7".toList, "'1".toList, "'".toList, "5".toList] := by
    decide +kernel
  have hp1 : pass1 ⟨["7 '1 ' 5".toList], []⟩ = some ([], 2, 1) := by decide +kernel
  have hclean : clean2Char "'1".toList = .ok "1 ".toList := by decide +kernel
  have hrow : readRow atoi atof 2 "7 '1 ' 5".toList
      = some ⟨7, "1 ".toList, [atof "'".toList, atof "5".toList]⟩ := by
    unfold readRow
    rw [hw]
    have e : (["7".toList, "'1".toList, "'".toList, "5".toList] : List Str)[1]? = some "'1".toList := rfl
    simp only [e, hclean]
    have : allSome ((List.range 2).map fun i =>
        ((["7".toList, "'1".toList, "'".toList, "5".toList] : List Str)[i + 2]?).map atof)
        = some [atof "'".toList, atof "5".toList] := rfl
    rw [this]
    simp only [List.getElem?_cons_zero, h7]
    rfl
  have hp2 : pass2 atoi atof 2 [] ["7 '1 ' 5".toList]
      = some [⟨7, "1 ".toList, [atof "'".toList, atof "5".toList]⟩] := by
    rw [pass2_row _ _ _ _ _ _ (by decide +kernel), hrow]
    rfl
  obtain ⟨t, h1, h2, h3⟩ := read_core atoi atof n hr.pos bound hr.bounds puts hr.order
    ⟨["7 '1 ' 5".toList], []⟩ [⟨7, "1 ".toList, [atof "'".toList, atof "5".toList]⟩] 2 (by decide) [] 0
    hp1 hp2 (by simp) (by simp) (by
      intro r hr
      simp only [List.mem_singleton] at hr
      subst hr
      show clean2Char "1 ".toList = .ok "1 ".toList
      decide +kernel) (.inr (by simp [numSlices])) [7] me
  exact ⟨t, h1, h2, h3 0 (by decide), h3 1 (by decide)⟩

/-- The headers found in a file of comment lines and proper lines: the text of the comment lines without the sign and
surrounding white space, in the order of the file. -/
theorem C200_headers_partial (comments : List Str) (rows : List TextRow) (nval : Nat) (hn : 0 < nval) (hne : rows ≠ [])
    (hok : ∀ r ∈ rows, r.Ok nval) : ∃ hs, pass1 (fileOf comments rows) = some (hs, (nval : Int), rows.length) ∧
      hs.length = comments.length ∧
      ∀ (i : Nat) (h c : Str), hs[i]? = some h → comments[i]? = some c → IsTrimOf h (c.map asBlank) := by
  obtain ⟨r, rs, rfl⟩ := List.exists_cons_of_ne_nil hne
  have h1 := pass1_file comments r hn (hok r (by simp)) (rs.map TextRow.text) []
  refine ⟨comments.map trim, ?_, by simp, ?_⟩
  · rw [List.length_map] at h1
    exact h1
  · intro i h c hi hc
    rw [List.getElem?_map, hc] at hi
    rw [← Option.some.inj hi]
    exact C25_trim_partial c

/-- The headers: rank 0 has them.  On any other rank a header is what was sent only if the memory behind
the receive array happens to begin with a zero. -/
theorem C200_headers_violated (behind : Nat → Str) (hs : List Str)
    (hz : ∀ h ∈ hs, ∀ c ∈ h, c ≠ '\x00') (hb : ∀ i, behind i ≠ []) (me : Nat) (hme : me ≠ 0) :
    headersOn behind hs 0 = hs ∧
    (headersOn behind hs me = hs ↔ ∀ i, i < hs.length → (behind i).head? = some '\x00') := by
  refine ⟨by simp [headersOn], ?_⟩
  have htake : ∀ (h : Str) (i : Nat), (∀ c ∈ h, c ≠ '\x00') →
      (h ++ behind i).takeWhile (· ≠ '\x00') = h ++ (behind i).takeWhile (· ≠ '\x00') := by
    intro h i hc
    rw [List.takeWhile_append_of_pos]
    intro c hcm
    simpa using hc c hcm
  simp only [headersOn, hme, if_false]
  constructor
  · intro h i hi
    have hg := congrArg (fun l => l[i]?) h
    simp only [List.getElem?_map, List.getElem?_zipIdx, List.getElem?_eq_getElem hi, Option.map_some,
      Option.some.injEq, Nat.zero_add] at hg
    rw [htake _ _ (hz _ (List.getElem_mem hi))] at hg
    have hnil : (behind i).takeWhile (· ≠ '\x00') = [] := by
      have := congrArg List.length hg
      rw [List.length_append] at this
      exact List.length_eq_zero_iff.1 (by omega)
    cases hbi : behind i with
    | nil => exact absurd hbi (hb i)
    | cons c l =>
      rw [hbi] at hnil
      by_cases hc : c = '\x00'
      · simp [hc]
      · simp [List.takeWhile_cons, hc] at hnil
  · intro h
    apply List.ext_getElem
    · simp
    · intro i h1 h2
      simp only [List.getElem_map, List.getElem_zipIdx, Nat.zero_add]
      rw [htake _ _ (hz _ (List.getElem_mem h2))]
      cases hbi : behind i with
      | nil => exact absurd hbi (hb i)
      | cons c l =>
        have := h i h2
        rw [hbi] at this
        simp only [List.head?_cons, Option.some.injEq] at this
        subst this
        simp

/-! A table with a comment and two lines; the second tag is in quotes.  A rank holds bus 7 twice (one of
the copies is a ghost) and bus 9. -/

def exRows : List TextRow :=
  [⟨1, "7".toList, 0, "1".toList, "1".toList, [(2, "0.5".toList), (0, "2".toList)], 3⟩,
   ⟨0, "9".toList, 1, "'G2'".toList, "G2".toList, [(0, "4".toList), (1, "6".toList)], 0⟩]

example : exRows.map TextRow.text = [" 7 1   0.5 2   ".toList, "9  'G2' 4  6".toList] := by decide +kernel

theorem exRows_ok : ∀ r ∈ exRows, r.Ok 2 := by
  intro r hr
  simp only [exRows, List.mem_cons, List.not_mem_nil, or_false] at hr
  rcases hr with rfl | rfl
  · exact ⟨⟨by decide, by decide +kernel⟩, by decide, ⟨by decide, by decide +kernel⟩,
      ⟨.inl rfl, by decide +kernel⟩, .inl rfl, by
        intro v hv
        simp only [List.mem_cons, List.not_mem_nil, or_false] at hv
        rcases hv with rfl | rfl <;> exact ⟨by decide, by decide +kernel⟩, rfl⟩
  · exact ⟨⟨by decide, by decide +kernel⟩, by decide, ⟨by decide, by decide +kernel⟩,
      ⟨.inr rfl, by decide +kernel⟩, .inr ⟨'\'', .inl rfl, by decide +kernel⟩, by
        intro v hv
        simp only [List.mem_cons, List.not_mem_nil, or_false] at hv
        rcases hv with rfl | rfl <;> exact ⟨by decide, by decide +kernel⟩, rfl⟩

/-- Numbers by the first digit, for the example. -/
def exAtoi (s : Str) : Int := (s.headD '0').toNat - 48

example : expected exAtoi exAtoi exRows [9, 7, 7] 0
    = [(1, "1 ".toList, 0), (2, "1 ".toList, 0), (0, "G2".toList, 4)] := by decide +kernel

example : ∃ t, readTable exAtoi exAtoi 2 (fun total => HashDistr.exactBound 2 total) [1, 0]
      (fileOf ["a table".toList] exRows) [9, 7, 7] 1 = some (some t) ∧ t.nvals = 2 ∧
      ∀ c, c < 2 → Sees t c (expected exAtoi exAtoi exRows [9, 7, 7] c) :=
  C200_table_partial exAtoi exAtoi ⟨by decide, fun total => HashDistr.exactBound_ok 2 total (by decide),
    List.Perm.swap _ _ _⟩ _ _ 2 (by decide) (by simp [exRows]) exRows_ok _ _

end GridPACK.BusTable
