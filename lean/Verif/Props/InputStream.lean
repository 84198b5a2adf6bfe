import Verif.Model.InputStream
import Mathlib.Tactic.Linarith
import Mathlib.Data.List.TakeDrop

/-! Property C39: line by line input. -/
namespace GridPACK.InputStream

/-- File made of complete lines and a last piece without newline. -/
def fileOf (lines : List (List Char)) (tail : List Char) : List Char :=
  lines.flatMap (fun l => l ++ ['\n']) ++ tail

/-- Every file has this form: the theorems below cover all files. -/
theorem C39_every_file (s : List Char) :
    ∃ lines tail, s = fileOf lines tail ∧ (∀ l ∈ lines, '\n' ∉ l) ∧ '\n' ∉ tail := by
  induction s with
  | nil => exact ⟨[], [], rfl, by simp, by simp⟩
  | cons c s ih =>
    obtain ⟨lines, tail, rfl, h1, h2⟩ := ih
    by_cases hc : c = '\n'
    · subst hc
      refine ⟨[] :: lines, tail, rfl, ?_, h2⟩
      intro l hl
      rcases List.mem_cons.mp hl with rfl | hl
      · simp
      · exact h1 l hl
    · cases lines with
      | nil => exact ⟨[], c :: tail, rfl, by simp, by simp [Ne.symm hc, h2]⟩
      | cons l lines =>
        refine ⟨(c :: l) :: lines, tail, rfl, ?_, h2⟩
        intro x hx
        rcases List.mem_cons.mp hx with rfl | hx
        · simp [Ne.symm hc, h1 l (by simp)]
        · exact h1 x (List.mem_cons_of_mem _ hx)

theorem span_line (l rest : List Char) (h : '\n' ∉ l) :
    (l ++ '\n' :: rest).span (· ≠ '\n') = (l, '\n' :: rest) := by
  rw [List.span_eq_takeWhile_dropWhile]
  induction l with
  | nil => simp
  | cons c l ih =>
    simp only [List.mem_cons, not_or] at h
    have := ih h.2
    simp only [Prod.mk.injEq] at this ⊢
    rw [List.cons_append, List.takeWhile_cons, List.dropWhile_cons]
    simp only [ne_eq, Ne.symm h.1, not_false_eq_true, decide_true, if_true]
    exact ⟨by rw [this.1], this.2⟩

theorem span_tail (l : List Char) (h : '\n' ∉ l) : l.span (· ≠ '\n') = (l, []) := by
  rw [List.span_eq_takeWhile_dropWhile]
  induction l with
  | nil => simp
  | cons c l ih =>
    simp only [List.mem_cons, not_or] at h
    have := ih h.2
    simp only [Prod.mk.injEq] at this ⊢
    rw [List.takeWhile_cons, List.dropWhile_cons]
    simp only [ne_eq, Ne.symm h.1, not_false_eq_true, decide_true, if_true]
    exact ⟨by rw [this.1], this.2⟩

/-- What is read from a file, for every file: exactly the lines that end with a newline. -/
theorem C39_exact (lines : List (List Char)) (tail line : List Char)
    (h1 : ∀ l ∈ lines, '\n' ∉ l) (h2 : '\n' ∉ tail) (fuel : Nat) (hf : lines.length < fuel) :
    readAll fuel (openFile (fileOf lines tail)) line = some lines := by
  unfold openFile
  induction lines generalizing line fuel with
  | nil =>
    obtain ⟨fuel, rfl⟩ : ∃ m, fuel = m + 1 := ⟨fuel - 1, by omega⟩
    have : nextLine ⟨fileOf [] tail, true⟩ line = (⟨[], false⟩, tail, false) := by
      unfold nextLine fileOf
      simp only [if_true, List.flatMap_nil, List.nil_append]
      rw [span_tail tail h2]
    rw [readAll, this]
    simp
  | cons l lines ih =>
    obtain ⟨fuel, rfl⟩ : ∃ m, fuel = m + 1 := ⟨fuel - 1, by omega⟩
    have : nextLine ⟨fileOf (l :: lines) tail, true⟩ line = (⟨fileOf lines tail, true⟩, l, true) := by
      unfold nextLine
      have e : fileOf (l :: lines) tail = l ++ '\n' :: fileOf lines tail := by simp [fileOf]
      rw [e]
      simp only [if_true]
      rw [span_line l _ (h1 l (by simp))]
    rw [readAll, this]
    simp only [if_true]
    rw [ih l (fun x hx => h1 x (List.mem_cons_of_mem _ hx)) fuel (by simp at hf; omega)]
    rfl

/-- C39, the part that holds: a file whose last line ends with a newline yields all its lines in order,
and then the end is reported. -/
theorem C39_file_partial (lines : List (List Char)) (line : List Char)
    (h1 : ∀ l ∈ lines, '\n' ∉ l) (fuel : Nat) (hf : lines.length < fuel) :
    readAll fuel (openFile (lines.flatMap (fun l => l ++ ['\n']))) line = some lines := by
  have := C39_exact lines [] line h1 (by simp) fuel hf
  simpa [fileOf] using this

/-- C39 fails for every file whose last line has no newline: that line is never delivered, whatever it
contains. -/
theorem C39_last_line_lost_violated (lines : List (List Char)) (tail line : List Char)
    (h1 : ∀ l ∈ lines, '\n' ∉ l) (h2 : '\n' ∉ tail) (_hne : tail ≠ []) (fuel : Nat)
    (hf : lines.length < fuel) :
    readAll fuel (openFile (fileOf lines tail)) line ≠ some (lines ++ [tail]) := by
  rw [C39_exact lines tail line h1 h2 fuel hf]
  intro h
  have := congrArg (fun o => o.map List.length) h
  simp at this

/-- After the end, `nextLine` keeps reporting the end and leaves the last text in `line`. -/
theorem C39_end_is_stable (line : List Char) (rest : List Char) :
    nextLine ⟨rest, false⟩ line = (⟨rest, false⟩, line, false) := rfl

/-- C39 for string vectors: after opening any vector on a fresh stream, reading the first line already
uses an iterator that was never set. -/
theorem C39_vector_violated (v : List (List Char)) (lines : List (List Char)) :
    nextLineVec (openStringVector ⟨lines, none⟩ v).1 = none := by
  unfold openStringVector
  by_cases h : v.length = 0
  · rw [if_pos h]; rfl
  · rw [if_neg h]; rfl

/-- C39 for string vectors, opening: an empty vector is refused and leaves the source alone, any other one is
accepted and becomes the contents. -/
theorem C39_vector_open (old : VecSrc) (v : List (List Char)) :
    ((openStringVector old v).2 = true ↔ v ≠ []) ∧
    (openStringVector old v).1.lines = (if v = [] then old.lines else v) := by
  unfold openStringVector
  cases v <;> simp

/-- The lines obtained by `k` calls of `nextLine` on a vector source; `none`: invalid iterator use. -/
def vecLines : Nat → VecSrc → Option (List (List Char × Bool))
  | 0, _ => some []
  | k + 1, st =>
    match nextLineVec st with
    | none => none
    | some r => (vecLines k r.1).map ((r.2.1, r.2.2) :: ·)

/-- C39 for string vectors, the part that holds: if the iterator stood at the beginning (which `openStringVector`
fails to do), `k` calls would deliver the first `k` strings in order and report the end from then on. -/
theorem C39_vector_lines_partial (v : List (List Char)) (k : Nat) :
    vecLines k ⟨v, some 0⟩ = some ((v.take k).map (fun l => (l, true)) ++
      List.replicate (k - v.length) ([], false)) := by
  have key : ∀ (k i : Nat), i ≤ v.length → vecLines k ⟨v, some i⟩ =
      some (((v.drop i).take k).map (fun l => (l, true)) ++
        List.replicate (k - (v.length - i)) ([], false)) := by
    intro k
    induction k with
    | zero => intro i _; simp [vecLines]
    | succ k ih =>
      intro i hi
      rcases Nat.lt_or_ge i v.length with h | h
      · have e : v.drop i = v[i] :: v.drop (i + 1) := (List.getElem_cons_drop (h := h)).symm
        have e2 : k + 1 - (v.length - i) = k - (v.length - (i + 1)) := by omega
        simp only [vecLines, nextLineVec, List.getElem?_eq_getElem h]
        rw [ih (i + 1) h, e, e2]
        simp only [List.take_succ_cons, List.map_cons, List.cons_append, Option.map_some]
      · have hi' : i = v.length := by omega
        subst hi'
        have e : v[v.length]? = none := by simp
        simp only [vecLines, nextLineVec, e]
        rw [ih v.length (Nat.le_refl _)]
        simp [List.replicate_succ]
  simpa using key k 0 (Nat.zero_le _)

example : vecLines 3 ⟨["a".toList, "b".toList], some 0⟩ =
    some [("a".toList, true), ("b".toList, true), ([], false)] := by decide

example : readAll 9 (openFile "a\n\nb".toList) [] = some ["a".toList, []] := by decide

end GridPACK.InputStream
