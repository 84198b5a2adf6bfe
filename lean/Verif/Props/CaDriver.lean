import Verif.Spec.CaDriver
import Verif.Props.GlobalVector
import Verif.Props.TaskLoop
import Verif.Props.Contingency
import Verif.Props.QLimit
import Verif.Props.PFBusData
import Mathlib.Tactic.Linarith
import Mathlib.Tactic.NormNum

/-! C205-C210: the contingency analysis driver. -/
namespace GridPACK.CaDriver

open StringUtils

/-! ### C205 -/

theorem words_tokens {s : Str} {ws : List Str} (h : Words s ws) : blankTokenizer s = .ok ws := by
  obtain ⟨lead, l, hne, ht, hs, hl⟩ := h
  rw [C27_blankTokenizer_partial s lead l ht hne hs, hl]

theorem clean_tag {w id : Str} (h : IsTag w id) : clean2Char w = .ok (padded id) := by
  obtain ⟨hid, rfl | ⟨q, c, d, hq, rfl⟩⟩ := h
  · simpa using (C28_clean2Char_partial w hid 0 0 0 0 '\'' (.inl rfl)).1
  · simpa using (C28_clean2Char_partial id hid 0 0 c d q hq).2

theorem clean_all {α : Type} {f : α → Str} {ns : List Str} {l : List α}
    (h : List.Forall₂ (fun w x => ∃ id, IsTag w id ∧ f x = padded id) ns l) :
    cleanAll ns = .ok (l.map f) := by
  induction h with
  | nil => rfl
  | cons hd _ ih =>
    obtain ⟨id, ht, he⟩ := hd
    simp [cleanAll, clean_tag ht, ih, bind, he]

theorem pairs_get {α : Type} (f g : α → Int) (l : List α) (i : Nat) (x : α) (h : l[i]? = some x) :
    (l.flatMap (fun x => [f x, g x])).getD (2 * i) 0 = f x ∧
    (l.flatMap (fun x => [f x, g x])).getD (2 * i + 1) 0 = g x := by
  induction l generalizing i with
  | nil => simp at h
  | cons a l ih =>
    cases i with
    | zero => simp at h; subst h; simp
    | succ i =>
      have := ih i (by simpa using h)
      have e : 2 * (i + 1) = 2 * i + 2 := by omega
      simpa [e] using this

theorem ofBlock_describes {atoi : Str → Int} {b : Block} {ev : Event} (h : Describes atoi b ev) :
    ofBlock atoi b = .ok (some ev) := by
  cases ev with
  | branch name lines =>
    obtain ⟨ht, rfl, bs, ns, hb, hn, hids, htags⟩ := h
    have hc := clean_all (f := fun l : Int × Int × Str => l.2.2) htags
    unfold ofBlock
    rw [if_pos ht, words_tokens hb, words_tokens hn]
    simp only [bind, hc, hids]
    have hlen : (lines.flatMap (fun l => [l.1, l.2.1])).length = 2 * (lines.map (fun l => l.2.2)).length := by
      simp only [List.length_flatMap, List.length_map]
      induction lines with
      | nil => rfl
      | cons a l _ => simp; omega
    rw [if_pos hlen]
    congr 3
    apply List.ext_getElem?
    intro i
    by_cases hi : i < lines.length
    · have hx : lines[i]? = some lines[i] := List.getElem?_eq_getElem hi
      obtain ⟨h1, h2⟩ := pairs_get (fun l : Int × Int × Str => l.1) (fun l => l.2.1) lines i _ hx
      simp only [List.getElem?_map, List.length_map, List.getElem?_range hi, Option.map_some, h1, h2, hx]
      simp [hx]
    · simp [hi, Nat.le_of_not_lt hi]
  | generator name gens =>
    obtain ⟨ht, rfl, bs, ns, hb, hn, hids, htags⟩ := h
    have hc := clean_all (f := fun g : Int × Str => g.2) htags
    unfold ofBlock
    rw [if_neg (by rw [ht]; decide), if_pos ht, words_tokens hb, words_tokens hn]
    simp only [bind, hc, hids]
    rw [if_pos (by simp)]
    congr 3
    apply List.ext_getElem?
    intro i
    by_cases hi : i < gens.length
    · have hx : gens[i]? = some gens[i] := List.getElem?_eq_getElem hi
      simp [List.getElem?_range hi, hx]
    · simp [hi, Nat.le_of_not_lt hi]

/-- C205, the part that holds: if every block of the file describes a contingency, the driver evaluates exactly these,
in the order of the file, each with its lines or generators in the order given.  (Missing: a report about blocks that
do not describe one.) -/
theorem C205_list_partial (atoi : Str → Int) (bs : List Block) (evs : List Event)
    (h : List.Forall₂ (Describes atoi) bs evs) : getContingencies atoi bs = .ok evs := by
  induction h with
  | nil => rfl
  | cons hd _ ih => simp [getContingencies, ofBlock_describes hd, ih, bind]

/-- C205 violated: a block with an unknown type, or whose buses and names do not match in number, is dropped without a
message, and the contingencies after it move up. -/
theorem C205_dropped_violated (atoi : Str → Int) (b : Block) (pre post : List Block) (evs evs' : List Event)
    (hpre : List.Forall₂ (Describes atoi) pre evs) (hpost : List.Forall₂ (Describes atoi) post evs')
    (h : (b.type ≠ "Line".toList ∧ b.type ≠ "Generator".toList) ∨
      (b.type = "Line".toList ∧ ∃ bs ns ids, Words b.lineBuses bs ∧ Words b.lineNames ns ∧
        List.Forall₂ IsTag ns ids ∧ bs.length ≠ 2 * ns.length) ∨
      (b.type = "Generator".toList ∧ ∃ bs ns ids, Words b.buses bs ∧ Words b.gens ns ∧
        List.Forall₂ IsTag ns ids ∧ bs.length ≠ ns.length)) :
    getContingencies atoi (pre ++ b :: post) = .ok (evs ++ evs') := by
  have hnone : ofBlock atoi b = .ok none := by
    have hcl : ∀ ns ids, List.Forall₂ IsTag ns ids → cleanAll ns = .ok (ids.map padded) := by
      intro ns ids hf
      exact clean_all (f := padded) (hf.imp (fun w id ht => ⟨id, ht, rfl⟩))
    rcases h with ⟨h1, h2⟩ | ⟨ht, bs, ns, ids, hb, hn, hf, hlen⟩ | ⟨ht, bs, ns, ids, hb, hn, hf, hlen⟩
    · unfold ofBlock
      rw [if_neg h1, if_neg h2]
    · unfold ofBlock
      rw [if_pos ht, words_tokens hb, words_tokens hn]
      simp only [bind, hcl _ _ hf]
      rw [if_neg (by simpa [← hf.length_eq] using hlen)]
    · unfold ofBlock
      rw [if_neg (by rw [ht]; decide), if_pos ht, words_tokens hb, words_tokens hn]
      simp only [bind, hcl _ _ hf]
      rw [if_neg (by simpa [← hf.length_eq] using hlen)]
  induction hpre with
  | nil => simp [getContingencies, hnone, C205_list_partial atoi post evs' hpost, bind]
  | cons hd _ ih => simp [getContingencies, ofBlock_describes hd, ih, bind]

/-- C205 violated: a line contingency without a list of buses makes the driver read a character of an empty string. -/
theorem C205_missing_violated (atoi : Str → Int) (b : Block) (bs : List Block) (ht : b.type = "Line".toList)
    (h : b.lineBuses = []) : getContingencies atoi (b :: bs) = .undefined := by
  have := C27_blank_line_violated 0 [] rfl
  simp [getContingencies, ofBlock, ht, h, this, bind]

theorem word_one (c : Char) (h : c ≠ '\'' ∧ c ≠ '"' ∧ c ≠ ' ' ∧ c ≠ '\r') : IsToken [c] :=
  .word c [] h.1 h.2.1 (by simpa using fun e : ' ' = c => h.2.2.1 e.symm) ⟨c, by simp, h.2.2.2⟩

/-- A file with one line and one generator contingency. -/
example : List.Forall₂ (Describes (fun s => (s.length : Int)))
    [⟨"Line".toList, "a".toList, "1 22".toList, "'X'".toList, [], []⟩,
     ⟨"Generator".toList, "b".toList, [], [], "333".toList, "G1".toList⟩]
    [.branch "a".toList [(1, 2, "X ".toList)], .generator "b".toList [(3, "G1".toList)]] := by
  refine .cons ⟨rfl, rfl, ["1".toList, "22".toList], ["'X'".toList], ?_, ?_, rfl, ?_⟩
    (.cons ⟨rfl, rfl, ["333".toList], ["G1".toList], ?_, ?_, rfl, ?_⟩ .nil)
  · exact ⟨0, [("1".toList, 1), ("22".toList, 0)], by simp,
      ⟨word_one '1' (by decide), by decide, .word '2' ['2'] (by decide) (by decide) (by decide) ⟨'2', by decide, by decide⟩⟩,
      by decide, rfl⟩
  · exact ⟨0, [("'X'".toList, 0)], by simp, .quoted '\'' ['X'] (.inl rfl) (by decide), by decide, rfl⟩
  · exact .cons ⟨['X'], ⟨⟨.inl rfl, by decide⟩, .inr ⟨'\'', 0, 0, .inl rfl, rfl⟩⟩, rfl⟩ .nil
  · exact ⟨0, [("333".toList, 0)], by simp,
      .word '3' ['3', '3'] (by decide) (by decide) (by decide) ⟨'3', by decide, by decide⟩, by decide, rfl⟩
  · exact ⟨0, [("G1".toList, 0)], by simp,
      .word 'G' ['1'] (by decide) (by decide) (by decide) ⟨'G', by decide, by decide⟩, by decide, rfl⟩
  · exact .cons ⟨['G', '1'], ⟨⟨.inr rfl, by decide⟩, .inl rfl⟩, rfl⟩ .nil

/-! ### C206 -/

theorem word_right (o : Outcome) (i : Nat) (h : o.solved = true) :
    Right i o ⟨i + 1, true, word o.violation⟩ := by
  obtain ⟨s, q, a, b, l⟩ := o
  simp only at h
  subst h
  cases b <;> cases l <;> simp [Right, word, Outcome.violation]

/-- C206, the part that holds: written from the vectors of success flags and violation codes of the contingencies, the
summary would have one right line for each.  (Missing: the vector the driver actually reads, see
`C206_summary_violated`.) -/
theorem C206_lines_partial (os : List Outcome) :
    ∃ ls, writeSummary (os.map Outcome.success) (os.map Outcome.violation) os.length = some ls ∧
      ls.length = os.length ∧
      ∀ i o l, os[i]? = some o → ls[i]? = some l → Right i o l := by
  let f : Nat → Option Line := fun i =>
    match (os.map Outcome.success)[i]? with
    | none => none
    | some true => ((os.map Outcome.violation)[i]?).map (fun v => ⟨i + 1, true, word v⟩)
    | some false => some ⟨i + 1, false, none⟩
  let g : Nat → Line := fun i => (f i).getD ⟨0, false, none⟩
  have hf : ∀ i o, os[i]? = some o → f i = some (if o.solved then ⟨i + 1, true, word o.violation⟩ else ⟨i + 1, false, none⟩) := by
    intro i o ho
    cases hs : o.solved <;> simp [f, List.getElem?_map, ho, Outcome.success, hs]
  have hall : writeSummary (os.map Outcome.success) (os.map Outcome.violation) os.length =
      some ((List.range os.length).map g) := by
    unfold writeSummary
    have : ∀ l : List Nat, (∀ i ∈ l, i < os.length) → l.mapM f = some (l.map g) := by
      intro l
      induction l with
      | nil => intro _; rfl
      | cons a l ih =>
        intro hl
        have hlt : a < os.length := hl a (by simp)
        have ha := hf a os[a] (List.getElem?_eq_getElem hlt)
        have hg : f a = some (g a) := by simp only [g]; rw [ha]; rfl
        rw [List.mapM_cons, hg, ih (fun i hi => hl i (by simp [hi]))]
        rfl
    exact this _ (fun i hi => List.mem_range.mp hi)
  refine ⟨_, hall, by simp, ?_⟩
  intro i o l ho hl
  have hi : i < os.length := by
    by_contra hc
    rw [List.getElem?_eq_none (by omega)] at ho
    cases ho
  rw [List.getElem?_map, List.getElem?_range hi] at hl
  simp only [Option.map_some, Option.some.injEq] at hl
  subst hl
  have hv : g i = if o.solved then ⟨i + 1, true, word o.violation⟩ else ⟨i + 1, false, none⟩ := by
    simp only [g]; rw [hf i o ho]; rfl
  rw [hv]
  cases hs : o.solved with
  | true => simpa [hs] using word_right o i hs
  | false => simp [Right, hs]

/-- C206 violated: the vector of success flags is emptied between fetching and reading it, so for every list of
contingencies that is not empty the driver reads outside the vector. -/
theorem C206_summary_violated (success : List Bool) (violation : List Int) (n : Nat) (h : 0 < n) :
    summary success violation n = none := by
  obtain ⟨m, rfl⟩ : ∃ m, n = m + 1 := ⟨n - 1, by omega⟩
  unfold summary writeSummary
  rw [List.range_succ_eq_map, List.mapM_cons]
  simp

/-- C206 violated: when reactive limits are checked, the second calculation may fail; the contingency is still counted
as solved and its checks are made on the voltages of the failed calculation. -/
theorem C206_second_solve_violated (b l : Bool) :
    ∃ o : Outcome, o.finallySolved true = false ∧ o.success = true ∧ o.busOk = b ∧ o.branchOk = l ∧
      o.violation ≠ 0 := by
  refine ⟨⟨true, false, false, b, l⟩, rfl, rfl, rfl, rfl, ?_⟩
  cases b <;> cases l <;> decide

section
variable {V : Type}

theorem added_nodup (root : Nat → Nat) (val : Nat → V) (log : List (Nat × Nat)) (n : Nat)
    (h : (log.map (·.2)).Nodup) :
    ((GlobalVector.everything n (added root val log)).map (·.1)).Nodup := by
  unfold GlobalVector.everything
  rw [List.map_flatMap, List.nodup_flatMap]
  have hmap : ∀ p, (added root val log p).map (·.1) =
      ((log.filter (fun e => decide (root e.1 = p))).map (·.2)).map (Int.ofNat) := by
    intro p
    simp [added, List.map_map, Function.comp_def]
  constructor
  · intro p _
    rw [hmap]
    refine List.Nodup.map (fun a b e => Int.ofNat.inj e) ?_
    exact (List.filter_sublist.map _).nodup h
  · refine List.nodup_range.imp ?_
    intro p q hpq
    simp only [Function.onFun]
    rw [hmap, hmap]
    intro x hx hy
    simp only [List.mem_map, List.mem_filter, decide_eq_true_eq] at hx hy
    obtain ⟨t, ⟨e, ⟨he, hep⟩, rfl⟩, rfl⟩ := hx
    obtain ⟨t', ⟨e', ⟨he', hep'⟩, rfl⟩, heq⟩ := hy
    have h2 : e'.2 = e.2 := Int.ofNat.inj heq
    have : e' = e := List.inj_on_of_nodup_map h he' he h2
    subst this
    exact hpq (hep.symm.trans hep')

/-- C206, gathering: however the tasks were distributed over the groups (all executions of the task loop) and however
the processes interleave while the vector is made, the vector of codes fetched at the end holds the value of each
contingency at its place.  (Missing: executions in which a process clears its part of the vector after another has
written there, see C94.) -/
theorem C206_gathered_partial (ntasks ngroups nprocs : Nat) (hg : 0 < ngroups) (root : Nat → Nat)
    (hroot : ∀ g, g < ngroups → root g < nprocs) (s : TaskLoop.Sys)
    (hr : TaskLoop.Reach (TaskLoop.init ntasks ngroups) s) (hstop : ¬ ∃ t, TaskLoop.Step s t)
    (val : Nat → V) (own : Nat → Nat) (zero : V) (garbage : Nat → V) (sched : List (Nat × GlobalVector.Act V))
    (h : GlobalVector.Interleaved nprocs (fun p => GlobalVector.writeProg (added root val s.log p)) sched)
    (hc : ∀ e ∈ s.log, own e.2 = root e.1 ∨
      ¬ GlobalVector.ClearedAfter own sched (root e.1) ((e.2 : Int), val e.2)) :
    GlobalVector.getData (GlobalVector.numElems nprocs (added root val s.log))
      (GlobalVector.writing own zero garbage sched) ((List.range ntasks).map Int.ofNat) =
    some ((List.range ntasks).map val) := by
  obtain ⟨-, hlog, hproc⟩ := TaskLoop.C54_all_tasks_executed_once ntasks ngroups hg s hr hstop
  have hnd : (s.log.map (·.2)).Nodup := by rw [hlog]; exact List.nodup_range
  have h0 : ∀ x ∈ GlobalVector.everything nprocs (added root val s.log), 0 ≤ x.1 := by
    intro x hx
    simp only [GlobalVector.everything, List.mem_flatMap, added, List.mem_map] at hx
    obtain ⟨p, -, e, -, rfl⟩ := hx
    exact Int.natCast_nonneg _
  have := (GlobalVector.C94_stored_partial nprocs own zero garbage (added root val s.log) sched h h0
    (added_nodup root val s.log nprocs hnd)).1 (s.log.map (fun e => ((e.2 : Int), val e.2))) (by
      intro x hx
      obtain ⟨e, he, rfl⟩ := List.mem_map.mp hx
      refine ⟨root e.1, hroot _ (hproc e he), ?_, by simpa using hc e he⟩
      exact List.mem_map.mpr ⟨e, List.mem_filter.mpr ⟨he, by simp⟩, rfl⟩)
  rw [List.map_map, List.map_map] at this
  have e1 : s.log.map ((fun x : Int × V => x.1) ∘ fun e => ((e.2 : Int), val e.2)) =
      (List.range ntasks).map Int.ofNat := by
    rw [← hlog, List.map_map]; rfl
  have e2 : s.log.map ((fun x : Int × V => x.2) ∘ fun e => ((e.2 : Int), val e.2)) =
      (List.range ntasks).map val := by
    rw [← hlog, List.map_map]; rfl
  rw [e1, e2] at this
  exact this

end

example : writeSummary [true, false] [4, 0] 2 = some [⟨1, true, some .both⟩, ⟨2, false, none⟩] := rfl

/-! ### C207 -/

theorem keepBranch_all {α : Type} (l : List (Nat × α)) (n : Nat) (h : n + (l.map (·.1)).sum < bufsize) :
    keepBranch n l = l.map (·.2) := by
  induction l generalizing n with
  | nil => rfl
  | cons x l ih =>
    simp only [List.map_cons, List.sum_cons] at h
    rw [keepBranch, if_pos (by omega), ih _ (by omega)]
    rfl

theorem keepBranch_none {α : Type} (l : List (Nat × α)) (n : Nat) (h : bufsize ≤ n) : keepBranch n l = [] := by
  induction l generalizing n with
  | nil => rfl
  | cons x l ih => rw [keepBranch, if_neg (by omega), ih _ (by omega)]

theorem keepBranch_map {α β : Type} (f : α → β) (l : List (Nat × α)) (n : Nat) :
    (keepBranch n l).map f = keepBranch n (l.map (fun x => (x.1, f x.2))) := by
  induction l generalizing n with
  | nil => rfl
  | cons x l ih =>
    simp only [keepBranch, List.map_cons]
    split
    · simp [ih]
    · exact ih _

/-- The number of lines that fit grows when the lines get shorter. -/
theorem keepBranch_le {α β γ : Type} (u v : γ → Nat) (f : γ → α) (g : γ → β) (l : List γ) (h : ∀ x ∈ l, v x ≤ u x)
    (n m : Nat) (hmn : m ≤ n) :
    (keepBranch n (l.map (fun x => (u x, f x)))).length ≤ (keepBranch m (l.map (fun x => (v x, g x)))).length := by
  induction l generalizing n m with
  | nil => simp [keepBranch]
  | cons x l ih =>
    have hx := h x (by simp)
    simp only [List.map_cons, keepBranch]
    by_cases h1 : n + u x < bufsize
    · rw [if_pos h1, if_pos (by omega)]
      simpa using ih (fun y hy => h y (by simp [hy])) (n + u x) (m + v x) (by omega)
    · rw [if_neg h1, keepBranch_none _ _ (by omega)]
      simp

theorem flow_labels (b : Br) : (flowRows b).map Flow.label =
    if b.active then keepBranch 0 ((b.lines.map (·.elem.tag)).map (fun t => (flowLen b.id1 b.id2 t, (b.id1, b.id2, t))))
    else [] := by
  unfold flowRows
  split
  · rw [keepBranch_map, List.map_map, List.map_map]
    rfl
  · rfl

theorem w6_usual {n : Int} (h : (toString n).length ≤ 6) : w6 n = 6 := by
  unfold w6; omega

/-- C207: in every contingency, whatever the voltages, the line statuses and the isolated buses, the rows of the line
statistics are the rows of the base case (same lines in the same order), and the column of a failed contingency has at
least as many entries as the table has rows, so that nothing is read outside it. -/
theorem C207_rows (net net' : List Br) (h : List.Forall₂ SameBranch net net') :
    (net'.flatMap flowRows).map Flow.label = (net.flatMap flowRows).map Flow.label ∧
    ((net.flatMap flowRows).length ≤ (net'.flatMap failRows).length) := by
  induction h with
  | nil => exact ⟨rfl, le_refl _⟩
  | @cons b c net net' hbc _ ih =>
    obtain ⟨ha, h1, h2, ht⟩ := hbc
    constructor
    · simp only [List.flatMap_cons, List.map_append, ih.1]
      rw [flow_labels, flow_labels, ha, h1, h2, ht]
    · simp only [List.flatMap_cons, List.length_append]
      refine Nat.add_le_add ?_ ih.2
      have e : (flowRows b).length = (flowRows c).length := by
        have := congrArg List.length (flow_labels b)
        have h' := congrArg List.length (flow_labels c)
        rw [List.length_map] at this h'
        rw [this, h', ha, h1, h2, ht]
      rw [e]
      unfold flowRows failRows
      split
      · refine keepBranch_le (fun l : BLine => flowLen c.id1 c.id2 l.elem.tag) (fun l => failLen c.id1 c.id2 l.elem.tag)
          (flowOf c) _ c.lines ?_ 0 0 (le_refl _)
        intro l _
        simp only [flowLen, failLen]
        omega
      · simp

/-- C207, complete up to four lines between two buses: every line of an active branch has its row.  (Missing: five or
more lines.) -/
theorem C207_lines_partial (b : Br) (hu : Usual b) (h : b.lines.length ≤ 4) :
    (flowRows b).map Flow.label = allLines b := by
  rw [flow_labels]
  unfold allLines
  split
  · rw [keepBranch_all]
    · simp [List.map_map, Function.comp_def]
    · have : ∀ ls : List BLine, (∀ l ∈ ls, l.elem.tag.length = 2) →
          (((ls.map (·.elem.tag)).map (fun t => (flowLen b.id1 b.id2 t, (b.id1, b.id2, t)))).map (·.1)).sum =
            103 * ls.length := by
        intro ls
        induction ls with
        | nil => intro _; rfl
        | cons a ls ih =>
          intro hl
          have ha : flowLen b.id1 b.id2 a.elem.tag = 103 := by
            simp only [flowLen, w6_usual hu.1, w6_usual hu.2.1, hl a (by simp)]
          rw [List.map_cons, List.map_cons, List.map_cons, List.sum_cons, ih (fun l hl' => hl l (by simp [hl'])), ha,
            List.length_cons]
          omega
      rw [this b.lines hu.2.2]
      unfold bufsize
      omega
  · rfl

/-- C207 violated: of five or more lines between two buses only the first four are in the statistics. -/
theorem C207_lines_violated (b : Br) (hu : Usual b) (ha : b.active = true) (h : 5 ≤ b.lines.length) :
    (flowRows b).map Flow.label = (allLines b).take 4 ∧ (flowRows b).length = 4 ∧ 5 ≤ (allLines b).length := by
  obtain ⟨h1, h2, ht⟩ := hu
  have key : (flowRows b).map Flow.label = (allLines b).take 4 := by
    rw [flow_labels, if_pos ha]
    unfold allLines
    rw [if_pos ha]
    match hl : b.lines, h with
    | l1 :: l2 :: l3 :: l4 :: l5 :: rest, _ =>
      rw [hl] at ht
      have e : ∀ l ∈ l1 :: l2 :: l3 :: l4 :: l5 :: rest, flowLen b.id1 b.id2 l.elem.tag = 103 := by
        intro l hm
        simp only [flowLen, w6_usual h1, w6_usual h2, ht l hm]
      have f1 := e l1 (by simp)
      have f2 := e l2 (by simp)
      have f3 := e l3 (by simp)
      have f4 := e l4 (by simp)
      have f5 := e l5 (by simp)
      simp only [List.map_cons, keepBranch, f1, f2, f3, f4, f5, bufsize]
      norm_num
      exact keepBranch_none _ _ (by decide)
  refine ⟨key, ?_, ?_⟩
  · have := congrArg List.length key
    rw [List.length_map, List.length_take] at this
    rw [this]
    unfold allLines
    rw [if_pos ha, List.length_map]
    omega
  · unfold allLines
    rw [if_pos ha, List.length_map]
    exact h

theorem keepBus_all {α : Type} (l : List (Nat × α)) (n : Nat) (h : n + (l.map (·.1)).sum ≤ bufsize) :
    keepBus n l = l.map (·.2) := by
  induction l generalizing n with
  | nil => rfl
  | cons x l ih =>
    simp only [List.map_cons, List.sum_cons] at h
    rw [keepBus, if_pos (by omega), ih _ (by omega)]
    rfl

/-- Lines of the same length: as many as fit. -/
theorem keepBus_const {α : Type} (w k : Nat) (hw : bufsize < (k + 1) * w) (l : List (Nat × α)) (h : ∀ x ∈ l, x.1 = w)
    (j : Nat) (hj : j ≤ k) (hk : k * w ≤ bufsize) :
    keepBus (j * w) l = (l.map (·.2)).take (k - j) := by
  induction l generalizing j with
  | nil => simp [keepBus]
  | cons x l ih =>
    have hx := h x (by simp)
    have ih' := ih (fun y hy => h y (by simp [hy]))
    rw [keepBus, hx]
    by_cases hc : j < k
    · have : j * w + w ≤ bufsize := by
        have : (j + 1) * w ≤ k * w := Nat.mul_le_mul_right w hc
        rw [Nat.add_mul, one_mul] at this
        omega
      rw [if_pos this]
      have e : j * w + w = (j + 1) * w := by rw [Nat.add_mul, one_mul]
      rw [e, ih' (j + 1) hc]
      obtain ⟨m, hm⟩ : ∃ m, k - j = m + 1 := ⟨k - j - 1, by omega⟩
      have : k - (j + 1) = m := by omega
      rw [hm, this, List.map_cons, List.take_succ_cons]
    · have hjk : j = k := by omega
      subst hjk
      have : ¬ j * w + w ≤ bufsize := by
        rw [Nat.add_mul, one_mul] at hw
        omega
      rw [if_neg this, ih' j (le_refl _)]
      simp

theorem power_names (len : ℝ → Nat) (id : Int) (pinj qinj : ℝ) (b : PFBusData.Bus)
    (hu : UsualBus len id pinj qinj b) :
    (powerRows len id pinj qinj b).map (·.1) = (b.gens.map (·.id)).take 9 ∧
    pfailRows id b = (b.gens.map (·.id)).take 9 := by
  obtain ⟨h6, hg⟩ := hu
  constructor
  · unfold powerRows
    have := keepBus_const 53 9 (by decide) (b.gens.map (fun g =>
      (powerLen id g.id (len (genOf pinj qinj b g).1) (len (genOf pinj qinj b g).2), (g.id, genOf pinj qinj b g))))
      (by
        intro x hx
        obtain ⟨g, hm, rfl⟩ := List.mem_map.mp hx
        obtain ⟨a1, a2, a3⟩ := hg g hm
        simp only [powerLen, w6_usual h6, a1, Nat.max_eq_left a2, Nat.max_eq_left a3]) 0 (by decide) (by decide)
    rw [Nat.zero_mul] at this
    rw [this, List.map_take, List.map_map, List.map_map]
    rfl
  · unfold pfailRows
    have := keepBus_const 52 9 (by decide) (b.gens.map (fun g => (pfailLen id g.id, g.id)))
      (by
        intro x hx
        obtain ⟨g, hm, rfl⟩ := List.mem_map.mp hx
        simp only [pfailLen, w6_usual h6, (hg g hm).1]) 0 (by decide) (by decide)
    rw [Nat.zero_mul] at this
    rw [this, List.map_map]
    rfl

/-- C207: up to nine generators on a bus: every generator has its row, in the order of the bus, in solved and failed
contingencies.  (Missing: ten or more generators, see `C207_generators_violated`.) -/
theorem C207_generators_partial (len : ℝ → Nat) (id : Int) (pinj qinj : ℝ) (b : PFBusData.Bus)
    (hu : UsualBus len id pinj qinj b) (h : b.gens.length ≤ 9) :
    (powerRows len id pinj qinj b).map (·.1) = b.gens.map (·.id) ∧ pfailRows id b = b.gens.map (·.id) := by
  obtain ⟨h1, h2⟩ := power_names len id pinj qinj b hu
  rw [h1, h2, List.take_of_length_le (by simpa using h)]
  exact ⟨rfl, rfl⟩

/-- C207 violated: of ten or more generators on a bus only the first nine are in the statistics. -/
theorem C207_generators_violated (len : ℝ → Nat) (id : Int) (pinj qinj : ℝ) (b : PFBusData.Bus)
    (hu : UsualBus len id pinj qinj b) (h : 10 ≤ b.gens.length) :
    (powerRows len id pinj qinj b).map (·.1) = (b.gens.map (·.id)).take 9 ∧
    (powerRows len id pinj qinj b).length < b.gens.length := by
  obtain ⟨h1, -⟩ := power_names len id pinj qinj b hu
  refine ⟨h1, ?_⟩
  have := congrArg List.length h1
  rw [List.length_map, List.length_take, List.length_map] at this
  omega

/-! ### C208 -/

theorem power_eq (b : Br) (l : BLine) (hl : l ∈ b.lines) (hn : (b.lines.map (·.elem.tag)).Nodup) :
    complexPower b l.elem.tag = intoLine b l := by
  have : YMatrix.getLineElements (b.lines.map (·.elem)) l.elem.tag = l.elem.line := by
    unfold YMatrix.getLineElements
    have hf : (b.lines.map (·.elem)).find? (fun e => e.tag = l.elem.tag) = some l.elem := by
      generalize b.lines = ls at hl hn
      induction ls with
      | nil => simp at hl
      | cons a ls ih =>
        rw [List.map_cons, List.find?_cons]
        rw [List.map_cons, List.nodup_cons] at hn
        rcases List.mem_cons.mp hl with rfl | hm
        · simp
        · have : a.elem.tag ≠ l.elem.tag := fun e => hn.1 (e ▸ List.mem_map.mpr ⟨l, hm, rfl⟩)
          simp [this, ih hm hn.2]
    rw [hf]
  unfold complexPower intoLine
  simp only [this]

/-- C208, the part that holds: for a line in service between two buses that are not isolated, the reported flow is the
complex power into the line, the performance index is the square of its loading, and it counts as overloaded (mask 2)
exactly if the apparent power exceeds the rating; a line without rating has index 0 and never counts.  (Missing: lines
out of service.) -/
theorem C208_in_service_partial (b : Br) (l : BLine) (hl : l ∈ b.lines) (hn : (b.lines.map (·.elem.tag)).Nodup)
    (hs : l.status = true) (h1 : b.iso1 = false) (h2 : b.iso2 = false) :
    ((flowOf b l).p : ℝ) = (intoLine b l).re ∧ (flowOf b l).q = (intoLine b l).im ∧
    (0 < l.rateA → (flowOf b l).perf = (‖intoLine b l‖ / l.rateA) ^ 2 ∧
      (mask (flowOf b l) = 2 ↔ l.rateA < ‖intoLine b l‖)) ∧
    (l.rateA ≤ 0 → (flowOf b l).perf = 0 ∧ mask (flowOf b l) = 1) := by
  have hp := power_eq b l hl hn
  refine ⟨by simp [flowOf, hs, h1, h2, hp], by simp [flowOf, hs, h1, h2, hp], fun hr => ⟨?_, ?_⟩, fun hr => ⟨?_, ?_⟩⟩
  · simp [flowOf, hr, hp, sq]
  · have hgt : (‖intoLine b l‖ / l.rateA > 1) ↔ l.rateA < ‖intoLine b l‖ := by
      rw [gt_iff_lt, lt_div_iff₀ hr, one_mul]
    unfold mask flowOf
    simp only [hp, hr, if_true, true_and, gt_iff_lt] at hgt ⊢
    by_cases hc : l.rateA < ‖intoLine b l‖
    · simp [hgt.mpr hc, hc]
    · simp [hc, hgt]
  · simp [flowOf, not_lt.mpr hr]
  · simp [flowOf, mask, not_lt.mpr hr]

/-- C208 violated: a line out of service (for instance the one the contingency takes out) reports no flow, but its
performance index is computed, and its overload counted, as if it were in service. -/
theorem C208_out_of_service_violated (b : Br) (l : BLine) (hl : l ∈ b.lines)
    (hn : (b.lines.map (·.elem.tag)).Nodup) (hs : l.status = false) (hr : 0 < l.rateA)
    (hx : l.rateA < ‖intoLine b l‖) :
    (flowOf b l).p = 0 ∧ (flowOf b l).q = 0 ∧ (flowOf b l).perf = (‖intoLine b l‖ / l.rateA) ^ 2 ∧
    1 < (flowOf b l).perf ∧ mask (flowOf b l) = 2 := by
  have hp := power_eq b l hl hn
  have hgt : 1 < ‖intoLine b l‖ / l.rateA := by rw [lt_div_iff₀ hr, one_mul]; exact hx
  refine ⟨by simp [flowOf, hs], by simp [flowOf, hs], by simp [flowOf, hr, hp, sq], ?_, ?_⟩
  · simp only [flowOf, hr, hp, if_true, gt_iff_lt]
    nlinarith
  · simp [flowOf, mask, hr, hp, hgt]

/-- A line with reactance 1 between voltages 1 and 0, rating 1/2, out of service. -/
noncomputable def lineEx : BLine := ⟨⟨0, 1, 0, 0, 0, 0, 0, 0, 0, false, false, false, false, ['1', ' ']⟩, false, 1 / 2⟩

noncomputable def brEx : Br := ⟨true, 1, 2, [lineEx], false, false, 1, 0, 1⟩

example : lineEx ∈ brEx.lines ∧ (brEx.lines.map (·.elem.tag)).Nodup ∧ lineEx.status = false ∧ 0 < lineEx.rateA ∧
    lineEx.rateA < ‖intoLine brEx lineEx‖ := by
  have hz : (⟨0, 1⟩ : ℂ) = Complex.I := rfl
  have hne : (⟨0, 1⟩ : ℂ) ≠ 0 := by rw [hz]; exact Complex.I_ne_zero
  have : intoLine brEx lineEx = Complex.I := by
    have h0 : (⟨0, 0⟩ : ℂ) = 0 := rfl
    simp [intoLine, brEx, lineEx, YMatrix.Elem.line, YMatrix.Elem.z, hz, h0]
  rw [this]
  refine ⟨by simp [brEx], by simp [brEx], rfl, by norm_num [lineEx], ?_⟩
  rw [Complex.norm_I]
  norm_num [lineEx]

example : Usual brEx ∧ SameBranch brEx { brEx with v2 := 1, iso2 := true } := by
  refine ⟨⟨by decide, by decide, ?_⟩, rfl, rfl, rfl, rfl⟩
  intro l hl
  simp only [brEx, List.mem_singleton] at hl
  subst hl
  rfl

/-- Five lines between two buses. -/
example : Usual { brEx with lines := List.replicate 5 lineEx } ∧
    5 ≤ (List.replicate 5 lineEx).length := by
  refine ⟨⟨by decide, by decide, ?_⟩, by simp⟩
  intro l hl
  rw [List.eq_of_mem_replicate hl]
  rfl

/-! ### C209 -/

/-- C209, the part that holds: if the bus is balanced (the generators in service produce what is injected and
consumed), generators out of service have no scheduled power and the shares of the others add up to 1, then the
reported powers add up to the injection plus the load in service, and a generator out of service reports nothing.
(Missing: the state after the outage of a generator.) -/
theorem C209_balance_partial (pinj qinj : ℝ) (b : PFBusData.Bus)
    (hoff : ∀ g ∈ b.gens, g.status = 0 → g.pg = 0 ∧ g.qg = 0 ∧ g.pFac = 0)
    (hf : b.ref = true ∨ b.isPV = true → (b.gens.map (·.pFac)).sum = 1)
    (hP : b.ref = false → ((b.gens.filter (fun g => g.status ≠ 0)).map (·.pg)).sum =
      pinj * b.sbase + PFBusData.demand PFBusData.Load.pl b)
    (hQ : b.ref = false → b.isPV = false → ((b.gens.filter (fun g => g.status ≠ 0)).map (·.qg)).sum =
      qinj * b.sbase + PFBusData.demand PFBusData.Load.ql b) :
    (b.gens.map (fun g => (genOf pinj qinj b g).1)).sum = pinj * b.sbase + PFBusData.demand PFBusData.Load.pl b ∧
    (b.gens.map (fun g => (genOf pinj qinj b g).2)).sum = qinj * b.sbase + PFBusData.demand PFBusData.Load.ql b ∧
    ∀ g ∈ b.gens, g.status = 0 → genOf pinj qinj b g = (0, 0) := by
  simp only [← PFBusData.loadSum_eq] at hP hQ ⊢
  have hall : ∀ (f : PFBusData.Gen → ℝ) (gs : List PFBusData.Gen), (∀ g ∈ gs, g.status = 0 → f g = 0) →
      (gs.map f).sum = ((gs.filter (fun g => g.status ≠ 0)).map f).sum := by
    intro f gs
    induction gs with
    | nil => intro _; rfl
    | cons a gs ih =>
      intro h
      have ih' := ih (fun g hg => h g (by simp [hg]))
      by_cases ha : a.status = 0
      · simp [ha, h a (by simp) ha, ih']
      · simp [ha, ih']
  have hs : ∀ c : ℝ, (b.gens.map (·.pFac)).sum = 1 → (b.gens.map (fun g => g.pFac * c)).sum = c := by
    intro c h1
    rw [List.sum_map_mul_right, h1, one_mul]
  have hq0 : ∀ c : ℝ, ∀ g ∈ b.gens, (if g.status ≠ 0 then g.pFac * c else 0) = g.pFac * c := by
    intro c g hg
    by_cases h0 : g.status = 0
    · simp [h0, (hoff g hg h0).2.2]
    · simp [h0]
  cases hr : b.ref with
  | true =>
    refine ⟨?_, ?_, ?_⟩
    · simp only [genOf, hr, if_true]
      exact hs _ (hf (.inl hr))
    · simp only [genOf, hr, if_true]
      exact hs _ (hf (.inl hr))
    · intro g hg h0
      simp [genOf, hr, (hoff g hg h0).2.2]
  | false =>
    cases hpv : b.isPV with
    | true =>
      refine ⟨?_, ?_, ?_⟩
      · simp only [genOf, hr, hpv, if_true, Bool.false_eq_true, if_false]
        rw [hall _ _ (fun g hg h0 => (hoff g hg h0).1), hP hr]
      · simp only [genOf, hr, hpv, if_true, Bool.false_eq_true, if_false]
        rw [List.map_congr_left (hq0 _)]
        exact hs _ (hf (.inr hpv))
      · intro g hg h0
        simp [genOf, hr, hpv, (hoff g hg h0).1, h0]
    | false =>
      refine ⟨?_, ?_, ?_⟩
      · simp only [genOf, hr, hpv, Bool.false_eq_true, if_false]
        rw [hall _ _ (fun g hg h0 => (hoff g hg h0).1), hP hr]
      · simp only [genOf, hr, hpv, Bool.false_eq_true, if_false]
        rw [hall _ _ (fun g hg h0 => (hoff g hg h0).2.1), hQ hr hpv]
      · intro g hg h0
        simp [genOf, hr, hpv, (hoff g hg h0).1, (hoff g hg h0).2.1]

/-- C209 violated: the generator a contingency takes out of service on a bus that is not the reference bus is still
reported with its scheduled real power. -/
theorem C209_outage_violated (tag : String) (pinj qinj : ℝ) (b : PFBusData.Bus) (g : PFBusData.Gen)
    (hg : b.gens.find? (fun g => decide (tag = g.id)) = some g) (hr : b.ref = false) :
    ∃ g' ∈ (PFBusData.setGenStatus tag false b).gens, g'.id = tag ∧ g'.status = 0 ∧
      (genOf pinj qinj (PFBusData.setGenStatus tag false b) g').1 = g.pg := by
  have key : ∀ gs : List PFBusData.Gen, gs.find? (fun g => decide (tag = g.id)) = some g →
      ∃ g' ∈ PFBusData.setGenStatusL tag false gs, g'.id = tag ∧ g'.status = 0 ∧ g'.pg = g.pg := by
    intro gs
    induction gs with
    | nil => intro h; simp at h
    | cons a gs ih =>
      intro h
      rw [List.find?_cons] at h
      by_cases ha : tag = a.id
      · simp only [ha, decide_true, Option.some.injEq] at h
        subst h
        refine ⟨_, by rw [PFBusData.setGenStatusL, if_pos ha]; exact List.mem_cons_self, ?_⟩
        simp [ha]
      · simp only [ha, decide_false] at h
        obtain ⟨g', hm, hp⟩ := ih h
        refine ⟨g', by rw [PFBusData.setGenStatusL, if_neg ha]; exact List.mem_cons_of_mem _ hm, hp⟩
  obtain ⟨g', hm, h1, h2, h3⟩ := key b.gens hg
  refine ⟨g', hm, h1, h2, ?_⟩
  have hr' : (PFBusData.setGenStatus tag false b).ref = false := hr
  unfold genOf
  rw [hr']
  cases (PFBusData.setGenStatus tag false b).isPV <;> simp [h3]

/-- C209 violated: after the outage of a generator of the reference bus the shares of the others are not raised; the
reported real powers add up to less than the injection plus the load by the share of the lost generator. -/
theorem C209_reference_violated (tag : String) (pinj qinj : ℝ) (b : PFBusData.Bus) (g : PFBusData.Gen)
    (hg : b.gens.find? (fun g => decide (tag = g.id)) = some g) (hf : (b.gens.map (·.pFac)).sum = 1)
    (hr : b.ref = true) :
    ((PFBusData.setGenStatus tag false b).gens.map
      (fun x => (genOf pinj qinj (PFBusData.setGenStatus tag false b) x).1)).sum =
    (1 - g.pFac) * (pinj * b.sbase + PFBusData.demand PFBusData.Load.pl b) := by
  simp only [← PFBusData.loadSum_eq]
  have hs := PFBusData.setGenStatusL_sum tag b.gens g hg
  rw [hf] at hs
  rw [← hs, ← List.sum_map_mul_right]
  have hr' : (PFBusData.setGenStatus tag false b).ref = true := hr
  simp only [genOf, hr', if_true]
  rfl

/-- Two generators, one out of service, on a bus with a held voltage. -/
noncomputable def busEx : PFBusData.Bus :=
  ⟨[⟨"1 ", 1, 40, 0, 10, -10, 10, -10, 50, 0, 1, 1⟩, ⟨"2 ", 0, 0, 0, 0, 0, 0, 0, 50, 0, 0, 1⟩], [], [⟨"1", 1, 30, 5⟩],
    [], [], 100, 1, 1, false, true, true, 1, 1⟩

example : (∀ g ∈ busEx.gens, g.status = 0 → g.pg = 0 ∧ g.qg = 0 ∧ g.pFac = 0) ∧ (busEx.gens.map (·.pFac)).sum = 1 ∧
    ((busEx.gens.filter (fun g => g.status ≠ 0)).map (·.pg)).sum =
      (1 / 10 : ℝ) * busEx.sbase + PFBusData.demand PFBusData.Load.pl busEx ∧
    busEx.gens.find? (fun g => decide ("1 " = g.id)) = some ⟨"1 ", 1, 40, 0, 10, -10, 10, -10, 50, 0, 1, 1⟩ := by
  refine ⟨?_, by simp [busEx], ?_, by simp [busEx]⟩
  · intro g hg h0
    simp only [busEx, List.mem_cons, List.not_mem_nil, or_false] at hg
    rcases hg with rfl | rfl
    · simp at h0
    · simp
  · simp [busEx, PFBusData.demand]
    norm_num

/-! ### C210 -/

section
variable {V Res : Type}

theorem set_saved (st st' : Contingency.State) (ev : Contingency.Event) (h1 : st'.gens = st.gens)
    (h2 : st'.lines = st.lines) (h3 : st'.buses = st.buses) :
    Contingency.setContingency st' ev = Contingency.setContingency st ev := by
  obtain ⟨g, l, b, s⟩ := st
  obtain ⟨g', l', b', s'⟩ := st'
  simp only at h1 h2 h3
  subst h1 h2 h3
  cases ev <;> rfl

/-- C210, the part that holds: without reactive limit checks, and with contingencies that can be undone (C49), every
contingency a group of processes evaluates is solved on the network of the base case with just this contingency
applied, from the original voltages; its result does not depend on the contingencies evaluated before, on their order
or on their number.  (Missing: reactive limit checks, contingencies outside C49.) -/
theorem C210_independent_partial (solve : Contingency.State → V → V × Res) (orig v : V) (base : Contingency.State)
    (evs : List Contingency.Event) (h : ∀ ev ∈ evs, Contingency.Fits base ev) :
    tasks solve orig (base, v) evs =
      some (evs.map (fun ev => (solve (Contingency.setContingency base ev).1 orig).2)) := by
  have gen : ∀ (st : Contingency.State) (v : V), st.gens = base.gens → st.lines = base.lines →
      st.buses = base.buses → tasks solve orig (st, v) evs =
      some (evs.map (fun ev => (solve (Contingency.setContingency base ev).1 orig).2)) := by
    induction evs with
    | nil => intros; rfl
    | cons ev evs ih =>
      intro st v h1 h2 h3
      obtain ⟨st', hst', e1, e2, e3⟩ := Contingency.C49_round_trip_partial base ev (h ev (by simp))
      unfold tasks task
      simp only [set_saved base st ev h1 h2 h3, hst', Option.map_some]
      rw [ih (fun e he => h e (by simp [he])) st' _ e1 e2 e3]
      rfl
  exact gen base v rfl rfl rfl

end

/-- C210 violated: with reactive limit checks, after the base case every voltage-controlled bus whose limits are not
exceeded loses the list of its generator statuses: in all contingencies it is treated as if it had no generation,
whatever it had in the base case. -/
theorem C210_qlimit_violated (b b' : QLimit.Bus) (h : QLimit.chkQlim b = some (b', false)) (hpv : b.isPV = true)
    (hs : b.gstatusSave = []) :
    ∃ c, afterBase b = some c ∧ c.gstatus = [] ∧
      QLimit.setSBus c = ((-QLimit.loadSum QLimit.Load.pl b.loads) / b.sbase,
        (-QLimit.loadSum QLimit.Load.ql b.loads) / b.sbase) := by
  have hb : b' = { b with save2 := some b.isPV, pvPtr := b.pvPtr.map (fun _ => b.isPV) } := by
    unfold QLimit.chkQlim at h
    simp only [hpv, if_true] at h
    split at h
    · split at h <;> simp at h
    · split at h
      · simp at h
      · simp only [Option.some.injEq, Prod.mk.injEq, and_true] at h
        rw [← h, hpv]
  refine ⟨{ b with
    save2 := some b.isPV
    gstatus := []
    isPV := b.isPV
    pvPtr := (b.pvPtr.map (fun _ => b.isPV)).map (fun _ => b.isPV) }, ?_, rfl, ?_⟩
  · unfold afterBase
    rw [h]
    simp only [QLimit.clearQlim, hb, Option.map_some, hs]
  · simp [QLimit.setSBus]

/-- A voltage-controlled bus with one generator inside its limits. -/
example : ∃ b', QLimit.chkQlim ⟨true, none, some true, [1], [], [⟨50, 0, 10, -10⟩], [], 0, 0, 100, 1⟩ =
    some (b', false) := by
  unfold QLimit.chkQlim
  rw [if_pos rfl]
  simp only
  rw [if_neg (by norm_num [QLimit.qval, QLimit.loadSum, QLimit.genSum]),
    if_neg (by norm_num [QLimit.qval, QLimit.loadSum, QLimit.genSum])]
  exact ⟨_, rfl⟩

end GridPACK.CaDriver
