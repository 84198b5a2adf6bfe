import Verif.Spec.GenTransfer
import Mathlib.Data.List.Pairwise

/-! C270 (values of the generalised vector and slab mappers) and C271 (number of columns of a slab). -/
namespace GridPACK.GenTransfer
open GenMap PutFold

variable {α : Type}

theorem owned_eq (p : Proc) : owned p = ownedBuses p ++ ownedBranches p := rfl

theorem procOffset_next {ps : List Proc} {me me' : Nat} {p : Proc} (hp : ps[me]? = some p) (h : me < me') :
    procOffset ps me + dimension p ≤ procOffset ps me' := by
  unfold procOffset
  have e : (ps.map dimension)[me]? = some (dimension p) := by simp [hp]
  have h1 : ((ps.map dimension).take (me + 1)).sum = ((ps.map dimension).take me).sum + dimension p := by
    rw [List.take_add_one, e]
    simp
  rw [← h1]
  have h2 : (ps.map dimension).take me' =
      (ps.map dimension).take (me + 1) ++ ((ps.map dimension).drop (me + 1)).take (me' - (me + 1)) := by
    have := List.take_add (l := ps.map dimension) (i := me + 1) (j := me' - (me + 1))
    rw [← this]
    congr 1
    omega
  rw [h2, List.sum_append]
  omega

section
variable {ps : List Proc} (hwf : ∀ p ∈ ps, WellFormed p) (hu : UniqueIds ps) (ws : List (Comp × Nat))
  (hw : ws.Perm (allScatter ps))
include hwf hu hw

/-- The indices of an own component lie in the block of the process. -/
theorem index_range {me : Nat} {p : Proc} (hp : ps[me]? = some p) {c : Comp} (hc : c ∈ owned p) {j : Nat}
    (hj : j < size p c) :
    procOffset ps me ≤ global ws (key p c) + j ∧ global ws (key p c) + j < procOffset ps me + dimension p := by
  have hperm := proc_indices hwf hu ws hw me p hp
  have : global ws (key p c) + j ∈ (owned p).flatMap (indices (global ws) p) :=
    List.mem_flatMap.2 ⟨c, hc, List.mem_map.2 ⟨j, List.mem_range.2 hj, rfl⟩⟩
  have := (hperm.mem_iff).1 this
  rw [List.mem_range'_1] at this
  exact this

/-- Different elements have different indices. -/
theorem index_inj {me me' : Nat} {p p' : Proc} (hp : ps[me]? = some p) (hp' : ps[me']? = some p')
    {c c' : Comp} (hc : c ∈ owned p) (hc' : c' ∈ owned p') {j j' : Nat} (hj : j < size p c) (hj' : j' < size p' c')
    (he : global ws (key p c) + j = global ws (key p' c') + j') : me = me' ∧ c = c' ∧ j = j' := by
  have r := index_range hwf hu ws hw hp hc hj
  have r' := index_range hwf hu ws hw hp' hc' hj'
  have hme : me = me' := by
    rcases Nat.lt_trichotomy me me' with h | h | h
    · have := procOffset_next hp h; omega
    · exact h
    · have := procOffset_next hp' h; omega
  subst hme
  rw [hp] at hp'
  cases hp'
  have hperm := proc_indices hwf hu ws hw me p hp
  have hnd : ((owned p).flatMap (indices (global ws) p)).Nodup := hperm.nodup_iff.2 (List.nodup_range' ..)
  have hcc : c = c' := by
    by_contra hne
    have hpw := (List.nodup_flatMap.1 hnd).2
    have hdis : (indices (global ws) p c).Disjoint (indices (global ws) p c') := by
      have : Std.Symm (Function.onFun List.Disjoint (indices (global ws) p)) :=
        ⟨fun _ _ h x hb ha => h ha hb⟩
      exact List.Pairwise.forall hpw hc hc' hne
    exact hdis (List.mem_map.2 ⟨j, List.mem_range.2 hj, rfl⟩) (List.mem_map.2 ⟨j', List.mem_range.2 hj', he.symm⟩)
  subst hcc
  exact ⟨rfl, rfl, by omega⟩

theorem mem_allWrites (vals : Nat → Comp → Nat → α) (w : Nat × α) :
    w ∈ allWrites ps (global ws) vals ↔
      ∃ me p c j, ps[me]? = some p ∧ c ∈ owned p ∧ j < size p c ∧ w = (global ws (key p c) + j, vals me c j) := by
  unfold allWrites
  rw [List.mem_flatMap]
  constructor
  · rintro ⟨⟨p, me⟩, hp, h⟩
    rw [List.mem_zipIdx_iff_getElem?] at hp
    rcases List.mem_append.1 h with h | h
    · obtain ⟨c, hc, h⟩ := List.mem_flatMap.1 h
      obtain ⟨j, hj, rfl⟩ := List.mem_map.1 h
      exact ⟨me, p, c, j, hp, by rw [owned_eq]; exact List.mem_append_left _ hc, List.mem_range.1 hj, rfl⟩
    · obtain ⟨c, hc, h⟩ := List.mem_flatMap.1 (List.mem_filter.1 h).1
      obtain ⟨j, hj, rfl⟩ := List.mem_map.1 h
      exact ⟨me, p, c, j, hp, by rw [owned_eq]; exact List.mem_append_right _ hc, List.mem_range.1 hj, rfl⟩
  · rintro ⟨me, p, c, j, hp, hc, hj, rfl⟩
    refine ⟨(p, me), List.mem_zipIdx_iff_getElem?.2 hp, ?_⟩
    have hr := index_range hwf hu ws hw hp hc hj
    rw [owned_eq] at hc
    rw [List.mem_append]
    rcases List.mem_append.1 hc with hc | hc
    · exact Or.inl (List.mem_flatMap.2 ⟨c, hc, List.mem_map.2 ⟨j, List.mem_range.2 hj, rfl⟩⟩)
    · refine Or.inr (List.mem_filter.2
        ⟨List.mem_flatMap.2 ⟨c, hc, List.mem_map.2 ⟨j, List.mem_range.2 hj, rfl⟩⟩, ?_⟩)
      simp only [minIndex, endIndex, Bool.and_eq_true]
      exact ⟨decide_eq_true hr.1, decide_eq_true hr.2⟩

/-- C270.  For every distribution and every order in which the elements are set: the vector (slab) holds at the indices
of every own bus and branch of every process its values, in order. -/
theorem C270_load (vals : Nat → Comp → Nat → α) (zero : α) (es : List (Nat × α))
    (hes : es.Perm (allWrites ps (global ws) vals)) {me : Nat} {p : Proc} (hp : ps[me]? = some p) {c : Comp}
    (hc : c ∈ owned p) : Holds (global ws) p (mapTo zero es) c (vals me c) := by
  unfold Holds indices
  rw [List.map_map]
  apply List.map_congr_left
  intro j hj
  rw [List.mem_range] at hj
  simp only [Function.comp]
  unfold mapTo
  refine (put_fold setElement (fun _ _ _ => rfl) es _ _ _ ?_).1 ?_
  · intro w hmem he
    obtain ⟨me', p', c', j', hp', hc', hj', rfl⟩ := (mem_allWrites hwf hu ws hw vals w).1 (hes.mem_iff.1 hmem)
    obtain ⟨rfl, rfl, rfl⟩ := index_inj hwf hu ws hw hp' hp hc' hc hj' hj he
    rfl
  · exact ⟨_, hes.mem_iff.2 ((mem_allWrites hwf hu ws hw vals _).2 ⟨me, p, c, j, hp, hc, hj, rfl⟩), rfl⟩

/-- C270, back again: what `mapToNetwork` hands to the components after `mapToVector` are their own values. -/
theorem C270_roundtrip (vals : Nat → Comp → Nat → α) (zero : α) (es : List (Nat × α))
    (hes : es.Perm (allWrites ps (global ws) vals)) {me : Nat} {p : Proc} (hp : ps[me]? = some p) :
    pushVector (global ws) p (mapTo zero es) =
      (owned p).map (fun c => (c, (List.range (size p c)).map (vals me c))) := by
  unfold pushVector
  rw [← owned_eq]
  apply List.map_congr_left
  intro c hc
  rw [C270_load hwf hu ws hw vals zero es hes hp hc]

/-- C270, the other way round: a vector pushed to the network is given back by `mapToVector` if the components keep
their values. -/
theorem C270_vector_roundtrip (x : Nat → α) (zero : α) (vals : Nat → Comp → Nat → α)
    (hkeep : ∀ (me : Nat) (p : Proc), ps[me]? = some p → ∀ cv ∈ pushVector (global ws) p x,
      cv.2 = (List.range (size p cv.1)).map (vals me cv.1))
    (es : List (Nat × α)) (hes : es.Perm (allWrites ps (global ws) vals)) (i : Nat) (hi : i < totalDim ps) :
    mapTo zero es i = x i := by
  have hperm := C23_indices_bijection_partial ps hwf hu ws hw
  have hmem := hperm.mem_iff.2 (List.mem_range.2 hi)
  obtain ⟨p, hps, hmem⟩ := List.mem_flatMap.1 hmem
  obtain ⟨c, hc, hmem⟩ := List.mem_flatMap.1 hmem
  obtain ⟨j, hj, rfl⟩ := List.mem_map.1 hmem
  obtain ⟨me, hp⟩ := List.mem_iff_getElem?.1 hps
  have hl := C270_load hwf hu ws hw vals zero es hes hp hc
  have hk := hkeep me p hp (c, (indices (global ws) p c).map x)
    (by unfold pushVector; rw [← owned_eq]; exact List.mem_map.2 ⟨c, hc, rfl⟩)
  unfold Holds at hl
  simp only at hk
  rw [← hk] at hl
  unfold indices at hl
  rw [List.map_map, List.map_map] at hl
  exact List.map_inj_left.1 hl j hj

end

theorem cut_flatMap (g : Comp → Nat) (p : Proc) (x : Nat → α) : ∀ cs : List Comp,
    cut (cs.map (size p)) ((cs.flatMap (indices g p)).map x) = cs.map (fun c => (indices g p c).map x)
  | [] => rfl
  | c :: cs => by
    have hl : ((indices g p c).map x).length = size p c := by simp [indices]
    rw [List.map_cons, List.flatMap_cons, List.map_append, cut, List.map_cons]
    rw [List.take_append_of_le_length (by omega), List.take_of_length_le (by omega),
      ← hl, List.drop_left, cut_flatMap g p x cs]

/-- C270, slabs: the rows are handed to the same components as the elements of a vector. -/
theorem C270_slab (g : Comp → Nat) (p : Proc) (x : Nat → α) : pushSlab g p x = pushVector g p x := by
  unfold pushSlab pushVector pushSlabPart
  rw [cut_flatMap, cut_flatMap, List.map_append]
  have : ∀ cs : List Comp, cs.zip (cs.map (fun c => (indices g p c).map x)) =
      cs.map (fun c => (c, (indices g p c).map x)) := by
    intro cs
    induction cs with
    | nil => rfl
    | cons c cs ih => simp [ih]
  rw [this, this]

/-! ### Columns -/

theorem fold_ok (cs : List (Nat × Nat)) (hpos : ∀ c ∈ cs, c.1 > 0 → c.2 > 0) : ∀ s : Nat × Bool,
    (cs.foldl colsStep s).2 = true →
    s.2 = true ∧ (s.1 ≠ 0 → (cs.foldl colsStep s).1 = s.1) ∧ ∀ c ∈ cs, c.1 > 0 → c.2 = (cs.foldl colsStep s).1 := by
  induction cs with
  | nil => intro s h; exact ⟨h, fun _ => rfl, by simp⟩
  | cons c cs ih =>
    intro s h
    rw [List.foldl_cons] at h ⊢
    obtain ⟨h1, h2, h3⟩ := ih (fun c hc => hpos c (by simp [hc])) (colsStep s c) h
    have hc := hpos c (by simp)
    have e : colsStep s c = (if s.1 = 0 ∧ c.1 > 0 then c.2 else s.1,
        s.2 && !(decide (c.1 > 0) && decide (c.2 ≠ if s.1 = 0 ∧ c.1 > 0 then c.2 else s.1))) := rfl
    generalize hf : cs.foldl colsStep (colsStep s c) = f at h h2 h3 ⊢
    rw [e] at h1 h2
    simp only [Bool.and_eq_true, Bool.not_eq_true', Bool.and_eq_false_iff, decide_eq_false_iff_not] at h1 h2
    refine ⟨h1.1, ?_, ?_⟩
    · intro hs
      rw [if_neg (fun hh => hs hh.1)] at h2
      exact h2 hs
    · intro d hd hd0
      rcases List.mem_cons.1 hd with rfl | hd
      · have hp := hc hd0
        rcases h1.2 with hz | hz
        · exact absurd hd0 hz
        · have hz := not_not.1 hz
          rw [← hz] at h2
          exact (h2 (by omega)).symm
      · exact h3 d hd hd0

theorem fold_uniform (cs : List (Nat × Nat)) (n : Nat) (hu : ∀ c ∈ cs, c.1 > 0 → c.2 = n) : ∀ s : Nat × Bool,
    s.2 = true → (s.1 = 0 ∨ s.1 = n) →
    (cs.foldl colsStep s).2 = true ∧
      (cs.foldl colsStep s).1 = if s.1 = n ∨ ∃ c ∈ cs, c.1 > 0 then n else 0 := by
  induction cs with
  | nil =>
    intro s h1 h2
    refine ⟨h1, ?_⟩
    simp only [List.foldl_nil, List.not_mem_nil, false_and, exists_const, or_false]
    split <;> omega
  | cons c cs ih =>
    intro s h1 h2
    rw [List.foldl_cons]
    have hc := hu c (by simp)
    have hstep : colsStep s c = (if c.1 > 0 then n else s.1, true) := by
      unfold colsStep
      by_cases h0 : c.1 > 0
      · have := hc h0
        rcases h2 with h2 | h2
        · simp [h0, h2, this, h1]
        · by_cases hs : s.1 = 0
          · simp [h0, hs, this, h1]
          · simp only [h1, h2, this]
            simp
      · simp [h0, h1]
    obtain ⟨i1, i2⟩ := ih (fun c hc => hu c (by simp [hc])) (colsStep s c) (by rw [hstep])
      (by rw [hstep]; by_cases h0 : c.1 > 0 <;> simp [h0, h2])
    refine ⟨i1, ?_⟩
    rw [i2, hstep]
    have hor : ((if c.1 > 0 then n else s.1) = n ∨ ∃ c ∈ cs, c.1 > 0) ↔ (s.1 = n ∨ ∃ d ∈ c :: cs, d.1 > 0) := by
      by_cases h0 : c.1 > 0
      · rw [if_pos h0]
        exact ⟨fun _ => Or.inr ⟨c, by simp, h0⟩, fun _ => Or.inl rfl⟩
      · rw [if_neg h0]
        constructor
        · rintro (h | ⟨d, hd, hd0⟩)
          · exact Or.inl h
          · exact Or.inr ⟨d, by simp [hd], hd0⟩
        · rintro (h | ⟨d, hd, hd0⟩)
          · exact Or.inl h
          · rcases List.mem_cons.1 hd with rfl | hd
            · exact absurd hd0 h0
            · exact Or.inr ⟨d, hd, hd0⟩
    simp only [hor]

/-- C271.  If process 0 gets its mapper, all components with rows, on all processes, have the same number of columns, and
every process works with this number. -/
theorem C271_accepted (css : List (List (Nat × Nat))) (hpos : ∀ cs ∈ css, ∀ c ∈ cs, c.1 > 0 → c.2 > 0)
    (hne : css ≠ []) (n : Nat) (h : construct css 0 = some n) :
    Uniform css n ∧ ∀ me, me < css.length → construct css me = some n := by
  unfold construct at h
  simp only [decide_true, Bool.and_true, Bool.not_eq_true'] at h
  split at h
  · simp at h
  · rename_i hok
    simp only [Option.some.injEq] at h
    have hok : (localCols (css.getD 0 [])).2 = true ∧ maxCols css = minCols css := by
      simpa using hok
    have hmm := hok.2
    -- every process agrees with the maximum and the minimum
    have hall : ∀ cs ∈ css, (localCols cs).2 = true ∧ (localCols cs).1 = n := by
      obtain ⟨cs0, rest, rfl⟩ := List.exists_cons_of_ne_nil hne
      simp only [List.getD_cons_zero] at h
      obtain ⟨mx, hmx⟩ : ∃ mx, maxCols (cs0 :: rest) = some mx := by
        unfold maxCols; rw [List.map_cons, List.max?_cons']; exact ⟨_, rfl⟩
      have hmn : minCols (cs0 :: rest) = some mx := by rw [← hmm, hmx]
      unfold maxCols at hmx
      unfold minCols at hmn
      rw [List.max?_eq_some_iff] at hmx
      rw [List.min?_eq_some_iff] at hmn
      have key : ∀ cs ∈ cs0 :: rest, (localCols cs).2 = true ∧ ((localCols cs).1 : Int) = mx := by
        intro cs hcs
        have a := hmx.2 _ (List.mem_map.2 ⟨cs, hcs, rfl⟩)
        have b := hmn.2 _ (List.mem_map.2 ⟨cs, hcs, rfl⟩)
        by_cases ht : (localCols cs).2 = true
        · rw [if_pos ht] at b
          exact ⟨ht, le_antisymm a b⟩
        · rw [if_neg ht] at b
          have : (0 : Int) ≤ (localCols cs).1 := Int.natCast_nonneg _
          omega
      intro cs hcs
      refine ⟨(key cs hcs).1, ?_⟩
      have k1 := (key cs hcs).2
      have k0 := (key cs0 (by simp)).2
      have : ((localCols cs).1 : Int) = (localCols cs0).1 := k1.trans k0.symm
      omega
    refine ⟨?_, ?_⟩
    · intro cs hcs c hc h0
      obtain ⟨h1, h2⟩ := hall cs hcs
      rw [← h2]
      exact (fold_ok cs (hpos cs hcs) (0, true) h1).2.2 c hc h0
    · intro me hme
      have hm : css.getD me [] ∈ css := by
        rw [List.getD_eq_getElem?_getD, List.getElem?_eq_getElem hme]
        exact List.getElem_mem hme
      obtain ⟨h1, h2⟩ := hall _ hm
      unfold construct
      simp only [h1, h2, hmm]
      simp

/-- C271 (part): if in addition every process has a component with rows, a mapper of a uniform network is created on all
processes. -/
theorem C271_uniform_partial (css : List (List (Nat × Nat))) (n : Nat) (hu : Uniform css n)
    (hrows : ∀ cs ∈ css, ∃ c ∈ cs, c.1 > 0) (me : Nat) (hme : me < css.length) :
    construct css me = some n := by
  have hall : ∀ cs ∈ css, localCols cs = (n, true) := by
    intro cs hcs
    obtain ⟨h1, h2⟩ := fold_uniform cs n (hu cs hcs) (0, true) rfl (Or.inl rfl)
    rw [if_pos (Or.inr (hrows cs hcs))] at h2
    exact Prod.ext h2 h1
  have hm : css.getD me [] ∈ css := by
    rw [List.getD_eq_getElem?_getD, List.getElem?_eq_getElem hme]
    exact List.getElem_mem hme
  have hmax : maxCols css = some (n : Int) := by
    unfold maxCols
    rw [List.max?_eq_some_iff]
    exact ⟨List.mem_map.2 ⟨_, hm, by rw [hall _ hm]⟩, fun b hb => by
      obtain ⟨cs, hcs, rfl⟩ := List.mem_map.1 hb
      rw [hall cs hcs]⟩
  have hmin : minCols css = some (n : Int) := by
    unfold minCols
    rw [List.min?_eq_some_iff]
    exact ⟨List.mem_map.2 ⟨_, hm, by rw [hall _ hm]; rfl⟩, fun b hb => by
      obtain ⟨cs, hcs, rfl⟩ := List.mem_map.1 hb
      rw [hall cs hcs]; exact le_refl _⟩
  unfold construct
  simp only [hall _ hm, hmax, hmin]
  simp

/-- C271 fails: if one process has no component with rows (for instance, only load buses in a partition, when generators
supply the rows), process 0 gets an exception although all columns agree, and the others do not. -/
theorem C271_empty_process_violated (css : List (List (Nat × Nat))) (n : Nat) (hn : n > 0) (hu : Uniform css n)
    (hempty : ∃ cs ∈ css, ∀ c ∈ cs, c.1 = 0) (hrows : ∃ cs ∈ css, ∃ c ∈ cs, c.1 > 0) :
    construct css 0 = none ∧ ∀ me, me ≠ 0 → construct css me ≠ none := by
  constructor
  · cases h : construct css 0 with
    | none => rfl
    | some m =>
      exfalso
      obtain ⟨cs, hcs, he⟩ := hempty
      obtain ⟨ds, hds, d, hd, hd0⟩ := hrows
      have hne : css ≠ [] := by intro hc; rw [hc] at hcs; simp at hcs
      have hpos : ∀ cs ∈ css, ∀ c ∈ cs, c.1 > 0 → c.2 > 0 := fun cs hcs c hc h0 => by rw [hu cs hcs c hc h0]; exact hn
      obtain ⟨h1, h2⟩ := C271_accepted css hpos hne m h
      have hmn : m = n := by rw [← h1 ds hds d hd hd0, hu ds hds d hd hd0]
      obtain ⟨i, hi⟩ := List.mem_iff_getElem?.1 hcs
      have hil := (List.getElem?_eq_some_iff.1 hi).1
      have hc := h2 i hil
      obtain ⟨-, hz⟩ := fold_uniform cs n (hu cs hcs) (0, true) rfl (Or.inl rfl)
      rw [if_neg] at hz
      · unfold construct at hc
        have hg : css.getD i [] = cs := by rw [List.getD_eq_getElem?_getD, hi]; rfl
        rw [hg] at hc
        simp only at hc
        split at hc
        · simp at hc
        · have : (localCols cs).1 = m := by simpa using hc
          have hz : (localCols cs).1 = 0 := hz
          omega
      · rintro (h0 | ⟨c, hc, h0⟩)
        · simp only at h0; omega
        · have := he c hc; omega
  · intro me hme
    unfold construct
    simp [hme]

/-- C271 fails in the other direction: columns that differ are reported on process 0 only. -/
theorem C271_other_processes_violated (css : List (List (Nat × Nat))) (me : Nat) (hme : me ≠ 0) :
    ∃ n, construct css me = some n := by
  unfold construct
  simp [hme]

/-! Examples: the network of `exProcs`. -/

example : allWrites exProcs (global (allScatter exProcs)) (fun me c j => (me, c, j)) =
    [(0, 0, .bus 0, 0), (1, 0, .bus 0, 1), (3, 0, .bus 1, 0), (2, 0, .branch 0, 0), (4, 0, .branch 1, 0),
      (5, 0, .branch 1, 1), (6, 1, .bus 0, 0), (7, 1, .bus 0, 1), (8, 1, .bus 0, 2)] := by decide

example : exProcs.map (fun p => pushSlab (global (allScatter exProcs)) p (fun i => 10 * i)) =
    [[(.bus 0, [0, 10]), (.bus 1, [30]), (.branch 0, [20]), (.branch 1, [40, 50])], [(.bus 0, [60, 70, 80])]] := by
  decide

example : construct [[(2, 5), (0, 0)], [(1, 5)]] 0 = some 5 := by decide
/-- Three processes, the second without rows. -/
example : construct [[(2, 5)], [(0, 0)], [(1, 5)]] 0 = none ∧ construct [[(2, 5)], [(0, 0)], [(1, 5)]] 2 = some 5 := by
  decide

end GridPACK.GenTransfer
