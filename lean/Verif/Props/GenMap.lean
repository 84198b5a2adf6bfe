import Verif.Model.GenMap
import Verif.Lemmas.PutFold
import Mathlib.Data.List.Perm.Basic
import Mathlib.Data.List.Nodup
import Mathlib.Algebra.BigOperators.Group.List.Basic

/-! Properties C23 (index assignment of the generalised mappers is a bijection) and C60 (elements
supplied by branches). -/
namespace GridPACK.GenMap
open PutFold

/-! ### Specification -/

/-- What the network guarantees on one process: branch ends are local buses; every active bus knows
exactly the branches that touch it, each once; a branch with both ends owned is owned; an owned branch
touches an owned bus; no branch joins a bus to itself. -/
structure WellFormed (p : Proc) : Prop where
  nbrs_exact : ∀ (i : Nat) (b : Bus), p.buses[i]? = some b → b.active = true →
    b.nbrs.Perm ((List.range p.branches.length).filter
      (fun j => decide (from_ p j = i) || decide (to_ p j = i)))
  ends : ∀ (j : Nat) (b : Branch), p.branches[j]? = some b → b.b1 < p.buses.length ∧ b.b2 < p.buses.length
  no_loop : ∀ b ∈ p.branches, b.b1 ≠ b.b2
  local_owned : ∀ b ∈ p.branches, activeBus p b.b1 = true → activeBus p b.b2 = true →
    b.active = true
  touches : ∀ b ∈ p.branches, b.active = true →
    activeBus p b.b1 = true ∨ activeBus p b.b2 = true

/-- Owned components carry distinct global indices over all processes (property C14). -/
def UniqueIds (ps : List Proc) : Prop :=
  (ps.flatMap (fun p => (owned p).map (key p))).Nodup

/-! ### Order of the visits -/

/-- Branches given an offset while visiting bus `i`. -/
def visited (p : Proc) (i j : Nat) : Bool :=
  if isLocalBranch p j then decide (from_ p j = i) else activeBranch p j

/-- Components in the order in which they get their offsets. -/
def order (p : Proc) : List Comp :=
  (List.range p.buses.length).flatMap (fun i =>
    if activeBus p i then Comp.bus i :: ((nbrs p i).filter (visited p i)).map Comp.branch else [])

theorem setOffsets_eq (p : Proc) :
    setOffsets p = (order p).foldl (assign p) { icnt := 0, off := fun _ => 0 } := by
  unfold setOffsets order
  generalize ({ icnt := 0, off := fun _ => 0 } : St) = st
  have hinner : ∀ (i : Nat) (l : List Nat) (st : St), l.foldl (branchStep p i) st =
      ((l.filter (visited p i)).map Comp.branch).foldl (assign p) st := by
    intro i l
    induction l with
    | nil => intro st; rfl
    | cons j l ih =>
      intro st
      rw [List.foldl_cons, ih]
      unfold branchStep
      rw [List.filter_cons]
      unfold visited
      by_cases h1 : isLocalBranch p j = true
      · simp only [h1, if_true]
        by_cases h2 : from_ p j = i
        · simp [h2]
        · simp [h2]
      · simp only [h1]
        by_cases h2 : activeBranch p j = true
        · simp [h2]
        · simp [h2]
  generalize List.range p.buses.length = l
  induction l generalizing st with
  | nil => rfl
  | cons i l ih =>
    rw [List.foldl_cons, List.flatMap_cons, List.foldl_append, ih]
    congr 1
    unfold busStep
    by_cases h : activeBus p i = true
    · rw [if_pos h, if_pos h, hinner, List.foldl_cons]
    · rw [if_neg h, if_neg h]; rfl

/-- Offsets along a list without repetitions are running sums. -/
theorem assign_blocks (p : Proc) (l : List Comp) (hn : l.Nodup) (st : St) :
    l.flatMap (fun c => List.range' ((l.foldl (assign p) st).off c) (size p c)) =
      List.range' st.icnt ((l.map (size p)).sum) ∧
    (∀ c, c ∉ l → (l.foldl (assign p) st).off c = st.off c) := by
  induction l generalizing st with
  | nil => exact ⟨rfl, fun _ _ => rfl⟩
  | cons c l ih =>
    rw [List.nodup_cons] at hn
    obtain ⟨h1, h2⟩ := ih hn.2 (assign p st c)
    rw [List.foldl_cons]
    constructor
    · rw [List.flatMap_cons, h1, h2 c hn.1, List.map_cons, List.sum_cons]
      simp only [assign, if_true]
      rw [List.range'_append_1]
    · intro x hx
      rw [List.mem_cons, not_or] at hx
      rw [h2 x hx.2]
      simp only [assign]
      rw [if_neg hx.1]

theorem activeBus_iff (p : Proc) (i : Nat) :
    activeBus p i = true ↔ ∃ b, p.buses[i]? = some b ∧ b.active = true := by
  unfold activeBus
  cases p.buses[i]? <;> simp

theorem activeBranch_iff (p : Proc) (j : Nat) :
    activeBranch p j = true ↔ ∃ b, p.branches[j]? = some b ∧ b.active = true := by
  unfold activeBranch
  cases p.branches[j]? <;> simp

section
variable {p : Proc} (hp : WellFormed p)
include hp

theorem nbrs_spec {i : Nat} (hi : activeBus p i = true) :
    (nbrs p i).Nodup ∧ ∀ j, j ∈ nbrs p i ↔
      j < p.branches.length ∧ (from_ p j = i ∨ to_ p j = i) := by
  obtain ⟨b, hb, ha⟩ := (activeBus_iff p i).mp hi
  have h := hp.nbrs_exact i b hb ha
  have e : nbrs p i = b.nbrs := by unfold nbrs; rw [hb]; rfl
  rw [e]
  constructor
  · rw [h.nodup_iff]
    exact List.nodup_range.filter _
  · intro j
    rw [h.mem_iff, List.mem_filter, List.mem_range]
    simp

/-- Each owned component is visited exactly once and no other. -/
theorem order_perm : (order p).Perm (owned p) := by
  rw [List.perm_ext_iff_of_nodup]
  · -- membership
    intro c
    unfold order owned
    rw [List.mem_flatMap, List.mem_append, List.mem_map, List.mem_map]
    constructor
    · rintro ⟨i, hi, hc⟩
      split at hc
      · rename_i ha
        rcases List.mem_cons.mp hc with rfl | hc
        · exact .inl ⟨i, List.mem_filter.mpr ⟨hi, ha⟩, rfl⟩
        · obtain ⟨j, hj, rfl⟩ := List.mem_map.mp hc
          rw [List.mem_filter] at hj
          obtain ⟨hj1, hj2⟩ := hj
          rw [(nbrs_spec hp ha).2] at hj1
          refine .inr ⟨j, List.mem_filter.mpr ⟨by simpa using hj1.1, ?_⟩, rfl⟩
          unfold visited at hj2
          split at hj2
          · rename_i hl
            unfold isLocalBranch at hl
            rw [Bool.and_eq_true] at hl
            have hg := List.getElem?_eq_getElem hj1.1
            have hf : from_ p j = p.branches[j].b1 := by unfold from_; rw [hg]; rfl
            have ht : to_ p j = p.branches[j].b2 := by unfold to_; rw [hg]; rfl
            rw [hf, ht] at hl
            rw [activeBranch_iff]
            exact ⟨_, hg, hp.local_owned _ (List.getElem_mem hj1.1) hl.1 hl.2⟩
          · exact hj2
      · simp at hc
    · rintro (⟨i, hi, rfl⟩ | ⟨j, hj, rfl⟩)
      · rw [List.mem_filter] at hi
        exact ⟨i, hi.1, by rw [if_pos hi.2]; simp⟩
      · rw [List.mem_filter, List.mem_range] at hj
        obtain ⟨hj1, hj2⟩ := hj
        have hg := List.getElem?_eq_getElem hj1
        have hf : from_ p j = p.branches[j].b1 := by unfold from_; rw [hg]; rfl
        have ht : to_ p j = p.branches[j].b2 := by unfold to_; rw [hg]; rfl
        have hact : p.branches[j].active = true := by
          obtain ⟨b, hb, ha⟩ := (activeBranch_iff p j).mp hj2
          rw [hg] at hb; cases hb; exact ha
        obtain ⟨e1, e2⟩ := hp.ends j _ hg
        rcases hp.touches _ (List.getElem_mem hj1) hact with h1 | h1
        · refine ⟨p.branches[j].b1, by simpa using e1, ?_⟩
          rw [if_pos h1]
          refine List.mem_cons_of_mem _ (List.mem_map.mpr ⟨j, List.mem_filter.mpr ⟨?_, ?_⟩, rfl⟩)
          · rw [(nbrs_spec hp h1).2]; exact ⟨hj1, .inl hf⟩
          · unfold visited; split
            · simpa using hf
            · exact hj2
        · by_cases h0 : activeBus p p.branches[j].b1 = true
          · refine ⟨p.branches[j].b1, by simpa using e1, ?_⟩
            rw [if_pos h0]
            refine List.mem_cons_of_mem _ (List.mem_map.mpr ⟨j, List.mem_filter.mpr ⟨?_, ?_⟩, rfl⟩)
            · rw [(nbrs_spec hp h0).2]; exact ⟨hj1, .inl hf⟩
            · unfold visited; split
              · simpa using hf
              · exact hj2
          · refine ⟨p.branches[j].b2, by simpa using e2, ?_⟩
            rw [if_pos h1]
            refine List.mem_cons_of_mem _ (List.mem_map.mpr ⟨j, List.mem_filter.mpr ⟨?_, ?_⟩, rfl⟩)
            · rw [(nbrs_spec hp h1).2]; exact ⟨hj1, .inr ht⟩
            · unfold visited
              rw [if_neg]
              · exact hj2
              · unfold isLocalBranch
                rw [hf]
                simp [h0]
  · -- no repetition
    unfold order
    rw [List.nodup_flatMap]
    constructor
    · intro i _
      split
      · rename_i ha
        rw [List.nodup_cons]
        constructor
        · simp
        · refine List.Nodup.map ?_ ((nbrs_spec hp ha).1.filter _)
          intro a b h; injection h
      · exact List.nodup_nil
    · refine List.nodup_range.imp ?_
      intro i i' hne
      simp only [Function.onFun]
      intro c hc hc'
      split at hc
      · rename_i ha
        split at hc'
        · rename_i ha'
          rcases List.mem_cons.mp hc with rfl | hc
          · rcases List.mem_cons.mp hc' with h | h
            · injection h with h; exact hne h
            · simp at h
          · obtain ⟨j, hj, rfl⟩ := List.mem_map.mp hc
            rcases List.mem_cons.mp hc' with h | h
            · cases h
            · obtain ⟨j', hj', h⟩ := List.mem_map.mp h
              injection h with h
              subst h
              rw [List.mem_filter] at hj hj'
              obtain ⟨a1, a2⟩ := hj
              obtain ⟨b1, b2⟩ := hj'
              rw [(nbrs_spec hp ha).2] at a1
              rw [(nbrs_spec hp ha').2] at b1
              unfold visited at a2 b2
              by_cases hl : isLocalBranch p j' = true
              · rw [if_pos hl] at a2 b2
                simp only [decide_eq_true_eq] at a2 b2
                exact hne (a2.symm.trans b2)
              · -- both ends would be owned
                apply hl
                unfold isLocalBranch
                rw [Bool.and_eq_true]
                rcases a1.2 with q1 | q1 <;> rcases b1.2 with q2 | q2
                · exact absurd (q1.symm.trans q2) hne
                · rw [q1, q2]; exact ⟨ha, ha'⟩
                · rw [q1, q2]; exact ⟨ha', ha⟩
                · exact absurd (q1.symm.trans q2) hne
        · simp at hc'
      · simp at hc
  · unfold owned
    rw [List.nodup_append]
    refine ⟨?_, ?_, ?_⟩
    · refine List.Nodup.map ?_ (List.nodup_range.filter _)
      intro a b h; injection h
    · refine List.Nodup.map ?_ (List.nodup_range.filter _)
      intro a b h; injection h
    · intro a ha b hb
      obtain ⟨i, _, rfl⟩ := List.mem_map.mp ha
      obtain ⟨j, _, rfl⟩ := List.mem_map.mp hb
      simp

end

theorem dimension_eq (p : Proc) : ((owned p).map (size p)).sum = dimension p := by
  unfold owned dimension
  rw [List.map_append, List.sum_append, List.map_map, List.map_map]
  have h1 : ∀ (n : Nat) (act : Nat → Bool) (sz : Nat → Nat),
      (((List.range n).filter act).map sz).sum =
        ((List.range n).map (fun i => if act i then sz i else 0)).sum := by
    intro n act sz
    generalize List.range n = l
    induction l with
    | nil => rfl
    | cons i l ih =>
      rw [List.filter_cons, List.map_cons, List.sum_cons, ← ih]
      split <;> simp
  congr 1
  · rw [h1]
    have : p.buses.map (fun b => if b.active then b.size else 0) =
        (List.range p.buses.length).map
          (fun i => if activeBus p i = true then (size p ∘ Comp.bus) i else 0) := by
      apply List.ext_getElem
      · simp
      · intro i h _
        rw [List.length_map] at h
        simp [activeBus, size, List.getElem?_eq_getElem h]
    rw [this]
  · rw [h1]
    have : p.branches.map (fun b => if b.active then b.size else 0) =
        (List.range p.branches.length).map
          (fun i => if activeBranch p i = true then (size p ∘ Comp.branch) i else 0) := by
      apply List.ext_getElem
      · simp
      · intro i h _
        rw [List.length_map] at h
        simp [activeBranch, size, List.getElem?_eq_getElem h]
    rw [this]

/-- Value at an owned component's key after the scatter. -/
theorem global_owned {ps : List Proc} (hu : UniqueIds ps) (ws : List (Comp × Nat))
    (hw : ws.Perm (allScatter ps)) {me : Nat} {p : Proc} (hp : ps[me]? = some p) {c : Comp}
    (hc : c ∈ owned p) : global ws (key p c) = (setOffsets p).off c + procOffset ps me := by
  have hmem : (key p c, (setOffsets p).off c + procOffset ps me) ∈ allScatter ps := by
    refine List.mem_flatMap.mpr ⟨(p, me), ?_, List.mem_map.mpr ⟨c, hc, rfl⟩⟩
    rw [List.mem_zipIdx_iff_getElem?]; exact hp
  have hkeys : (allScatter ps).map (·.1) = ps.flatMap (fun p => (owned p).map (key p)) := by
    unfold allScatter
    rw [List.map_flatMap]
    have : ∀ (l : List Proc) (k : Nat), ((l.zipIdx k).flatMap fun e =>
        (scatter ps e.2 e.1).map (·.1)) = l.flatMap (fun p => (owned p).map (key p)) := by
      intro l
      induction l with
      | nil => intro k; rfl
      | cons q l ih =>
        intro k
        rw [List.zipIdx_cons, List.flatMap_cons, List.flatMap_cons, ih]
        congr 1
        unfold scatter
        rw [List.map_map]
        rfl
    exact this ps 0
  have hinj := List.inj_on_of_nodup_map (hkeys ▸ hu : ((allScatter ps).map (·.1)).Nodup)
  unfold global
  refine (put_fold put (fun _ _ _ => rfl) ws _ _ _ ?_).1 ⟨_, hw.mem_iff.mpr hmem, rfl⟩
  intro w hm he
  have := hinj (hw.mem_iff.mp hm) hmem he
  rw [this]

/-- The indices handed to the owned components of one process fill its block. -/
theorem proc_indices {ps : List Proc} (hwf : ∀ p ∈ ps, WellFormed p)
    (hu : UniqueIds ps) (ws : List (Comp × Nat)) (hw : ws.Perm (allScatter ps)) (me : Nat) (p : Proc)
    (hp : ps[me]? = some p) :
    ((owned p).flatMap (indices (global ws) p)).Perm
        (List.range' (procOffset ps me) (dimension p)) := by
  have hwp := hwf p (List.mem_of_getElem? hp)
  have hperm := order_perm hwp
  have hnodup : (order p).Nodup := by
    rw [hperm.nodup_iff]
    have : ((owned p).map (key p)).Nodup := by
      have := List.nodup_flatMap.mp hu
      exact this.1 p (List.mem_of_getElem? hp)
    exact List.Nodup.of_map _ this
  have h1 : (owned p).flatMap (indices (global ws) p) =
      (owned p).flatMap (fun c => (List.range' ((setOffsets p).off c) (size p c)).map
        (fun x => procOffset ps me + x)) := by
    apply List.flatMap_congr
    intro c hc
    unfold indices
    rw [global_owned hu ws hw hp hc, List.range'_eq_map_range, List.map_map]
    apply List.map_congr_left
    intro j _
    simp only [Function.comp]
    omega
  rw [h1]
  refine (hperm.symm.flatMap_right _).trans ?_
  have h2 := (assign_blocks p (order p) hnodup { icnt := 0, off := fun _ => 0 }).1
  rw [← setOffsets_eq] at h2
  have h3 : (order p).flatMap (fun c => (List.range' ((setOffsets p).off c) (size p c)).map
        (fun x => procOffset ps me + x)) =
      ((order p).flatMap (fun c => List.range' ((setOffsets p).off c) (size p c))).map
        (fun x => procOffset ps me + x) := by
    rw [List.map_flatMap]
  rw [h3, h2, (hperm.map (size p)).sum_eq, dimension_eq]
  rw [List.map_add_range']
  exact List.Perm.refl _

/-- C23.  For every distribution with the stated well-formedness (no branch joining a bus to itself),
every size function and every order of the scatter writes: the indices handed to the owned buses and
branches of all processes are exactly `0 .. N-1`, each once, where `N` is the dimension of the matrix
or vector. -/
theorem C23_indices_bijection_partial (ps : List Proc) (hwf : ∀ p ∈ ps, WellFormed p)
    (hu : UniqueIds ps) (ws : List (Comp × Nat)) (hw : ws.Perm (allScatter ps)) :
    (ps.flatMap (fun p => (owned p).flatMap (indices (global ws) p))).Perm
      (List.range (totalDim ps)) := by
  have hproc := proc_indices hwf hu ws hw
  have key : ∀ (l pre : List Proc), (∀ (me : Nat) (p : Proc), l[me]? = some p →
      ((owned p).flatMap (indices (global ws) p)).Perm
        (List.range' (procOffset (pre ++ l) (pre.length + me)) (dimension p))) →
      (l.flatMap (fun p => (owned p).flatMap (indices (global ws) p))).Perm
        (List.range' ((pre.map dimension).sum) ((l.map dimension).sum)) := by
    intro l
    induction l with
    | nil => intro pre _; exact List.Perm.refl _
    | cons p l ih =>
      intro pre h
      have h0 := h 0 p rfl
      have hr := ih (pre ++ [p]) (by
        intro me q hq
        have := h (me + 1) q (by rw [List.getElem?_cons_succ]; exact hq)
        rw [List.length_append, List.length_singleton, List.append_assoc, List.singleton_append]
        have e : pre.length + 1 + me = pre.length + (me + 1) := by omega
        rw [e]; exact this)
      rw [List.flatMap_cons]
      refine (h0.append hr).trans ?_
      have hb : procOffset (pre ++ p :: l) (pre.length + 0) = (pre.map dimension).sum := by
        unfold procOffset
        rw [Nat.add_zero, List.map_append, List.take_append_of_le_length (by simp),
          List.take_of_length_le (by simp)]
      rw [hb]
      simp only [List.map_append, List.map_cons, List.map_nil, List.sum_append, List.sum_cons,
        List.sum_nil, Nat.add_zero]
      rw [List.range'_append_1]
  have := key ps [] (by
    intro me p hp
    have := hproc me p hp
    rw [List.length_nil, Nat.zero_add, List.nil_append]; exact this)
  rw [List.range_eq_range']
  exact this

/-- C23, ghosts.  Every copy of a component (same global index, same size) on any process is handed
the same indices. -/
theorem C23_ghost_copies_agree {ps : List Proc} (hu : UniqueIds ps) (ws : List (Comp × Nat))
    (hw : ws.Perm (allScatter ps)) {me : Nat} {p q : Proc} (hp : ps[me]? = some p) {c d : Comp}
    (hc : c ∈ owned p) (hk : key q d = key p c) (hs : size q d = size p c) :
    indices (global ws) q d = indices (global ws) p c ∧
    indices (global ws) p c =
      List.range' ((setOffsets p).off c + procOffset ps me) (size p c) := by
  constructor
  · unfold indices; rw [hk, hs]
  · unfold indices
    rw [global_owned hu ws hw hp hc, List.range'_eq_map_range]

/-- Example meeting the hypotheses: two processes; process 0 owns buses 0, 1 and branches 0 (0–1) and
1 (1–2); process 1 owns bus 2. -/
def exProcs : List Proc :=
  [{ buses := [⟨true, 0, 2, [0]⟩, ⟨true, 1, 1, [0, 1]⟩, ⟨false, 2, 3, [1]⟩],
     branches := [⟨true, 0, 1, 0, 1⟩, ⟨true, 1, 2, 1, 2⟩] },
   { buses := [⟨true, 2, 3, [0]⟩, ⟨false, 1, 1, [0]⟩],
     branches := [⟨false, 1, 2, 1, 0⟩] }]

example : ∀ p ∈ exProcs, WellFormed p := by
  intro p hp
  rcases List.mem_cons.mp hp with rfl | hp
  · constructor
    · intro i b h ha
      match i with
      | 0 => cases h; decide
      | 1 => cases h; decide
      | 2 => cases h; cases ha
      | i + 3 => simp at h
    · intro j b h
      match j with
      | 0 => cases h; decide
      | 1 => cases h; decide
      | j + 2 => simp at h
    · decide
    · decide
    · decide
  · rw [List.mem_singleton] at hp
    subst hp
    constructor
    · intro i b h ha
      match i with
      | 0 => cases h; decide
      | 1 => cases h; cases ha
      | i + 2 => simp at h
    · intro j b h
      match j with
      | 0 => cases h; decide
      | j + 1 => simp at h
    · decide
    · decide
    · decide

example : UniqueIds exProcs ∧ totalDim exProcs = 9 ∧
    exProcs.flatMap (fun p => (owned p).flatMap (indices (global (allScatter exProcs)) p)) =
      [0, 1, 3, 2, 4, 5, 6, 7, 8] := by
  unfold UniqueIds
  decide

/-- C23 fails for a branch joining a bus to itself: it is counted twice, so the next bus gets an index
outside the matrix. -/
theorem C23_self_loop_violated :
    let p : Proc := { buses := [⟨true, 0, 1, [0, 0]⟩, ⟨true, 1, 1, []⟩],
                      branches := [⟨true, 0, 1, 0, 0⟩] }
    totalDim [p] = 3 ∧ indices (global (allScatter [p])) p (.bus 1) = [3] := by
  decide

/-! ### C60 -/

/-- C60, the part that holds: an element of a branch whose column is not one of the branch's own rows
`rmin..rmax` (or of a branch without columns) is entered by exactly the processes that hold a copy and
own the row, whether or not they own the branch. -/
theorem C60_entered_by_row_owner_partial (b : BranchCopy) (ncols : Nat) (rmin rmax r c : Int)
    (h : ncols = 0 ∨ c < rmin ∨ rmax < c) :
    enters b ncols rmin rmax r c = true ↔ b.minRow ≤ r ∧ r ≤ b.maxRow := by
  unfold enters
  by_cases hr : r ≥ b.minRow ∧ r ≤ b.maxRow
  · rw [if_pos hr]
    by_cases hn : ncols > 0
    · rw [if_pos hn, if_neg (by omega)]; simp; omega
    · rw [if_neg hn]; simp; omega
  · rw [if_neg hr]; simp; omega

/-- C60 is violated for the other elements: whenever the row belongs to a process that does not own
the branch, an element in the branch's own columns is entered by no process at all, for every choice
of ranges. -/
theorem C60_remote_row_lost_violated (owner other : BranchCopy) (ncols : Nat)
    (rmin rmax r c : Int) (hn : 0 < ncols) (hc : rmin ≤ c ∧ c ≤ rmax)
    (_ho : owner.active = true) (ha : other.active = false)
    (hdisj : other.minRow ≤ r ∧ r ≤ other.maxRow → ¬ (owner.minRow ≤ r ∧ r ≤ owner.maxRow))
    (hr : other.minRow ≤ r ∧ r ≤ other.maxRow) :
    enters owner ncols rmin rmax r c = false ∧ enters other ncols rmin rmax r c = false := by
  have := hdisj hr
  unfold enters
  constructor
  · rw [if_neg (by omega)]
  · rw [if_pos (by omega), if_pos hn, if_pos (by omega), ha]

/-- Example: branch owned by process 0 (rows 0–4), its index 4; row 5 belongs to process 1. -/
example : enters ⟨true, 0, 4⟩ 1 4 4 5 4 = false ∧ enters ⟨false, 5, 9⟩ 1 4 4 5 4 = false := by decide

end GridPACK.GenMap
