import Verif.Spec.RtprCases

/-! Lemmas about the joining of the lists of all processes. -/
namespace GridPACK.RtprCases

open StringUtils GlobalVector
open GridPACK.CaDriver (Event bind)

variable {α β : Type}

theorem offset_succ (loc : Nat → List α) (n : Nat) : offset loc (n + 1) = offset loc n + (loc n).length := by
  simp [offset, List.range_succ]

theorem length_all (loc : Nat → List α) (n : Nat) : ((List.range n).flatMap loc).length = offset loc n := by
  induction n with
  | zero => rfl
  | succ n ih => rw [List.range_succ, List.flatMap_append, List.length_append, ih, offset_succ]; simp

theorem zipIdx_shift (l : List α) (k : Nat) : l.zipIdx k = l.zipIdx.map (fun x => (x.1, k + x.2)) := by
  rw [List.zipIdx_eq_map_add]

theorem everything_added (loc : Nat → List α) (n : Nat) :
    everything n (added loc) = ((List.range n).flatMap loc).zipIdx.map (fun x => ((x.2 : Int), x.1)) := by
  induction n with
  | zero => rfl
  | succ n ih =>
    have : everything (n + 1) (added loc) = everything n (added loc) ++ added loc n := by
      simp [everything, List.range_succ]
    rw [this, ih, List.range_succ, List.flatMap_append, List.zipIdx_append, List.map_append, length_all]
    congr 1
    simp only [List.flatMap_cons, List.flatMap_nil, List.append_nil, Nat.zero_add]
    rw [zipIdx_shift (loc n) (offset loc n), List.map_map]
    rfl

theorem foldl_max_seq (l : List α) (k : Nat) :
    (l.zipIdx k).foldl (fun (m : Int) x => if (x.2 : Int) > m then (x.2 : Int) else m) ((k : Int) - 1) =
      (k : Int) + l.length - 1 := by
  induction l generalizing k with
  | nil => simp
  | cons a l ih =>
    rw [List.zipIdx_cons, List.foldl_cons]
    have : (if ((k : Nat) : Int) > (k : Int) - 1 then (k : Int) else (k : Int) - 1) = ((k + 1 : Nat) : Int) - 1 := by
      rw [if_pos (by omega)]; push_cast; omega
    dsimp only
    rw [this, ih (k + 1)]
    push_cast [List.length_cons]; omega

theorem numElems_added (loc : Nat → List α) (n : Nat) : numElems n (added loc) = offset loc n := by
  unfold numElems
  change (everything n (added loc)).foldl _ (-1) + 1 = _
  rw [everything_added, List.foldl_map]
  have h := foldl_max_seq ((List.range n).flatMap loc) 0
  simp only [Nat.cast_zero, zero_sub, zero_add] at h
  rw [h, length_all]; omega

theorem added_ok (loc : Nat → List α) (n : Nat) :
    (∀ x ∈ everything n (added loc), 0 ≤ x.1) ∧ ((everything n (added loc)).map (·.1)).Nodup := by
  rw [everything_added]
  constructor
  · intro x hx
    obtain ⟨y, -, rfl⟩ := List.mem_map.1 hx
    simp
  · rw [List.map_map]
    have : ((fun x : Int × α => x.1) ∘ fun x : α × Nat => ((x.2 : Int), x.1)) = (fun i : Nat => (i : Int)) ∘ (·.2) := rfl
    rw [this, ← List.map_map, List.zipIdx_map_snd]
    exact List.Nodup.map (fun a b h => by simpa using h) List.nodup_range'

theorem mem_added (loc : Nat → List α) (n i : Nat) (hi : i < offset loc n) :
    ∃ p, p < n ∧ ((i : Int), ((List.range n).flatMap loc)[i]'(by rw [length_all]; exact hi)) ∈ added loc p := by
  have : ((i : Int), ((List.range n).flatMap loc)[i]'(by rw [length_all]; exact hi)) ∈ everything n (added loc) := by
    rw [everything_added]
    refine List.mem_map.2 ⟨(((List.range n).flatMap loc)[i]'(by rw [length_all]; exact hi), i), ?_, rfl⟩
    rw [List.mem_zipIdx_iff_getElem?]
    simp
  exact mem_everything.1 this

/-- In a clean execution every process receives the lists of all processes one after the other. -/
theorem joined_clean (n : Nat) (own : Nat → Nat) (zero : α) (garbage : Nat → α) (loc : Nat → List α)
    (sched : List (Nat × Act α)) (h : Clean n own (added loc) sched) :
    joined n own zero garbage loc sched = (List.range n).flatMap loc := by
  unfold joined allData
  rw [numElems_added]
  apply List.ext_getElem
  · rw [length_all]; simp
  · intro i h1 h2
    simp only [Int.toNat_natCast, List.getElem_map, List.getElem_range]
    rw [length_all] at h2
    obtain ⟨p, hp, hm⟩ := mem_added loc n i h2
    have := (C94_exact n own zero garbage (added loc) sched h.1 (added_ok loc n).1 (added_ok loc n).2 p hp _ hm).2
      (h.2 p hp _ hm)
    simpa using this

/-- One process: every execution is clean. -/
theorem clean_one (loc : Nat → List α) (sched : List (Nat × Act α))
    (h : Interleaved 1 (fun p => writeProg (added loc p)) sched) : Clean 1 (fun _ => 0) (added loc) sched := by
  refine ⟨h, fun p hp x _ => own_not_cleared h hp ?_⟩
  omega

/-- An entry written on a process that does not hold it may be lost. -/
theorem joined_lost (n : Nat) (own : Nat → Nat) (zero : α) (garbage : Nat → α) (loc : Nat → List α) (p k : Nat)
    (hp : p < n) (hk : k < (loc p).length) (ho : own (offset loc p + k) < n) (hne : own (offset loc p + k) ≠ p) :
    ∃ sched, Interleaved n (fun p => writeProg (added loc p)) sched ∧
      (joined n own zero garbage loc sched)[offset loc p + k]? = some zero := by
  have hx : (((offset loc p + k : Nat) : Int), (loc p)[k]) ∈ added loc p := by
    refine List.mem_map.2 ⟨((loc p)[k], k), ?_, rfl⟩
    rw [List.mem_zipIdx_iff_getElem?]; simp [hk]
  obtain ⟨sched, hI, hg⟩ := C94_lost_violated n own zero garbage (added loc) (added_ok loc n).1 (added_ok loc n).2 p hp
    _ hx (by rw [Int.toNat_natCast]; exact ho) (by rw [Int.toNat_natCast]; exact hne)
  refine ⟨sched, hI, ?_⟩
  have hlt := lt_numElems (mem_everything.2 ⟨p, hp, hx⟩)
  unfold joined allData
  rw [numElems_added] at *
  unfold getData at hg
  rw [if_neg (by simp; omega)] at hg
  simp only [List.map_cons, List.map_nil, Option.some.injEq, List.cons.injEq, and_true, Int.toNat_natCast] at hg
  have : offset loc p + k < offset loc n := by
    dsimp only at hlt; omega
  simp [this, hg]

theorem offset_map (f : α → β) (loc : Nat → List α) (n : Nat) : offset (fun p => (loc p).map f) n = offset loc n := by
  simp [offset]

theorem flatMap_map (f : α → β) (loc : Nat → List α) (n : Nat) :
    (List.range n).flatMap (fun p => (loc p).map f) = ((List.range n).flatMap loc).map f := by
  rw [List.map_flatMap]

theorem getD_map (f : α → β) (l : List α) (i : Nat) (d : β) (h : i < l.length) :
    (l.map f).getD i d = f l[i] := by
  rw [List.getD_eq_getElem?_getD]; simp [h]

theorem stored_clean {s : Str} (h : Stored s) : clean2Char s = .ok s := by
  obtain ⟨id, hi, rfl⟩ := h
  exact C28_idempotent id hi

theorem stored_length {s : Str} (h : Stored s) : s.length = 2 := by
  obtain ⟨id, ⟨hl, -⟩, rfl⟩ := h
  match id with
  | [] => simp at hl
  | [_] => rfl
  | [_, _] => rfl
  | _ :: _ :: _ :: _ => simp at hl

theorem stored_take {s : Str} (h : Stored s) : s.take 2 = s := by
  apply List.take_of_length_le; rw [stored_length h]

theorem clean_empty : clean2Char [] = .throws := by decide

/-- The loop over the list of generators when all ids are stored ones. -/
theorem genFaults_ok (L : List (Int × Str)) (hs : ∀ x ∈ L, Stored x.2) (is : List Nat)
    (hi : ∀ i ∈ is, i < L.length) :
    genFaults (L.map (·.1)) (L.map (·.2)) is =
      .ok (is.map (fun i => Event.generator ("GenCTG" ++ toString (i + 1)).toList [L.getD i (0, [])])) := by
  induction is with
  | nil => rfl
  | cons i is ih =>
    have h1 := hi i (by simp)
    unfold genFaults
    rw [getD_map _ _ _ _ h1, getD_map _ _ _ _ h1, stored_clean (hs _ (List.getElem_mem h1)),
      ih (fun j hj => hi j (by simp [hj]))]
    simp [CaDriver.bind, List.getD_eq_getElem?_getD, h1]

theorem lineFaults_ok (L : List (Int × Int × Str)) (hs : ∀ x ∈ L, Stored x.2.2) (is : List Nat)
    (hi : ∀ i ∈ is, i < L.length) :
    lineFaults (L.map (·.1)) (L.map (·.2.1)) (L.map (·.2.2)) is =
      .ok (is.map (fun i => Event.branch ("LineCTG" ++ toString (i + 1)).toList [L.getD i (0, 0, [])])) := by
  induction is with
  | nil => rfl
  | cons i is ih =>
    have h1 := hi i (by simp)
    unfold lineFaults
    rw [getD_map _ _ _ _ h1, getD_map _ _ _ _ h1, getD_map _ _ _ _ h1, stored_clean (hs _ (List.getElem_mem h1)),
      ih (fun j hj => hi j (by simp [hj]))]
    simp [CaDriver.bind, List.getD_eq_getElem?_getD, h1]

theorem genFaults_throws (buses : List Int) (tags : List Str) (is : List Nat) (i : Nat) (hi : i ∈ is)
    (ht : tags.getD i [] = []) (hall : ∀ j ∈ is, tags.getD j [] = [] ∨ Stored (tags.getD j [])) :
    genFaults buses tags is = .throws := by
  induction is with
  | nil => simp at hi
  | cons j is ih =>
    unfold genFaults
    rcases hall j (by simp) with h | h
    · rw [h, clean_empty]; rfl
    · have hne : j ≠ i := by
        rintro rfl
        rw [ht] at h
        have := stored_length h
        simp at this
      have hi' : i ∈ is := by
        rcases List.mem_cons.1 hi with e | e
        · exact absurd e.symm hne
        · exact e
      rw [stored_clean h, ih hi' (fun j hj => hall j (by simp [hj]))]
      rfl

end GridPACK.RtprCases
