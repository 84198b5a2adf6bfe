import Verif.Model.TaskLoop

namespace GridPACK.TaskLoop

/-- Invariant of the loop. -/
structure Inv (n np : Nat) (s : Sys) : Prop where
  nt : s.ntasks = n
  len : s.procs.length = np
  log : s.log.map (·.2) = List.range (min s.counter n)
  valid : ∀ e ∈ s.log, e.1 < np
  phase : (∀ l ∈ s.procs, l ≠ Loc.done) ∧ ((∃ l ∈ s.procs, l = Loc.atBarrier) → n ≤ s.counter) ∨
          ((∀ l ∈ s.procs, l = Loc.done) ∧ n ≤ s.counter)

theorem inv_init (n np : Nat) : Inv n np (init n np) := by
  refine ⟨rfl, by simp [init], by simp [init], by simp [init], Or.inl ⟨?_, ?_⟩⟩
  · intro l hl; simp [init] at hl; simp [hl.2]
  · rintro ⟨l, hl, h⟩; simp [init] at hl; simp [hl.2] at h

theorem inv_step {n np : Nat} {s t : Sys} (h : Inv n np s) (hst : Step s t) :
    Inv n np t := by
  rcases hst with ⟨p, hp⟩ | hr
  · unfold call at hp
    split at hp
    · next hcall =>
      have hmem := List.mem_of_getElem? hcall
      have hpl : p < s.procs.length := by
        have := (List.getElem?_eq_some_iff.mp hcall).1; exact this
      have hph : (∀ l ∈ s.procs, l ≠ Loc.done) ∧
          ((∃ l ∈ s.procs, l = Loc.atBarrier) → n ≤ s.counter) := by
        rcases h.phase with h' | h'
        · exact h'
        · have := h'.1 _ hmem; simp at this
      have hnt := h.nt
      split at hp
      · next hlt =>
        cases hp
        refine ⟨h.nt, h.len, ?_, ?_, Or.inl ⟨hph.1, ?_⟩⟩
        · simp only [List.map_append, h.log]
          have e1 : min s.counter n = s.counter := by omega
          have e2 : min (s.counter + 1) n = s.counter + 1 := by omega
          rw [e1, e2, List.range_succ]; simp
        · intro e he
          simp only [List.mem_append, List.mem_singleton] at he
          rcases he with he | he
          · exact h.valid e he
          · subst he; simp only []; rw [← h.len]; exact hpl
        · intro hx; have := hph.2 hx; simp only []; omega
      · next hge =>
        cases hp
        refine ⟨h.nt, by simp [h.len], ?_, h.valid, Or.inl ⟨?_, ?_⟩⟩
        · simp only [h.log]; congr 1; omega
        · intro l hl
          rcases List.mem_or_eq_of_mem_set hl with hl | hl
          · exact hph.1 l hl
          · simp [hl]
        · intro _; simp only []; omega
    · simp at hp
  · unfold release at hr
    split at hr
    · next hall =>
      cases hr
      refine ⟨h.nt, by simp [h.len], h.log, h.valid, Or.inr ⟨by simp, ?_⟩⟩
      have hne : s.procs ≠ [] := hall.1
      obtain ⟨l, hl⟩ := List.exists_mem_of_ne_nil _ hne
      have hb := hall.2 l hl
      rcases h.phase with h' | h'
      · exact h'.2 ⟨l, hl, hb⟩
      · exact h'.2
    · simp at hr

theorem inv_reach {n np : Nat} {s t : Sys} (h : Inv n np s) (hr : Reach s t) :
    Inv n np t := by
  induction hr with
  | refl => exact h
  | tail _ hst ih => exact inv_step ih hst

/-- Measure that every step decreases. -/
def measure (s : Sys) : Nat :=
  (s.ntasks - s.counter) + s.procs.countP (· == Loc.calling) +
    (if ∃ l ∈ s.procs, l ≠ Loc.done then 1 else 0)

theorem count_set {l : List Loc} {p : Nat} (h : l[p]? = some Loc.calling) :
    (l.set p Loc.atBarrier).countP (· == Loc.calling) + 1 = l.countP (· == Loc.calling) := by
  induction l generalizing p with
  | nil => simp at h
  | cons a l ih =>
    cases p with
    | zero => simp at h; subst h; simp
    | succ p =>
      simp only [List.getElem?_cons_succ] at h
      have := ih h
      simp only [List.set_cons_succ, List.countP_cons]
      omega

theorem measure_step {n np : Nat} {s t : Sys} (_h : Inv n np s) (hst : Step s t) :
    measure t < measure s := by
  rcases hst with ⟨p, hp⟩ | hr
  · unfold call at hp
    split at hp
    · next hcall =>
      have hmem := List.mem_of_getElem? hcall
      have h1 : ∃ l ∈ s.procs, l ≠ Loc.done := ⟨_, hmem, by simp⟩
      split at hp
      · cases hp
        simp only [measure, h1]
        omega
      · cases hp
        simp only [measure]
        have hc := count_set hcall
        rw [if_pos h1]
        split <;> omega
    · simp at hp
  · unfold release at hr
    split at hr
    · next hall =>
      cases hr
      obtain ⟨l, hl⟩ := List.exists_mem_of_ne_nil _ hall.1
      have h1 : ∃ l ∈ s.procs, l ≠ Loc.done := ⟨l, hl, by rw [hall.2 l hl]; simp⟩
      simp only [measure]
      rw [if_pos h1, if_neg (by simp)]
      have : (List.map (fun _ => Loc.done) s.procs).countP (· == Loc.calling) = 0 := by
        rw [List.countP_eq_zero]; intro a ha; simp at ha; simp [← ha.2]
      omega
    · simp at hr

theorem progress {n np : Nat} (hnp : 0 < np) {s : Sys} (h : Inv n np s)
    (hnd : ∃ l ∈ s.procs, l ≠ Loc.done) : ∃ t, Step s t := by
  have hph : (∀ l ∈ s.procs, l ≠ Loc.done) := by
    rcases h.phase with h' | h'
    · exact h'.1
    · obtain ⟨l, hl, hne⟩ := hnd; exact absurd (h'.1 l hl) hne
  by_cases hc : ∃ l ∈ s.procs, l = Loc.calling
  · obtain ⟨l, hl, rfl⟩ := hc
    obtain ⟨p, hp⟩ := List.getElem?_of_mem hl
    refine ⟨(call s p).getD s, Or.inl ⟨p, ?_⟩⟩
    simp only [call, hp]
    split <;> rfl
  · have hrel : s.procs ≠ [] ∧ (∀ l ∈ s.procs, l = Loc.atBarrier) := by
      refine ⟨?_, ?_⟩
      · intro h0; have := h.len; simp [h0] at this; omega
      · intro l hl
        have h1 := hph l hl
        have h2 : l ≠ Loc.calling := fun e => hc ⟨l, hl, e⟩
        cases l <;> simp_all
    exact ⟨_, Or.inr (by unfold release; rw [if_pos hrel])⟩

end GridPACK.TaskLoop
