import Verif.Lemmas.TaskLoop

/-! Property C54: the standard task loop never deadlocks, always terminates, and when it has
terminated every task was executed exactly once. -/
namespace GridPACK.TaskLoop

/-- C54a.  Deadlock freedom: in every reachable state with a process that has not left its
loop, some step is possible (with at least one process). -/
theorem C54_no_deadlock (n np : Nat) (hnp : 0 < np) (s : Sys) (hr : Reach (init n np) s)
    (hnd : ∃ l ∈ s.procs, l ≠ Loc.done) : ∃ t, Step s t :=
  progress hnp (inv_reach (inv_init n np) hr) hnd

/-- C54b.  Termination: no execution has more than `n + np + 1` steps. -/
theorem C54_terminates (n np : Nat) (f : Nat → Sys) (k : Nat)
    (h0 : f 0 = init n np) (hs : ∀ i, i < k → Step (f i) (f (i + 1))) : k ≤ n + np + 1 := by
  have hinv : ∀ i, i ≤ k → Inv n np (f i) := by
    intro i
    induction i with
    | zero => intro _; rw [h0]; exact inv_init n np
    | succ i ih => intro hi; exact inv_step (ih (by omega)) (hs i (by omega))
  have hm : ∀ i, i ≤ k → measure (f i) + i ≤ measure (f 0) := by
    intro i
    induction i with
    | zero => intro _; simp
    | succ i ih =>
      intro hi
      have h1 := measure_step (hinv i (by omega)) (hs i (by omega))
      have h2 := ih (by omega)
      omega
  have h1 := hm k (by omega)
  have h2 : measure (f 0) ≤ n + np + 1 := by
    rw [h0]
    have hc : (init n np).procs.countP (· == Loc.calling) = np := by
      simp only [init]; rw [List.countP_replicate]; simp
    have hn : (init n np).ntasks - (init n np).counter = n := by simp [init]
    unfold measure
    rw [hc, hn]
    split <;> omega
  omega

/-- C54c.  Result: when no step is possible any more, all processes have left their loop and
the executed tasks are `0,…,n-1`, each exactly once and by an existing process. -/
theorem C54_all_tasks_executed_once (n np : Nat) (hnp : 0 < np) (s : Sys)
    (hr : Reach (init n np) s) (hstop : ¬ ∃ t, Step s t) :
    (∀ l ∈ s.procs, l = Loc.done) ∧ s.log.map (·.2) = List.range n ∧ ∀ e ∈ s.log, e.1 < np := by
  have hi := inv_reach (inv_init n np) hr
  have hall : ∀ l ∈ s.procs, l = Loc.done := by
    intro l hl
    by_cases h : l = Loc.done
    · exact h
    · exact absurd (C54_no_deadlock n np hnp s hr ⟨l, hl, h⟩) hstop
  refine ⟨hall, ?_, hi.valid⟩
  rw [hi.log]
  congr 1
  have hne : s.procs ≠ [] := by intro h; have := hi.len; simp [h] at this; omega
  obtain ⟨l, hl⟩ := List.exists_mem_of_ne_nil _ hne
  rcases hi.phase with h' | h'
  · exact absurd (hall l hl) (h'.1 l hl)
  · omega

/-- A complete execution: two tasks, two processes. -/
example : ∃ s, Reach (init 2 2) s ∧ (¬ ∃ t, Step s t) ∧ s.log = [(1, 0), (0, 1)] := by
  let s1 : Sys := ⟨1, 2, [.calling, .calling], [(1,0)]⟩
  let s2 : Sys := ⟨2, 2, [.calling, .calling], [(1,0), (0,1)]⟩
  let s3 : Sys := ⟨3, 2, [.calling, .atBarrier], [(1,0), (0,1)]⟩
  let s4 : Sys := ⟨4, 2, [.atBarrier, .atBarrier], [(1,0), (0,1)]⟩
  let s5 : Sys := ⟨4, 2, [.done, .done], [(1,0), (0,1)]⟩
  refine ⟨s5, ?_, ?_, rfl⟩
  · have r1 : Reach (init 2 2) s1 := .tail .refl (.inl ⟨1, by decide⟩)
    have r2 : Reach (init 2 2) s2 := .tail r1 (.inl ⟨0, by decide⟩)
    have r3 : Reach (init 2 2) s3 := .tail r2 (.inl ⟨1, by decide⟩)
    have r4 : Reach (init 2 2) s4 := .tail r3 (.inl ⟨0, by decide⟩)
    exact .tail r4 (.inr (by decide))
  · rintro ⟨t, ⟨p, hp⟩ | hr⟩
    · have : p = 0 ∨ p = 1 ∨ 2 ≤ p := by omega
      rcases this with h | h | h
      · subst h; simp [call, s5] at hp
      · subst h; simp [call, s5] at hp
      · have : s5.procs[p]? = none := by simp [s5]; omega
        simp [call, this] at hp
    · have : release s5 = none := by decide
      rw [this] at hr; cases hr

end GridPACK.TaskLoop
