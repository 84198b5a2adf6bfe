import Verif.Spec.TaskManager

namespace GridPACK.TaskManager

theorem wrap32_of_lt {x : Int} (h0 : 0 ≤ x) (h : x < 2147483648) : wrap32 x = x := by
  unfold wrap32 Int.bmod
  simp only []
  split <;> omega

theorem mapIdx_map' {α β γ : Type} (l : List α) (f : α → β) (g : Nat → β → γ) :
    (l.map f).mapIdx g = l.mapIdx (fun i => g i ∘ f) := by
  apply List.ext_getElem? 
  intro i
  simp [Option.map_map, Function.comp_def]

theorem igopSum_eq (v : Int) (n : Nat) (h : 0 < n) : igopSum v n = v := by
  have key : ∀ m, ((List.range (m+1)).map (contribution v)).foldl (· + ·) 0 = v := by
    intro m
    induction m with
    | zero => simp [contribution]
    | succ k ih =>
      rw [List.range_succ, List.map_append, List.foldl_append, ih]
      simp [contribution]
  obtain ⟨m, rfl⟩ : ∃ m, n = m + 1 := ⟨n - 1, by omega⟩
  exact key m

theorem step_request (s : Pool) (o : Op) (h : requesters o ≠ []) :
    (step s o).2 = (requesters o).map (answer s.ntasks s.counter) ∧
    (step s o).1.ntasks = s.ntasks ∧
    (step s o).1.counter = wrap32 (s.counter + 1) := by
  cases o with
  | set n => simp [requesters] at h
  | cancel p => simp [requesters] at h
  | next p => simp [step, requesters]
  | groupNext ms =>
    simp only [requesters] at h
    have hl : 0 < ms.length := List.length_pos_iff.mpr h
    simp [step, requesters, h, igopSum_eq _ _ hl]

theorem replies_requests (reqs : List Op) (hreq : ∀ o ∈ reqs, requesters o ≠ []) :
    ∀ (s : Pool), 0 ≤ s.counter → s.counter + reqs.length ≤ 2147483648 →
    replies s reqs =
      reqs.mapIdx (fun k o => (requesters o).map (answer s.ntasks (s.counter + k))) := by
  induction reqs with
  | nil => intro s _ _; rfl
  | cons o os ih =>
    intro s h0 h1
    obtain ⟨e1, e2, e3⟩ := step_request s o (hreq o (by simp))
    rw [List.mapIdx_cons, replies, e1]
    congr 1
    · simp
    · cases os with
      | nil => rfl
      | cons o' os' =>
        simp only [List.length_cons] at h1
        have hw : wrap32 (s.counter + 1) = s.counter + 1 :=
          wrap32_of_lt (by omega) (by omega)
        rw [ih (fun x hx => hreq x (by simp [hx])) _ (by rw [e3, hw]; omega)
          (by rw [e3, hw]; simp only [List.length_cons]; omega)]
        rw [e2, e3, hw]
        congr 1
        funext k o
        congr 2
        omega

theorem step_mono (s : Pool) (o : Op) (hs : isSet o = false) (hn : 0 ≤ s.ntasks)
    (h0 : 0 ≤ s.counter) (h1 : s.counter + cost s.ntasks o < 2147483648) :
    (step s o).1.ntasks = s.ntasks ∧ s.counter ≤ (step s o).1.counter ∧
    (step s o).1.counter ≤ s.counter + cost s.ntasks o := by
  cases o with
  | set n => simp [isSet] at hs
  | next p =>
    simp only [cost] at h1
    have hw : wrap32 (s.counter + 1) = s.counter + 1 := wrap32_of_lt (by omega) h1
    refine ⟨rfl, ?_, ?_⟩ <;> simp only [step, cost, hw] <;> omega
  | cancel p =>
    simp only [cost] at h1
    have hw : wrap32 (s.counter + s.ntasks) = s.counter + s.ntasks :=
      wrap32_of_lt (by omega) h1
    refine ⟨rfl, ?_, ?_⟩ <;> simp only [step, cost, hw] <;> omega
  | groupNext ms =>
    simp only [cost] at h1
    have hw : wrap32 (s.counter + 1) = s.counter + 1 := wrap32_of_lt (by omega) h1
    simp only [step, cost]
    split
    · refine ⟨rfl, ?_, ?_⟩ <;> simp only [] <;> omega
    · refine ⟨rfl, ?_, ?_⟩ <;> simp only [hw] <;> omega

theorem cost_nonneg (n : Int) (hn : 0 ≤ n) (o : Op) : 0 ≤ cost n o := by
  cases o <;> simp [cost, hn]

theorem costs_nonneg (n : Int) (hn : 0 ≤ n) (ops : List Op) : 0 ≤ (ops.map (cost n)).sum := by
  induction ops with
  | nil => simp
  | cons o os ih => have := cost_nonneg n hn o; simp; omega

theorem exec_mono (ops : List Op) (hs : ∀ o ∈ ops, isSet o = false) :
    ∀ s : Pool, 0 ≤ s.ntasks → 0 ≤ s.counter →
      s.counter + (ops.map (cost s.ntasks)).sum < 2147483648 →
      (exec s ops).ntasks = s.ntasks ∧ s.counter ≤ (exec s ops).counter ∧
      (exec s ops).counter ≤ s.counter + (ops.map (cost s.ntasks)).sum := by
  induction ops with
  | nil => intro s _ _ _; simp [exec]
  | cons o os ih =>
    intro s hn h0 h1
    simp only [List.map_cons, List.sum_cons] at h1
    have hc := costs_nonneg s.ntasks hn os
    obtain ⟨a, b, c⟩ := step_mono s o (hs o (by simp)) hn h0 (by omega)
    have hrec := ih (fun x hx => hs x (by simp [hx])) (step s o).1 (by rw [a]; exact hn)
      (by omega) (by rw [a]; omega)
    simp only [exec, List.foldl_cons, List.map_cons, List.sum_cons] at hrec ⊢
    rw [a] at hrec
    omega

theorem replies_exhausted (ops : List Op) (hs : ∀ o ∈ ops, isSet o = false) :
    ∀ s : Pool, 0 ≤ s.ntasks → s.ntasks ≤ s.counter →
      s.counter + (ops.map (cost s.ntasks)).sum < 2147483648 →
      ∀ r ∈ (replies s ops).flatten, r.ok = false ∧ r.next = -1 := by
  induction ops with
  | nil => intro s _ _ _ r hr; simp [replies] at hr
  | cons o os ih =>
    intro s hn h0 h1 r hr
    simp only [List.map_cons, List.sum_cons] at h1
    have hc := costs_nonneg s.ntasks hn os
    have hso := hs o (by simp)
    obtain ⟨a, b, c⟩ := step_mono s o hso hn (by omega) (by omega)
    simp only [replies, List.flatten_cons, List.mem_append] at hr
    rcases hr with hr | hr
    · by_cases hq : requesters o = []
      · cases o with
        | set n => simp [isSet] at hso
        | cancel p => simp [step] at hr
        | next p => simp [requesters] at hq
        | groupNext ms => simp [requesters] at hq; simp [step, hq] at hr
      · rw [(step_request s o hq).1] at hr
        obtain ⟨p, _, rfl⟩ := List.mem_map.mp hr
        have : ¬ s.counter < s.ntasks := by omega
        simp [answer, this]
    · exact ih (fun x hx => hs x (by simp [hx])) (step s o).1 (by rw [a]; exact hn)
        (by rw [a]; omega) (by rw [a]; omega) r hr

theorem bump_foldl (rs : List Reply) (c : Nat → Nat) (q : Nat) :
    rs.foldl bump c q = c q + rs.countP (fun r => r.ok && r.proc == q) := by
  induction rs generalizing c with
  | nil => simp
  | cons r rs ih =>
    rw [List.foldl_cons, ih, List.countP_cons]
    simp only [bump]
    by_cases h1 : r.ok = true <;> by_cases h2 : q = r.proc
    · simp [h1, h2]; omega
    · have : ¬ r.proc = q := fun h => h2 h.symm
      simp [h1, h2, this]
    · simp [h1]
    · simp [h1]

theorem step_count (s : Pool) (o : Op) (h : isSet o = false) (q : Nat) :
    (step s o).1.count q = s.count q + (step s o).2.countP (fun r => r.ok && r.proc == q) := by
  cases o with
  | set n => simp [isSet] at h
  | cancel p => simp [step]
  | next p =>
    have := bump_foldl [answer s.ntasks s.counter p] s.count q
    simpa [step] using this
  | groupNext ms =>
    simp only [step]
    split
    · simp
    · exact bump_foldl _ _ _

theorem exec_count (ops : List Op) (h : ∀ o ∈ ops, isSet o = false) (q : Nat) :
    ∀ s : Pool, (exec s ops).count q =
      s.count q + ((replies s ops).flatten).countP (fun r => r.ok && r.proc == q) := by
  induction ops with
  | nil => intro s; simp [exec, replies]
  | cons o os ih =>
    intro s
    have hrec := ih (fun x hx => h x (by simp [hx])) (step s o).1
    simp only [exec, List.foldl_cons, replies, List.flatten_cons, List.countP_append] at hrec ⊢
    rw [hrec, step_count s o (h o (by simp))]
    omega

end GridPACK.TaskManager
