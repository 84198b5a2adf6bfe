import Verif.Model.CoarseTimer
import Verif.Props.StatBlock
import Mathlib.Data.List.Nodup

/-! Properties C37 (categories), C38 (collective calls of dump), C76 (statistics). -/
namespace GridPACK.CoarseTimer

/-! ### C37 -/

inductive Op
  | create (title : Title)
  | start (idx : Nat) (now : Real)
  | stop (idx : Nat) (now : Real)
  | config (flag : Bool)

noncomputable def step (t : Timer) : Op → Timer
  | .create s => (createCategory t s).1
  | .start i now => startTimer t i now
  | .stop i now => stopTimer t i now
  | .config f => configTimer t f

structure Inv (t : Timer) : Prop where
  map : ∀ s i, t.titleMap.lookup s = some i ↔ t.title[i]? = some s
  nodup : t.title.Nodup
  l1 : t.start.length = t.title.length
  l2 : t.time.length = t.title.length
  l3 : t.istart.length = t.title.length
  l4 : t.istop.length = t.title.length

theorem inv_empty : Inv empty := by
  constructor <;> simp [empty]

theorem lookup_isSome_of_mem {t : Timer} (h : Inv t) (s : Title) :
    t.titleMap.lookup s = none ↔ s ∉ t.title := by
  constructor
  · intro hn hmem
    obtain ⟨i, hi⟩ := List.mem_iff_getElem?.mp hmem
    rw [← h.map] at hi
    rw [hn] at hi; cases hi
  · intro hn
    cases hl : t.titleMap.lookup s with
    | none => rfl
    | some i =>
      exact absurd (List.mem_iff_getElem?.mpr ⟨i, (h.map s i).mp hl⟩) hn

theorem inv_create (t : Timer) (s : Title) (h : Inv t) : Inv (createCategory t s).1 := by
  unfold createCategory
  cases hl : t.titleMap.lookup s with
  | some i => exact h
  | none =>
    have hn := (lookup_isSome_of_mem h s).mp hl
    constructor
    · intro s' i
      simp only
      rw [List.lookup_cons]
      by_cases hs : s' = s
      · subst hs
        simp only [beq_self_eq_true]
        rw [List.getElem?_append]
        constructor
        · intro e; injection e with e; subst e; simp
        · intro e
          by_cases hi : i < t.title.length
          · rw [if_pos hi] at e
            exact absurd (List.mem_iff_getElem?.mpr ⟨i, e⟩) hn
          · rw [if_neg hi] at e
            have : i - t.title.length = 0 := by
              by_contra hne
              obtain ⟨k, hk⟩ : ∃ k, i - t.title.length = k + 1 := ⟨i - t.title.length - 1, by omega⟩
              rw [hk] at e; simp at e
            have : i = t.title.length := by omega
            rw [this]
      · have hb : (s' == s) = false := by simpa using hs
        rw [hb]
        simp only
        rw [h.map, List.getElem?_append]
        by_cases hi : i < t.title.length
        · rw [if_pos hi]
        · rw [if_neg hi]
          constructor
          · intro e
            rw [List.getElem?_eq_none (by omega)] at e; cases e
          · intro e
            exfalso
            cases hk : i - t.title.length with
            | zero => rw [hk] at e; simp at e; exact hs e.symm
            | succ k => rw [hk] at e; simp at e
    · simp only
      rw [List.nodup_append]
      refine ⟨h.nodup, by simp, ?_⟩
      intro a ha b hb
      simp at hb
      subst hb
      intro e; subst e; exact hn ha
    all_goals simp [h.l1, h.l2, h.l3, h.l4]

theorem inv_step (t : Timer) (o : Op) (h : Inv t) : Inv (step t o) := by
  cases o with
  | create s => exact inv_create t s h
  | start i now =>
    simp only [step, startTimer]
    split
    · exact ⟨h.map, h.nodup, by simp [h.l1], h.l2, by simp [h.l3], h.l4⟩
    · exact h
  | stop i now =>
    simp only [step, stopTimer]
    split
    · exact ⟨h.map, h.nodup, h.l1, by simp [h.l2], h.l3, by simp [h.l4]⟩
    · exact h
  | config f => exact ⟨h.map, h.nodup, h.l1, h.l2, h.l3, h.l4⟩

theorem inv_run (ops : List Op) (t : Timer) (h : Inv t) : Inv (ops.foldl step t) := by
  induction ops generalizing t with
  | nil => exact h
  | cons o ops ih => exact ih _ (inv_step t o h)

theorem create_title (t : Timer) (s : Title) (h : Inv t) :
    (createCategory t s).1.title[(createCategory t s).2]? = some s := by
  unfold createCategory
  cases hl : t.titleMap.lookup s with
  | some i => exact (h.map s i).mp hl
  | none => simp

theorem step_title_prefix (t : Timer) (o : Op) (i : Nat) (s : Title) (h : t.title[i]? = some s) :
    (step t o).title[i]? = some s := by
  cases o with
  | create s' =>
    simp only [step, createCategory]
    split
    · exact h
    · simp only
      have : i < t.title.length := (List.getElem?_eq_some_iff.mp h).1
      rw [List.getElem?_append_left this]; exact h
  | start i now => simp only [step, startTimer]; split <;> exact h
  | stop i now => simp only [step, stopTimer]; split <;> exact h
  | config f => exact h

theorem run_title_prefix (ops : List Op) (t : Timer) (i : Nat) (s : Title) (h : t.title[i]? = some s) :
    (ops.foldl step t).title[i]? = some s := by
  induction ops generalizing t with
  | nil => exact h
  | cons o ops ih => exact ih _ (step_title_prefix t o i s h)

/-- C37, handles.  Create a category after any history, and another one after any further history: the
handles are equal exactly when the titles are. -/
theorem C37_handles (ops1 ops2 : List Op) (s1 s2 : Title) :
    let t1 := ops1.foldl step empty
    let t2 := ops2.foldl step (createCategory t1 s1).1
    (createCategory t1 s1).2 = (createCategory t2 s2).2 ↔ s1 = s2 := by
  intro t1 t2
  have h1 : Inv t1 := inv_run ops1 _ inv_empty
  have hc1 := create_title t1 s1 h1
  have h2 : Inv t2 := inv_run ops2 _ (inv_create t1 s1 h1)
  have hk : t2.title[(createCategory t1 s1).2]? = some s1 := run_title_prefix ops2 _ _ _ hc1
  have hk' : (createCategory t2 s2).1.title[(createCategory t1 s1).2]? = some s1 :=
    step_title_prefix t2 (.create s2) _ _ hk
  have hc2 := create_title t2 s2 h2
  constructor
  · intro e
    rw [e] at hk'
    exact Option.some.inj (hk'.symm.trans hc2)
  · intro e
    subst e
    have hl : t2.titleMap.lookup s1 = some (createCategory t1 s1).2 := (h2.map _ _).mpr hk
    show _ = (createCategory t2 s1).2
    conv_rhs => unfold createCategory
    rw [hl]

/-- C37, independence: a step on one category leaves the accumulated time and the counts of every other
existing category alone. -/
theorem C37_independent (t : Timer) (i j : Nat) (now : Real) (hne : j ≠ i) :
    (startTimer t i now).time[j]? = t.time[j]? ∧ (stopTimer t i now).time[j]? = t.time[j]? ∧
    (startTimer t i now).start[j]? = t.start[j]? ∧ (stopTimer t i now).start[j]? = t.start[j]? ∧
    (startTimer t i now).istart[j]? = t.istart[j]? ∧ (stopTimer t i now).istop[j]? = t.istop[j]? := by
  unfold startTimer stopTimer
  cases t.profile
  · exact ⟨rfl, rfl, rfl, rfl, rfl, rfl⟩
  · refine ⟨rfl, ?_, ?_, rfl, ?_, ?_⟩
    · simp [Ne.symm hne]
    · simp [Ne.symm hne]
    · simp [Ne.symm hne]
    · simp [Ne.symm hne]

/-- Specification: total length of a list of intervals. -/
def total (iv : List (Real × Real)) : Real := (iv.map (fun p => p.2 - p.1)).sum

/-- Calls that time the intervals one after the other on category `i`, with arbitrary operations on other
categories (and creations) in between. -/
inductive Timed (i : Nat) : List Op → List (Real × Real) → Prop
  | nil : Timed i [] []
  | other (o : Op) (ops iv) (h : (∃ s, o = .create s) ∨ (∃ j now, j ≠ i ∧ (o = .start j now ∨ o = .stop j now)))
      (rest : Timed i ops iv) : Timed i (o :: ops) iv
  | pair (a b : Real) (mid : List Op) (ops iv)
      (hm : ∀ o ∈ mid, (∃ s, o = .create s) ∨ (∃ j now, j ≠ i ∧ (o = .start j now ∨ o = .stop j now)))
      (rest : Timed i ops iv) : Timed i (.start i a :: mid ++ .stop i b :: ops) ((a, b) :: iv)

theorem other_keeps (t : Timer) (i : Nat) (o : Op) (hp : t.profile = true) (h : Inv t)
    (hi : i < t.title.length)
    (ho : (∃ s, o = .create s) ∨ (∃ j now, j ≠ i ∧ (o = .start j now ∨ o = .stop j now))) :
    (step t o).time[i]? = t.time[i]? ∧ (step t o).start[i]? = t.start[i]? ∧
    (step t o).profile = true ∧ i < (step t o).title.length := by
  rcases ho with ⟨s, rfl⟩ | ⟨j, now, hj, rfl | rfl⟩
  · simp only [step, createCategory]
    split
    · exact ⟨rfl, rfl, hp, hi⟩
    · simp only
      refine ⟨?_, ?_, hp, by simp; omega⟩
      · rw [List.getElem?_append_left (by rw [h.l2]; exact hi)]
      · rw [List.getElem?_append_left (by rw [h.l1]; exact hi)]
  · have := C37_independent t j i now (Ne.symm hj)
    refine ⟨this.1, this.2.2.1, ?_, ?_⟩
    · simp only [step, startTimer]; split <;> exact hp
    · simp only [step, startTimer]; split <;> exact hi
  · have := C37_independent t j i now (Ne.symm hj)
    refine ⟨this.2.1, this.2.2.2.1, ?_, ?_⟩
    · simp only [step, stopTimer]; split <;> exact hp
    · simp only [step, stopTimer]; split <;> exact hi

theorem others_keep (mid : List Op) (t : Timer) (i : Nat) (hp : t.profile = true) (h : Inv t)
    (hi : i < t.title.length)
    (hm : ∀ o ∈ mid, (∃ s, o = .create s) ∨ (∃ j now, j ≠ i ∧ (o = .start j now ∨ o = .stop j now))) :
    (mid.foldl step t).time[i]? = t.time[i]? ∧ (mid.foldl step t).start[i]? = t.start[i]? ∧
    (mid.foldl step t).profile = true ∧ i < (mid.foldl step t).title.length := by
  induction mid generalizing t with
  | nil => exact ⟨rfl, rfl, hp, hi⟩
  | cons o mid ih =>
    obtain ⟨a, b, c, d⟩ := other_keeps t i o hp h hi (hm o (by simp))
    obtain ⟨a', b', c', d'⟩ := ih (step t o) c (inv_step t o h) d
      (fun o' ho' => hm o' (List.mem_cons_of_mem _ ho'))
    exact ⟨a'.trans a, b'.trans b, c', d'⟩

/-- C37, accumulation: after any sequence of properly paired starts and stops, interleaved in any way with
operations on other categories, the accumulated time has grown by the total length of the timed
intervals. -/
theorem C37_accumulates (i : Nat) (ops : List Op) (iv : List (Real × Real)) (ht : Timed i ops iv)
    (t : Timer) (hp : t.profile = true) (h : Inv t) (x : Real) (hx : t.time[i]? = some x) :
    (ops.foldl step t).time[i]? = some (x + total iv) := by
  induction ht generalizing t x with
  | nil => simpa [total] using hx
  | other o ops iv ho rest ih =>
    have hi : i < t.title.length := by
      rw [← h.l2]; exact (List.getElem?_eq_some_iff.mp hx).1
    obtain ⟨a, b, c, d⟩ := other_keeps t i o hp h hi ho
    exact ih (step t o) c (inv_step t o h) x (a.trans hx)
  | pair a b mid ops iv hm rest ih =>
    have hi : i < t.title.length := by
      rw [← h.l2]; exact (List.getElem?_eq_some_iff.mp hx).1
    rw [List.cons_append, List.foldl_cons, List.foldl_append, List.foldl_cons]
    have e1 : (step t (.start i a)).time[i]? = some x := by
      simp only [step, startTimer]; rw [if_pos hp]; exact hx
    have e2 : (step t (.start i a)).start[i]? = some a := by
      simp only [step, startTimer]; rw [if_pos hp]
      simp only
      rw [List.getElem?_set_self (by rw [h.l1]; exact hi)]
    have e3 : (step t (.start i a)).profile = true := by
      simp only [step, startTimer]; rw [if_pos hp]; exact hp
    have e4 : i < (step t (.start i a)).title.length := by
      simp only [step, startTimer]; rw [if_pos hp]; exact hi
    have hinv1 := inv_step t (.start i a) h
    obtain ⟨f1, f2, f3, f4⟩ := others_keep mid _ i e3 hinv1 e4 hm
    have hinv2 := inv_run mid _ hinv1
    generalize mid.foldl step (step t (.start i a)) = u at f1 f2 f3 f4 hinv2
    have g1 : (step u (.stop i b)).time[i]? = some (x + (b - a)) := by
      simp only [step, stopTimer]
      rw [if_pos f3]
      simp only
      rw [List.getElem?_modify]
      rw [f1, e1]
      have : u.start.getD i 0 = a := by
        rw [List.getD_eq_getElem?_getD, f2, e2]; rfl
      rw [this]
      simp
    have g2 : (step u (.stop i b)).profile = true := by
      simp only [step, stopTimer]; rw [if_pos f3]; exact f3
    have := ih (step u (.stop i b)) g2 (inv_step u _ hinv2) (x + (b - a)) g1
    rw [this]
    congr 1
    simp only [total, List.map_cons, List.sum_cons]
    ring

/-- Specification: the numbers of starts and stops of category `i` made while timing was switched on. -/
def counted (i : Nat) : Bool → List Op → Nat × Nat
  | _, [] => (0, 0)
  | _, .config f :: ops => counted i f ops
  | on, .create _ :: ops => counted i on ops
  | on, .start j _ :: ops =>
    ((counted i on ops).1 + (if on = true ∧ j = i then 1 else 0), (counted i on ops).2)
  | on, .stop j _ :: ops =>
    ((counted i on ops).1, (counted i on ops).2 + (if on = true ∧ j = i then 1 else 0))

/-- C37, counts: after any history, the counts of an existing category have grown by the numbers of starts and
stops made on it while timing was switched on. -/
theorem C37_counts (ops : List Op) (t : Timer) (i : Nat) (a b : Int) (h : Inv t)
    (ha : t.istart[i]? = some a) (hb : t.istop[i]? = some b) :
    (ops.foldl step t).istart[i]? = some (a + (counted i t.profile ops).1) ∧
    (ops.foldl step t).istop[i]? = some (b + (counted i t.profile ops).2) := by
  induction ops generalizing t a b with
  | nil => simpa [counted] using ⟨ha, hb⟩
  | cons o ops ih =>
    rw [List.foldl_cons]
    have hinv := inv_step t o h
    cases o with
    | config f =>
      have := ih (step t (.config f)) a b hinv ha hb
      simpa [step, configTimer, counted] using this
    | create s =>
      have h1 : (step t (.create s)).istart[i]? = some a ∧ (step t (.create s)).istop[i]? = some b ∧
          (step t (.create s)).profile = t.profile := by
        simp only [step, createCategory]
        split
        · exact ⟨ha, hb, rfl⟩
        · exact ⟨by rw [List.getElem?_append_left (List.getElem?_eq_some_iff.mp ha).1]; exact ha,
            by rw [List.getElem?_append_left (List.getElem?_eq_some_iff.mp hb).1]; exact hb, rfl⟩
      have := ih _ a b hinv h1.1 h1.2.1
      rw [h1.2.2] at this
      simpa [counted] using this
    | start j now =>
      have h1 : (step t (.start j now)).istart[i]? =
            some (a + (if t.profile = true ∧ j = i then 1 else 0)) ∧
          (step t (.start j now)).istop[i]? = some b ∧ (step t (.start j now)).profile = t.profile := by
        simp only [step, startTimer]
        cases hp : t.profile
        · simp [ha, hb, hp]
        · simp only [if_true, true_and]
          refine ⟨?_, hb, trivial⟩
          rw [List.getElem?_modify, ha]
          by_cases hj : j = i <;> simp [hj]
      have := ih _ _ b hinv h1.1 h1.2.1
      rw [h1.2.2] at this
      rw [this.1, this.2]
      simp only [counted]
      refine ⟨?_, trivial⟩
      split <;> simp <;> omega
    | stop j now =>
      have h1 : (step t (.stop j now)).istart[i]? = some a ∧
          (step t (.stop j now)).istop[i]? = some (b + (if t.profile = true ∧ j = i then 1 else 0)) ∧
          (step t (.stop j now)).profile = t.profile := by
        simp only [step, stopTimer]
        cases hp : t.profile
        · simp [ha, hb, hp]
        · simp only [if_true, true_and]
          refine ⟨ha, ?_, trivial⟩
          rw [List.getElem?_modify, hb]
          by_cases hj : j = i <;> simp [hj]
      have := ih _ a _ hinv h1.1 h1.2.1
      rw [h1.2.2] at this
      rw [this.1, this.2]
      simp only [counted]
      refine ⟨trivial, ?_⟩
      split <;> simp <;> omega

example : (createCategory empty ['a']).1.istart[0]? = some 0 ∧ Inv (createCategory empty ['a']).1 ∧
    counted 0 true [.start 0 1, .config false, .stop 0 2, .config true, .start 0 3, .start 1 4, .stop 0 5] =
      (2, 1) :=
  ⟨rfl, inv_create _ _ inv_empty, rfl⟩

/-! ### C38 -/

theorem dumpCalls_length (sizes : List Nat) (me : Nat) :
    (dumpCalls sizes me).length = 2 +
      (if (∃ a ∈ sizes, ∃ b ∈ sizes, a ≠ b) ∧ me = 0 then 0 else 3 * sizes.getD me 0) := by
  unfold dumpCalls
  rw [List.length_append]
  split
  · rfl
  · simp; omega

/-- C38, exactly when it holds: all processes make the same collective calls if and only if all have the
same number of categories or all processes except 0 have none. -/
theorem C38_exact (s0 : Nat) (rest : List Nat) :
    (∀ r, r < (s0 :: rest).length → dumpCalls (s0 :: rest) r = dumpCalls (s0 :: rest) 0) ↔
    (∀ s ∈ rest, s = s0) ∨ (∀ s ∈ rest, s = 0) := by
  constructor
  · intro h
    by_cases hd : ∃ a ∈ (s0 :: rest), ∃ b ∈ (s0 :: rest), a ≠ b
    · right
      intro s hs
      obtain ⟨r, hr⟩ := List.mem_iff_getElem?.mp hs
      have hlt : r < rest.length := (List.getElem?_eq_some_iff.mp hr).1
      have := congrArg List.length (h (r + 1) (by simp; omega))
      rw [dumpCalls_length, dumpCalls_length, if_neg (by simp), if_pos ⟨hd, rfl⟩] at this
      have hg : (s0 :: rest).getD (r + 1) 0 = s := by
        rw [List.getD_eq_getElem?_getD, List.getElem?_cons_succ, hr]; rfl
      rw [hg] at this
      omega
    · left
      intro s hs
      by_contra hne
      exact hd ⟨s, List.mem_cons_of_mem _ hs, s0, by simp, hne⟩
  · rintro (h | h) r hr
    · have hd : ¬ ∃ a ∈ (s0 :: rest), ∃ b ∈ (s0 :: rest), a ≠ b := by
        rintro ⟨a, ha, b, hb, hne⟩
        apply hne
        have : ∀ x ∈ (s0 :: rest), x = s0 := by
          intro x hx
          rcases List.mem_cons.mp hx with rfl | hx
          · rfl
          · exact h x hx
        rw [this a ha, this b hb]
      have hall : ∀ r, r < (s0 :: rest).length → (s0 :: rest).getD r 0 = s0 := by
        intro r hr
        cases r with
        | zero => rfl
        | succ r =>
          have hr' : r < rest.length := by simpa using hr
          rw [List.getD_eq_getElem?_getD, List.getElem?_cons_succ, List.getElem?_eq_getElem hr']
          exact h _ (List.getElem_mem hr')
      unfold dumpCalls
      rw [if_neg (fun x => hd x.1), if_neg (fun x => hd x.1), hall r hr, hall 0 (by simp)]
    · cases r with
      | zero => rfl
      | succ r =>
        have hr' : r < rest.length := by simpa using hr
        have hg : (s0 :: rest).getD (r + 1) 0 = 0 := by
          rw [List.getD_eq_getElem?_getD, List.getElem?_cons_succ, List.getElem?_eq_getElem hr']
          exact h _ (List.getElem_mem hr')
        unfold dumpCalls
        rw [if_neg (by simp), hg]
        by_cases hd : ∃ a ∈ (s0 :: rest), ∃ b ∈ (s0 :: rest), a ≠ b
        · rw [if_pos ⟨hd, rfl⟩]; rfl
        · have : s0 = 0 := by
            by_contra hne
            refine hd ⟨s0, by simp, rest[r], List.mem_cons_of_mem _ (List.getElem_mem hr'), ?_⟩
            rw [h _ (List.getElem_mem hr')]; exact hne
          rw [if_neg (fun x => hd x.1), this]; rfl

/-- C38, the part that holds. -/
theorem C38_dump_partial (n size : Nat) (r : Nat) (hr : r < n + 1) :
    dumpCalls (List.replicate (n + 1) size) r = dumpCalls (List.replicate (n + 1) size) 0 := by
  have := (C38_exact size (List.replicate n size)).mpr (.inl (by
    intro s hs; exact (List.mem_replicate.mp hs).2))
  exact this r (by simpa using hr)

/-- C38 fails whenever some process other than 0 has at least one category and the numbers differ: the
calls do not match and the program hangs. -/
theorem C38_violated (s0 : Nat) (rest : List Nat) (s : Nat) (hs : s ∈ rest) (h0 : s ≠ 0)
    (hd : ∃ a ∈ rest, a ≠ s0) :
    ¬ ∀ r, r < (s0 :: rest).length → dumpCalls (s0 :: rest) r = dumpCalls (s0 :: rest) 0 := by
  rw [C38_exact]
  rintro (h | h)
  · obtain ⟨a, ha, hne⟩ := hd; exact hne (h a ha)
  · exact h0 (h s hs)

example : dumpCalls [2, 1] 1 ≠ dumpCalls [2, 1] 0 := by decide

/-! ### C76 -/

/-- C76.  The statistics printed for one category: `ok` exactly when starts and stops are paired on every
process; average, maximum and minimum are those of the times of all processes; the deviation is the square
root of the sample variance, and -1 for a single process. -/
theorem C76_stats (e0 : Int × Real) (es : List (Int × Real)) :
    let r := stats e0 es
    let times := (e0 :: es).map (·.2)
    (r.ok = true ↔ ∀ e ∈ (e0 :: es), e.1 = 0) ∧
    r.avg = StatBlock.mean times ∧
    (r.max ∈ times ∧ ∀ x ∈ times, x ≤ r.max) ∧ (r.min ∈ times ∧ ∀ x ∈ times, r.min ≤ x) ∧
    (es ≠ [] → r.rms = Real.sqrt (StatBlock.variance times)) ∧ (es = [] → r.rms = -1) := by
  intro r times
  -- invariant of the loop
  have key : ∀ (l : List (Int × Real)) (ok : Bool) (mx mn a a2 : Real),
      let f := l.foldl statStep (ok, mx, mn, a, a2)
      (f.1 = true ↔ ok = true ∧ ∀ e ∈ l, e.1 = 0) ∧
      ((f.2.1 = mx ∨ f.2.1 ∈ l.map (·.2)) ∧ mx ≤ f.2.1 ∧ ∀ x ∈ l.map (·.2), x ≤ f.2.1) ∧
      ((f.2.2.1 = mn ∨ f.2.2.1 ∈ l.map (·.2)) ∧ f.2.2.1 ≤ mn ∧ ∀ x ∈ l.map (·.2), f.2.2.1 ≤ x) ∧
      f.2.2.2.1 = a + (l.map (·.2)).sum ∧
      f.2.2.2.2 = a2 + ((l.map (·.2)).map (fun x => x * x)).sum := by
    intro l
    induction l with
    | nil => intro ok mx mn a a2; simp
    | cons e l ih =>
      intro ok mx mn a a2
      obtain ⟨h1, ⟨h2a, h2b, h2c⟩, ⟨h3a, h3b, h3c⟩, h4, h5⟩ :=
        ih (ok && decide (e.1 = 0)) (if mx < e.2 then e.2 else mx) (if mn > e.2 then e.2 else mn)
          (a + e.2) (a2 + e.2 * e.2)
      have hfold : (e :: l).foldl statStep (ok, mx, mn, a, a2) =
          l.foldl statStep (ok && decide (e.1 = 0), if mx < e.2 then e.2 else mx,
            if mn > e.2 then e.2 else mn, a + e.2, a2 + e.2 * e.2) := rfl
      rw [hfold]
      generalize l.foldl statStep (ok && decide (e.1 = 0), if mx < e.2 then e.2 else mx,
            if mn > e.2 then e.2 else mn, a + e.2, a2 + e.2 * e.2) = f at *
      have hmx : mx ≤ (if mx < e.2 then e.2 else mx) ∧ e.2 ≤ (if mx < e.2 then e.2 else mx) := by
        split
        · rename_i h; exact ⟨h.le, le_refl _⟩
        · rename_i h; exact ⟨le_refl _, not_lt.mp h⟩
      have hmn : (if mn > e.2 then e.2 else mn) ≤ mn ∧ (if mn > e.2 then e.2 else mn) ≤ e.2 := by
        split
        · rename_i h; exact ⟨le_of_lt h, le_refl _⟩
        · rename_i h; exact ⟨le_refl _, not_lt.mp h⟩
      simp only [List.map_cons, List.mem_cons, List.sum_cons]
      refine ⟨?_, ⟨?_, le_trans hmx.1 h2b, ?_⟩, ⟨?_, le_trans h3b hmn.1, ?_⟩, ?_, ?_⟩
      · rw [h1]
        simp only [Bool.and_eq_true, decide_eq_true_eq]
        constructor
        · rintro ⟨⟨a1, a2⟩, a3⟩
          refine ⟨a1, ?_⟩
          rintro x (rfl | hx)
          · exact a2
          · exact a3 x hx
        · rintro ⟨a1, a2⟩
          exact ⟨⟨a1, a2 e (.inl rfl)⟩, fun x hx => a2 x (.inr hx)⟩
      · rcases h2a with h | h
        · rw [h]; split
          · exact .inr (.inl rfl)
          · exact .inl rfl
        · exact .inr (.inr h)
      · rintro x (rfl | hx)
        · exact le_trans hmx.2 h2b
        · exact h2c x hx
      · rcases h3a with h | h
        · rw [h]; split
          · exact .inr (.inl rfl)
          · exact .inl rfl
        · exact .inr (.inr h)
      · rintro x (rfl | hx)
        · exact le_trans h3b hmn.2
        · exact h3c x hx
      · rw [h4]; ring
      · rw [h5]; ring
  obtain ⟨k1, ⟨k2a, k2b, k2c⟩, ⟨k3a, k3b, k3c⟩, k4, k5⟩ := key (e0 :: es) true e0.2 e0.2 0 0
  have hlen : times.length = es.length + 1 := by simp [times]
  have hmean : r.avg = StatBlock.mean times := by
    show ((e0 :: es).foldl statStep (true, e0.2, e0.2, 0, 0)).2.2.2.1 / ((es.length + 1 : Nat) : Real) = _
    rw [k4, zero_add]
    unfold StatBlock.mean
    rw [hlen]
  refine ⟨?_, hmean, ⟨?_, k2c⟩, ⟨?_, k3c⟩, ?_, ?_⟩
  · show ((e0 :: es).foldl statStep (true, e0.2, e0.2, 0, 0)).1 = true ↔ _
    rw [k1]; simp
  · rcases k2a with h | h
    · show ((e0 :: es).foldl statStep (true, e0.2, e0.2, 0, 0)).2.1 ∈ times
      rw [h]; simp [times]
    · exact h
  · rcases k3a with h | h
    · show ((e0 :: es).foldl statStep (true, e0.2, e0.2, 0, 0)).2.2.1 ∈ times
      rw [h]; simp [times]
    · exact h
  · intro hne
    have hn : es.length + 1 > 1 := by
      have := List.length_pos_iff.mpr hne
      omega
    have hvar := StatBlock.variance_eq times (by rw [hlen]; omega)
    rw [hlen] at hvar
    have harg : (((e0 :: es).foldl statStep (true, e0.2, e0.2, 0, 0)).2.2.2.2 -
        ((es.length + 1 : Nat) : Real) * r.avg * r.avg) / ((es.length + 1 - 1 : Nat) : Real) =
        StatBlock.variance times := by
      rw [hvar, k5, hmean, zero_add]
    show (if es.length + 1 > 1 then _ else _) = _
    rw [if_pos hn]
    have harg' : (((e0 :: es).foldl statStep (true, e0.2, e0.2, 0, 0)).2.2.2.2 -
        ((es.length + 1 : Nat) : Real) *
        (((e0 :: es).foldl statStep (true, e0.2, e0.2, 0, 0)).2.2.2.1 / ((es.length + 1 : Nat) : Real)) *
        (((e0 :: es).foldl statStep (true, e0.2, e0.2, 0, 0)).2.2.2.1 / ((es.length + 1 : Nat) : Real))) /
        ((es.length + 1 - 1 : Nat) : Real) = StatBlock.variance times := harg
    rw [harg']
    split
    · rfl
    · rename_i hv
      have h0 : 0 ≤ StatBlock.variance times := by
        unfold StatBlock.variance
        refine div_nonneg (List.sum_nonneg ?_) (Nat.cast_nonneg _)
        intro x hx
        obtain ⟨y, _, rfl⟩ := List.mem_map.mp hx
        positivity
      rw [le_antisymm (not_lt.mp hv) h0, Real.sqrt_zero]
  · rintro rfl
    show (stats e0 []).rms = -1
    simp [stats]

/-- The times that `dump` combines for category `i`: each process contributes its own category `i`. -/
def contributions (procs : List Timer) (i : Nat) : List Real := procs.map (fun t => t.time.getD i 0)

/-- Specification: the time a process has accumulated under a title (0 if it does not know it). -/
noncomputable def timeOf (t : Timer) (s : Title) : Real :=
  match t.titleMap.lookup s with
  | some i => t.time.getD i 0
  | none => 0

/-- C76, titles: when all processes created the same titles in the same order, the statistics printed
under a title combine the times of that title. -/
theorem C76_titles_partial (procs : List Timer) (titles : List Title) (hinv : ∀ t ∈ procs, Inv t)
    (hsame : ∀ t ∈ procs, t.title = titles) (i : Nat) (s : Title) (hi : titles[i]? = some s) :
    contributions procs i = procs.map (fun t => timeOf t s) := by
  unfold contributions
  apply List.map_congr_left
  intro t ht
  unfold timeOf
  rw [((hinv t ht).map s i).mpr (by rw [hsame t ht]; exact hi)]

/-- C76 fails when two processes create the same two titles in different order: times of different
categories are mixed. -/
theorem C76_order_violated (a b : Title) (hab : a ≠ b) :
    let p1 := stopTimer (startTimer (createCategory (createCategory empty a).1 b).1 0 0) 0 1
    let p2 := stopTimer (startTimer (createCategory (createCategory empty b).1 a).1 0 0) 0 1
    p1.title[0]? = some a ∧ contributions [p1, p2] 0 = [1, 1] ∧
    [p1, p2].map (fun t => timeOf t a) = [1, 0] := by
  have hba : b ≠ a := Ne.symm hab
  have h1 : (b == a) = false := by simpa using hba
  have h2 : (a == b) = false := by simpa using hab
  intro p1 p2
  refine ⟨?_, ?_, ?_⟩
  · simp [p1, stopTimer, startTimer, createCategory, empty, List.lookup_cons, h1]
  · simp [p1, p2, contributions, stopTimer, startTimer, createCategory, empty, List.lookup_cons, h1, h2,
      List.modify]
  · simp [p1, p2, timeOf, stopTimer, startTimer, createCategory, empty, List.lookup_cons, h1, h2,
      List.modify]

end GridPACK.CoarseTimer
