import Verif.Model.ExchangeBuffers
import Mathlib.Tactic.Linarith

/-! Properties C17 (index checks) and C59 (memory safety of the exchange buffer calls). -/
namespace GridPACK.ExchangeBuffers

/-- C17, ordinary getters: an exception exactly for indices outside `0..count-1`, and otherwise
the value stored at that index (never an access past the end). -/
theorem C17_getters {α β : Type} (arr : List α) (f : α → β) (idx : Int) :
    (checkedGet arr f idx = none ↔ (idx < 0 ∨ (arr.length : Int) ≤ idx)) ∧
    ∀ v, checkedGet arr f idx = some v → ∃ x, arr[idx.toNat]? = some x ∧ v = some (f x) := by
  unfold checkedGet
  constructor
  · constructor
    · intro h; split at h
      · assumption
      · cases h
    · intro h; rw [if_pos h]
  · intro v h
    split at h
    · cases h
    · rename_i hc
      have hlt : idx.toNat < arr.length := by omega
      rw [List.getElem?_eq_getElem hlt] at h ⊢
      refine ⟨_, rfl, ?_⟩
      simpa using h.symm

/-- C17, setters: they report false and change nothing exactly for indices outside the range;
otherwise exactly that element changes. -/
theorem C17_setters {α : Type} (arr : List α) (f : α → α) (idx : Int) :
    ((checkedSet arr f idx).2 = false ↔ (idx < 0 ∨ (arr.length : Int) ≤ idx)) ∧
    ((checkedSet arr f idx).2 = false → (checkedSet arr f idx).1 = arr) ∧
    ((checkedSet arr f idx).2 = true → ∀ j : Nat, (checkedSet arr f idx).1[j]? =
      if (j : Int) = idx then (arr[j]?).map f else arr[j]?) := by
  unfold checkedSet
  by_cases hc : idx < 0 ∨ idx ≥ arr.length
  · rw [if_pos hc]
    exact ⟨⟨fun _ => hc, fun _ => rfl⟩, fun _ => rfl, fun h => by cases h⟩
  · rw [if_neg hc]
    refine ⟨⟨fun h => (by cases h), fun h => absurd h hc⟩, fun h => (by cases h), ?_⟩
    intro _ j
    simp only
    rw [List.getElem?_modify]
    by_cases hj : (j : Int) = idx
    · have e : idx.toNat = j := by omega
      rw [if_pos hj]; cases arr[j]? <;> simp [e]
    · have e : ¬ idx.toNat = j := by omega
      rw [if_neg hj]; cases arr[j]? <;> simp [e]

/-- C17, exchange buffers, the part that holds: indices that are negative or **greater than** the
count are always rejected by the buffer getter, and the buffer setter rejects every index outside
the range, in every state. -/
theorem C17_buffers_partial (s : St) (idx : Int) :
    ((idx < 0 ∨ (s.count : Int) < idx) → getBuffer s idx = .throws s) ∧
    ((idx < 0 ∨ (s.count : Int) ≤ idx) → setBuffer s idx = .throws s) := by
  constructor
  · intro h; unfold getBuffer; rw [if_pos (by omega)]
  · intro h; unfold setBuffer; rw [if_neg (by omega)]

/-- C17 is violated at the boundary: for every number of buses, after allocating exchange buffers
the call `getXCBusBuffer(count)` reads past the end of the pointer array. -/
theorem C17_boundary_violated (k : Kind) (n : Nat) (size : Int) (hs : 0 < size) :
    run k {} (List.replicate n .add ++ [.alloc size, .get n]) = none := by
  have hadd : ∀ (n : Nat) (s : St) (rest : List Op), run k s (List.replicate n .add ++ rest) =
      run k { s with count := s.count + n } rest := by
    intro n
    induction n with
    | zero => intro s rest; rfl
    | succ n ih =>
      intro s rest
      rw [List.replicate_succ, List.cons_append]
      have e : s.count + 1 + n = s.count + (n + 1) := by omega
      refine (ih { s with count := s.count + 1 } rest).trans ?_
      simp only [e]
  rw [hadd]
  by_cases hn : 0 < n
  · have h1 : ¬ size < 0 := by omega
    cases k <;>
      simp [hs, hn, h1, run, step, getBuffer, alloc, cleanup, entered, allocNew,
        markExternal] <;>
      rw [if_neg (by omega)]
  · have : n = 0 := by omega
    have h1 : ¬ size < 0 := by omega
    subst this
    cases k <;> simp [h1, run, step, getBuffer, alloc, cleanup, allocNew, markExternal, entered]

/-! ### C59 -/

/-- Phases of a well-behaved caller. -/
inductive Phase
  | none                        -- no buffers
  | own                         -- buffers allocated by the network
  | ext (assigned : List Bool)  -- pointer array allocated, which entries were assigned
deriving DecidableEq, Repr

/-- The rules a caller has to follow, and the phase after a call: components are added only while
there are no buffers; `get` is called for existing buffers (or with an index that is negative or
beyond the count); entries are assigned only after `allocPointers`. -/
inductive Allowed : Nat → Phase → Op → Nat → Phase → Prop
  | add (n) : Allowed n .none .add (n + 1) .none
  | allocNeg (n ph) (size : Int) : size < 0 → Allowed n ph (.alloc size) n ph
  | alloc (n ph) (size : Int) : 0 < size → 0 < n → Allowed n ph (.alloc size) n .own
  | allocNothing (n ph) (size : Int) : 0 ≤ size → (size = 0 ∨ n = 0) →
      Allowed n ph (.alloc size) n .none
  | free (n ph) : Allowed n ph .free n .none
  | allocPtr (n ph) (size : Int) : 0 < size → Allowed n ph (.allocPointers size) n
      (.ext (List.replicate n false))
  | allocPtrNothing (n ph) (size : Int) : size ≤ 0 → Allowed n ph (.allocPointers size) n .none
  | set (n : Nat) (as) (idx : Int) : 0 ≤ idx → idx < (n : Int) →
      Allowed n (.ext as) (.set idx) n (.ext (as.set idx.toNat true))
  | setOut (n : Nat) (ph) (idx : Int) : (idx < 0 ∨ (n : Int) ≤ idx) → Allowed n ph (.set idx) n ph
  | getOut (n : Nat) (ph) (idx : Int) : (idx < 0 ∨ (n : Int) < idx) → Allowed n ph (.get idx) n ph
  | getOwn (n : Nat) (idx : Int) : 0 ≤ idx → idx < (n : Int) → Allowed n .own (.get idx) n .own
  | getExt (n : Nat) (as) (idx : Int) : 0 ≤ idx → as[idx.toNat]? = some true →
      Allowed n (.ext as) (.get idx) n (.ext as)

/-- A history that follows the rules. -/
inductive Disciplined : Nat → Phase → List Op → Prop
  | nil (n ph) : Disciplined n ph []
  | cons (n ph op ops n' ph') : Allowed n ph op n' ph' → Disciplined n' ph' ops →
      Disciplined n ph (op :: ops)

/-- The pointer array as the caller may see it. -/
def cellOf (b : Bool) : Cell := if b then .ext else .uninit

/-- Relation between the object and the caller's phase. -/
def Rel (k : Kind) (s : St) (n : Nat) : Phase → Prop
  | .none => s.count = n ∧ s.allocated = false ∧ (s.bufSize = 0 ∨ s.ptr = .null)
  | .own => s.count = n ∧ s.allocated = true ∧ s.bufSize ≠ 0 ∧
      s.ptr = .live (List.replicate n .own) ∧ (k = .bus → s.external = false)
  | .ext as => s.count = n ∧ s.allocated = false ∧ s.bufSize ≠ 0 ∧
      s.ptr = .live (as.map cellOf) ∧ as.length = n

theorem countP_cellOf (as : List Bool) :
    (as.map cellOf).countP (fun c => decide (c = .own)) = 0 := by
  rw [List.countP_eq_zero]
  intro c hc
  obtain ⟨b, _, rfl⟩ := List.mem_map.mp hc
  cases b <;> simp [cellOf]

/-- After the clean-up block no buffers are left, nothing is misused and, for buses, nothing is
leaked. -/
theorem cleanup_spec (k : Kind) (s : St) (n : Nat) (ph : Phase) (h : Rel k s n ph) :
    ∃ s', cleanup s = some s' ∧ s'.count = n ∧ s'.allocated = false ∧
      (s'.bufSize = 0 ∨ s'.ptr = .null) ∧ (k = .bus → s'.leaked = s.leaked) := by
  cases ph with
  | none =>
    obtain ⟨h1, h2, h3⟩ := h
    refine ⟨s, ?_, h1, h2, h3, fun _ => rfl⟩
    unfold cleanup
    rw [if_neg]
    rintro ⟨ha, hb⟩
    rcases h3 with h3 | h3
    · exact ha h3
    · exact hb h3
  | own =>
    obtain ⟨h1, h2, h3, h4, h5⟩ := h
    unfold cleanup
    rw [if_pos ⟨h3, by rw [h4]; simp⟩, h4]
    simp only
    by_cases he : s.external = true
    · rw [if_neg (by simp [he])]
      refine ⟨_, rfl, h1, rfl, .inl rfl, ?_⟩
      intro hk; rw [h5 hk] at he; cases he
    · rw [if_pos ⟨h2, he⟩, if_pos]
      · refine ⟨_, rfl, h1, rfl, .inl rfl, ?_⟩
        intro _
        simp [h1]
      · unfold canDelete
        simp [h1]
  | ext as =>
    obtain ⟨h1, h2, h3, h4, h5⟩ := h
    unfold cleanup
    rw [if_pos ⟨h3, by rw [h4]; simp⟩, h4]
    simp only
    rw [if_neg (by simp [h2])]
    refine ⟨_, rfl, h1, rfl, .inl rfl, ?_⟩
    intro _
    simp only [countP_cellOf, Nat.add_zero]

theorem step_spec (k : Kind) (s : St) (n n' : Nat) (ph ph' : Phase) (op : Op)
    (h : Rel k s n ph) (ha : Allowed n ph op n' ph') :
    ∃ s', (step k s op = .ok s' ∨ step k s op = .throws s') ∧ Rel k s' n' ph' ∧
      (k = .bus → s'.leaked = s.leaked) := by
  cases ha with
  | add =>
    obtain ⟨h1, h2, h3⟩ := h
    exact ⟨_, .inl rfl, ⟨by simp [h1], h2, h3⟩, fun _ => rfl⟩
  | allocNeg _ size hs =>
    refine ⟨s, .inr ?_, h, fun _ => rfl⟩
    simp only [step, alloc]; rw [if_pos hs]
  | alloc _ size hs hn =>
    obtain ⟨s1, c1, c2, c3, c4, c5⟩ := cleanup_spec k s n ph h
    refine ⟨allocNew k (markExternal k s s1) size, .inl ?_, ?_, ?_⟩
    · simp only [step, alloc]
      rw [if_neg (by omega), c1]
    · unfold allocNew
      rw [if_pos ⟨hs, by simp only [markExternal]; omega⟩]
      refine ⟨c2, rfl, ?_, ?_, ?_⟩
      · simp only; omega
      · simp only [markExternal, c2]
      · intro hk; simp only [hk, if_true]
    · intro hk
      unfold allocNew
      rw [if_pos ⟨hs, by simp only [markExternal]; omega⟩]
      exact c5 hk
  | allocNothing _ size hs hn =>
    obtain ⟨s1, c1, c2, c3, c4, c5⟩ := cleanup_spec k s n ph h
    have e : allocNew k (markExternal k s s1) size = markExternal k s s1 := by
      unfold allocNew
      rw [if_neg (by simp only [markExternal]; omega)]
    refine ⟨markExternal k s s1, .inl ?_, ⟨c2, c3, c4⟩, c5⟩
    simp only [step, alloc]
    rw [if_neg (by omega), c1]
    simp only [e]
  | free =>
    obtain ⟨s1, c1, c2, c3, c4, c5⟩ := cleanup_spec k s n ph h
    unfold step free
    simp only
    rw [c1]
    simp only
    by_cases he : entered s = true
    · rw [if_pos he]
      exact ⟨_, .inl rfl, ⟨c2, c3, c4⟩, c5⟩
    · rw [if_neg he]
      exact ⟨_, .inl rfl, ⟨c2, c3, c4⟩, c5⟩
  | allocPtr _ size hs =>
    obtain ⟨s1, c1, c2, c3, c4, c5⟩ := cleanup_spec k s n ph h
    unfold step allocPointers
    simp only
    rw [c1]
    simp only
    rw [if_pos hs]
    refine ⟨_, .inl rfl, ⟨c2, c3, ?_, ?_, by simp⟩, c5⟩
    · simp only; omega
    · simp [c2, cellOf]
  | allocPtrNothing _ size hs =>
    obtain ⟨s1, c1, c2, c3, c4, c5⟩ := cleanup_spec k s n ph h
    unfold step allocPointers
    simp only
    rw [c1]
    simp only
    rw [if_neg (by omega)]
    exact ⟨_, .inl rfl, ⟨c2, c3, c4⟩, c5⟩
  | set as idx h0 hlt =>
    obtain ⟨h1, h2, h3, h4, h5⟩ := h
    unfold step setBuffer
    simp only
    rw [if_pos ⟨by rw [h4]; simp, h0, by omega⟩, h4]
    simp only
    rw [if_pos (by rw [List.length_map]; omega)]
    refine ⟨_, .inl rfl, ⟨h1, h2, h3, ?_, by simp [h5]⟩, fun _ => rfl⟩
    simp only
    rw [List.map_set]; rfl
  | setOut _ idx ho =>
    have hc : s.count = n := by cases ph <;> exact h.1
    exact ⟨s, .inr ((C17_buffers_partial s idx).2 (by omega)), h, fun _ => rfl⟩
  | getOut _ idx ho =>
    have hc : s.count = n := by cases ph <;> exact h.1
    exact ⟨s, .inr ((C17_buffers_partial s idx).1 (by omega)), h, fun _ => rfl⟩
  | getOwn idx h0 hlt =>
    have h' := h
    obtain ⟨h1, h2, h3, h4, h5⟩ := h
    refine ⟨s, .inl ?_, h', fun _ => rfl⟩
    unfold step getBuffer
    simp only
    rw [if_neg (by omega), h4]
    simp only
    rw [List.getElem?_replicate, if_pos (by omega)]
  | getExt as idx h0 hg =>
    have h' := h
    obtain ⟨h1, h2, h3, h4, h5⟩ := h
    have hlt : idx.toNat < as.length := by rw [List.getElem?_eq_some_iff] at hg; exact hg.1
    refine ⟨s, .inl ?_, h', fun _ => rfl⟩
    unfold step getBuffer
    simp only
    rw [if_neg (by omega), h4]
    simp only
    rw [List.getElem?_map, hg]
    rfl

/-- C59.  Every history of calls that follows the rules `Disciplined` — whatever its length and
order — runs without any invalid memory access, double deletion or use of an uninitialised
pointer; for bus buffers nothing is leaked either. -/
theorem C59_disciplined_histories_are_safe_partial (k : Kind) (ops : List Op)
    (h : Disciplined 0 .none ops) :
    ∃ s, run k {} ops = some s ∧ (k = .bus → s.leaked = 0) := by
  have key : ∀ (ops : List Op) (n : Nat) (ph : Phase) (s : St), Rel k s n ph →
      Disciplined n ph ops → ∃ s', run k s ops = some s' ∧ (k = .bus → s'.leaked = s.leaked) := by
    intro ops
    induction ops with
    | nil => intro n ph s _ _; exact ⟨s, rfl, fun _ => rfl⟩
    | cons op ops ih =>
      intro n ph s hr hd
      cases hd with
      | cons _ _ _ _ n' ph' ha hd =>
        obtain ⟨s1, hs, hr1, hl1⟩ := step_spec k s n n' ph ph' op hr ha
        obtain ⟨s2, h2, hl2⟩ := ih n' ph' s1 hr1 hd
        refine ⟨s2, ?_, fun hk => (hl2 hk).trans (hl1 hk)⟩
        unfold run
        rcases hs with hs | hs <;> rw [hs] <;> exact h2
  obtain ⟨s, h1, h2⟩ := key ops 0 .none {} ⟨rfl, rfl, .inl rfl⟩ h
  exact ⟨s, h1, h2⟩

/-- The rules are not empty: allocate, use, free, add, allocate pointers, assign, read. -/
example : Disciplined 0 .none [.add, .add, .alloc 8, .get 1, .free, .add, .allocPointers 8,
    .set 2, .get 2, .get 7, .free] := by
  refine .cons _ _ _ _ _ _ (.add 0) (.cons _ _ _ _ _ _ (.add 1)
    (.cons _ _ _ _ _ _ (.alloc _ _ _ (by omega) (by omega))
    (.cons _ _ _ _ _ _ (.getOwn _ _ (by omega) (by omega)) (.cons _ _ _ _ _ _ (.free _ _)
    (.cons _ _ _ _ _ _ (.add _) (.cons _ _ _ _ _ _ (.allocPtr _ _ _ (by omega))
    (.cons _ _ _ _ _ _ (.set _ _ _ (by omega) (by omega))
    (.cons _ _ _ _ _ _ (.getExt _ _ _ (by omega) (by decide))
    (.cons _ _ _ _ _ _ (.getOut _ _ _ (by omega)) (.cons _ _ _ _ _ _ (.free _ _)
    (.nil _ _)))))))))))

/-- The additional rule under which branch buffers are not leaked either: buffers are allocated only
when none are held (the previous ones were released by `free`), pointer arrays with a positive size. -/
def Paired (ph : Phase) : Op → Prop
  | .alloc size => size < 0 ∨ ph = .none
  | .allocPointers size => 0 < size ∧ ph = .none
  | _ => True

/-- A history that follows the rules and the additional rule. -/
inductive DisciplinedPaired : Nat → Phase → List Op → Prop
  | nil (n ph) : DisciplinedPaired n ph []
  | cons (n ph op ops n' ph') : Allowed n ph op n' ph' → Paired ph op → DisciplinedPaired n' ph' ops →
      DisciplinedPaired n ph (op :: ops)

/-- The flag `external` in the phases. -/
def Flag (s : St) : Phase → Prop
  | .ext _ => True
  | _ => s.external = false

theorem entered_of_rel (k : Kind) (s : St) (n : Nat) (ph : Phase) (h : Rel k s n ph) :
    entered s = true ↔ ph ≠ .none := by
  cases ph with
  | none => obtain ⟨_, _, h⟩ := h; rcases h with h | h <;> simp [entered, h]
  | own => obtain ⟨_, _, h, h4, _⟩ := h; simp [entered, h, h4]
  | ext as => obtain ⟨_, _, h, h4, _⟩ := h; simp [entered, h, h4]

theorem cleanup_leak (k : Kind) (s s' : St) (n : Nat) (ph : Phase) (h : Rel k s n ph) (hf : Flag s ph)
    (hc : cleanup s = some s') : s'.leaked = s.leaked ∧ s'.external = s.external := by
  cases ph with
  | none =>
    obtain ⟨h1, h2, h3⟩ := h
    unfold cleanup at hc
    rw [if_neg] at hc
    · cases hc; exact ⟨rfl, rfl⟩
    · rintro ⟨ha, hb⟩
      rcases h3 with h3 | h3
      · exact ha h3
      · exact hb h3
  | own =>
    obtain ⟨h1, h2, h3, h4, h5⟩ := h
    simp only [Flag] at hf
    unfold cleanup at hc
    rw [if_pos ⟨h3, by rw [h4]; simp⟩, h4] at hc
    simp only at hc
    rw [if_pos ⟨h2, by simp [hf]⟩, if_pos] at hc
    · cases hc; simp [h1]
    · unfold canDelete; simp [h1]
  | ext as =>
    obtain ⟨h1, h2, h3, h4, h5⟩ := h
    unfold cleanup at hc
    rw [if_pos ⟨h3, by rw [h4]; simp⟩, h4] at hc
    simp only at hc
    rw [if_neg (by simp [h2])] at hc
    cases hc
    simp only [countP_cellOf, Nat.add_zero, and_self]

theorem step_paired (k : Kind) (s s' : St) (n n' : Nat) (ph ph' : Phase) (op : Op)
    (h : Rel k s n ph) (hf : Flag s ph) (ha : Allowed n ph op n' ph') (hp : Paired ph op)
    (hs : step k s op = .ok s' ∨ step k s op = .throws s') :
    Flag s' ph' ∧ s'.leaked = s.leaked := by
  have hent := entered_of_rel k s n ph h
  obtain ⟨s1, c1, c2, c3, c4, _⟩ := cleanup_spec k s n ph h
  have hcl := cleanup_leak k s s1 n ph h hf c1
  cases ha with
  | add => simp only [step] at hs; rcases hs with hs | hs <;> cases hs; exact ⟨hf, rfl⟩
  | allocNeg _ size h0 =>
    simp only [step, alloc] at hs
    rw [if_pos h0] at hs
    rcases hs with hs | hs <;> cases hs
    exact ⟨hf, rfl⟩
  | alloc _ size h0 hn =>
    have hph : ph = .none := by rcases hp with hp | hp; · omega
                                · exact hp
    have he : entered s = false := by
      cases hx : entered s
      · rfl
      · exact absurd hph (hent.1 hx)
    subst hph
    simp only [step, alloc] at hs
    rw [if_neg (by omega), c1] at hs
    rcases hs with hs | hs <;> cases hs
    simp only [Flag] at hf ⊢
    unfold allocNew
    rw [if_pos ⟨h0, by simp only [markExternal]; omega⟩]
    cases k <;> simp [markExternal, he, hcl.1, hcl.2, hf]
  | allocNothing _ size h0 hn =>
    have hph : ph = .none := by rcases hp with hp | hp; · omega
                                · exact hp
    have he : entered s = false := by
      cases hx : entered s
      · rfl
      · exact absurd hph (hent.1 hx)
    subst hph
    simp only [step, alloc] at hs
    rw [if_neg (by omega), c1] at hs
    rcases hs with hs | hs <;> cases hs
    simp only [Flag] at hf ⊢
    unfold allocNew
    rw [if_neg (by simp only [markExternal]; omega)]
    cases k <;> simp [markExternal, he, hcl.1, hcl.2, hf]
  | free =>
    simp only [step, free] at hs
    rw [c1] at hs
    simp only at hs
    rcases hs with hs | hs <;> cases hs
    by_cases he : entered s = true
    · rw [if_pos he]
      exact ⟨rfl, hcl.1⟩
    · rw [if_neg he]
      have hph : ph = .none := by
        by_cases hx : ph = .none
        · exact hx
        · exact absurd (hent.2 hx) he
      subst hph
      exact ⟨hcl.2.trans hf, hcl.1⟩
  | allocPtr _ size h0 =>
    simp only [step, allocPointers] at hs
    rw [c1] at hs
    simp only at hs
    rw [if_pos h0] at hs
    rcases hs with hs | hs <;> cases hs
    exact ⟨trivial, hcl.1⟩
  | allocPtrNothing _ size h0 => exact absurd hp.1 (by omega)
  | set as idx h0 hlt =>
    obtain ⟨h1, h2, h3, h4, h5⟩ := h
    simp only [step, setBuffer] at hs
    rw [if_pos ⟨by rw [h4]; simp, h0, by omega⟩, h4] at hs
    simp only at hs
    rw [if_pos (by rw [List.length_map]; omega)] at hs
    rcases hs with hs | hs <;> cases hs
    exact ⟨trivial, rfl⟩
  | setOut _ idx ho =>
    have hc : s.count = n := by cases ph <;> exact h.1
    have := (C17_buffers_partial s idx).2 (by omega)
    simp only [step] at hs
    rw [this] at hs
    rcases hs with hs | hs <;> cases hs
    exact ⟨hf, rfl⟩
  | getOut _ idx ho =>
    have hc : s.count = n := by cases ph <;> exact h.1
    have := (C17_buffers_partial s idx).1 (by omega)
    simp only [step] at hs
    rw [this] at hs
    rcases hs with hs | hs <;> cases hs
    exact ⟨hf, rfl⟩
  | getOwn idx h0 hlt =>
    obtain ⟨h1, h2, h3, h4, h5⟩ := h
    simp only [step, getBuffer] at hs
    rw [if_neg (by omega), h4] at hs
    simp only at hs
    rw [List.getElem?_replicate, if_pos (by omega)] at hs
    rcases hs with hs | hs <;> cases hs
    exact ⟨hf, rfl⟩
  | getExt as idx h0 hg =>
    obtain ⟨h1, h2, h3, h4, h5⟩ := h
    have hlt : idx.toNat < as.length := by rw [List.getElem?_eq_some_iff] at hg; exact hg.1
    simp only [step, getBuffer] at hs
    rw [if_neg (by omega), h4] at hs
    simp only at hs
    rw [List.getElem?_map, hg] at hs
    rcases hs with hs | hs <;> cases hs
    exact ⟨trivial, rfl⟩

/-- C59.  If moreover every allocation is preceded by the release of the buffers held before, then
neither bus nor branch buffers are lost, whatever the history. -/
theorem C59_paired_histories_leak_nothing_partial (k : Kind) (ops : List Op)
    (h : DisciplinedPaired 0 .none ops) :
    ∃ s, run k {} ops = some s ∧ s.leaked = 0 := by
  have key : ∀ (ops : List Op) (n : Nat) (ph : Phase) (s : St), Rel k s n ph → Flag s ph →
      DisciplinedPaired n ph ops → ∃ s', run k s ops = some s' ∧ s'.leaked = s.leaked := by
    intro ops
    induction ops with
    | nil => intro n ph s _ _ _; exact ⟨s, rfl, rfl⟩
    | cons op ops ih =>
      intro n ph s hr hf hd
      cases hd with
      | cons _ _ _ _ n' ph' ha hp hd =>
        obtain ⟨s1, hs, hr1, _⟩ := step_spec k s n n' ph ph' op hr ha
        obtain ⟨hf1, hl1⟩ := step_paired k s s1 n n' ph ph' op hr hf ha hp hs
        obtain ⟨s2, h2, hl2⟩ := ih n' ph' s1 hr1 hf1 hd
        refine ⟨s2, ?_, hl2.trans hl1⟩
        unfold run
        rcases hs with hs | hs <;> rw [hs] <;> exact h2
  exact key ops 0 .none {} ⟨rfl, rfl, .inl rfl⟩ rfl h

/-- A history with both kinds of buffers that follows both rules. -/
example : DisciplinedPaired 0 .none [.add, .allocPointers 8, .set 0, .free, .alloc 8, .free] := by
  refine .cons _ _ _ _ _ _ (.add 0) trivial (.cons _ _ _ _ _ _ (.allocPtr _ _ _ (by omega))
    ⟨by omega, rfl⟩ (.cons _ _ _ _ _ _ (.set _ _ _ (by omega) (by omega)) trivial
    (.cons _ _ _ _ _ _ (.free _ _) trivial (.cons _ _ _ _ _ _ (.alloc _ _ _ (by omega) (by omega))
    (.inr rfl) (.cons _ _ _ _ _ _ (.free _ _) trivial (.nil _ _))))))

/-- C59 without the rules is violated in several ways: a setter call after `free` writes through a
dangling pointer; freeing after a bus was added deletes pointers past the end of the array; reading
before any allocation uses a null pointer; assigning to an array allocated by the network makes `free`
delete the caller's buffer; assigning for a bus added after the allocation writes past the end;
allocating branch buffers twice, or after a call for no pointers, leaks. -/
theorem C59_violated :
    run .bus {} [.add, .alloc 8, .free, .set 0] = none ∧
    run .bus {} [.add, .alloc 8, .add, .free] = none ∧
    run .bus {} [.add, .get 0] = none ∧
    run .bus {} [.add, .alloc 8, .set 0, .free] = none ∧
    run .bus {} [.add, .alloc 8, .add, .set 1] = none ∧
    (∃ s, run .branch {} [.add, .alloc 8, .alloc 8, .free] = some s ∧ s.leaked = 1) ∧
    (∃ s, run .branch {} [.add, .allocPointers 0, .alloc 8, .free] = some s ∧ s.leaked = 1) := by
  refine ⟨by decide, by decide, by decide, by decide, by decide, ⟨_, rfl, rfl⟩, ⟨_, rfl, rfl⟩⟩

end GridPACK.ExchangeBuffers
