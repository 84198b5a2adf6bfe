import Verif.Lemmas.Raw23Case

/-! Auxiliary facts for the transformer lines of files of version 23. -/
namespace GridPACK.Raw23
open StringUtils BlockParser DataCollection RawBus RawBranch

/-- The element `k` has the buses and circuit of the line `x`. -/
def Leads (cv : Conv) (bs : List BrData) (k : ℕ × ℕ) (x : List Str) : Prop :=
  ∃ b e, bs[k.1]? = some b ∧ b.elems[k.2]? = some e ∧ b.frm = (link cv x).a ∧ b.tob = (link cv x).b ∧
    e.ckt = cv.tag (x.getD 2 [])

theorem Leads.same {cv : Conv} {bs : List BrData} {k : ℕ × ℕ} {x y : List Str} (h : Leads cv bs k x)
    (h' : Leads cv bs k y) : SameCircuit cv x y := by
  obtain ⟨b, e, h1, h2, h3, h4, h5⟩ := h
  obtain ⟨b', e', g1, g2, g3, g4, g5⟩ := h'
  rw [h1] at g1
  obtain rfl : b = b' := by simpa using g1
  rw [h2] at g2
  obtain rfl : e = e' := by simpa using g2
  exact ⟨h3 ▸ g3, h4 ▸ g4, h5 ▸ g5⟩

theorem find_line (cv : Conv) (lines : List (List Str)) (st : St) (hI : LinesInv cv lines st) (x l : List Str)
    (hl : l ∈ lines) (ha : (link cv x).a = (link cv l).a) (hb : (link cv x).b = (link cv l).b)
    (hd : ∀ l ∈ lines, ¬ Opposite cv x l) :
    ∃ n b, RawBranch.find st.map (ends cv x) = some n ∧ st.branches[n]? = some b ∧ b.frm = (link cv x).a ∧
      b.tob = (link cv x).b ∧ ∃ e ∈ b.elems, e.ckt = cv.tag (l.getD 2 []) := by
  have hk : ends cv x = ends cv l := by rw [ends_link, ends_link, ha, hb]
  rcases hI.all l hl with h | h
  · obtain ⟨n, hn⟩ := Option.isSome_iff_exists.mp h
    obtain ⟨b, hb1, he⟩ := hI.elems l hl n hn
    have hn' := hn
    rw [← hk, ends_link] at hn'
    obtain ⟨b', hb', hf, ht⟩ := hI.inv.leads _ _ _ hn'
    rw [hb1] at hb'
    obtain rfl : b = b' := by simpa using hb'
    exact ⟨n, b, by rw [hk]; exact hn, hb1, hf, ht, he⟩
  · exfalso
    obtain ⟨n, hn⟩ := Option.isSome_iff_exists.mp h
    obtain ⟨y, hy, hyk⟩ := hI.keys _ _ hn
    rw [ends_link, ends_link] at hyk
    simp only [Prod.mk.injEq] at hyk
    exact hd y hy ⟨by rw [hyk.1, hb], by rw [hyk.2, ha]⟩

theorem xfPass_ok (cv : Conv) (lines : List (List Str)) (st : St) (hI : LinesInv cv lines st) (x : List Str)
    (hlen : 10 ≤ x.length) (hx : ∃ l ∈ lines, SameCircuit cv x l) (hd : ∀ l ∈ lines, ¬ Opposite cv x l) (adj : Adj) :
    ∃ k, xfPass cv st adj x = some (adj ++ [(k, x)], true) ∧ Leads cv st.branches k x := by
  obtain ⟨l, hl, ha, hb, ht⟩ := hx
  obtain ⟨n, b, h1, h2, h3, h4, e, he, hc⟩ := find_line cv lines st hI x l hl ha hb hd
  have h2' : x[2]? = some (x.getD 2 []) := by
    rw [List.getD_eq_getElem?_getD, List.getElem?_eq_getElem (by omega)]; rfl
  have n1 : ¬ x.length < 2 := by omega
  have n2 : ¬ x.length < 10 := by omega
  cases hf : b.elems.findIdx? (fun e => decide (e.ckt = cv.tag (x.getD 2 []))) with
  | none =>
    rw [List.findIdx?_eq_none_iff] at hf
    have := hf e he
    rw [ht, hc] at this
    simp at this
  | some i =>
    refine ⟨(n, i), ?_, ?_⟩
    · simp only [xfPass, if_neg n1, h1, h2', h2, hf, if_neg n2]
    · have hi := List.findIdx?_eq_some_iff_getElem.mp hf
      obtain ⟨hlt, hp, _⟩ := hi
      exact ⟨b, b.elems[i], h2, List.getElem?_eq_getElem hlt, h3, h4, by simpa using hp⟩

theorem readXfs_ok (cv : Conv) (lines : List (List Str)) (st : St) (hI : LinesInv cv lines st) :
    ∀ (xs : List (List Str)), (∀ x ∈ xs, 10 ≤ x.length ∧ ∃ l ∈ lines, SameCircuit cv x l) →
    (∀ x ∈ xs, ∀ l ∈ lines, ¬ Opposite cv x l) → ∀ (adj : Adj),
    ∃ adj', (∀ n, xs.length ≤ n → readXfs cv st n adj xs = .done (adj ++ adj')) ∧
      adj'.map Prod.snd = xs ∧ ∀ p ∈ adj', Leads cv st.branches p.1 p.2 := by
  intro xs
  induction xs with
  | nil =>
    intro _ _ adj
    refine ⟨[], ?_, rfl, by simp⟩
    intro n _
    cases n <;> simp [readXfs]
  | cons x xs ih =>
    intro h1 h2 adj
    obtain ⟨k, hk, hl⟩ := xfPass_ok cv lines st hI x (h1 x (by simp)).1 (h1 x (by simp)).2 (h2 x (by simp)) adj
    obtain ⟨adj', e1, e2, e3⟩ := ih (fun y hy => h1 y (by simp [hy])) (fun y hy => h2 y (by simp [hy])) (adj ++ [(k, x)])
    refine ⟨(k, x) :: adj', ?_, by simp [e2], ?_⟩
    · intro n hn
      cases n with
      | zero => simp at hn
      | succ n =>
        simp only [List.length_cons] at hn
        simp only [readXfs, hk, e1 n (by omega), List.append_assoc, List.cons_append, List.nil_append]
    · intro p hp
      rcases List.mem_cons.mp hp with rfl | hp
      · exact hl
      · exact e3 p hp

theorem lookup_first (cv : Conv) (bs : List BrData) (adj : Adj) (hl : ∀ p ∈ adj, Leads cv bs p.1 p.2) (j : ℕ)
    (k : ℕ × ℕ) (x : List Str) (hj : adj[j]? = some (k, x))
    (hfirst : ∀ i < j, ∀ p, adj[i]? = some p → ¬ SameCircuit cv p.2 x) : lookup adj k = some x := by
  induction adj generalizing j with
  | nil => simp at hj
  | cons p adj ih =>
    cases j with
    | zero =>
      simp only [List.getElem?_cons_zero, Option.some.injEq] at hj
      subst hj
      simp [lookup]
    | succ j =>
      simp only [List.getElem?_cons_succ] at hj
      have hne : p.1 ≠ k := by
        intro he
        refine hfirst 0 (by omega) p rfl ?_
        have h1 := hl p (by simp)
        rw [he] at h1
        exact h1.same (hl (k, x) (List.mem_cons_of_mem _ (List.mem_of_getElem? hj)))
      have := ih (fun q hq => hl q (by simp [hq])) j hj (fun i hi q hq => hfirst (i + 1) (by omega) q (by simpa using hq))
      unfold lookup at this ⊢
      rw [List.find?_cons]
      simp only [hne, decide_false]
      exact this

theorem lookup_in {κ α : Type} [DecidableEq κ] (m : List (κ × α)) (k : κ) (v : α) (h : lookup m k = some v) :
    (k, v) ∈ m := by
  unfold lookup at h
  cases hf : m.find? (fun e => decide (e.1 = k)) with
  | none => rw [hf] at h; simp at h
  | some e =>
    rw [hf] at h
    simp only [Option.map_some, Option.some.injEq] at h
    have h1 := List.find?_some hf
    have h2 := List.mem_of_find?_eq_some hf
    simp only [decide_eq_true_eq] at h1
    rw [← h, ← h1]
    exact h2

theorem findSome_one {α β : Type} (xs : List α) (g : α → Option β) (f : α) (hf : f ∈ xs)
    (h : ∀ x ∈ xs, g x = none ∨ g x = g f) : xs.findSome? g = g f := by
  induction xs with
  | nil => simp at hf
  | cons x xs ih =>
    rw [List.findSome?_cons]
    rcases h x (by simp) with h1 | h1
    · rw [h1]
      rcases List.mem_cons.mp hf with rfl | hf
      · rw [h1]
        simp only
        rw [List.findSome?_eq_none_iff]
        intro y hy
        rcases h y (by simp [hy]) with h2 | h2
        · exact h2
        · rw [h2, h1]
      · exact ih hf (fun y hy => h y (by simp [hy]))
    · cases hg : g f with
      | some v => rw [h1, hg]
      | none =>
        rw [h1, hg]
        simp only
        rw [List.findSome?_eq_none_iff]
        intro y hy
        rcases h y (by simp [hy]) with h2 | h2
        · exact h2
        · rw [h2, hg]

theorem xfInt_eq (cv : Conv) (adj : Adj) (l i : ℕ) :
    xfInt cv adj l i "TRANSFORMER_CONTROL" = (lookup adj (l, i)).bind (fun ts => ts[3]?.map cv.atoi) := by
  have hn : ∀ x ∈ xfFields, x.name ≠ "TRANSFORMER_CONTROL".toList ∨ x = intAt "TRANSFORMER_CONTROL" 3 := by
    unfold xfFields
    simp only [List.forall_mem_cons, List.not_mem_nil, false_imp_iff, implies_true, and_true]
    and_intros
    all_goals first
      | with_reducible exact Or.inr True.intro
      | exact Or.inl (by decide +kernel)
  unfold xfInt
  rw [findSome_one xfFields _ (intAt "TRANSFORMER_CONTROL" 3) (by simp [xfFields])]
  · rw [dif_pos ⟨rfl, rfl⟩]
    cases lookup adj (l, i) with
    | none => rfl
    | some ts =>
      show ((ts[3]?).map cv.atoi).map _ = (ts[3]?).map cv.atoi
      cases ts[3]? <;> rfl
  · intro x hx
    rcases hn x hx with h | h
    · left; rw [dif_neg (fun hh => h hh.2)]
    · right; rw [h]

theorem xfDbl_eq (cv : Conv) (adj : Adj) (l i : ℕ) (p : String × ℕ) (hp : p ∈ xfDbls) :
    xfDbl cv adj l i p.1 = (lookup adj (l, i)).bind (fun ts => ts[p.2]?.map cv.atof) := by
  have hn : dblAt p.1 p.2 ∈ xfFields ∧ ∀ x ∈ xfFields, x.name ≠ p.1.toList ∨ x = dblAt p.1 p.2 := by
    simp only [xfDbls, List.mem_cons, List.not_mem_nil, or_false] at hp
    rcases hp with rfl | rfl | rfl | rfl | rfl | rfl
    all_goals
      unfold xfFields
      refine ⟨by member, ?_⟩
      simp only [List.forall_mem_cons, List.not_mem_nil, false_imp_iff, implies_true, and_true]
      and_intros
    all_goals first
      | with_reducible exact Or.inr True.intro
      | exact Or.inl (by decide +kernel)
  unfold xfDbl
  rw [findSome_one xfFields _ (dblAt p.1 p.2) hn.1]
  · rw [dif_pos ⟨rfl, rfl⟩]
    cases lookup adj (l, i) with
    | none => rfl
    | some ts =>
      show ((ts[p.2]?).map cv.atof).map _ = (ts[p.2]?).map cv.atof
      cases ts[p.2]? <;> rfl
  · intro x hx
    rcases hn.2 x hx with h | h
    · left; rw [dif_neg (fun hh => h hh.2)]
    · right; rw [h]

end GridPACK.Raw23
