import Verif.Spec.Actions
import Mathlib.Data.List.Nodup
import Mathlib.Data.List.Forall2
import Mathlib.Tactic.Abel

/-! Lemmas about the commands given to a running simulation. -/
namespace GridPACK.Actions

open Complex YMatrix

/-! ### Lists -/

theorem filter_unique {α : Type} [DecidableEq α] (l : List α) (hl : l.Nodup) (P : α → Bool) (k : α)
    (h : ∀ x ∈ l, P x = true ↔ x = k) : l.filter P = if k ∈ l then [k] else [] := by
  induction l with
  | nil => simp
  | cons a l ih =>
    obtain ⟨ha, hl⟩ := List.nodup_cons.1 hl
    have ih' := ih hl (fun x hx => h x (List.mem_cons_of_mem _ hx))
    by_cases hak : a = k
    · subst hak
      rw [List.filter_cons, if_pos ((h a (by simp)).2 rfl), ih', if_neg ha]
      simp
    · have : P a ≠ true := fun e => hak ((h a (by simp)).1 e)
      rw [List.filter_cons, if_neg this, ih']
      have hne : ¬ k = a := fun e => hak e.symm
      simp [hne]

theorem filter_none {α : Type} (l : List α) (P : α → Bool) (h : ∀ x ∈ l, P x ≠ true) : l.filter P = [] := by
  rw [List.filter_eq_nil_iff]
  exact h

theorem sum_filter {α : Type} (l : List α) (P : α → Bool) (f : α → ℂ) :
    ((l.filter P).map f).sum = (l.map (fun x => if P x then f x else 0)).sum := by
  induction l with
  | nil => rfl
  | cons a l ih =>
    by_cases h : P a = true
    · simp [h, ih]
    · simp [h, ih]

theorem sum_add {α : Type} (l : List α) (f g : α → ℂ) :
    (l.map (fun x => f x + g x)).sum = (l.map f).sum + (l.map g).sum := by
  induction l with
  | nil => simp
  | cons a l ih => simp only [List.map_cons, List.sum_cons, ih]; ring

theorem sum_neg' {α : Type} (l : List α) (f : α → ℂ) : (l.map (fun x => -f x)).sum = -(l.map f).sum := by
  induction l with
  | nil => simp
  | cons a l ih => simp only [List.map_cons, List.sum_cons, ih]; ring

theorem sum_zero {α : Type} (l : List α) : (l.map (fun _ => (0 : ℂ))).sum = 0 := by
  induction l with
  | nil => rfl
  | cons a l ih => simp [ih]

/-- Sum over a list without repetitions of terms collected by a key. -/
theorem sum_by_key {τ : Type} (loc : List Nat) (hl : loc.Nodup) (ts : List τ) (key : τ → Nat) (h : τ → ℂ) :
    (loc.map (fun k => (ts.map (fun t => if key t = k then h t else 0)).sum)).sum =
      (ts.map (fun t => if key t ∈ loc then h t else 0)).sum := by
  induction ts with
  | nil => simp [sum_zero]
  | cons t ts ih =>
    simp only [List.map_cons, List.sum_cons]
    rw [sum_add, ih]
    congr 1
    clear ih
    induction loc with
    | nil => simp
    | cons a loc ih =>
      obtain ⟨ha, hl⟩ := List.nodup_cons.1 hl
      rw [List.map_cons, List.sum_cons, ih hl]
      by_cases e : key t = a
      · rw [if_pos e, if_neg (by rw [e]; exact ha), if_pos (by simp [e])]
        ring
      · rw [if_neg e, zero_add]
        simp [e]

/-- With different keys, the terms of one key are a single term. -/
theorem sum_own {τ : Type} (ts : List τ) (key : τ → Nat) (hd : (ts.map key).Nodup) (h : τ → ℂ) (u : τ) (hu : u ∈ ts) :
    (ts.map (fun t => if key t = key u then h t else 0)).sum = h u := by
  induction ts with
  | nil => simp at hu
  | cons t ts ih =>
    obtain ⟨ht, hd⟩ := List.nodup_cons.1 hd
    rw [List.map_cons, List.sum_cons]
    rcases List.mem_cons.1 hu with rfl | hu
    · rw [if_pos rfl]
      have : (ts.map (fun t => if key t = key u then h t else 0)).sum = 0 := by
        rw [List.map_congr_left (g := fun _ => (0 : ℂ))]
        · exact sum_zero ts
        · intro t' ht'
          rw [if_neg]
          intro e
          exact ht (List.mem_map.2 ⟨t', ht', e⟩)
      rw [this, add_zero]
    · have : key t ≠ key u := fun e => ht (List.mem_map.2 ⟨u, hu, e.symm⟩)
      rw [if_neg this, zero_add, ih hd hu]

theorem find?_range_unique (m : Nat) (P : Nat → Bool) (c : Nat) (hc : c < m) (hP : P c = true)
    (h : ∀ d, d < m → P d = true → d = c) : (List.range m).find? P = some c := by
  cases hf : (List.range m).find? P with
  | none =>
    have := List.find?_eq_none.1 hf c (List.mem_range.2 hc)
    exact absurd hP this
  | some d =>
    have h1 := List.find?_some hf
    have h2 := List.mem_range.1 (List.mem_of_find?_eq_some hf)
    rw [h d h2 h1]

/-! ### Finding the circuit -/

theorem indices_joined (n : Net) (hn : n.Good) (p : Nat) (k : Nat) (b : Branch) (frm too : Nat)
    (hb : n.branches[k]? = some b) (hj : Joins b frm too) :
    n.indices p frm too = if k ∈ n.loc p then [k] else [] := by
  have hends := hn.ends k b hb
  have huniq : ∀ l c, n.branches[l]? = some c → Joins c frm too → l = k := by
    intro l c hc hjc
    apply hn.unique k l b c hb hc
    rcases hj with ⟨h1, h2⟩ | ⟨h1, h2⟩
    · rw [h1, h2]; exact hjc
    · rw [h1, h2]; exact hjc.symm
  have only1 : ∀ l ∈ n.loc p, (n.branches[l]?).any (fun b => b.bus1 = frm && b.bus2 = too) = true → l = k := by
    intro l _ hl
    obtain ⟨c, hc, he⟩ := (Option.any_eq_true _ _).1 hl
    simp only [Bool.and_eq_true, decide_eq_true_eq] at he
    exact huniq l c hc (Or.inl he)
  have only2 : ∀ l ∈ n.loc p, (n.branches[l]?).any (fun b => b.bus1 = too && b.bus2 = frm) = true → l = k := by
    intro l _ hl
    obtain ⟨c, hc, he⟩ := (Option.any_eq_true _ _).1 hl
    simp only [Bool.and_eq_true, decide_eq_true_eq] at he
    exact huniq l c hc (Or.inr he)
  unfold Net.indices
  simp only
  rcases hj with ⟨h1, h2⟩ | ⟨h1, h2⟩
  · have f1 : (n.loc p).filter (fun k => (n.branches[k]?).any (fun b => b.bus1 = frm && b.bus2 = too)) =
        if k ∈ n.loc p then [k] else [] := by
      apply filter_unique _ (hn.nodup p)
      intro x hx
      constructor
      · exact only1 x hx
      · rintro rfl
        rw [hb]
        simp [h1, h2]
    rw [f1]
    by_cases hk : k ∈ n.loc p
    · simp [hk]
    · simp only [hk, if_false, List.isEmpty_nil, if_true]
      apply filter_none
      intro x hx he
      exact hk (only2 x hx he ▸ hx)
  · have f1 : (n.loc p).filter (fun k => (n.branches[k]?).any (fun b => b.bus1 = frm && b.bus2 = too)) = [] := by
      apply filter_none
      intro x hx he
      have := only1 x hx he
      subst this
      rw [hb] at he
      simp only [Option.any_some, Bool.and_eq_true, decide_eq_true_eq] at he
      exact hends (he.1.trans (h2.symm))
    rw [f1]
    simp only [List.isEmpty_nil, if_true]
    apply filter_unique _ (hn.nodup p)
    intro x hx
    constructor
    · exact only2 x hx
    · rintro rfl
      rw [hb]
      simp [h1, h2]

theorem indices_mem (n : Net) (p k frm too : Nat) (hk : k ∈ n.indices p frm too) :
    k ∈ n.loc p ∧ ∃ b, n.branches[k]? = some b ∧ Joins b frm too := by
  unfold Net.indices at hk
  simp only at hk
  split at hk
  · obtain ⟨h1, h2⟩ := List.mem_filter.1 hk
    obtain ⟨c, hc, he⟩ := (Option.any_eq_true _ _).1 h2
    simp only [Bool.and_eq_true, decide_eq_true_eq] at he
    exact ⟨h1, c, hc, Or.inr he⟩
  · obtain ⟨h1, h2⟩ := List.mem_filter.1 hk
    obtain ⟨c, hc, he⟩ := (Option.any_eq_true _ _).1 h2
    simp only [Bool.and_eq_true, decide_eq_true_eq] at he
    exact ⟨h1, c, hc, Or.inl he⟩

theorem pickTag_hit (es : List Elem) (hd : (es.map Elem.tag).Nodup) (st : List Bool) (c : Nat) (e : Elem)
    (he : es[c]? = some e) (hs : st[c]? = some true) : pickTag e.tag es st = some c := by
  unfold pickTag
  have hc : c < es.length := (List.getElem?_eq_some_iff.1 he).1
  apply find?_range_unique _ _ c hc
  · rw [he, hs]; simp
  · intro d hdl hP
    rw [Bool.and_eq_true] at hP
    obtain ⟨e', he', ht⟩ := (Option.any_eq_true _ _).1 hP.1
    rw [decide_eq_true_eq] at ht
    have h1 : (es.map Elem.tag)[d]? = (es.map Elem.tag)[c]? := by
      rw [List.getElem?_map, List.getElem?_map, he, he']
      simp [ht]
    exact (List.getElem?_inj (by simpa using hdl) hd).1 h1

theorem pickTag_some (tag : List Char) (es : List Elem) (st : List Bool) (c : Nat) (h : pickTag tag es st = some c) :
    ∃ e, es[c]? = some e ∧ e.tag = tag ∧ st[c]? = some true := by
  unfold pickTag at h
  have h1 := List.find?_some h
  rw [Bool.and_eq_true] at h1
  obtain ⟨e, he, ht⟩ := (Option.any_eq_true _ _).1 h1.1
  rw [decide_eq_true_eq] at ht
  refine ⟨e, he, ht, ?_⟩
  cases hs : st[c]? with
  | none => rw [hs] at h1; simp at h1
  | some v => rw [hs] at h1; simp at h1; rw [h1.2]

/-! ### What the commands of an interval leave behind -/

/-- The branch at a position (for positions that exist). -/
def Net.branch (n : Net) (k : Nat) : Branch := (n.branches[k]?).getD ⟨0, 0, [], false⟩

/-- Marks for one circuit. -/
def markOne (n : Net) (p : Nat) (s : Proc) (t : Nat × Nat) : Proc :=
  if t.1 ∈ n.loc p then s.mark t.1 (n.branch t.1) t.2 else s

theorem trip_hit (n : Net) (hn : n.Good) (st : Nat → List Bool) (p : Nat) (s : Proc)
    (hs : ∀ k ∈ n.loc p, s.status k = st k) (a : Nat × Nat × List Char) (t : Nat × Nat) (h : Hits n st a t) :
    s.tripFirst n (pickTag a.2.2) (n.indices p a.1 a.2.1) = (markOne n p s t, decide (t.1 ∈ n.loc p)) := by
  obtain ⟨b, e, hb, hj, he, ht, hsv⟩ := h
  unfold Proc.tripFirst markOne
  rw [indices_joined n hn p t.1 b a.1 a.2.1 hb hj]
  by_cases hk : t.1 ∈ n.loc p
  · have hp : pickTag a.2.2 b.elems (s.status t.1) = some t.2 := by
      rw [← ht, hs t.1 hk]
      exact pickTag_hit b.elems (hn.tags t.1 b hb) (st t.1) t.2 e he hsv
    have hbr : n.branch t.1 = b := by unfold Net.branch; rw [hb]; rfl
    simp [hk, hb, hp, hbr]
  · simp [hk]

theorem trip_miss (n : Net) (st : Nat → List Bool) (p : Nat) (s : Proc)
    (hs : ∀ k ∈ n.loc p, s.status k = st k) (a : Nat × Nat × List Char) (h : ∀ t, ¬ Hits n st a t) :
    s.tripFirst n (pickTag a.2.2) (n.indices p a.1 a.2.1) = (s, false) := by
  unfold Proc.tripFirst
  have : (n.indices p a.1 a.2.1).findSome? (fun k => (n.branches[k]?).bind (fun b =>
      (pickTag a.2.2 b.elems (s.status k)).map (fun c => (k, b, c)))) = none := by
    rw [List.findSome?_eq_none_iff]
    intro k hk
    obtain ⟨hkl, b, hb, hj⟩ := indices_mem n p k a.1 a.2.1 hk
    rw [hb]
    simp only [Option.bind_some, Option.map_eq_none_iff]
    cases hp : pickTag a.2.2 b.elems (s.status k) with
    | none => rfl
    | some c =>
      exfalso
      obtain ⟨e, he, ht, hsv⟩ := pickTag_some _ _ _ _ hp
      rw [hs k hkl] at hsv
      exact h (k, c) ⟨b, e, hb, hj, he, ht, hsv⟩
  rw [this]

theorem markOne_status (n : Net) (p : Nat) (s : Proc) (t : Nat × Nat) : (markOne n p s t).status = s.status := by
  unfold markOne
  split <;> rfl

/-- After the commands of an interval every process has the marks of the circuits named. -/
theorem fold_trips (n : Net) (hn : n.Good) (st : Nat → List Bool) (acts : List (Nat × Nat × List Char))
    (os : List (Option (Nat × Nat))) (h : List.Forall₂ (fun a o => ∀ t, o = some t ↔ Hits n st a t) acts os) :
    ∀ w : World, (∀ p, ∀ k ∈ n.loc p, (w.procs p).status k = st k) →
      (∀ p, (acts.foldl (World.tripNamed n) w).procs p = (os.filterMap id).foldl (markOne n p) (w.procs p)) ∧
      (acts.foldl (World.tripNamed n) w).y = w.y ∧ (acts.foldl (World.tripNamed n) w).yf = w.yf ∧
      (acts.foldl (World.tripNamed n) w).apply =
        (w.apply || (os.filterMap id).any (fun t => (List.range n.np).any (fun p => decide (t.1 ∈ n.loc p)))) := by
  induction h with
  | nil => intro w _; simp
  | @cons a o acts os ha _ ih =>
    intro w hw
    rw [List.foldl_cons]
    cases o with
    | none =>
      have hm : ∀ t, ¬ Hits n st a t := fun t ht => by simpa using (ha t).2 ht
      have hr : ∀ p, (w.procs p).tripFirst n (pickTag a.2.2) (n.indices p a.1 a.2.1) = (w.procs p, false) :=
        fun p => trip_miss n st p (w.procs p) (hw p) a hm
      have hw1 : World.tripNamed n w a = w := by
        unfold World.tripNamed
        simp only [hr]
        cases w
        simp
      rw [hw1]
      obtain ⟨h1, h2, h3, h4⟩ := ih w hw
      refine ⟨fun p => ?_, h2, h3, ?_⟩
      · rw [h1 p]; simp
      · rw [h4]; simp
    | some t =>
      have ht := (ha t).1 rfl
      have hr : ∀ p, (w.procs p).tripFirst n (pickTag a.2.2) (n.indices p a.1 a.2.1) =
          (markOne n p (w.procs p) t, decide (t.1 ∈ n.loc p)) :=
        fun p => trip_hit n hn st p (w.procs p) (hw p) a t ht
      have e1 : ∀ p, (World.tripNamed n w a).procs p = markOne n p (w.procs p) t := by
        intro p
        unfold World.tripNamed
        simp only [hr]
      have e2 : (World.tripNamed n w a).apply =
          (w.apply || (List.range n.np).any (fun p => decide (t.1 ∈ n.loc p))) := by
        unfold World.tripNamed
        simp only [hr]
      have hst : ∀ p, ∀ k ∈ n.loc p, ((World.tripNamed n w a).procs p).status k = st k := by
        intro p k hk
        rw [e1, markOne_status, hw p k hk]
      obtain ⟨h1, h2, h3, h4⟩ := ih (World.tripNamed n w a) hst
      refine ⟨fun p => ?_, ?_, ?_, ?_⟩
      · rw [h1 p, e1]; simp
      · rw [h2]; rfl
      · rw [h3]; rfl
      · rw [h4, e2]
        simp [Bool.or_assoc]

/-- The branch at position `k` ends at bus `i`. -/
def Net.at (n : Net) (i k : Nat) : Bool := i = (n.branch k).bus1 || i = (n.branch k).bus2

/-- The marks, written out. -/
theorem marks (n : Net) (p : Nat) (ts : List (Nat × Nat)) : ∀ s : Proc,
    (∀ k, (ts.foldl (markOne n p) s).status k = s.status k) ∧
    (∀ k, (ts.foldl (markOne n p) s).pend k =
      s.pend k ++ (ts.filter (fun t => t.1 = k && decide (t.1 ∈ n.loc p))).map Prod.snd) ∧
    (∀ k, (ts.foldl (markOne n p) s).flag k =
      (s.flag k || ts.any (fun t => t.1 = k && decide (t.1 ∈ n.loc p)))) ∧
    (∀ i, (ts.foldl (markOne n p) s).trips i =
      s.trips i ++ (ts.filter (fun t => n.at i t.1 && decide (t.1 ∈ n.loc p))).map Prod.fst) ∧
    (ts.foldl (markOne n p) s).toTrip = s.toTrip ++ (ts.filter (fun t => decide (t.1 ∈ n.loc p))).map Prod.fst := by
  induction ts with
  | nil => intro s; simp
  | cons t ts ih =>
    intro s
    rw [List.foldl_cons]
    obtain ⟨h0, h1, h2, h3, h4⟩ := ih (markOne n p s t)
    by_cases ht : t.1 ∈ n.loc p
    · have hm : markOne n p s t = s.mark t.1 (n.branch t.1) t.2 := by unfold markOne; rw [if_pos ht]
      refine ⟨fun k => ?_, fun k => ?_, fun k => ?_, fun i => ?_, ?_⟩
      · rw [h0 k, markOne_status]
      · rw [h1 k, hm]
        unfold Proc.mark
        simp only
        by_cases hk : t.1 = k
        · subst hk
          simp [ht]
        · rw [Function.update_of_ne (fun e => hk e.symm)]
          simp [hk]
      · rw [h2 k, hm]
        unfold Proc.mark
        simp only
        by_cases hk : t.1 = k
        · subst hk
          simp [ht]
        · rw [Function.update_of_ne (fun e => hk e.symm)]
          simp [hk]
      · rw [h3 i, hm]
        unfold Proc.mark
        simp only
        by_cases hi : i = (n.branch t.1).bus1 ∨ i = (n.branch t.1).bus2
        · have : n.at i t.1 = true := by unfold Net.at; simpa using hi
          simp [hi, this, ht]
        · have : n.at i t.1 = false := by unfold Net.at; simpa using hi
          simp [hi, this]
      · rw [h4, hm]
        unfold Proc.mark
        simp [ht]
    · have hm : markOne n p s t = s := by unfold markOne; rw [if_neg ht]
      rw [hm] at h0 h1 h2 h3 h4 ⊢
      refine ⟨fun k => h0 k, fun k => ?_, fun k => ?_, fun i => ?_, ?_⟩
      · rw [h1 k]; simp [ht]
      · rw [h2 k]; simp [ht]
      · rw [h3 i]; simp [ht]
      · rw [h4]; simp [ht]

/-! ### What the step adds to the matrix -/

/-- A quantity of the circuit at a position, with the parameters of `DSFullBranch`. -/
noncomputable def val (n : Net) (t : Nat × Nat) (f : Elem → ℂ) : ℂ :=
  match (n.branch t.1).elems[t.2]? with
  | some e => f (dsElem e)
  | none => 0

theorem factor_eq (n : Net) (st : Nat → List Bool) (ts : List (Nat × Nat)) (hs : ∀ t ∈ ts, InService st t)
    (p k : Nat) (hk : k ∈ n.loc p) (f : Elem → ℂ) :
    factor (n.branch k).elems (st k) ((ts.filter (fun t => t.1 = k && decide (t.1 ∈ n.loc p))).map Prod.snd) f =
      (ts.map (fun t => if t.1 = k then val n t f else 0)).sum := by
  unfold factor
  induction ts with
  | nil => rfl
  | cons t ts ih =>
    have ih' := ih (fun x hx => hs x (List.mem_cons_of_mem _ hx))
    by_cases e : t.1 = k
    · have hsv := hs t (by simp)
      unfold InService at hsv
      have : (fun t : Nat × Nat => (t.1 = k : Bool) && decide (t.1 ∈ n.loc p)) t = true := by simp [e, hk]
      rw [List.filter_cons, if_pos this, List.map_cons, List.map_cons, List.sum_cons, ih', List.map_cons,
        List.sum_cons, if_pos e]
      congr 1
      unfold val
      rw [← e]
      cases (n.branch t.1).elems[t.2]? with
      | none => rfl
      | some x => simp [hsv]
    · have : ¬ (fun t : Nat × Nat => (t.1 = k : Bool) && decide (t.1 ∈ n.loc p)) t = true := by simp [e]
      rw [List.filter_cons, if_neg this, ih', List.map_cons, List.sum_cons, if_neg e, zero_add]

/-- What is added to the diagonal at bus `i`. -/
noncomputable def diagLaw (n : Net) (ts : List (Nat × Nat)) (i : Nat) : ℂ :=
  (ts.map (fun u => if n.at i u.1 then
    (ts.map (fun t => if t.1 = u.1 then val n t (forBus ((n.branch t.1).side i)) else 0)).sum else 0)).sum

/-- What is added off the diagonal. -/
noncomputable def offLaw (n : Net) (ts : List (Nat × Nat)) (i j : Nat) : ℂ :=
  (ts.map (fun t => (if (n.branch t.1).bus1 = i ∧ (n.branch t.1).bus2 = j then -val n t forward else 0) +
    (if (n.branch t.1).bus2 = i ∧ (n.branch t.1).bus1 = j then -val n t reverse else 0))).sum

theorem branch_some (n : Net) (k : Nat) (b : Branch) (h : n.branches[k]? = some b) : n.branch k = b := by
  unfold Net.branch
  rw [h]
  rfl

theorem at_held (n : Net) (hn : n.Good) (i k : Nat) (b : Branch) (h : n.branches[k]? = some b) (ha : n.at i k = true) :
    k ∈ n.loc (n.owner i) := by
  unfold Net.at at ha
  rw [branch_some n k b h] at ha
  simp only [Bool.or_eq_true, decide_eq_true_eq] at ha
  have := hn.held k b h
  rcases ha with rfl | rfl
  · exact this.1
  · exact this.2

theorem diagInc_eq (n : Net) (hn : n.Good) (st : Nat → List Bool) (ts : List (Nat × Nat))
    (hs : ∀ t ∈ ts, InService st t) (hv : ∀ t ∈ ts, ∃ b, n.branches[t.1]? = some b) (w : World) (s0 : Nat → Proc)
    (hw : ∀ p, w.procs p = ts.foldl (markOne n p) (s0 p))
    (hst : ∀ p, ∀ k ∈ n.loc p, (s0 p).status k = st k) (hp : ∀ p k, (s0 p).pend k = [])
    (ht : ∀ p i, (s0 p).trips i = []) (i : Nat) : w.diagInc n i = diagLaw n ts i := by
  unfold World.diagInc diagLaw
  simp only [hw]
  obtain ⟨h0, h1, _, h3, _⟩ := marks n (n.owner i) ts (s0 (n.owner i))
  rw [h3 i, ht, List.nil_append, List.map_map, sum_filter]
  congr 1
  apply List.map_congr_left
  intro u hu
  obtain ⟨b, hb⟩ := hv u hu
  by_cases ha : n.at i u.1 = true
  · have hk := at_held n hn i u.1 b hb ha
    have hbr := branch_some n u.1 b hb
    simp only [ha, hk, decide_true, Bool.and_true, if_true, Function.comp_apply, hb]
    rw [h0, h1, hp, List.nil_append, hst _ _ hk, ← hbr, factor_eq n st ts hs _ _ hk]
    congr 1
    apply List.map_congr_left
    intro t _
    by_cases e : t.1 = u.1
    · rw [if_pos e, if_pos e, e]
    · rw [if_neg e, if_neg e]
  · simp [ha]

theorem offInc_eq (n : Net) (hn : n.Good) (st : Nat → List Bool) (hact : Active n st) (ts : List (Nat × Nat))
    (hs : ∀ t ∈ ts, InService st t) (hv : ∀ t ∈ ts, ∃ b, n.branches[t.1]? = some b) (w : World) (s0 : Nat → Proc)
    (hw : ∀ p, w.procs p = ts.foldl (markOne n p) (s0 p))
    (hst : ∀ p, ∀ k ∈ n.loc p, (s0 p).status k = st k) (hp : ∀ p k, (s0 p).pend k = [])
    (hf : ∀ p k, (s0 p).flag k = false) (i j : Nat) : w.offInc n i j = offLaw n ts i j := by
  unfold World.offInc
  simp only [hw]
  obtain ⟨h0, h1, h2, _, _⟩ := marks n (n.owner i) ts (s0 (n.owner i))
  have step1 : ∀ k ∈ n.loc (n.owner i),
      (match n.branches[k]? with
        | some b =>
          if (ts.foldl (markOne n (n.owner i)) (s0 (n.owner i))).flag k && b.active then
            (if b.bus1 = i ∧ b.bus2 = j then -factor b.elems ((ts.foldl (markOne n (n.owner i)) (s0 (n.owner i))).status k)
              ((ts.foldl (markOne n (n.owner i)) (s0 (n.owner i))).pend k) forward else 0) +
            (if b.bus2 = i ∧ b.bus1 = j then -factor b.elems ((ts.foldl (markOne n (n.owner i)) (s0 (n.owner i))).status k)
              ((ts.foldl (markOne n (n.owner i)) (s0 (n.owner i))).pend k) reverse else 0)
          else 0
        | none => 0) =
      (ts.map (fun t => if t.1 = k then
        ((if (n.branch t.1).bus1 = i ∧ (n.branch t.1).bus2 = j then -val n t forward else 0) +
        (if (n.branch t.1).bus2 = i ∧ (n.branch t.1).bus1 = j then -val n t reverse else 0)) else 0)).sum := by
    intro k hk
    by_cases hany : ∃ t ∈ ts, t.1 = k
    · obtain ⟨t0, ht0, rfl⟩ := hany
      obtain ⟨b, hb⟩ := hv t0 ht0
      have hbr := branch_some n t0.1 b hb
      have hactive : b.active = true := hact t0.1 b t0.2 hb (hs t0 ht0)
      have hflag : (ts.foldl (markOne n (n.owner i)) (s0 (n.owner i))).flag t0.1 = true := by
        rw [h2, hf, Bool.false_or, List.any_eq_true]
        exact ⟨t0, ht0, by simp [hk]⟩
      rw [hb]
      simp only [hflag, hactive, Bool.and_self, if_true]
      rw [h0, h1, hp, List.nil_append, hst _ _ hk, ← hbr, factor_eq n st ts hs _ _ hk, factor_eq n st ts hs _ _ hk]
      rw [← sum_neg', ← sum_neg']
      have key : ∀ (P : Prop) [Decidable P] (f : Nat × Nat → ℂ),
          (if P then (ts.map f).sum else 0) = (ts.map (fun t => if P then f t else 0)).sum := by
        intro P _ f
        by_cases hP : P
        · simp [hP]
        · simp [hP]
      rw [key, key, ← sum_add]
      congr 1
      apply List.map_congr_left
      intro t _
      by_cases e : t.1 = t0.1
      · simp only [e, if_true]
      · simp [e]
    · have hno : ∀ t ∈ ts, ¬ t.1 = k := fun t ht e => hany ⟨t, ht, e⟩
      have hflag : (ts.foldl (markOne n (n.owner i)) (s0 (n.owner i))).flag k = false := by
        rw [h2, hf, Bool.false_or, List.any_eq_false]
        intro t ht
        simp [hno t ht]
      have hz : (ts.map (fun t => if t.1 = k then
        ((if (n.branch t.1).bus1 = i ∧ (n.branch t.1).bus2 = j then -val n t forward else 0) +
        (if (n.branch t.1).bus2 = i ∧ (n.branch t.1).bus1 = j then -val n t reverse else 0)) else 0)).sum = 0 := by
        rw [List.map_congr_left (g := fun _ => (0 : ℂ)) (fun t ht => if_neg (hno t ht)), sum_zero]
      rw [hz, hflag]
      cases n.branches[k]? <;> simp
  refine (congrArg List.sum (List.map_congr_left step1)).trans ?_
  rw [sum_by_key _ (hn.nodup _)]
  unfold offLaw
  congr 1
  apply List.map_congr_left
  intro t ht
  obtain ⟨b, hb⟩ := hv t ht
  by_cases hk : t.1 ∈ n.loc (n.owner i)
  · rw [if_pos hk]
  · rw [if_neg hk]
    have hno : n.at i t.1 ≠ true := fun ha => hk (at_held n hn i t.1 b hb ha)
    have hno' : ¬ i = (n.branch t.1).bus1 ∧ ¬ i = (n.branch t.1).bus2 := by
      constructor
      · intro e; apply hno; unfold Net.at; simp [← e]
      · intro e; apply hno; unfold Net.at; simp [← e]
    rw [if_neg (fun h => hno'.1 h.1.symm), if_neg (fun h => hno'.2 h.1.symm), add_zero]

/-! ### Clearing the marks -/

theorem switchOff_get (pend : List Nat) : ∀ (st : List Bool) (c : Nat),
    (switchOff pend st)[c]? = some true ↔ st[c]? = some true ∧ c ∉ pend := by
  unfold switchOff
  induction pend with
  | nil => intro st c; simp
  | cons a pend ih =>
    intro st c
    rw [List.foldl_cons, ih, List.getElem?_set]
    by_cases e : a = c
    · subst e
      simp
    · rw [if_neg e]
      have : ¬ c = a := fun h => e h.symm
      simp [this]

theorem clear_fold (n : Net) (ks : List Nat) (hks : ∀ k ∈ ks, ∃ b, n.branches[k]? = some b) : ∀ s : Proc,
    (∀ k, (ks.foldl (Proc.clearBranch n) s).status k = if k ∈ ks then switchOff (s.pend k) (s.status k) else s.status k) ∧
    (∀ k, (ks.foldl (Proc.clearBranch n) s).pend k = if k ∈ ks then [] else s.pend k) ∧
    (∀ k, (ks.foldl (Proc.clearBranch n) s).flag k = if k ∈ ks then false else s.flag k) ∧
    (∀ i, (ks.foldl (Proc.clearBranch n) s).trips i = if ks.any (n.at i) then [] else s.trips i) := by
  induction ks with
  | nil => intro s; simp
  | cons a ks ih =>
    intro s
    rw [List.foldl_cons]
    obtain ⟨h0, h1, h2, h3⟩ := ih (fun k hk => hks k (List.mem_cons_of_mem _ hk)) (s.clearBranch n a)
    obtain ⟨b, hb⟩ := hks a (by simp)
    have hbr := branch_some n a b hb
    have e : s.clearBranch n a = { s with
        status := Function.update s.status a (switchOff (s.pend a) (s.status a))
        pend := Function.update s.pend a []
        flag := Function.update s.flag a false
        trips := fun i => if i = b.bus1 ∨ i = b.bus2 then [] else s.trips i } := by
      unfold Proc.clearBranch
      rw [hb]
    refine ⟨fun k => ?_, fun k => ?_, fun k => ?_, fun i => ?_⟩
    · rw [h0, e]
      simp only
      by_cases hk : k = a
      · subst hk
        simp [switchOff]
      · rw [Function.update_of_ne hk, Function.update_of_ne hk]
        simp [hk]
    · rw [h1, e]
      simp only
      by_cases hk : k = a
      · subst hk; simp
      · rw [Function.update_of_ne hk]; simp [hk]
    · rw [h2, e]
      simp only
      by_cases hk : k = a
      · subst hk; simp
      · rw [Function.update_of_ne hk]; simp [hk]
    · rw [h3, e]
      simp only
      rw [List.any_cons]
      by_cases ha : i = b.bus1 ∨ i = b.bus2
      · have : n.at i a = true := by unfold Net.at; rw [hbr]; simpa using ha
        rw [if_pos ha, this]
        simp
      · have : n.at i a = false := by unfold Net.at; rw [hbr]; simpa using ha
        rw [if_neg ha, this]
        simp

/-- The statuses after an interval. -/
def after (ts : List (Nat × Nat)) (st : Nat → List Bool) (k : Nat) : List Bool :=
  switchOff ((ts.filter (fun t => t.1 = k)).map Prod.snd) (st k)

theorem after_removed (ts : List (Nat × Nat)) (st : Nat → List Bool) : Removed st (after ts st) ts := by
  intro t
  unfold InService after
  rw [switchOff_get]
  constructor
  · rintro ⟨h1, h2⟩
    refine ⟨h1, fun h => h2 ?_⟩
    exact List.mem_map.2 ⟨t, List.mem_filter.2 ⟨h, by simp⟩, rfl⟩
  · rintro ⟨h1, h2⟩
    refine ⟨h1, fun h => h2 ?_⟩
    obtain ⟨u, hu, he⟩ := List.mem_map.1 h
    obtain ⟨hu1, hu2⟩ := List.mem_filter.1 hu
    simp only [decide_eq_true_eq] at hu2
    rwa [← Prod.ext hu2 he]

/-- The step after marks for the circuits `ts`. -/
theorem step_marks (n : Net) (hn : n.Good) (st : Nat → List Bool) (hact : Active n st) (w : World)
    (hw : w.Clean n st) (ts : List (Nat × Nat)) (hs : ∀ t ∈ ts, InService st t)
    (hv : ∀ t ∈ ts, ∃ b, n.branches[t.1]? = some b) (w1 : World)
    (e1 : ∀ p, w1.procs p = ts.foldl (markOne n p) (w.procs p)) (e2 : w1.y = w.y) (e3 : w1.yf = w.yf)
    (e4 : w1.apply = (w.apply || ts.any (fun t => (List.range n.np).any (fun p => decide (t.1 ∈ n.loc p))))) :
    (w1.step n).Clean n (after ts st) ∧ (w1.step n).yf = w.yf ∧
    ∀ i j, (w1.step n).y i j = w.y i j + ((if i = j then diagLaw n ts i else 0) + offLaw n ts i j) := by
  have hd := diagInc_eq n hn st ts hs hv w1 w.procs e1 hw.status hw.pend hw.trips
  have ho := offInc_eq n hn st hact ts hs hv w1 w.procs e1 hw.status hw.pend hw.flag
  rw [hw.apply, Bool.false_or] at e4
  cases ts with
  | nil =>
    have hap : w1.apply = false := by rw [e4]; rfl
    have hstep : w1.step n = w1 := by unfold World.step; rw [hap]; simp
    rw [hstep]
    have hpr : ∀ p, w1.procs p = w.procs p := fun p => by rw [e1 p]; rfl
    refine ⟨⟨?_, ?_, ?_, ?_, ?_, hap⟩, e3, ?_⟩
    · intro p k hk; rw [hpr, hw.status p k hk]; simp [after, switchOff]
    · intro p k; rw [hpr, hw.pend]
    · intro p k; rw [hpr, hw.flag]
    · intro p k; rw [hpr, hw.trips]
    · intro p; rw [hpr, hw.toTrip]
    · intro i j; rw [e2]; simp [diagLaw, offLaw]
  | cons t0 ts0 =>
    have hap : w1.apply = true := by
      rw [e4, List.any_eq_true]
      refine ⟨t0, by simp, ?_⟩
      rw [List.any_eq_true]
      obtain ⟨b, hb⟩ := hv t0 (by simp)
      exact ⟨n.owner b.bus1, List.mem_range.2 (hn.ranks _), by simpa using (hn.held t0.1 b hb).1⟩
    generalize t0 :: ts0 = ts at *
    have hstep : w1.step n = { w1 with
        procs := fun p => (w1.procs p).clear n
        apply := false
        y := fun i j => w1.y i j + ((if i = j then w1.diagInc n i else 0) + w1.offInc n i j) } := by
      unfold World.step; rw [hap]; simp
    rw [hstep]
    refine ⟨⟨?_, ?_, ?_, ?_, ?_, rfl⟩, e3, ?_⟩
    all_goals try (intro p)
    all_goals simp only [Proc.clear]
    rotate_left 4
    · intro j
      rw [hd, ho, e2]
    all_goals
      obtain ⟨m0, m1, m2, m3, m4⟩ := marks n p ts (w.procs p)
      rw [← e1 p] at m0 m1 m2 m3 m4
      rw [hw.toTrip, List.nil_append] at m4
      obtain ⟨c0, c1, c2, c3⟩ := clear_fold n (w1.procs p).toTrip (by
        intro k hk
        rw [m4] at hk
        obtain ⟨t, ht, rfl⟩ := List.mem_map.1 hk
        exact hv t (List.mem_filter.1 ht).1) (w1.procs p)
    · intro k hk
      rw [c0, m1, m0, hw.pend, List.nil_append, hw.status p k hk]
      unfold after
      have hfil : (ts.filter (fun t => t.1 = k && decide (t.1 ∈ n.loc p))) = ts.filter (fun t => t.1 = k) := by
        apply List.filter_congr
        intro t _
        by_cases e : t.1 = k
        · simp [e, hk]
        · simp [e]
      rw [hfil]
      by_cases hmem : k ∈ (w1.procs p).toTrip
      · rw [if_pos hmem]
      · rw [if_neg hmem]
        have : ts.filter (fun t => t.1 = k) = [] := by
          apply filter_none
          intro t ht e
          simp only [decide_eq_true_eq] at e
          apply hmem
          rw [m4]
          exact List.mem_map.2 ⟨t, List.mem_filter.2 ⟨ht, by simp [e, hk]⟩, e⟩
        rw [this]
        rfl
    · intro k
      rw [c1]
      by_cases hmem : k ∈ (w1.procs p).toTrip
      · rw [if_pos hmem]
      · rw [if_neg hmem, m1, hw.pend, List.nil_append]
        rw [List.map_eq_nil_iff]
        apply filter_none
        intro t ht e
        simp only [Bool.and_eq_true, decide_eq_true_eq] at e
        apply hmem
        rw [m4]
        exact List.mem_map.2 ⟨t, List.mem_filter.2 ⟨ht, by simp [e.2]⟩, e.1⟩
    · intro k
      rw [c2]
      by_cases hmem : k ∈ (w1.procs p).toTrip
      · rw [if_pos hmem]
      · rw [if_neg hmem, m2, hw.flag, Bool.false_or, List.any_eq_false]
        intro t ht e
        simp only [Bool.and_eq_true, decide_eq_true_eq] at e
        apply hmem
        rw [m4]
        exact List.mem_map.2 ⟨t, List.mem_filter.2 ⟨ht, by simp [e.2]⟩, e.1⟩
    · intro i
      rw [c3]
      by_cases hany : (w1.procs p).toTrip.any (n.at i) = true
      · rw [if_pos hany]
      · rw [if_neg hany, m3, hw.trips, List.nil_append, List.map_eq_nil_iff]
        apply filter_none
        intro t ht e
        simp only [Bool.and_eq_true, decide_eq_true_eq] at e
        apply hany
        rw [List.any_eq_true]
        refine ⟨t.1, ?_, e.1⟩
        rw [m4]
        exact List.mem_map.2 ⟨t, List.mem_filter.2 ⟨ht, by simp [e.2]⟩, rfl⟩

/-- **The exact effect of the commands of an interval and the next step**, for any commands. -/
theorem interval_exact (n : Net) (hn : n.Good) (st : Nat → List Bool) (hact : Active n st) (w : World)
    (hw : w.Clean n st) (acts : List (Nat × Nat × List Char)) (ts : List (Nat × Nat)) (h : Interval n st acts ts) :
    ((acts.foldl (World.tripNamed n) w).step n).Clean n (after ts st) ∧
    ((acts.foldl (World.tripNamed n) w).step n).yf = w.yf ∧
    ∀ i j, ((acts.foldl (World.tripNamed n) w).step n).y i j =
      w.y i j + ((if i = j then diagLaw n ts i else 0) + offLaw n ts i j) := by
  obtain ⟨os, hos, rfl⟩ := h
  have hits : ∀ t ∈ os.filterMap id, ∃ a, Hits n st a t := by
    intro t ht
    obtain ⟨o, ho, he⟩ := List.mem_filterMap.1 ht
    obtain ⟨a, _, haa⟩ : ∃ a ∈ acts, ∀ t, o = some t ↔ Hits n st a t := by
      clear hw ht
      induction hos with
      | nil => simp at ho
      | @cons a o' acts os ha _ ih =>
        rcases List.mem_cons.1 ho with rfl | ho
        · exact ⟨a, by simp, ha⟩
        · obtain ⟨a', h1, h2⟩ := ih ho
          exact ⟨a', List.mem_cons_of_mem _ h1, h2⟩
    exact ⟨a, (haa t).1 he⟩
  obtain ⟨e1, e2, e3, e4⟩ := fold_trips n hn st acts os hos w hw.status
  refine step_marks n hn st hact w hw (os.filterMap id) ?_ ?_ _ e1 e2 e3 e4
  · intro t ht
    obtain ⟨a, b, e, _, _, _, _, h⟩ := hits t ht
    exact h
  · intro t ht
    obtain ⟨a, b, e, h, _⟩ := hits t ht
    exact ⟨b, h⟩

end GridPACK.Actions
