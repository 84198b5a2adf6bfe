import Verif.Model.GlobalVector
import Verif.Lemmas.PutFold
import Mathlib.Data.List.Nodup
import Mathlib.Data.List.Induction
import Mathlib.Algebra.BigOperators.Group.List.Basic

/-! C94 (uploading elements), C95 (indices used twice), C96 (reloading). -/
namespace GridPACK.GlobalVector

variable {V : Type}

/-- All elements added, on all processes. -/
def everything (n : Nat) (adds : Nat → List (Added V)) : List (Added V) := (List.range n).flatMap adds

theorem mem_everything {n : Nat} {adds : Nat → List (Added V)} {x : Added V} :
    x ∈ everything n adds ↔ ∃ p, p < n ∧ x ∈ adds p := by
  simp [everything]

/-! ### Counting actions in an interleaving -/

theorem countP_split (n : Nat) (f : Act V → Bool) (sched : List (Nat × Act V)) (h : ∀ a ∈ sched, a.1 < n) :
    sched.countP (fun a => f a.2) =
      ((List.range n).map (fun p => ((sched.filter (fun a => decide (a.1 = p))).map (·.2)).countP f)).sum := by
  induction sched with
  | nil => simp
  | cons a l ih =>
    rw [List.countP_cons, ih (fun b hb => h b (by simp [hb]))]
    have key : ∀ m, a.1 < m ∨ m ≤ a.1 →
        ((List.range m).map (fun p => (((a :: l).filter (fun a => decide (a.1 = p))).map (·.2)).countP f)).sum =
        ((List.range m).map (fun p => ((l.filter (fun a => decide (a.1 = p))).map (·.2)).countP f)).sum +
          (if a.1 < m then (if f a.2 then 1 else 0) else 0) := by
      intro m _
      induction m with
      | zero => simp
      | succ m ihm =>
        rw [List.range_succ, List.map_append, List.map_append, List.sum_append, List.sum_append,
          ihm (by omega)]
        by_cases e : a.1 = m
        · simp [e, List.countP_cons]; omega
        · have h1 : (a.1 < m + 1) ↔ a.1 < m := by omega
          simp [e, h1]; omega
    rw [key n (Or.inl (h a (by simp)))]
    simp [h a (by simp)]

theorem sum_countP (n : Nat) (adds : Nat → List (Added V)) (f : Added V → Bool) :
    ((List.range n).map (fun p => (adds p).countP f)).sum = (everything n adds).countP f := by
  unfold everything
  induction n with
  | zero => rfl
  | succ n ih =>
    rw [List.range_succ, List.map_append, List.sum_append, ih, List.flatMap_append, List.countP_append]
    simp

def isPut (i : Nat) : Act V → Bool
  | .put j _ => decide (j = i)
  | _ => false

def isAcc (i : Nat) : Act V → Bool
  | .acc j => decide (j = i)
  | _ => false

theorem put_count {n : Nat} {adds : Nat → List (Added V)} {sched : List (Nat × Act V)}
    (h : Interleaved n (fun p => writeProg (adds p)) sched) (i : Nat) :
    sched.countP (fun a => isPut i a.2) = (everything n adds).countP (fun x => decide (x.1.toNat = i)) := by
  rw [countP_split n (isPut i) sched h.1, ← sum_countP]
  congr 1
  apply List.map_congr_left
  intro p hp
  rw [h.2 p (List.mem_range.mp hp)]
  unfold writeProg
  rw [List.countP_cons, List.countP_map]
  simp only [isPut, Bool.false_eq_true, if_false, Nat.add_zero]
  congr 1

theorem acc_count {n : Nat} {adds : Nat → List (Added V)} {sched : List (Nat × Act V)}
    (h : Interleaved n (fun p => countProg (adds p)) sched) (i : Nat) :
    sched.countP (fun a => isAcc i a.2) = (everything n adds).countP (fun x => decide (x.1.toNat = i)) := by
  rw [countP_split n (isAcc i) sched h.1, ← sum_countP]
  congr 1
  apply List.map_congr_left
  intro p hp
  rw [h.2 p (List.mem_range.mp hp)]
  unfold countProg
  rw [List.countP_append, List.countP_map]
  simp only [List.countP_cons, List.countP_nil, isAcc, Bool.false_eq_true, if_false, Nat.add_zero]
  congr 1

theorem count_le_one {l : List (Added V)} (h0 : ∀ x ∈ l, 0 ≤ x.1) (hd : (l.map (·.1)).Nodup) (i : Nat) :
    l.countP (fun x => decide (x.1.toNat = i)) ≤ 1 := by
  have h := List.nodup_iff_count_le_one.mp hd (i : Int)
  rw [List.count, List.countP_map] at h
  refine le_trans (le_of_eq ?_) h
  apply List.countP_congr
  intro x hx
  have := h0 x hx
  simp only [decide_eq_true_eq, Function.comp, beq_iff_eq]
  omega

theorem act_mem {n : Nat} {prog : Nat → List (Act V)} {sched : List (Nat × Act V)} (h : Interleaved n prog sched)
    {p : Nat} (hp : p < n) {a : Act V} : a ∈ prog p ↔ (p, a) ∈ sched := by
  rw [← h.2 p hp]
  simp only [List.mem_map, List.mem_filter, decide_eq_true_eq]
  constructor
  · rintro ⟨⟨q, b⟩, ⟨hb, e1⟩, e2⟩
    simp only at e1 e2
    rw [← e1, ← e2]; exact hb
  · intro hm; exact ⟨(p, a), ⟨hm, rfl⟩, rfl⟩

/-! ### Running the processes one after the other is an interleaving -/

theorem sequential (n : Nat) (prog : Nat → List (Act V)) (os : List Nat) (hd : os.Nodup) (hn : ∀ p, p ∈ os ↔ p < n) :
    Interleaved n prog (os.flatMap (fun q => (prog q).map (fun a => (q, a)))) := by
  constructor
  · intro a ha
    obtain ⟨q, hq, ha⟩ := List.mem_flatMap.mp ha
    obtain ⟨b, -, rfl⟩ := List.mem_map.mp ha
    exact (hn q).mp hq
  · intro p hp
    have key : ∀ os : List Nat, os.Nodup →
        ((os.flatMap (fun q => (prog q).map (fun a => (q, a)))).filter (fun a => decide (a.1 = p))).map (·.2) =
          if p ∈ os then prog p else [] := by
      intro os
      induction os with
      | nil => intro _; rfl
      | cons o os ih =>
        intro hd
        rw [List.nodup_cons] at hd
        rw [List.flatMap_cons, List.filter_append, List.map_append, ih hd.2]
        by_cases e : o = p
        · subst e
          rw [if_neg hd.1, if_pos (by simp), List.append_nil, List.filter_eq_self.mpr (by simp)]
          simp
        · have h1 : ((prog o).map (fun a => (o, a))).filter (fun a => decide (a.1 = p)) = [] := by
            rw [List.filter_eq_nil_iff]
            intro a ha
            obtain ⟨b, -, rfl⟩ := List.mem_map.mp ha
            simpa using e
          rw [h1]
          simp [Ne.symm e]
    rw [key os hd, if_pos ((hn p).mpr hp)]

/-! ### C94 -/

/-- Specification: in the execution the process holding the element sets its part to zero after the element was
written. -/
def ClearedAfter (own : Nat → Nat) (sched : List (Nat × Act V)) (p : Nat) (x : Added V) : Prop :=
  ∃ before after, sched = before ++ (p, .put x.1.toNat x.2) :: after ∧ (own x.1.toNat, .clear) ∈ after

theorem tail_value (own : Nat → Nat) (zero : V) (i : Nat) (l : List (Nat × Act V)) (g : Nat → V)
    (h : l.countP (fun a => isPut i a.2) = 0) :
    ((own i, .clear) ∈ l → l.foldl (writeStep own zero) g i = zero) ∧
    ((own i, .clear) ∉ l → l.foldl (writeStep own zero) g i = g i) := by
  induction l generalizing g with
  | nil => simp
  | cons a l ih =>
    rw [List.countP_cons] at h
    have h1 : l.countP (fun a => isPut i a.2) = 0 := by omega
    have h2 : isPut i a.2 = false := by
      cases hh : isPut i a.2
      · rfl
      · rw [hh] at h; simp at h
    obtain ⟨i1, i2⟩ := ih (writeStep own zero g a) h1
    rw [List.foldl_cons]
    obtain ⟨q, a⟩ := a
    constructor
    · intro hm
      by_cases hm' : (own i, .clear) ∈ l
      · exact i1 hm'
      · rw [i2 hm']
        rcases List.mem_cons.mp hm with e | e
        · simp only [Prod.mk.injEq] at e
          simp only [writeStep, ← e.2, ← e.1, if_true]
        · exact absurd e hm'
    · intro hm
      rw [i2 (fun hc => hm (by simp [hc]))]
      cases a with
      | acc j => rfl
      | check => rfl
      | clear =>
        simp only [writeStep]
        rw [if_neg]
        intro e
        exact hm (by simp [e])
      | put j v =>
        simp only [isPut, decide_eq_false_iff_not] at h2
        simp only [writeStep]
        rw [if_neg (fun e => h2 e.symm)]

/-- What element holds after `upload`, for every execution: the value added, unless the process holding it cleared
its part afterwards; then zero. -/
theorem C94_exact (n : Nat) (own : Nat → Nat) (zero : V) (garbage : Nat → V) (adds : Nat → List (Added V))
    (sched : List (Nat × Act V)) (h : Interleaved n (fun p => writeProg (adds p)) sched)
    (h0 : ∀ x ∈ everything n adds, 0 ≤ x.1) (hd : ((everything n adds).map (·.1)).Nodup)
    (p : Nat) (hp : p < n) (x : Added V) (hx : x ∈ adds p) :
    (ClearedAfter own sched p x → writing own zero garbage sched x.1.toNat = zero) ∧
    (¬ ClearedAfter own sched p x → writing own zero garbage sched x.1.toNat = x.2) := by
  have hmem : (p, Act.put x.1.toNat x.2) ∈ sched := by
    rw [← act_mem h hp]
    exact List.mem_cons_of_mem _ (List.mem_map.mpr ⟨x, hx, rfl⟩)
  have hcount := put_count h x.1.toNat
  have hle := count_le_one h0 hd x.1.toNat
  have htail : ∀ A B, sched = A ++ (p, .put x.1.toNat x.2) :: B → B.countP (fun a => isPut x.1.toNat a.2) = 0 := by
    intro A B e
    rw [← hcount, e, List.countP_append, List.countP_cons] at hle
    have hself : isPut x.1.toNat (Act.put x.1.toNat x.2) = true := by simp [isPut]
    simp only [hself, if_true] at hle
    omega
  constructor
  · rintro ⟨A, B, e, hc⟩
    unfold writing
    rw [e, List.foldl_append, List.foldl_cons]
    exact (tail_value own zero x.1.toNat B _ (htail A B e)).1 hc
  · intro hn
    obtain ⟨A, B, e⟩ := List.append_of_mem hmem
    unfold writing
    rw [e, List.foldl_append, List.foldl_cons,
      (tail_value own zero x.1.toNat B _ (htail A B e)).2 (fun hc => hn ⟨A, B, e, hc⟩)]
    simp [writeStep]

theorem own_not_cleared {n : Nat} {own : Nat → Nat} {adds : Nat → List (Added V)} {sched : List (Nat × Act V)}
    (h : Interleaved n (fun p => writeProg (adds p)) sched) {p : Nat} (hp : p < n) {x : Added V}
    (ho : own x.1.toNat = p) : ¬ ClearedAfter own sched p x := by
  rintro ⟨A, B, e, hc⟩
  have hprog := h.2 p hp
  rw [e, List.filter_append, List.filter_cons_of_pos (by simp), List.map_append, List.map_cons] at hprog
  rw [ho] at hc
  have hc' : Act.clear ∈ (B.filter (fun a => decide (a.1 = p))).map (·.2) :=
    List.mem_map.mpr ⟨(p, .clear), List.mem_filter.mpr ⟨hc, by simp⟩, rfl⟩
  unfold writeProg at hprog
  cases hA : (A.filter (fun a => decide (a.1 = p))).map (·.2) with
  | nil => rw [hA] at hprog; simp at hprog
  | cons b A' =>
    rw [hA] at hprog
    simp only [List.cons_append, List.cons.injEq] at hprog
    have : Act.clear ∈ (adds p).map (fun x => Act.put x.1.toNat x.2) := by
      rw [← hprog.2]; simp [hc']
    simp at this

theorem foldl_max_ge (l : List (Added V)) (m : Int) :
    m ≤ l.foldl (fun m x => if x.1 > m then x.1 else m) m ∧
    ∀ x ∈ l, x.1 ≤ l.foldl (fun m x => if x.1 > m then x.1 else m) m := by
  induction l generalizing m with
  | nil => simp
  | cons a l ih =>
    rw [List.foldl_cons]
    obtain ⟨h1, h2⟩ := ih (if a.1 > m then a.1 else m)
    have h3 : m ≤ (if a.1 > m then a.1 else m) ∧ a.1 ≤ (if a.1 > m then a.1 else m) := by split <;> omega
    refine ⟨by omega, ?_⟩
    intro x hx
    rcases List.mem_cons.mp hx with rfl | hx
    · omega
    · exact h2 x hx

theorem lt_numElems {n : Nat} {adds : Nat → List (Added V)} {x : Added V} (h : x ∈ everything n adds) :
    x.1 < numElems n adds := by
  have := (foldl_max_ge (everything n adds) (-1)).2 x h
  unfold numElems
  change x.1 < (everything n adds).foldl _ _ + 1
  omega

/-- C94, the part that holds: a list of requests for elements each of which was added on the process that holds it,
or in whose execution the clearing came first, is answered with the values added; an element nobody added is zero. -/
theorem C94_stored_partial (n : Nat) (own : Nat → Nat) (zero : V) (garbage : Nat → V) (adds : Nat → List (Added V))
    (sched : List (Nat × Act V)) (h : Interleaved n (fun p => writeProg (adds p)) sched)
    (h0 : ∀ x ∈ everything n adds, 0 ≤ x.1) (hd : ((everything n adds).map (·.1)).Nodup) :
    (∀ req : List (Added V), (∀ x ∈ req, ∃ p, p < n ∧ x ∈ adds p ∧
        (own x.1.toNat = p ∨ ¬ ClearedAfter own sched p x)) →
      getData (numElems n adds) (writing own zero garbage sched) (req.map (·.1)) = some (req.map (·.2))) ∧
    (∀ i : Int, 0 ≤ i → own i.toNat < n → (∀ x ∈ everything n adds, x.1 ≠ i) → i < numElems n adds →
      getData (numElems n adds) (writing own zero garbage sched) [i] = some [zero]) := by
  constructor
  · intro req hreq
    unfold getData
    rw [if_neg]
    · congr 1
      rw [List.map_map]
      apply List.map_congr_left
      intro x hx
      obtain ⟨p, hp, hxp, hor⟩ := hreq x hx
      refine (C94_exact n own zero garbage adds sched h h0 hd p hp x hxp).2 ?_
      rcases hor with ho | hn
      · exact own_not_cleared h hp ho
      · exact hn
    · rw [List.any_eq_true]
      rintro ⟨i, hi, hbad⟩
      obtain ⟨x, hx, rfl⟩ := List.mem_map.mp hi
      obtain ⟨p, hp, hxp, -⟩ := hreq x hx
      have hm : x ∈ everything n adds := mem_everything.mpr ⟨p, hp, hxp⟩
      have h1 := lt_numElems hm
      have h2 := h0 x hm
      simp only [decide_eq_true_eq] at hbad
      omega
  · intro i hi ho hun hlt
    unfold getData
    rw [if_neg (by simp; omega)]
    simp only [List.map_cons, List.map_nil, Option.some.injEq, List.cons.injEq, and_true]
    have hcount : sched.countP (fun a => isPut i.toNat a.2) = 0 := by
      rw [put_count h, List.countP_eq_zero]
      intro x hx hc
      simp only [decide_eq_true_eq] at hc
      have := h0 x hx
      exact hun x hx (by omega)
    refine (tail_value own zero i.toNat sched garbage hcount).1 ?_
    rw [← act_mem h ho]
    simp [writeProg]

/-- C94 fails: there is no synchronisation between clearing and writing.  Whatever the distribution, for every
element added on a process that does not hold it there is an execution after which the element is zero. -/
theorem C94_lost_violated (n : Nat) (own : Nat → Nat) (zero : V) (garbage : Nat → V) (adds : Nat → List (Added V))
    (h0 : ∀ x ∈ everything n adds, 0 ≤ x.1) (hd : ((everything n adds).map (·.1)).Nodup)
    (p : Nat) (hp : p < n) (x : Added V) (hx : x ∈ adds p) (hq : own x.1.toNat < n) (hne : own x.1.toNat ≠ p) :
    ∃ sched, Interleaved n (fun p => writeProg (adds p)) sched ∧
      getData (numElems n adds) (writing own zero garbage sched) [x.1] = some [zero] := by
  let rest := (List.range n).filter (fun q => decide (q ≠ p))
  have hI : Interleaved n (fun p => writeProg (adds p))
      ((p :: rest).flatMap (fun q => (writeProg (adds q)).map (fun a => (q, a)))) := by
    apply sequential
    · rw [List.nodup_cons]
      exact ⟨by simp [rest], (List.nodup_range).filter _⟩
    · intro q
      simp only [rest, List.mem_cons, List.mem_filter, List.mem_range, decide_eq_true_eq]
      constructor
      · rintro (rfl | ⟨h, -⟩) <;> assumption
      · intro hq
        by_cases e : q = p
        · exact Or.inl e
        · exact Or.inr ⟨hq, e⟩
  refine ⟨_, hI, ?_⟩
  have hm : x ∈ everything n adds := mem_everything.mpr ⟨p, hp, hx⟩
  have hlt := lt_numElems hm
  have hpos := h0 x hm
  unfold getData
  rw [if_neg (by simp; omega)]
  simp only [List.map_cons, List.map_nil, Option.some.injEq, List.cons.injEq, and_true]
  refine (C94_exact n own zero garbage adds _ hI h0 hd p hp x hx).1 ?_
  have hput : Act.put x.1.toNat x.2 ∈ writeProg (adds p) :=
    List.mem_cons_of_mem _ (List.mem_map.mpr ⟨x, hx, rfl⟩)
  obtain ⟨C, D, e⟩ := List.append_of_mem hput
  refine ⟨C.map (fun a => (p, a)), D.map (fun a => (p, a)) ++
    rest.flatMap (fun q => (writeProg (adds q)).map (fun a => (q, a))), ?_, ?_⟩
  · rw [List.flatMap_cons, e]; simp
  · apply List.mem_append_right
    refine List.mem_flatMap.mpr ⟨own x.1.toNat, by simp [rest, hq, hne], ?_⟩
    simp [writeProg]

/-- Two processes, process 0 adds an element held by process 1. -/
def sample : Nat → List (Added Nat) := fun p => if p = 0 then [(0, 5), (3, 8)] else [(2, 7)]

example : (∀ x ∈ everything 2 sample, 0 ≤ x.1) ∧ ((everything 2 sample).map (·.1)).Nodup ∧
    ((3 : Int), 8) ∈ sample 0 ∧ (fun i => i / 2) (3 : Nat) = 1 ∧
    getData (numElems 2 sample) (writing (fun i => i / 2) 0 (fun _ => 99)
      [(0, .clear), (1, .clear), (0, .put 0 5), (1, .put 2 7), (0, .put 3 8)]) [3, 1, 0] = some [8, 0, 5] ∧
    getData (numElems 2 sample) (writing (fun i => i / 2) 0 (fun _ => 99)
      [(0, .clear), (0, .put 0 5), (0, .put 3 8), (1, .clear), (1, .put 2 7)]) [3, 1, 0] = some [0, 0, 5] := by
  decide

/-! ### C95 -/

theorem counting_count (own : Nat → Nat) (num : Nat) (sched : List (Nat × Act V)) (i : Nat) :
    (counting own num sched).count i = sched.countP (fun a => isAcc i a.2) := by
  unfold counting
  induction sched using List.reverseRecOn with
  | nil => rfl
  | append_singleton l a ih =>
    rw [List.foldl_append, List.countP_append, ← ih]
    obtain ⟨q, a⟩ := a
    cases a with
    | acc j =>
      by_cases e : i = j
      · subst e; simp [countStep, isAcc]
      · simp [countStep, isAcc, e, Ne.symm e]
    | check =>
      simp only [List.foldl_cons, List.foldl_nil, countStep]
      split <;> simp [isAcc]
    | clear => simp [countStep, isAcc]
    | put j v => simp [countStep, isAcc]

theorem thrown_iff (own : Nat → Nat) (num : Nat) (sched : List (Nat × Act V)) (q : Nat) :
    (counting own num sched).thrown q = true ↔
      ∃ A B, sched = A ++ (q, .check) :: B ∧
        ∃ i, i < num ∧ own i = q ∧ A.countP (fun a => isAcc i a.2) > 1 := by
  induction sched using List.reverseRecOn with
  | nil => simp [counting]
  | append_singleton l a ih =>
    have hstep : counting own num (l ++ [a]) = countStep own num (counting own num l) a := by
      unfold counting; rw [List.foldl_append]; rfl
    have hsplit : (∃ A B, l ++ [a] = A ++ (q, .check) :: B ∧
        ∃ i, i < num ∧ own i = q ∧ A.countP (fun a => isAcc i a.2) > 1) ↔
        ((∃ A B, l = A ++ (q, .check) :: B ∧ ∃ i, i < num ∧ own i = q ∧ A.countP (fun a => isAcc i a.2) > 1) ∨
          (a = (q, .check) ∧ ∃ i, i < num ∧ own i = q ∧ l.countP (fun a => isAcc i a.2) > 1)) := by
      constructor
      · rintro ⟨A, B, e, hi⟩
        rcases List.eq_nil_or_concat B with rfl | ⟨B', b, rfl⟩
        · have := List.append_inj' e rfl
          right
          rw [this.1]
          exact ⟨by simpa using this.2, hi⟩
        · left
          have e' : l ++ [a] = (A ++ (q, .check) :: B') ++ [b] := by rw [e]; simp
          exact ⟨A, B', (List.append_inj' e' rfl).1, hi⟩
      · rintro (⟨A, B, e, hi⟩ | ⟨e, hi⟩)
        · exact ⟨A, B ++ [a], by rw [e]; simp, hi⟩
        · exact ⟨l, [], by rw [e], hi⟩
    rw [hsplit, ← ih, hstep]
    obtain ⟨r, a⟩ := a
    cases a with
    | acc j => simp [countStep]
    | clear => simp [countStep]
    | put j v => simp [countStep]
    | check =>
      simp only [countStep, counting_count]
      split
      · rename_i hex
        by_cases e : q = r
        · subst e; simp [hex]
        · simp [e, Ne.symm e]
      · rename_i hex
        by_cases e : q = r
        · subst e; simp [hex]
        · simp [Ne.symm e]

theorem countP_prefix_le {f : Nat × Act V → Bool} {s A B : List (Nat × Act V)} (e : s = A ++ B) :
    A.countP f ≤ s.countP f := by rw [e, List.countP_append]; omega

/-- C95, no false alarm: in every execution only processes holding an index that was used twice throw; in
particular nobody throws if all indices are different. -/
theorem C95_no_false_alarm (n : Nat) (own : Nat → Nat) (num : Nat) (adds : Nat → List (Added V))
    (sched : List (Nat × Act V)) (h : Interleaved n (fun p => countProg (adds p)) sched)
    (h0 : ∀ x ∈ everything n adds, 0 ≤ x.1) (q : Nat) (ht : (counting own num sched).thrown q = true) :
    ∃ i : Int, own i.toNat = q ∧ ((everything n adds).map (·.1)).count i > 1 := by
  obtain ⟨A, B, e, i, -, ho, hc⟩ := (thrown_iff own num sched q).mp ht
  refine ⟨(i : Int), by simpa using ho, ?_⟩
  have h1 := countP_prefix_le (f := fun a => isAcc i a.2) e
  rw [acc_count h] at h1
  rw [List.count, List.countP_map]
  have h2 : (everything n adds).countP ((fun x => x == (i : Int)) ∘ fun x => x.1) =
      (everything n adds).countP (fun x => decide (x.1.toNat = i)) := by
    apply List.countP_congr
    intro x hx
    have := h0 x hx
    simp only [decide_eq_true_eq, Function.comp, beq_iff_eq]
    omega
  omega

/-- C95, the part that holds: if all counting comes before all checking, the process holding an index used twice
throws. -/
theorem C95_detected_partial (n : Nat) (own : Nat → Nat) (num : Nat) (adds : Nat → List (Added V))
    (sched : List (Nat × Act V)) (h : Interleaved n (fun p => countProg (adds p)) sched)
    (hsync : ∀ A B q, sched = A ++ (q, .check) :: B → ∀ a ∈ B, ∀ i, a.2 ≠ .acc i)
    (i : Nat) (hi : i < num) (ho : own i < n)
    (hdup : (everything n adds).countP (fun x => decide (x.1.toNat = i)) > 1) :
    (counting own num sched).thrown (own i) = true := by
  rw [thrown_iff]
  have hm : (own i, Act.check) ∈ sched := by
    rw [← act_mem h ho]; simp [countProg]
  obtain ⟨A, B, e⟩ := List.append_of_mem hm
  refine ⟨A, B, e, i, hi, rfl, ?_⟩
  rw [← acc_count h, e, List.countP_append, List.countP_cons] at hdup
  have hB : B.countP (fun a => isAcc i a.2) = 0 := by
    rw [List.countP_eq_zero]
    intro a ha hc
    have := hsync A B (own i) e a ha i
    obtain ⟨r, a⟩ := a
    cases a <;> simp [isAcc] at hc this
    exact this hc
  rw [hB] at hdup
  simpa [isAcc] using hdup

/-- C95 fails: there is no synchronisation between counting and checking.  If an index is used twice but the elements
of all processes other than `p` have different indices, and `p` holds no index used twice, there is an execution in
which no process notices. -/
theorem C95_missed_violated (n : Nat) (own : Nat → Nat) (num : Nat) (adds : Nat → List (Added V))
    (h0 : ∀ x ∈ everything n adds, 0 ≤ x.1) (p : Nat)
    (hothers : ((everything n (fun q => if q = p then [] else adds q)).map (·.1)).Nodup)
    (hp1 : p < n) (hp : ∀ i, own i = p → (everything n adds).countP (fun x => decide (x.1.toNat = i)) ≤ 1) :
    ∃ sched, Interleaved n (fun p => countProg (adds p)) sched ∧
      ∀ q, (counting own num sched).thrown q = false := by
  let rest := (List.range n).filter (fun q => decide (q ≠ p))
  let run := fun q => (countProg (adds q)).map (fun a => (q, a))
  have hI : Interleaved n (fun p => countProg (adds p)) ((rest ++ [p]).flatMap run) := by
    apply sequential
    · rw [List.nodup_append]
      refine ⟨(List.nodup_range).filter _, by simp, ?_⟩
      intro a ha b hb
      simp only [rest, List.mem_filter, decide_eq_true_eq] at ha
      simp only [List.mem_singleton] at hb
      rw [hb]; exact ha.2
    · intro q
      simp only [rest, List.mem_append, List.mem_filter, List.mem_range, decide_eq_true_eq, List.mem_singleton]
      constructor
      · rintro (⟨h, -⟩ | rfl) <;> assumption
      · intro hq
        by_cases e : q = p
        · exact Or.inr e
        · exact Or.inl ⟨hq, e⟩
  refine ⟨_, hI, ?_⟩
  intro q
  by_contra hc
  have ht : (counting own num ((rest ++ [p]).flatMap run)).thrown q = true := by simpa using hc
  obtain ⟨A, B, e, i, -, ho, hgt⟩ := (thrown_iff own num _ q).mp ht
  by_cases hqp : q = p
  · have h1 := countP_prefix_le (f := fun a => isAcc i a.2) e
    rw [acc_count hI] at h1
    have := hp i (ho.trans hqp)
    omega
  · rw [List.flatMap_append] at e
    have hlast : ∀ a ∈ [p].flatMap run, a.1 = p := by
      intro a ha
      simp only [List.flatMap_cons, List.flatMap_nil, List.append_nil, run, List.mem_map] at ha
      obtain ⟨b, -, rfl⟩ := ha
      rfl
    rcases List.append_eq_append_iff.mp e with ⟨as, e1, e2⟩ | ⟨bs, e1, e2⟩
    · have : ((q, Act.check) : Nat × Act V) ∈ [p].flatMap run := by rw [e2]; simp
      exact hqp (hlast _ this)
    · have h1 : A.countP (fun a => isAcc i a.2) ≤ (rest.flatMap run).countP (fun a => isAcc i a.2) :=
        countP_prefix_le e1
      have h2 : (rest.flatMap run).countP (fun a => isAcc i a.2) =
          (everything n (fun q => if q = p then [] else adds q)).countP (fun x => decide (x.1.toNat = i)) := by
        have hall := acc_count hI i
        rw [List.flatMap_append, List.countP_append] at hall
        have hlastc : ([p].flatMap run).countP (fun a => isAcc i a.2) =
            (adds p).countP (fun x => decide (x.1.toNat = i)) := by
          simp only [List.flatMap_cons, List.flatMap_nil, List.append_nil, run, countProg, List.map_append,
            List.countP_append, List.countP_map]
          congr 1
        have hsum : (everything n adds).countP (fun x => decide (x.1.toNat = i)) =
            (everything n (fun q => if q = p then [] else adds q)).countP (fun x => decide (x.1.toNat = i)) +
              (adds p).countP (fun x => decide (x.1.toNat = i)) := by
          unfold everything
          clear hall hlastc e ht hc hgt e1 e2 h1 hI hothers h0 hp
          induction n with
          | zero => omega
          | succ n ih =>
            rw [List.range_succ, List.flatMap_append, List.flatMap_append, List.countP_append, List.countP_append]
            by_cases epn : p = n
            · subst epn
              have : (List.range p).flatMap (fun q => if q = p then [] else adds q) = (List.range p).flatMap adds := by
                apply List.flatMap_congr
                intro q hq
                have := List.mem_range.mp hq
                rw [if_neg (by omega)]
              rw [this]
              simp
            · rw [ih (by omega)]
              simp [Ne.symm epn]; omega
        omega
      have h3 := count_le_one (l := everything n (fun q => if q = p then [] else adds q)) (by
        intro x hx
        obtain ⟨q', hq', hx⟩ := mem_everything.mp hx
        split at hx
        · simp at hx
        · exact h0 x (mem_everything.mpr ⟨q', hq', hx⟩)) hothers i
      omega

/-- C95 fails also when a duplicate is noticed: if all indices used twice are held by one process, no other process
throws; the others go on to a collective call. -/
theorem C95_only_holder_violated (n : Nat) (own : Nat → Nat) (num : Nat) (adds : Nat → List (Added V))
    (sched : List (Nat × Act V)) (h : Interleaved n (fun p => countProg (adds p)) sched)
    (h0 : ∀ x ∈ everything n adds, 0 ≤ x.1) (o : Nat)
    (ho : ∀ i : Int, ((everything n adds).map (·.1)).count i > 1 → own i.toNat = o) (q : Nat) (hq : q ≠ o) :
    (counting own num sched).thrown q = false := by
  by_contra hc
  obtain ⟨i, h1, h2⟩ := C95_no_false_alarm n own num adds sched h h0 q (by simpa using hc)
  exact hq (h1.symm.trans (ho i h2))

example : ∃ adds : Nat → List (Added Nat), (∀ x ∈ everything 2 adds, 0 ≤ x.1) ∧
    ¬ ((everything 2 adds).map (·.1)).Nodup ∧
    ((everything 2 (fun q => if q = 0 then [] else adds q)).map (·.1)).Nodup ∧
    ∀ i, i = 0 → (everything 2 adds).countP (fun x => decide (x.1.toNat = i)) ≤ 1 :=
  ⟨fun _ => [(1, 4)], by decide, by decide, by decide, by intro i hi; subst hi; decide⟩

/-! ### C96 -/

/-- C96: elements given to `resetElements` with different indices that are not negative (on any processes, the
writes taking effect in any order) and then reloaded have the new values if the index is inside the vector; all other
elements keep theirs. -/
theorem C96_reload_partial (n : Nat) (num : Int) (g : Nat → V) (given : Nat → List (Added V)) (ws : List (Added V))
    (hws : ws.Perm (everything n (fun p => resetElements num (given p))))
    (h0 : ∀ x ∈ everything n given, 0 ≤ x.1) (hd : ((everything n given).map (·.1)).Nodup) :
    ∃ g', reload num g ws = some g' ∧
      (∀ x ∈ everything n given, x.1 < num → g' x.1.toNat = x.2) ∧
      (∀ i : Nat, (i : Int) < num → (∀ x ∈ everything n given, x.1 ≠ i) → g' i = g i) := by
  have hmem : ∀ x, x ∈ ws ↔ x ∈ everything n given ∧ x.1 < num := by
    intro x
    rw [hws.mem_iff, mem_everything, mem_everything]
    simp only [resetElements, List.mem_filter, Bool.not_eq_true', decide_eq_false_iff_not]
    constructor
    · rintro ⟨p, hp, h1, h2⟩; exact ⟨⟨p, hp, h1⟩, by omega⟩
    · rintro ⟨⟨p, hp, h1⟩, h2⟩; exact ⟨p, hp, h1, by omega⟩
  refine ⟨_, by unfold reload; rw [if_neg]; rw [List.any_eq_true]; rintro ⟨x, hx, hbad⟩
                have h1 := (hmem x).mp hx
                have h2 := h0 x h1.1
                simp only [decide_eq_true_eq] at hbad
                omega, ?_, ?_⟩
  · intro x hx hlt
    have := (PutFold.put_fold (fun (g : Nat → V) (w : Nat × V) => fun j => if j = w.1 then w.2 else g j)
      (fun g w i => rfl) (ws.map (fun x => (x.1.toNat, x.2))) g x.1.toNat x.2 ?_).1 ?_
    · rw [List.foldl_map] at this; exact this
    · intro w hw e
      obtain ⟨y, hy, rfl⟩ := List.mem_map.mp hw
      have hy' := ((hmem y).mp hy).1
      have h1 := h0 y hy'
      have h2 := h0 x hx
      simp only at e
      have e' : y.1 = x.1 := by omega
      have := List.inj_on_of_nodup_map hd hy' hx e'
      rw [this]
    · exact ⟨(x.1.toNat, x.2), List.mem_map.mpr ⟨x, (hmem x).mpr ⟨hx, hlt⟩, rfl⟩, rfl⟩
  · intro i hi hun
    have := (PutFold.put_fold (fun (g : Nat → V) (w : Nat × V) => fun j => if j = w.1 then w.2 else g j)
      (fun g w i => rfl) (ws.map (fun x => (x.1.toNat, x.2))) g i (g i) ?_).2 ?_
    · rw [List.foldl_map] at this; exact this
    all_goals
      intro w hw
      obtain ⟨y, hy, rfl⟩ := List.mem_map.mp hw
      have hy' := ((hmem y).mp hy).1
      have h1 := h0 y hy'
      have h2 := hun y hy'
      simp only
      intro e
      exact absurd (by omega : y.1 = (i : Int)) h2

/-- C94: `getData` throws exactly if an index is outside the vector, and otherwise returns one value per index, in the
given order. -/
theorem C94_getData (num : Int) (g : Nat → V) (idx : List Int) :
    (getData num g idx = none ↔ ∃ i ∈ idx, ¬ (0 ≤ i ∧ i < num)) ∧
    ∀ l, getData num g idx = some l → l.length = idx.length ∧
      ∀ (k : Nat) (i : Int), idx[k]? = some i → l[k]? = some (g i.toNat) := by
  unfold getData
  by_cases h : ∃ i ∈ idx, ¬ (0 ≤ i ∧ i < num)
  · rw [if_pos]
    · exact ⟨by simp only [true_iff]; exact h, fun l hl => by simp at hl⟩
    · obtain ⟨i, hi, hb⟩ := h
      exact List.any_eq_true.mpr ⟨i, hi, by simp only [decide_eq_true_eq]; omega⟩
  · rw [if_neg]
    · refine ⟨by simp only [reduceCtorEq, false_iff]; exact h, fun l hl => ?_⟩
      simp only [Option.some.injEq] at hl
      subst hl
      refine ⟨by simp, fun k i hk => ?_⟩
      rw [List.getElem?_map, hk]
      rfl
    · intro ha
      obtain ⟨i, hi, hb⟩ := List.any_eq_true.mp ha
      simp only [decide_eq_true_eq] at hb
      exact h ⟨i, hi, by omega⟩

example : getData 3 (fun i => i * 10) [2, 0] = some [20, 0] ∧ getData 3 (fun i => i * 10) [2, 3] = none := by decide

/-- C96 fails for negative indices: they pass `resetElements`, and `reload` writes outside the vector. -/
theorem C96_negative_violated (n : Nat) (num : Int) (hnum : 0 ≤ num) (g : Nat → V) (given : Nat → List (Added V))
    (ws : List (Added V)) (hws : ws.Perm (everything n (fun p => resetElements num (given p))))
    (x : Added V) (hx : x ∈ everything n given) (hneg : x.1 < 0) : reload num g ws = none := by
  unfold reload
  rw [if_pos]
  rw [List.any_eq_true]
  obtain ⟨p, hp, h1⟩ := mem_everything.mp hx
  refine ⟨x, ?_, by simp [hneg]⟩
  rw [hws.mem_iff, mem_everything]
  exact ⟨p, hp, by simp [resetElements, h1]; omega⟩

example : reload 3 (fun _ => 0) (everything 2 (fun p => resetElements 3 (if p = 0 then [(2, 7), (5, 1)] else [(0, 4)])))
    ≠ none ∧ ((everything 2 (fun p => if p = 0 then [((2 : Int), 7), (5, 1)] else [(0, 4)])).map (·.1)).Nodup := by
  constructor
  · simp [reload, everything, resetElements, List.range_succ]
  · decide

end GridPACK.GlobalVector
