import Verif.Spec.DataCollection

namespace GridPACK.DataCollection

theorem natDec_lt {n : Nat} (h : n < 10) : natDec n = [Char.ofNat (48 + n)] := by
  rw [natDec, dif_pos h]

theorem natDec_ge {n : Nat} (h : 10 ≤ n) :
    natDec n = natDec (n / 10) ++ [Char.ofNat (48 + n % 10)] := by
  rw [natDec, dif_neg (by omega)]

/-- Decoding of decimal digits. -/
def dec (l : List Char) : Nat := l.foldl (fun a c => a * 10 + (c.toNat - 48)) 0

theorem toNat_digit (d : Nat) (h : d < 10) : (Char.ofNat (48 + d)).toNat = 48 + d := by
  have : d = 0 ∨ d = 1 ∨ d = 2 ∨ d = 3 ∨ d = 4 ∨ d = 5 ∨ d = 6 ∨ d = 7 ∨ d = 8 ∨ d = 9 := by
    omega
  rcases this with h | h | h | h | h | h | h | h | h | h <;> subst h <;> rfl

theorem dec_natDec (n : Nat) : dec (natDec n) = n := by
  induction n using Nat.strongRecOn with
  | ind n ih =>
    rw [natDec]
    split
    · next h => simp [dec, toNat_digit n h]
    · next h =>
      have := ih (n / 10) (by omega)
      unfold dec at this ⊢
      rw [List.foldl_append, this]
      simp only [List.foldl_cons, List.foldl_nil, toNat_digit (n % 10) (by omega)]
      omega

theorem natDec_digit (n : Nat) : ∀ c ∈ natDec n, 48 ≤ c.toNat ∧ c.toNat < 58 := by
  induction n using Nat.strongRecOn with
  | ind n ih =>
    rw [natDec]
    split
    · next h => intro c hc; simp at hc; subst hc; rw [toNat_digit n h]; omega
    · next h =>
      intro c hc
      rw [List.mem_append] at hc
      rcases hc with hc | hc
      · exact ih (n / 10) (by omega) c hc
      · simp at hc; subst hc; rw [toNat_digit (n % 10) (by omega)]; omega

theorem natDec_ne_nil (n : Nat) : natDec n ≠ [] := by
  rw [natDec]; split <;> simp

theorem natDec_inj {a b : Nat} (h : natDec a = natDec b) : a = b := by
  rw [← dec_natDec a, ← dec_natDec b, h]

theorem intDec_inj {a b : Int} (h : intDec a = intDec b) : a = b := by
  have aux : ∀ n m : Nat, natDec n ≠ '-' :: natDec m := by
    intro n m e
    have := natDec_digit n '-' (by rw [e]; simp)
    revert this; decide
  cases a with
  | ofNat n =>
    cases b with
    | ofNat m => simp only [intDec] at h; rw [natDec_inj h]
    | negSucc m => exact absurd h (aux _ _)
  | negSucc n =>
    cases b with
    | ofNat m => exact absurd h.symm (aux _ _)
    | negSucc m =>
      simp only [intDec, List.cons.injEq, true_and] at h
      have := natDec_inj h
      congr 1; omega

theorem colon_not_mem_intDec (i : Int) : ':' ∉ intDec i := by
  have aux : ∀ n : Nat, ':' ∉ natDec n := by
    intro n h
    have := natDec_digit n ':' h
    revert this; decide
  cases i with
  | ofNat n => exact aux n
  | negSucc n =>
    intro h
    simp only [intDec, List.mem_cons] at h
    rcases h with h | h
    · revert h; decide
    · exact aux _ h

/-- Splitting at the last colon is unambiguous. -/
theorem split_colon {a b c d : List Char} (hb : ':' ∉ b) (hd : ':' ∉ d)
    (h : a ++ ':' :: b = c ++ ':' :: d) : a = c ∧ b = d := by
  rcases List.append_eq_append_iff.mp h with ⟨e, h1, h2⟩ | ⟨e, h1, h2⟩
  · cases e with
    | nil => simp at h1 h2; exact ⟨h1.symm, h2⟩
    | cons x xs =>
      simp only [List.cons_append, List.cons.injEq] at h2
      exact absurd (by rw [h2.2]; simp) hb
  · cases e with
    | nil => simp at h1 h2; exact ⟨h1, h2.symm⟩
    | cons x xs =>
      simp only [List.cons_append, List.cons.injEq] at h2
      exact absurd (by rw [h2.2]; simp) hd

theorem natDec_length_le (k : Nat) : ∀ n : Nat, (natDec n).length ≤ k + 1 ↔ n < 10 ^ (k + 1) := by
  induction k with
  | zero =>
    intro n
    rw [natDec]
    split
    · next h => simp; omega
    · next h =>
      have := List.length_pos_iff.mpr (natDec_ne_nil (n / 10))
      simp only [List.length_append, List.length_singleton]
      constructor
      · intro h; omega
      · intro h'; exfalso; simp at h'; omega
  | succ k ih =>
    intro n
    rw [natDec]
    have hp : 10 ^ (k + 1 + 1) = 10 * 10 ^ (k + 1) := by rw [Nat.pow_succ]; omega
    have h1 : 1 ≤ 10 ^ (k + 1) := Nat.one_le_pow _ _ (by omega)
    split
    · next h => simp only [List.length_singleton]; constructor <;> intro _ <;> omega
    · next h =>
      simp only [List.length_append, List.length_singleton]
      have := ih (n / 10)
      constructor
      · intro h'; have := this.mp (by omega); omega
      · intro h'; have := this.mpr (by omega); omega

theorem intDec_length_le (i : Int) : (intDec i).length ≤ 7 ↔ -999999 ≤ i ∧ i ≤ 9999999 := by
  cases i with
  | ofNat n =>
    simp only [intDec]
    rw [natDec_length_le 6 n]
    simp only [Int.ofNat_eq_natCast]
    omega
  | negSucc n =>
    simp only [intDec, List.length_cons]
    have := natDec_length_le 5 (n + 1)
    rw [Int.negSucc_eq]
    omega

theorem mapKey_of_small {k : Key} (h : k.small) : ∃ s, mapKey k = some s := by
  unfold mapKey
  split
  · exact ⟨_, rfl⟩
  · next i hi => rw [if_pos ((intDec_length_le i).mpr (h i hi))]; exact ⟨_, rfl⟩

theorem mapKey_inj {k l : Key} {s : List Char} (hk : ':' ∉ k.name) (hl : ':' ∉ l.name)
    (h1 : mapKey k = some s) (h2 : mapKey l = some s) : k = l := by
  obtain ⟨n, i⟩ := k
  obtain ⟨m, j⟩ := l
  simp only [mapKey] at h1 h2 hk hl
  cases i with
  | none =>
    simp only [Option.some.injEq] at h1
    cases j with
    | none => simp at h2; simp [h1, h2]
    | some j =>
      simp only [Option.ite_none_right_eq_some, Option.some.injEq] at h2
      exact absurd (by rw [h1, ← h2.2]; simp) hk
  | some i =>
    simp only [Option.ite_none_right_eq_some, Option.some.injEq] at h1
    cases j with
    | none =>
      simp only [Option.some.injEq] at h2
      exact absurd (by rw [h2, ← h1.2]; simp) hl
    | some j =>
      simp only [Option.ite_none_right_eq_some, Option.some.injEq] at h2
      have := split_colon (colon_not_mem_intDec i) (colon_not_mem_intDec j) (h1.2.trans h2.2.symm)
      rw [this.1, intDec_inj this.2]

variable {α : Type}

theorem find_append (m : List (List Char × α)) (s : List Char) (v : α) (r : List Char) :
    find (m ++ [(s, v)]) r = match find m r with
      | some w => some w
      | none => if s = r then some v else none := by
  induction m with
  | nil => simp [find]
  | cons p m ih =>
    obtain ⟨k, w⟩ := p
    simp only [List.cons_append, find]
    split
    · rfl
    · exact ih

theorem find_insert (m : List (List Char × α)) (s : List Char) (v : α) (r : List Char) :
    find (insert m s v) r = if (find m s).isSome then find m r
      else if r = s then some v else find m r := by
  unfold insert
  cases h : find m s with
  | some w => simp
  | none =>
    simp only [find_append]
    by_cases hr : r = s
    · subst hr; simp [h]
    · have : ¬ s = r := fun e => hr e.symm
      simp only [this, if_false, hr, Option.isSome_none, Bool.false_eq_true]
      cases find m r <;> rfl

theorem find_assign (m : List (List Char × α)) (s : List Char) (v : α) (r : List Char) :
    find (assign m s v) r = if r = s ∧ (find m s).isSome then some v else find m r := by
  induction m with
  | nil => simp [assign, find]
  | cons p m ih =>
    obtain ⟨k, w⟩ := p
    simp only [assign, find]
    by_cases hk : k = s
    · subst hk
      simp only [if_true, find]
      by_cases hr : k = r
      · subst hr; simp
      · have : ¬ r = k := fun e => hr e.symm
        simp [hr, this]
    · simp only [hk, if_false, find]
      rw [ih]
      by_cases hr : k = r
      · subst hr
        simp [hk]
      · simp [hr]

variable {V : Ty → Type}

theorem update_same (c : Coll V) (t : Ty) (m : List (List Char × V t)) : c.update t m t = m := by
  simp [Coll.update]

theorem update_other (c : Coll V) {t u : Ty} (m : List (List Char × V t)) (h : u ≠ t) :
    c.update t m u = c u := by
  simp [Coll.update, h]

theorem put_same (s : Store V) (t : Ty) (k : Key) (v : V t) : s.put t k v t k = some v := by
  simp [Store.put]

/-- Correspondence between concrete and abstract state on colon-free addresses. -/
def Rel (c : Coll V) (s : Store V) : Prop :=
  ∀ t k r, ':' ∉ k.name → mapKey k = some r → find (c t) r = s t k

theorem rel_update {c : Coll V} {s : Store V} (h : Rel c s) {t : Ty} {k : Key} {r : List Char}
    {v : V t} (hk : ':' ∉ k.name) (hr : mapKey k = some r) {m : List (List Char × V t)}
    (hm : ∀ q, find m q = if q = r then some v else find (c t) q) :
    Rel (c.update t m) (s.put t k v) := by
  intro u l q hl hq
  by_cases hu : u = t
  · subst hu
    rw [update_same, hm]
    by_cases he : l = k
    · subst he
      have : q = r := by rw [hq] at hr; exact Option.some.inj hr
      rw [if_pos this, put_same]
    · have : q ≠ r := by
        intro e; subst e; exact he (mapKey_inj hl hk hq hr)
      rw [if_neg this, h u l q hl hq]
      simp [Store.put, he]
  · rw [update_other _ _ hu, h u l q hl hq]
    simp [Store.put, hu]

theorem step_refines {c : Coll V} {s : Store V} (h : Rel c s) (o : Op V)
    (hc : ':' ∉ o.key.name) (hs : o.key.small) :
    ∃ c', step c o = some (c', (specStep s o).2) ∧ Rel c' (specStep s o).1 := by
  obtain ⟨r, hr⟩ := mapKey_of_small hs
  cases o with
  | add t k v =>
    simp only [Op.key] at hc hr
    refine ⟨c.update t (insert (c t) r v), by simp [step, addValue, hr, specStep], ?_⟩
    simp only [specStep]
    have hf := h t k r hc hr
    by_cases hp : (s t k).isSome = true
    · rw [if_pos hp]
      intro u l q hl hq
      by_cases hu : u = t
      · subst hu; rw [update_same, find_insert, hf, if_pos hp]; exact h u l q hl hq
      · rw [update_other _ _ hu]; exact h u l q hl hq
    · rw [if_neg hp]
      exact rel_update h hc hr (by intro q; rw [find_insert, hf, if_neg hp])
  | set t k v =>
    simp only [Op.key] at hc hr
    have hf := h t k r hc hr
    simp only [step, setValue, hr, Option.map_some, specStep]
    cases hp : s t k with
    | none =>
      rw [hp] at hf
      rw [hf]
      exact ⟨c, by simp, by simpa using h⟩
    | some w =>
      rw [hp] at hf
      rw [hf]
      refine ⟨c.update t (assign (c t) r v), by simp, ?_⟩
      simp only [Option.isSome_some, if_true]
      exact rel_update h hc hr (by intro q; rw [find_assign, hf]; simp)
  | get t k old =>
    simp only [Op.key] at hc hr
    have hf := h t k r hc hr
    simp only [step, getValue, hr, Option.map_some, specStep]
    rw [hf]
    cases s t k with
    | none => exact ⟨c, rfl, h⟩
    | some w => exact ⟨c, rfl, h⟩

theorem run_refines (ops : List (Op V)) (hc : ∀ o ∈ ops, ':' ∉ o.key.name)
    (hs : ∀ o ∈ ops, o.key.small) :
    ∀ (c : Coll V) (s : Store V), Rel c s → run c ops = some (specRun s ops) := by
  induction ops with
  | nil => intro c s _; rfl
  | cons o os ih =>
    intro c s h
    obtain ⟨c', e, h'⟩ := step_refines h o (hc o (by simp)) (hs o (by simp))
    have := ih (fun x hx => hc x (by simp [hx])) (fun x hx => hs x (by simp [hx])) c' _ h'
    simp [run, e, this, specRun]

end GridPACK.DataCollection
