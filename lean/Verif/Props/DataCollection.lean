import Verif.Lemmas.DataCollection

/-! Properties C04, C05, C06, C55 of the data collection. -/
namespace GridPACK.DataCollection

variable {V : Ty → Type}

/-- C04.  Every history of add/set/get calls starting from an empty collection produces
exactly the observations of the abstract store (add defines only undefined addresses, set
redefines only defined ones, get reads, absent reads leave the caller's variable alone),
where the address of an entry is (type, name, index).
Conditions: names contain no ':' (see `C05_plain_name_may_alias`), indices have at most 7
characters (otherwise undefined behaviour, `C05_long_index_is_undefined`). -/
theorem C04_refines_abstract_store_partial (ops : List (Op V))
    (hname : ∀ o ∈ ops, ':' ∉ o.key.name) (hidx : ∀ o ∈ ops, o.key.small) :
    run (empty : Coll V) ops = some (specRun (fun _ _ => none) ops) :=
  run_refines ops hname hidx _ _ (by intro t k r _ _; rfl)

example :
    run (V := fun _ => Nat) empty
      [.add .int ⟨['A'], none⟩ 5, .add .int ⟨['A'], none⟩ 6, .get .int ⟨['A'], none⟩ 0,
       .set .int ⟨['A'], some 12⟩ 7, .add .int ⟨['A'], some 12⟩ 8, .set .int ⟨['A'], some 12⟩ 9,
       .get .int ⟨['A'], some 12⟩ 0, .get .double ⟨['A'], some 12⟩ 77]
    = some [.unit, .unit, .value true .int 5, .flag false, .unit, .flag true,
            .value true .int 9, .value false .double 77] := by
  rw [C04_refines_abstract_store_partial]
  · rfl
  · decide
  · intro o ho i hi
    simp at ho
    rcases ho with rfl | rfl | rfl | rfl | rfl | rfl | rfl | rfl <;> simp [Op.key] at hi <;> omega

/-- C05.  Two indexed entries use the same storage location only if name and index coincide
(any names, also with ':' in them). -/
theorem C05_indexed_entries_distinct (n m : List Char) (i j : Int) (s : List Char)
    (h1 : mapKey ⟨n, some i⟩ = some s) (h2 : mapKey ⟨m, some j⟩ = some s) : n = m ∧ i = j := by
  simp only [mapKey, Option.ite_none_right_eq_some, Option.some.injEq] at h1 h2
  have := split_colon (colon_not_mem_intDec i) (colon_not_mem_intDec j) (h1.2.trans h2.2.symm)
  exact ⟨this.1, intDec_inj this.2⟩

example : mapKey ⟨['P', 'G'], some (-12)⟩ = some ['P', 'G', ':', '-', '1', '2'] := by
  have : intDec (-12) = ['-', '1', '2'] := by
    show '-' :: natDec 12 = _
    rw [natDec_ge (by omega), natDec_lt (by omega)]; rfl
  simp [mapKey, this]

/-- C05.  Every add or set leaves all entries of all other types untouched. -/
theorem C05_types_do_not_interfere (c c' : Coll V) (t u : Ty) (k : Key) (v : V t) (hne : u ≠ t)
    (h : addValue c t k v = some c' ∨ ∃ b, setValue c t k v = some (c', b))
    (l : Key) (old : V u) : getValue c' u l old = getValue c u l old := by
  have hc : c' u = c u := by
    rcases h with h | ⟨b, h⟩
    · simp only [addValue, Option.map_eq_some_iff] at h
      obtain ⟨s, _, rfl⟩ := h
      exact update_other _ _ hne
    · simp only [setValue, Option.map_eq_some_iff] at h
      obtain ⟨s, _, h⟩ := h
      split at h
      · cases h; exact update_other _ _ hne
      · cases h; rfl
  simp only [getValue, hc]

/-- C05.  An index is stored safely exactly when it has at most 7 characters; larger indices
overrun the 8-byte buffer. -/
theorem C05_long_index_is_undefined (n : List Char) (i : Int) :
    mapKey ⟨n, some i⟩ = none ↔ i < -999999 ∨ 9999999 < i := by
  simp only [mapKey]
  have := intDec_length_le i
  constructor
  · intro h
    have : ¬ (intDec i).length ≤ 7 := by intro h'; simp [h'] at h
    omega
  · intro h
    rw [if_neg (by omega)]

/-- C05.  The address separation does not extend to unindexed names that look like an indexed
one: ("A:1", no index) and ("A", 1) are the same entry. -/
theorem C05_plain_name_may_alias :
    ∃ k l : Key, k ≠ l ∧ mapKey k = mapKey l ∧ (mapKey k).isSome := by
  refine ⟨⟨['A', ':', '1'], none⟩, ⟨['A'], some 1⟩, by decide, ?_, by simp [mapKey]⟩
  have : intDec 1 = ['1'] := natDec_lt (n := 1) (by omega)
  simp [mapKey, this]

/-- C06.  A value added under a fresh address is read back, for every type, with and without
an index. -/
theorem C06_stored_values_are_read_back (c : Coll V) (t : Ty) (k : Key) (s : List Char)
    (v old : V t) (hk : mapKey k = some s) (hfresh : find (c t) s = none) :
    ∃ c', addValue c t k v = some c' ∧ getValue c' t k old = some (true, v) := by
  refine ⟨c.update t (insert (c t) s v), by simp [addValue, hk], ?_⟩
  simp only [getValue, hk, Option.map_some, update_same, find_insert, hfresh]
  simp

example : ∃ c', addValue (V := fun _ => Nat) empty .double ⟨['X'], some 3⟩ 9 = some c' ∧
    getValue c' .double ⟨['X'], some 3⟩ 0 = some (true, 9) :=
  C06_stored_values_are_read_back empty .double _ ['X', ':', '3'] 9 0
    (by have : intDec 3 = ['3'] := natDec_lt (n := 3) (by omega)
        simp [mapKey, this]) rfl

example : ∃ c', addValue (V := fun _ => Bool) empty .bool ⟨['B'], some 0⟩ true = some c' ∧
    getValue c' .bool ⟨['B'], some 0⟩ false = some (true, true) :=
  C06_stored_values_are_read_back (V := fun _ => Bool) empty .bool ⟨['B'], some 0⟩
    ['B', ':', '0'] true false
    (by have : intDec 0 = ['0'] := natDec_lt (n := 0) (by omega)
        simp [mapKey, this]) rfl

/-- C06.  The value is also read back after any number of later calls that concern other
addresses. -/
theorem C06_stored_values_stay (c c₁ : Coll V) (t : Ty) (k : Key) (s : List Char) (v old : V t)
    (ops : List (Op V)) (hk : mapKey k = some s) (hfresh : find (c t) s = none)
    (hadd : addValue c t k v = some c₁)
    (hname : ':' ∉ k.name) (hops : ∀ o ∈ ops, ':' ∉ o.key.name ∧ o.key.small ∧ o.key ≠ k) :
    ∃ obs, run c₁ (ops ++ [.get t k old]) = some (obs ++ [.value true t v]) := by
  have h0 : find (c₁ t) s = some v := by
    simp only [addValue, hk, Option.map_some, Option.some.injEq] at hadd
    subst hadd
    rw [update_same, find_insert, hfresh]; simp
  clear hadd hfresh
  induction ops generalizing c₁ with
  | nil => exact ⟨[], by simp [run, step, getValue, hk, h0]⟩
  | cons o os ih =>
    obtain ⟨hc, hs, hne⟩ := hops o (by simp)
    obtain ⟨r, hr⟩ := mapKey_of_small hs
    have hrs : s ≠ r := by
      intro e; subst e; exact hne (mapKey_inj hc hname hr hk)
    have hstep : ∃ c' b, step c₁ o = some (c', b) ∧ find (c' t) s = some v := by
      cases o with
      | add u l w =>
        simp only [Op.key] at hr
        refine ⟨_, _, by simp only [step, addValue, hr, Option.map_some]; rfl, ?_⟩
        by_cases hu : t = u
        · subst hu
          rw [update_same, find_insert]
          split
          · exact h0
          · first | exact h0 | (rw [if_neg hrs]; exact h0)
        · rw [update_other _ _ hu]; exact h0
      | set u l w =>
        simp only [Op.key] at hr
        cases hf : find (c₁ u) r with
        | none => exact ⟨c₁, _, by simp only [step, setValue, hr, Option.map_some, hf]; rfl, h0⟩
        | some x =>
          refine ⟨_, _, by simp only [step, setValue, hr, Option.map_some, hf]; rfl, ?_⟩
          by_cases hu : t = u
          · subst hu
            rw [update_same, find_assign, if_neg (by simp [hrs])]
            exact h0
          · rw [update_other _ _ hu]; exact h0
      | get u l w =>
        simp only [Op.key] at hr
        exact ⟨c₁, _, by simp only [step, getValue, hr, Option.map_some]; rfl, h0⟩
    obtain ⟨c', b, e, h1⟩ := hstep
    obtain ⟨obs, ho⟩ := ih c' (fun x hx => hops x (by simp [hx])) h1
    exact ⟨b :: obs, by simp [run, e, ho]⟩

example : ∃ obs, run (V := fun _ => Nat) ((empty : Coll fun _ => Nat).update .int [(['X'], 9)])
    ([.add .int ⟨['Y'], none⟩ 1, .set .int ⟨['Y'], none⟩ 2] ++ [.get .int ⟨['X'], none⟩ 0])
    = some (obs ++ [.value true .int 9]) :=
  C06_stored_values_stay empty _ .int ⟨['X'], none⟩ ['X'] 9 0 _ rfl rfl rfl (by decide)
    (by intro o ho; simp at ho
        rcases ho with rfl | rfl <;> simp [Op.key, Key.small])

/-- C55.  Assignment copies everything: afterwards every read on the copy gives the same result
as on the original. -/
theorem C55_assignment_copies_everything (c : Coll V) (t : Ty) (k : Key) (old : V t) :
    getValue (copy c) t k old = getValue c t k old := by
  cases t <;> rfl

end GridPACK.DataCollection
