import Verif.Spec.ParamEdit
import Verif.Lemmas.DataCollection
import Verif.Props.StringUtils

/-! Theorems on changing and reading input parameters. -/
namespace GridPACK.ParamEdit
open GridPACK.DataCollection (Ty Coll Key mapKey find assign setValue getValue find_assign update_same update_other
  colon_not_mem_intDec)
open GridPACK.StringUtils (Str clean2Char IsId padded)

variable {R : Type}

theorem entry_eq (c : Coll (Val R)) (t : Ty) (k : Key) (s : Str) (h : mapKey k = some s) : entry c t k = find (c t) s := by
  unfold entry; rw [h]; rfl

/-- What `setAt` does. -/
theorem setAt_spec (c : Coll (Val R)) (t : Num) (key : Key) (v : Val R t.ty) :
    ((setAt c t key v).2 = true ↔ (entry c t.ty key).isSome) ∧
    ((setAt c t key v).2 = false → (setAt c t key v).1 = c) ∧
    ((setAt c t key v).2 = true → entry (setAt c t key v).1 t.ty key = some v) ∧
    ∀ u q, ¬ (u = t.ty ∧ mapKey q = mapKey key) → entry (setAt c t key v).1 u q = entry c u q := by
  unfold setAt setValue
  cases hk : mapKey key with
  | none => simp [entry, hk]
  | some s =>
    simp only [Option.map_some]
    rw [entry_eq c _ key s hk]
    cases hf : find (c t.ty) s with
    | none => simp
    | some w =>
      refine ⟨by simp, by simp, fun _ => ?_, ?_⟩
      · show entry (c.update t.ty (assign (c t.ty) s v)) t.ty key = some v
        rw [entry_eq _ _ key s hk, update_same, find_assign, hf]
        simp
      · intro u q hq
        show entry (c.update t.ty (assign (c t.ty) s v)) u q = entry c u q
        unfold entry
        cases hm : mapKey q with
        | none => rfl
        | some r =>
          simp only [Option.bind_some]
          by_cases hu : u = t.ty
          · subst hu
            rw [update_same, find_assign]
            have : r ≠ s := fun e => hq ⟨rfl, by rw [hm, e]⟩
            simp [this]
          · rw [update_other _ _ hu]

theorem getAt_spec (c : Coll (Val R)) (t : Num) (key : Key) (old : Val R t.ty) :
    getAt c t key old = match entry c t.ty key with
      | some v => (true, v)
      | none => (false, old) := by
  unfold getAt getValue entry
  cases hk : mapKey key with
  | none => rfl
  | some s =>
    simp only [Option.map_some, Option.bind_some]
    cases find (c t.ty) s <;> rfl

theorem num_ne_string (t : Num) : Ty.string ≠ t.ty := by cases t <;> decide

theorem mapKey_number (k : Kind) (param : Str) (j : Int) : mapKey ⟨k.number, none⟩ ≠ mapKey ⟨param, some j⟩ := by
  have hc : ':' ∉ k.number := by cases k <;> decide
  unfold mapKey
  simp only
  split_ifs with h
  · intro e
    have e := Option.some.inj e
    apply hc
    rw [e]
    simp
  · simp

theorem elemIndex_iff (k : Kind) (c : Coll (Val R)) (tag : Str) (j : Nat) : elemIndex k c tag = some j ↔ IsElem k c tag j := by
  unfold elemIndex IsElem
  cases hn : entry c .int ⟨k.number, none⟩ with
  | none => simp
  | some n =>
    simp only
    rw [List.find?_range_eq_some]
    simp only [decide_eq_true_eq, List.mem_range, Bool.not_eq_true', decide_eq_false_iff_not, Option.some.injEq]
    constructor
    · rintro ⟨h1, h2, h3⟩
      exact ⟨⟨n, rfl, by omega⟩, h1, h3⟩
    · rintro ⟨⟨m, rfl, h⟩, h1, h3⟩
      exact ⟨h1, by omega, h3⟩

theorem elemIndex_congr (k : Kind) (c d : Coll (Val R)) (tag : Str) (h1 : entry d .int ⟨k.number, none⟩ = entry c .int ⟨k.number, none⟩)
    (h2 : ∀ q, entry d .string q = entry c .string q) : elemIndex k d tag = elemIndex k c tag := by
  unfold elemIndex
  rw [h1]
  simp only [h2]

/-- What `setElem` does. -/
theorem setElem_spec (k : Kind) (tag param : Str) (t : Num) (v : Val R t.ty) (c : Coll (Val R)) :
    ((setElem k tag param t v c).2 = true ↔ Has k c tag param t) ∧
    ((setElem k tag param t v c).2 = false → (setElem k tag param t v c).1 = c) ∧
    ((setElem k tag param t v c).2 = true → ∀ old, getElem k tag param t (setElem k tag param t v c).1 old = (true, v)) ∧
    ∀ u q, ¬ (u = t.ty ∧ ∃ j, IsElem k c tag j ∧ mapKey q = mapKey ⟨param, some (j : Int)⟩) →
      entry (setElem k tag param t v c).1 u q = entry c u q := by
  unfold setElem Has
  cases he : elemIndex k c tag with
  | none =>
    have hno : ∀ j, ¬ IsElem k c tag j := by
      intro j hj
      rw [(elemIndex_iff k c tag j).2 hj] at he
      cases he
    simp [hno]
  | some i =>
    have hi := (elemIndex_iff k c tag i).1 he
    have hu : ∀ j, IsElem k c tag j ↔ j = i := by
      intro j
      rw [← elemIndex_iff, he]
      constructor
      · intro h; exact (Option.some.inj h).symm
      · rintro rfl; rfl
    obtain ⟨h1, h2, h3, h4⟩ := setAt_spec c t ⟨param, some (i : Int)⟩ v
    simp only
    refine ⟨?_, h2, ?_, ?_⟩
    · rw [h1]
      constructor
      · intro h; exact ⟨i, hi, h⟩
      · rintro ⟨j, hj, h⟩
        rw [(hu j).1 hj] at h; exact h
    · intro hf old
      unfold getElem
      have : elemIndex k (setAt c t ⟨param, some (i : Int)⟩ v).1 tag = some i := by
        rw [← he]
        apply elemIndex_congr
        · apply h4
          rintro ⟨-, h⟩
          exact mapKey_number k param i h
        · intro q
          apply h4
          rintro ⟨h, -⟩
          exact num_ne_string t h
      rw [this]
      simp only
      rw [getAt_spec, h3 hf]
    · intro u q hq
      apply h4
      rintro ⟨a, b⟩
      exact hq ⟨a, i, hi, b⟩

theorem getElem_flag (k : Kind) (tag param : Str) (t : Num) (c : Coll (Val R)) (old : Val R t.ty) :
    (getElem k tag param t c old).1 = true ↔ Has k c tag param t := by
  unfold getElem Has
  cases he : elemIndex k c tag with
  | none =>
    have hno : ∀ j, ¬ IsElem k c tag j := by
      intro j hj
      rw [(elemIndex_iff k c tag j).2 hj] at he
      cases he
    simp [hno]
  | some i =>
    have hi := (elemIndex_iff k c tag i).1 he
    simp only
    rw [getAt_spec]
    constructor
    · intro h
      refine ⟨i, hi, ?_⟩
      cases hx : entry c t.ty ⟨param, some (i : Int)⟩ with
      | none => rw [hx] at h; simp at h
      | some w => rfl
    · rintro ⟨j, hj, h⟩
      have : j = i := by
        rw [← elemIndex_iff, he] at hj
        exact (Option.some.inj hj).symm
      subst this
      cases hx : entry c t.ty ⟨param, some (j : Int)⟩ with
      | none => rw [hx] at h; simp at h
      | some w => rfl

theorem filter_key {K : Type} [DecidableEq K] (items : List (Item K R)) (hn : (items.map (·.key)).Nodup) (it : Item K R) (hi : it ∈ items)
    (sel : K → Bool) (hs : ∀ x ∈ items, sel x.key = true ↔ x.key = it.key) : items.filter (fun x => sel x.key) = [it] := by
  induction items with
  | nil => simp at hi
  | cons y l ih =>
    rw [List.map_cons, List.nodup_cons] at hn
    rcases List.mem_cons.1 hi with rfl | hi
    · rw [List.filter_cons_of_pos (p := fun x : Item K R => sel x.key) ((hs it (by simp)).2 rfl)]
      congr 1
      rw [List.filter_eq_nil_iff]
      intro z hz e
      have e := (hs z (by simp [hz])).1 e
      exact hn.1 (e ▸ List.mem_map_of_mem hz)
    · have : ¬ sel y.key = true := fun e => hn.1 (((hs y (by simp)).1 e) ▸ List.mem_map_of_mem hi)
      rw [List.filter_cons_of_neg (p := fun x : Item K R => sel x.key) this, ih hn.2 hi (fun x hx => hs x (by simp [hx]))]

theorem getWith_filter {K β : Type} (sel : K → Bool) (g : Coll (Val R) → β → Bool × β) (items : List (Item K R)) (acc : Bool × β) :
    items.foldl (fun acc it => if sel it.key && it.active then (acc.1 || (g it.data acc.2).1, (g it.data acc.2).2) else acc) acc
      = (items.filter (fun x => sel x.key)).foldl (fun acc it => if it.active then (acc.1 || (g it.data acc.2).1, (g it.data acc.2).2) else acc) acc := by
  induction items generalizing acc with
  | nil => rfl
  | cons x l ih =>
    rw [List.foldl_cons, ih]
    cases hs : sel x.key with
    | true => rw [List.filter_cons_of_pos (p := fun x : Item K R => sel x.key) hs, List.foldl_cons]; simp
    | false => rw [List.filter_cons_of_neg (p := fun x : Item K R => sel x.key) (by simp [hs])]; simp

/-- Reading from the only selected item, owned by the process. -/
theorem getWith_one {K β : Type} (sel : K → Bool) (g : Coll (Val R) → β → Bool × β) (items : List (Item K R)) (old : β)
    (it : Item K R) (hf : items.filter (fun x => sel x.key) = [it]) (ha : it.active = true) : getWith sel g items old = g it.data old := by
  unfold getWith
  rw [getWith_filter, hf]
  simp [ha]

/-- Changing and reading with the only selected item. -/
theorem modifyWith_one {K β : Type} (sel : K → Bool) (f : Coll (Val R) → Coll (Val R) × Bool) (g : Coll (Val R) → β → Bool × β)
    (items : List (Item K R)) (old : β) (it : Item K R) (hf : items.filter (fun x => sel x.key) = [it]) (ha : it.active = true) :
    (modifyWith sel f items).2 = (f it.data).2 ∧ getWith sel g (modifyWith sel f items).1 old = g (f it.data).1 old := by
  constructor
  · unfold modifyWith
    simp only
    have : items.any (fun x => sel x.key && (f x.data).2) = (items.filter (fun x => sel x.key)).any (fun x => (f x.data).2) := by
      rw [List.any_filter]
    rw [this, hf]
    simp
  · have h1 : sel it.key = true := by
      have : it ∈ items.filter (fun x => sel x.key) := by rw [hf]; simp
      exact (List.mem_filter.1 this).2
    have := getWith_one sel g (modifyWith sel f items).1 old { it with data := (f it.data).1 } (by
      unfold modifyWith
      simp only
      rw [List.filter_map]
      have : items.filter ((fun x : Item K R => sel x.key) ∘ fun x => if sel x.key then { x with data := (f x.data).1 } else x)
          = items.filter (fun x => sel x.key) := by
        apply List.filter_congr
        intro x _
        simp only [Function.comp]
        split_ifs <;> rfl
      rw [this, hf]
      simp [h1]) ha
    rw [this]

theorem modifyWith_false {K : Type} (sel : K → Bool) (f : Coll (Val R) → Coll (Val R) × Bool) (items : List (Item K R))
    (hf : ∀ c, (f c).2 = false → (f c).1 = c) (h : (modifyWith sel f items).2 = false) : (modifyWith sel f items).1 = items := by
  unfold modifyWith at h ⊢
  simp only at h ⊢
  rw [List.any_eq_false] at h
  conv_rhs => rw [← List.map_id items]
  apply List.map_congr_left
  intro x hx
  have := h x hx
  cases hs : sel x.key with
  | false => simp
  | true =>
    rw [hs, Bool.true_and] at this
    rw [if_pos rfl, hf _ (by simpa using this)]
    rfl

theorem modifyWith_same {K : Type} (sel : K → Bool) (f : Coll (Val R) → Coll (Val R) × Bool) (P : Coll (Val R) → Ty → Key → Prop)
    (hf : ∀ c u q, ¬ P c u q → entry (f c).1 u q = entry c u q) (items : List (Item K R)) :
    SameExcept (fun o c u q => sel o = true ∧ P c u q) items (modifyWith sel f items).1 := by
  unfold SameExcept modifyWith
  simp only
  rw [List.forall₂_map_right_iff]
  rw [List.forall₂_same]
  intro x _
  cases hs : sel x.key with
  | false => simp
  | true =>
    rw [if_pos rfl]
    refine ⟨rfl, rfl, ?_⟩
    intro u q hq
    exact hf _ u q (fun h => hq ⟨rfl, h⟩)

/-- On the process that owns the bus: changing a parameter of a generator or load reports success exactly if the element
exists and has the parameter with the type of the value, and afterwards the new value is read; otherwise nothing is changed.
Reading reports success in the same cases. -/
theorem C288_readback_partial (k : Kind) (items : List (Item Int R)) (hn : (items.map (·.key)).Nodup) (it : Item Int R) (hi : it ∈ items)
    (ha : it.active = true) (id tag param : Str) (h1 : clean2Char id = .ok tag) (h2 : clean2Char tag = .ok tag) (t : Num)
    (v : Val R t.ty) : ∃ items' flag, modifyElem k items it.key id param t v = some (items', flag) ∧
      (flag = true ↔ Has k it.data tag param t) ∧ (flag = false → items' = items) ∧
      (flag = true → ∀ old, readElem k items' it.key id param t old = some (true, v)) ∧
      ∀ old, ∃ r, readElem k items it.key id param t old = some r ∧ (r.1 = true ↔ Has k it.data tag param t) := by
  have hf := filter_key items hn it hi (fun o => decide (o = it.key)) (fun x _ => by simp)
  obtain ⟨s1, s2, s3, s4⟩ := setElem_spec k tag param t v it.data
  refine ⟨(modifyWith (fun o => decide (o = it.key)) (setElem k tag param t v) items).1,
    (modifyWith (fun o => decide (o = it.key)) (setElem k tag param t v) items).2, ?_, ?_, ?_, ?_, ?_⟩
  · unfold modifyElem
    rw [h1]
    simp only
    rw [h2]
  · rw [(modifyWith_one _ (setElem k tag param t v) (getElem k tag param t) items v it hf ha).1]
    exact s1
  · intro h
    exact modifyWith_false _ _ _ (fun c => (setElem_spec k tag param t v c).2.1) h
  · intro h old
    obtain ⟨m1, m2⟩ := modifyWith_one (fun o => decide (o = it.key)) (setElem k tag param t v) (getElem k tag param t) items old it hf ha
    unfold readElem
    rw [h1]
    simp only
    rw [m2, s3 (by rw [← m1]; exact h)]
  · intro old
    refine ⟨_, by unfold readElem; rw [h1], ?_⟩
    rw [getWith_one _ _ items old it hf ha]
    exact getElem_flag k tag param t it.data old

/-- The identifiers for which this holds: one or two characters, with or without quotes and blanks. -/
theorem C288_identifiers (id : Str) (h : IsId id) (a b c d : Nat) (q : Char) (hq : StringUtils.isQuote q) :
    (clean2Char (List.replicate a ' ' ++ id ++ List.replicate b ' ') = .ok (padded id) ∧
    clean2Char (List.replicate a ' ' ++ [q] ++ List.replicate c ' ' ++ id ++ List.replicate d ' ' ++
      [q] ++ List.replicate b ' ') = .ok (padded id)) ∧ clean2Char (padded id) = .ok (padded id) :=
  ⟨StringUtils.C28_clean2Char_partial id h a b c d q hq, StringUtils.C28_idempotent id h⟩

/-- Nothing else is changed: on every process all entries of all buses stay, except the named parameter of the named element
of the copies of the named bus. -/
theorem C288_others (k : Kind) (items items' : List (Item Int R)) (flag : Bool) (bus : Int) (id tag param : Str) (t : Num)
    (v : Val R t.ty) (h1 : clean2Char id = .ok tag) (h2 : clean2Char tag = .ok tag)
    (h : modifyElem k items bus id param t v = some (items', flag)) :
    SameExcept (fun o c u q => o = bus ∧ u = t.ty ∧ ∃ j, IsElem k c tag j ∧ mapKey q = mapKey ⟨param, some (j : Int)⟩)
      items items' := by
  unfold modifyElem at h
  rw [h1] at h
  simp only at h
  rw [h2] at h
  have h := Option.some.inj h
  have := modifyWith_same (fun o => decide (o = bus)) (setElem k tag param t v) _
    (fun c => (setElem_spec k tag param t v c).2.2.2) items
  rw [h] at this
  unfold SameExcept at this ⊢
  simpa using this

/-- An empty identifier is not reported as missing: the call ends with an exception. -/
theorem C288_empty_violated (k : Kind) (items : List (Item Int R)) (bus : Int) (param : Str) (t : Num) (v : Val R t.ty) :
    modifyElem k items bus [] param t v = none ∧ readElem k items bus [] param t v = none := by
  have : clean2Char [] = .throws := by decide
  constructor
  · unfold modifyElem; rw [this]
  · unfold readElem; rw [this]

/-- The same for parameters of the bus itself. -/
theorem C289_bus (items : List (Item Int R)) (hn : (items.map (·.key)).Nodup) (it : Item Int R) (hi : it ∈ items)
    (ha : it.active = true) (param : Str) (t : Num) (v : Val R t.ty) :
    ((modifyBus items it.key param t v).2 = true ↔ (entry it.data t.ty ⟨param, none⟩).isSome) ∧
    ((modifyBus items it.key param t v).2 = false → (modifyBus items it.key param t v).1 = items) ∧
    ((modifyBus items it.key param t v).2 = true → ∀ old, readBus (modifyBus items it.key param t v).1 it.key param t old = (true, v)) ∧
    (∀ old, (readBus items it.key param t old).1 = true ↔ (entry it.data t.ty ⟨param, none⟩).isSome) ∧
    SameExcept (fun o _ u q => o = it.key ∧ u = t.ty ∧ mapKey q = some param) items (modifyBus items it.key param t v).1 := by
  have hf := filter_key items hn it hi (fun o => decide (o = it.key)) (fun x _ => by simp)
  obtain ⟨s1, s2, s3, s4⟩ := setAt_spec it.data t ⟨param, none⟩ v
  unfold modifyBus readBus
  refine ⟨?_, ?_, ?_, ?_, ?_⟩
  · rw [(modifyWith_one _ (fun c => setAt c t ⟨param, none⟩ v) (fun c => getAt c t ⟨param, none⟩) items v it hf ha).1]
    exact s1
  · intro h
    exact modifyWith_false _ _ _ (fun c => (setAt_spec c t ⟨param, none⟩ v).2.1) h
  · intro h old
    obtain ⟨m1, m2⟩ := modifyWith_one (fun o => decide (o = it.key)) (fun c => setAt c t ⟨param, none⟩ v) (fun c => getAt c t ⟨param, none⟩) items old it hf ha
    rw [m2, getAt_spec, s3 (by rw [← m1]; exact h)]
  · intro old
    rw [getWith_one _ _ items old it hf ha, getAt_spec]
    cases entry it.data t.ty ⟨param, none⟩ <;> simp
  · have := modifyWith_same (fun o => decide (o = it.key)) (fun c => setAt c t ⟨param, none⟩ v) _
      (fun c => (setAt_spec c t ⟨param, none⟩ v).2.2.2) items
    unfold SameExcept at this ⊢
    simpa [mapKey] using this

theorem agree_with {K : Type} (sel : K → Bool) (f : Coll (Val R) → Coll (Val R) × Bool) (a b : List (Item K R)) (h : Agree a b) :
    Agree (modifyWith sel f a).1 (modifyWith sel f b).1 := by
  intro x hx y hy e
  unfold modifyWith at hx hy
  obtain ⟨x0, hx0, rfl⟩ := List.mem_map.1 hx
  obtain ⟨y0, hy0, rfl⟩ := List.mem_map.1 hy
  have hk : ∀ z : Item K R, (if sel z.key then { z with data := (f z.data).1 } else z).key = z.key := by
    intro z; split_ifs <;> rfl
  rw [hk, hk] at e
  have hd := h x0 hx0 y0 hy0 e
  by_cases hs : sel x0.key = true
  · rw [if_pos hs, if_pos (e ▸ hs), hd]
  · rw [if_neg hs, if_neg (e ▸ hs), hd]

/-- The copies of a bus on all processes stay equal when all processes make the same call, and processes with a copy report
the same. -/
theorem C290_copies (k : Kind) (a b a' b' : List (Item Int R)) (fa fb : Bool) (h : Agree a b) (bus : Int) (id param : Str) (t : Num)
    (v : Val R t.ty) (ha : modifyElem k a bus id param t v = some (a', fa)) (hb : modifyElem k b bus id param t v = some (b', fb)) :
    Agree a' b' ∧ ((∃ x ∈ a, x.key = bus) → (∃ y ∈ b, y.key = bus) → Agree a a → Agree b b → fa = fb) := by
  unfold modifyElem at ha hb
  cases h1 : clean2Char id with
  | throws => rw [h1] at ha; cases ha
  | outOfFuel => rw [h1] at ha; cases ha
  | undefined => rw [h1] at ha; cases ha
  | ok id1 =>
    rw [h1] at ha hb
    simp only at ha hb
    cases h2 : clean2Char id1 with
    | throws => rw [h2] at ha; cases ha
    | outOfFuel => rw [h2] at ha; cases ha
    | undefined => rw [h2] at ha; cases ha
    | ok tag =>
      rw [h2] at ha hb
      have ha := Option.some.inj ha
      have hb := Option.some.inj hb
      have ha1 := congrArg Prod.fst ha
      have hb1 := congrArg Prod.fst hb
      have ha2 := congrArg Prod.snd ha
      have hb2 := congrArg Prod.snd hb
      simp only at ha1 hb1 ha2 hb2
      refine ⟨?_, ?_⟩
      · rw [← ha1, ← hb1]
        exact agree_with _ _ a b h
      · rintro ⟨x, hx, ex⟩ ⟨y, hy, ey⟩ haa hbb
        have key : ∀ (l : List (Item Int R)) (z : Item Int R), z ∈ l → z.key = bus → Agree l l →
            (modifyWith (fun o => decide (o = bus)) (setElem k tag param t v) l).2 = (setElem k tag param t v z.data).2 := by
          intro l z hz ez hl
          unfold modifyWith
          simp only
          rw [Bool.eq_iff_iff, List.any_eq_true]
          constructor
          · rintro ⟨w, hw, e⟩
            simp only [Bool.and_eq_true, decide_eq_true_eq] at e
            rw [hl z hz w hw (by rw [ez, e.1])]
            exact e.2
          · intro e
            exact ⟨z, hz, by simp [ez, e]⟩
        rw [← ha2, ← hb2, key a x hx ex haa, key b y hy ey hbb, h x hx y hy (by rw [ex, ey])]

theorem branchSel_iff (items : List (Item (Int × Int) R)) (it : Item (Int × Int) R) (hi : it ∈ items)
    (hrev : ∀ x ∈ items, x.key = (it.key.2, it.key.1) → x.key = it.key) (i j : Int)
    (hij : (i, j) = it.key ∨ (j, i) = it.key) : ∀ x ∈ items, branchSel items i j x.key = true ↔ x.key = it.key := by
  intro x hx
  unfold branchSel
  rcases hij with e | e
  · have : items.any (fun y => decide (y.key = (i, j))) = true := by
      rw [List.any_eq_true]; exact ⟨it, hi, by simp [e]⟩
    rw [if_pos this, e]
    simp
  · by_cases h : items.any (fun y => decide (y.key = (i, j))) = true
    · rw [if_pos h]
      have e1 : (it.key.2, it.key.1) = (i, j) := by rw [← e]
      rw [List.any_eq_true] at h
      obtain ⟨y, hy, hk⟩ := h
      have hk : y.key = (i, j) := by simpa using hk
      have := hrev y hy (by rw [hk, e1])
      rw [← this, hk]
      simp
    · rw [if_neg h, e]
      simp

/-- Branches: the end buses may be given in either order, for changing and for reading, as long as there are no branches in
both directions between them. -/
theorem C291_branch (items : List (Item (Int × Int) R)) (hn : (items.map (·.key)).Nodup) (it : Item (Int × Int) R) (hi : it ∈ items)
    (ha : it.active = true) (hrev : ∀ x ∈ items, x.key = (it.key.2, it.key.1) → x.key = it.key) (i j i' j' : Int)
    (hij : (i, j) = it.key ∨ (j, i) = it.key) (hij' : (i', j') = it.key ∨ (j', i') = it.key) (ckt tag param : Str)
    (h1 : clean2Char ckt = .ok tag) (t : Num) (v : Val R t.ty) :
    ∃ items' flag, modifyBranch items i j ckt param t v = some (items', flag) ∧
      (flag = true ↔ Has .branch it.data tag param t) ∧ (flag = false → items' = items) ∧
      (flag = true → ∀ old, readBranch items' i' j' ckt param t old = some (true, v)) ∧
      SameExcept (fun o c u q => o = it.key ∧ u = t.ty ∧ ∃ e, IsElem .branch c tag e ∧ mapKey q = mapKey ⟨param, some (e : Int)⟩)
        items items' := by
  have hs := branchSel_iff items it hi hrev i j hij
  have hs' := branchSel_iff items it hi hrev i' j' hij'
  have hf := filter_key items hn it hi _ hs
  obtain ⟨s1, s2, s3, s4⟩ := setElem_spec .branch tag param t v it.data
  refine ⟨(modifyWith (branchSel items i j) (setElem .branch tag param t v) items).1,
    (modifyWith (branchSel items i j) (setElem .branch tag param t v) items).2, by unfold modifyBranch; rw [h1], ?_, ?_, ?_, ?_⟩
  · rw [(modifyWith_one _ (setElem .branch tag param t v) (getElem .branch tag param t) items v it hf ha).1]
    exact s1
  · intro h
    exact modifyWith_false _ _ _ (fun c => (setElem_spec .branch tag param t v c).2.1) h
  · intro h old
    have hsel : branchSel (modifyWith (branchSel items i j) (setElem .branch tag param t v) items).1 i' j' = branchSel items i' j' := by
      unfold branchSel modifyWith
      simp only
      rw [List.any_map]
      have : items.any ((fun x : Item (Int × Int) R => decide (x.key = (i', j'))) ∘ fun x =>
          if branchSel items i j x.key then { x with data := (setElem .branch tag param t v x.data).1 } else x)
          = items.any (fun x => decide (x.key = (i', j'))) := by
        congr 1
        funext x
        simp only [Function.comp]
        split_ifs <;> rfl
      unfold branchSel at this
      rw [this]
    have hfe : ∀ x ∈ (modifyWith (branchSel items i j) (setElem .branch tag param t v) items).1,
        branchSel items i' j' x.key = branchSel items i j x.key := by
      intro x hx
      unfold modifyWith at hx
      obtain ⟨x0, hx0, rfl⟩ := List.mem_map.1 hx
      have hk : (if branchSel items i j x0.key then { x0 with data := (setElem .branch tag param t v x0.data).1 } else x0).key
          = x0.key := by split_ifs <;> rfl
      rw [hk, Bool.eq_iff_iff, hs x0 hx0, hs' x0 hx0]
    obtain ⟨m1, m2⟩ := modifyWith_one _ (setElem .branch tag param t v) (getElem .branch tag param t) items old it hf ha
    unfold readBranch
    rw [h1]
    simp only
    rw [hsel]
    have : getWith (branchSel items i' j') (getElem .branch tag param t)
        (modifyWith (branchSel items i j) (setElem .branch tag param t v) items).1 old
        = getWith (branchSel items i j) (getElem .branch tag param t)
        (modifyWith (branchSel items i j) (setElem .branch tag param t v) items).1 old := by
      unfold getWith
      rw [getWith_filter, getWith_filter, List.filter_congr hfe]
    rw [this, m2, s3 (by rw [← m1]; exact h)]
  · have := modifyWith_same (branchSel items i j) (setElem .branch tag param t v) _
      (fun c => (setElem_spec .branch tag param t v c).2.2.2) items
    unfold SameExcept at this ⊢
    refine (List.forall₂_iff_get.2 ?_)
    obtain ⟨hl, hg⟩ := List.forall₂_iff_get.1 this
    refine ⟨hl, ?_⟩
    intro n hn1 hn2
    obtain ⟨g1, g2, g3⟩ := hg n hn1 hn2
    refine ⟨g1, g2, ?_⟩
    intro u q hq
    apply g3
    rintro ⟨p1, p2⟩
    exact hq ⟨(hs _ (List.get_mem items ⟨n, hn1⟩)).1 p1, p2⟩

/-- A bus with two generators, the second with a status and a power. -/
def exData : Coll (Val Nat) := fun t => match t with
  | .int => [("GENERATOR_NUMBER".toList, (2 : Int)), ("GENERATOR_STAT:1".toList, (1 : Int))]
  | .string => [("GENERATOR_ID:0".toList, ['1', ' ']), ("GENERATOR_ID:1".toList, ['2', ' '])]
  | .double => [("GENERATOR_PG:1".toList, (50 : Nat)), ("BUS_BASEKV".toList, (230 : Nat))]
  | .long => []
  | .bool => []
  | .float => []
  | .complex => []

/-- A process with this bus and a copy of another one. -/
def exItems : List (Item Int Nat) := [⟨7, true, exData⟩, ⟨9, false, exData⟩]

theorem ex_key : mapKey ⟨"GENERATOR_PG".toList, some 1⟩ = some "GENERATOR_PG:1".toList := by
  simp [mapKey, DataCollection.intDec, DataCollection.natDec_lt]

theorem ex_ids (j : Nat) (h : j < 10) : mapKey ⟨Kind.gen.ids, some (j : Int)⟩ = some (Kind.gen.ids ++ [':', Char.ofNat (48 + j)]) := by
  simp [mapKey, DataCollection.intDec, DataCollection.natDec_lt h]

example : Has .gen exData ['2', ' '] "GENERATOR_PG".toList .double := by
  refine ⟨1, ⟨⟨2, by decide, by decide⟩, ?_, ?_⟩, ?_⟩
  · unfold entry
    rw [ex_ids 1 (by omega)]
    decide
  · intro i hi
    have : i = 0 := by omega
    subst this
    unfold entry
    rw [ex_ids 0 (by omega)]
    decide
  · unfold entry
    have : mapKey ⟨"GENERATOR_PG".toList, some ((1 : Nat) : Int)⟩ = some "GENERATOR_PG:1".toList := ex_key
    rw [this]
    decide

example : (exItems.map (·.key)).Nodup ∧ Agree exItems exItems ∧ clean2Char "'2'".toList = .ok ['2', ' '] ∧
    clean2Char ['2', ' '] = .ok ['2', ' '] ∧ (modifyBus exItems 7 "BUS_BASEKV".toList .double (115 : Nat)).2 = true ∧
    readBus (modifyBus exItems 7 "BUS_BASEKV".toList .double (115 : Nat)).1 7 "BUS_BASEKV".toList .double (0 : Nat) = (true, (115 : Nat)) := by
  refine ⟨by decide, ?_, by decide, by decide, by decide, rfl⟩
  intro x hx y hy _
  simp only [exItems, List.mem_cons, List.not_mem_nil, or_false] at hx hy
  rcases hx with rfl | rfl <;> rcases hy with rfl | rfl <;> rfl

example : ∀ x ∈ ([⟨(1, 2), true, exData⟩, ⟨(2, 3), true, exData⟩] : List (Item (Int × Int) Nat)), x.key = (2, 1) → x.key = (1, 2) := by
  decide

end GridPACK.ParamEdit
