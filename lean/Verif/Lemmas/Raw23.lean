import Verif.Model.Raw23
import Verif.Props.RawBus

/-! Auxiliary facts for reading files of version 23. -/
namespace GridPACK.Raw23
open StringUtils BlockParser DataCollection RawBus

/-! ### Records of devices -/

/-- A line of a block of devices: `f` changes the collection of the bus. -/
def readBy (cv : Conv) (bad : List Str → Prop) [DecidablePred bad] (f : Int → Data → List Str → Option Data)
    (t : Tables) : List (List Str) → Option Tables
  | [] => some t
  | r :: rs =>
    (match r with
      | [] => none
      | s :: _ =>
        match lookup t.busMap (cv.atoi s) with
        | none => some t
        | some l =>
          if bad r then none
          else
            match t.bus[l]? with
            | none => none
            | some c => (f (cv.atoi s) c r).map (fun c => { t with bus := t.bus.set l c })).bind
      (fun t => readBy cv bad f t rs)

theorem readGens_by (cv : Conv) (recs : List (List Str)) : ∀ t, readGens cv t recs =
    readBy cv (fun ts => ts.length < 2 ∨ ts.length = 10 ∨ ts.length = 12) (addDev cv genKind) t recs := by
  induction recs with
  | nil => intro t; rfl
  | cons r rs ih =>
    intro t
    simp only [readGens, readBy, ← ih]
    cases r <;> rfl

theorem readSws_by (cv : Conv) (recs : List (List Str)) : ∀ t, readSws cv t recs =
    readBy cv (fun ts => ts.length < 7) (fun _ c ts => addFields cv 0 0 ts none swFields c) t recs := by
  induction recs with
  | nil => intro t; rfl
  | cons r rs ih =>
    intro t
    simp only [readSws, readBy, ← ih]
    cases r <;> rfl

/-- What is needed of the map of buses. -/
structure MapOk23 (t : Tables) : Prop where
  valid : ∀ n l, lookup t.busMap n = some l → l < t.bus.length
  inj : ∀ n n' l, lookup t.busMap n = some l → lookup t.busMap n' = some l → n = n'

/-- `t'` is `t` with the devices of the given records, as `P` says. -/
structure FilledBy (cv : Conv) (P : Int → Data → Data → List (List Str) → Prop) (t t' : Tables)
    (recs : List (List Str)) : Prop where
  busMap : t'.busMap = t.busMap
  length : t'.bus.length = t.bus.length
  bus : ∀ n l c0, lookup t.busMap n = some l → t.bus[l]? = some c0 →
    ∃ c, t'.bus[l]? = some c ∧ P n c0 c (recs.filter (fun r => num cv r = n))

theorem readBy_filled (cv : Conv) (bad : List Str → Prop) [DecidablePred bad]
    (f : Int → Data → List Str → Option Data) (P : Int → Data → Data → List (List Str) → Prop) (bound : ℕ)
    (hstep : ∀ n c0 c devs r, P n c0 c devs → devs.length < bound → ∃ c', f n c r = some c' ∧ P n c0 c' (devs ++ [r]))
    (t : Tables) (ht : MapOk23 t) :
    ∀ (recs done : List (List Str)) (t' : Tables), FilledBy cv P t t' done →
    (∀ r ∈ recs, r ≠ [] ∧ ((lookup t.busMap (num cv r)).isSome → ¬ bad r)) →
    done.length + recs.length ≤ bound →
    ∃ t'', readBy cv bad f t' recs = some t'' ∧ FilledBy cv P t t'' (done ++ recs) := by
  intro recs
  induction recs with
  | nil => intro done t' h _ _; exact ⟨t', rfl, by simpa using h⟩
  | cons r rs ih =>
    intro done t' h hgood hlen
    obtain ⟨hne, hbad⟩ := hgood r (by simp)
    obtain ⟨s, ss, hr⟩ := List.exists_cons_of_ne_nil hne
    have hnum : num cv r = cv.atoi s := by rw [hr]; rfl
    have key : ∀ t1, FilledBy cv P t t1 (done ++ [r]) →
        ∃ t'', readBy cv bad f t1 rs = some t'' ∧ FilledBy cv P t t'' (done ++ r :: rs) := by
      intro t1 h1
      obtain ⟨t2, h2, h3⟩ := ih (done ++ [r]) t1 h1 (fun x hx => hgood x (by simp [hx]))
        (by simp only [List.length_append, List.length_cons, List.length_nil] at *; omega)
      exact ⟨t2, h2, by simpa using h3⟩
    cases hl : lookup t.busMap (num cv r) with
    | none =>
      have h1 : FilledBy cv P t t' (done ++ [r]) := by
        refine ⟨h.busMap, h.length, ?_⟩
        intro n l c0 hl' hc
        have : num cv r ≠ n := by rintro rfl; rw [hl] at hl'; simp at hl'
        obtain ⟨c, h1, h2⟩ := h.bus n l c0 hl' hc
        exact ⟨c, h1, by simpa [this] using h2⟩
      obtain ⟨t2, h2, h3⟩ := key t' h1
      refine ⟨t2, ?_, h3⟩
      rw [hnum] at hl
      rw [← h.busMap] at hl
      subst hr
      simp only [readBy, hl, Option.bind_some]
      exact h2
    | some l =>
      have hlt := ht.valid _ _ hl
      have hc0 : t.bus[l]? = some t.bus[l] := List.getElem?_eq_getElem hlt
      obtain ⟨c, hc, hP⟩ := h.bus (num cv r) l _ hl hc0
      obtain ⟨c', ha, hP'⟩ := hstep (num cv r) _ c _ r hP (by
        have := List.length_filter_le (fun r' => decide (num cv r' = num cv r)) done
        simp only [List.length_cons] at hlen
        omega)
      have h1 : FilledBy cv P t { t' with bus := t'.bus.set l c' } (done ++ [r]) := by
        refine ⟨h.busMap, by simp [h.length], ?_⟩
        intro n m d0 hm hd
        by_cases hnl : n = num cv r
        · subst hnl
          rw [hl] at hm
          obtain rfl : l = m := by simpa using hm
          rw [hc0] at hd
          obtain rfl : t.bus[l] = d0 := by simpa using hd
          exact ⟨c', by simp [h.length, hlt], by simpa using hP'⟩
        · have hml : m ≠ l := by
            rintro rfl
            exact hnl (ht.inj _ _ _ hm hl)
          obtain ⟨d, h1, h2⟩ := h.bus n m d0 hm hd
          exact ⟨d, by rw [← h1]; exact List.getElem?_set_ne (by omega),
            by simpa [show num cv r ≠ n from fun he => hnl he.symm] using h2⟩
      obtain ⟨t2, h2, h3⟩ := key _ h1
      refine ⟨t2, ?_, h3⟩
      have hb := hbad (by rw [hl]; rfl)
      rw [hnum] at hl ha
      rw [← h.busMap] at hl
      subst hr
      simp only [readBy, hl, if_neg hb, hc, ha, Option.map_some, Option.bind_some]
      exact h2

/-! ### Fields -/

/-- Switched shunts: the first record that has a value counts. -/
structure HasSw23 (cv : Conv) (c0 c : Data) (devs : List (List Str)) : Prop where
  fields : ∀ f ∈ swFields, get c f.ty ⟨f.name, none⟩ =
    (get c0 f.ty ⟨f.name, none⟩).or (devs.findSome? (fun r => f.value cv 0 0 r))
  frame : ∀ u l, ':' ∉ l.name → (∀ f ∈ swFields, (u, l) ≠ (f.ty, (⟨f.name, none⟩ : Key))) → get c u l = get c0 u l

theorem swFields_ok : FieldsOk swFields := ⟨by decide +kernel, by decide +kernel⟩

theorem hasSw_step (cv : Conv) (c0 c : Data) (devs : List (List Str)) (h : HasSw23 cv c0 c devs) (r : List Str) :
    ∃ c', addFields cv 0 0 r none swFields c = some c' ∧ HasSw23 cv c0 c' (devs ++ [r]) := by
  obtain ⟨c', h1⟩ := addFields_ok cv 0 0 r none (by intro i hi; simp at hi) swFields c
  refine ⟨c', h1, ?_, ?_⟩
  · intro f hf
    rw [addFields_get cv 0 0 r none swFields swFields_ok c c' h1 f hf, h.fields f hf]
    rw [List.findSome?_append]
    cases get c0 f.ty ⟨f.name, none⟩ with
    | some w => simp
    | none =>
      cases h' : devs.findSome? (fun r => f.value cv 0 0 r) with
      | some w => simp
      | none =>
        simp only [Option.or_none, List.findSome?_cons, List.findSome?_nil, Option.none_or]
        cases f.value cv 0 0 r <;> rfl
  · intro u l hl hn
    rw [addFields_get_other cv 0 0 r none swFields swFields_ok.1 u l hl c c' h1 hn]
    exact h.frame u l hl hn

theorem genKind_ok : KindOk genKind where
  fields := ⟨by decide +kernel, by decide +kernel⟩
  plain := ⟨by decide +kernel, by decide +kernel⟩
  count := by decide +kernel
  countPlain := by decide +kernel
  owner := by decide +kernel
  ownerPlain := by decide +kernel

def busNames : List Str := (busFields 0 0).map Field.name

theorem busFields_ok (sbase : ℝ) (caseId : Int) : FieldsOk (busFields sbase caseId) := by
  have h1 : ∀ s ∈ busNames, ':' ∉ s := by decide +kernel
  have h2 : ((busFields 0 0).map (fun f => (f.ty, f.name))).Nodup := by decide +kernel
  have h3 : (busFields sbase caseId).map Field.name = busNames := rfl
  exact ⟨fun f hf => h1 _ (by rw [← h3]; exact List.mem_map_of_mem hf), h2⟩

theorem shuntPlain_ok : FieldsOk shuntPlain := ⟨by decide +kernel, by decide +kernel⟩
theorem shuntIdx_ok : FieldsOk shuntIdx := ⟨by decide +kernel, by decide +kernel⟩
theorem loadPlain_ok : FieldsOk loadPlain := ⟨by decide +kernel, by decide +kernel⟩
theorem loadIdx_ok : FieldsOk loadIdx := by
  have h1 : ∀ s ∈ ([dblAt "LOAD_PL" 2, dblAt "LOAD_QL" 3, dblC "LOAD_IP" 0, dblC "LOAD_IQ" 0, dblC "LOAD_YP" 0,
    dblC "LOAD_YQ" 0, strC "LOAD_ID" "1 ".toList, intC "LOAD_STATUS" 1] : List Field), ':' ∉ s.name := by
    decide +kernel
  exact ⟨h1, by decide +kernel⟩

/-- Values added one after the other, each list with its index. -/
def addGroups (cv : Conv) (o : Int) (ts : List Str) : List (List Field × Option Int) → Data → Option Data
  | [], c => some c
  | g :: gs, c => (addFields cv o 0 ts g.2 g.1 c).bind (addGroups cv o ts gs)

/-- Type and key of all values. -/
def keysOf (gs : List (List Field × Option Int)) : List (Ty × Str × Option Int) :=
  gs.flatMap (fun g => g.1.map (fun f => (f.ty, f.name, g.2)))

theorem addGroups_spec (cv : Conv) (o : Int) (ts : List Str) (gs : List (List Field × Option Int))
    (hcol : ∀ k ∈ keysOf gs, ':' ∉ k.2.1) (hnd : (keysOf gs).Nodup) (hidx : ∀ g ∈ gs, idxOk g.2) : ∀ c : Data,
    ∃ c', addGroups cv o ts gs c = some c' ∧
      (∀ g ∈ gs, ∀ f ∈ g.1, get c' f.ty ⟨f.name, g.2⟩ =
        (match get c f.ty ⟨f.name, g.2⟩ with
          | some w => some w
          | none => f.value cv o 0 ts)) ∧
      ∀ u (l : Key), ':' ∉ l.name → (u, l.name, l.idx) ∉ keysOf gs → get c' u l = get c u l := by
  induction gs with
  | nil => intro c; exact ⟨c, rfl, by simp, by simp⟩
  | cons g gs ih =>
    intro c
    have hk : keysOf (g :: gs) = g.1.map (fun f => (f.ty, f.name, g.2)) ++ keysOf gs := by simp [keysOf]
    rw [hk] at hcol hnd
    rw [List.nodup_append] at hnd
    obtain ⟨n1, n2, n3⟩ := hnd
    obtain ⟨c1, h1⟩ := addFields_ok cv o 0 ts g.2 (hidx g (by simp)) g.1 c
    obtain ⟨c', h2, h3, h4⟩ := ih (fun k hk => hcol k (by simp [hk])) n2 (fun x hx => hidx x (by simp [hx])) c1
    have hcolon : ∀ f ∈ g.1, ':' ∉ f.name := by
      intro f hf
      exact hcol (f.ty, f.name, g.2) (List.mem_append_left _ (List.mem_map.mpr ⟨f, hf, rfl⟩))
    have hok : FieldsOk g.1 := by
      refine ⟨hcolon, ?_⟩
      have hm : g.1.map (fun f => (f.ty, f.name)) =
          (g.1.map (fun f => (f.ty, f.name, g.2))).map (fun k => (k.1, k.2.1)) := by
        rw [List.map_map]; rfl
      rw [hm]
      refine List.Nodup.map_on ?_ n1
      intro x hx y hy hxy
      simp only [List.mem_map] at hx hy
      obtain ⟨f, _, rfl⟩ := hx
      obtain ⟨f', _, rfl⟩ := hy
      simp only [Prod.mk.injEq] at hxy ⊢
      exact ⟨hxy.1, hxy.2, trivial⟩
    have hother : ∀ u (l : Key), ':' ∉ l.name → (u, l.name, l.idx) ∉ g.1.map (fun f => (f.ty, f.name, g.2)) →
        get c1 u l = get c u l := by
      intro u l hl hn
      refine addFields_get_other cv o 0 ts g.2 g.1 hcolon u l hl c c1 h1 ?_
      intro f hf he
      apply hn
      simp only [Prod.mk.injEq] at he
      refine List.mem_map.mpr ⟨f, hf, ?_⟩
      rw [he.1, he.2]
    refine ⟨c', by simp [addGroups, h1, h2], ?_, ?_⟩
    · intro x hx f hf
      rcases List.mem_cons.mp hx with rfl | hx
      · rw [h4 f.ty ⟨f.name, x.2⟩ (hcolon f hf) (fun hm => n3 _ (List.mem_map.mpr ⟨f, hf, rfl⟩) _ hm rfl)]
        exact addFields_get cv o 0 ts x.2 x.1 hok c c1 h1 f hf
      · have hmem : (f.ty, f.name, x.2) ∈ keysOf gs :=
          List.mem_flatMap.mpr ⟨x, hx, List.mem_map.mpr ⟨f, hf, rfl⟩⟩
        rw [h3 x hx f hf, hother f.ty ⟨f.name, x.2⟩ (hcol (f.ty, f.name, x.2) (List.mem_append_right _ hmem))
          (fun hm => n3 _ hm _ hmem rfl)]
    · intro u l hl hn
      rw [hk, List.mem_append, not_or] at hn
      rw [h4 u l hl hn.2, hother u l hl hn.1]

/-- The values of a bus line. -/
def busGroups (sbase : ℝ) (caseId : Int) (sh ld : Bool) : List (List Field × Option Int) :=
  (busFields sbase caseId, none) :: ((if sh then [(shuntPlain, none), (shuntIdx, some 0)] else []) ++
    if ld then [(loadIdx, some 0), (loadPlain, none)] else [])

/-- Is there a shunt, a load? -/
noncomputable def hasShunt (cv : Conv) (ts : List Str) : Bool :=
  open Classical in decide (dblOr cv ts 4 ≠ 0 ∨ dblOr cv ts 5 ≠ 0)

noncomputable def hasLoad (cv : Conv) (ts : List Str) : Bool :=
  open Classical in decide (dblOr cv ts 2 ≠ 0 ∨ dblOr cv ts 3 ≠ 0)

theorem busData_groups (cv : Conv) (sbase : ℝ) (caseId : Int) (o : Int) (ts : List Str) :
    busData cv sbase caseId o ts = addGroups cv o ts (busGroups sbase caseId (hasShunt cv ts) (hasLoad cv ts)) empty := by
  unfold busData busGroups hasShunt hasLoad
  cases h0 : addFields cv o 0 ts none (busFields sbase caseId) empty with
  | none => simp [addGroups, h0]
  | some c =>
    by_cases h1 : dblOr cv ts 4 ≠ 0 ∨ dblOr cv ts 5 ≠ 0 <;> by_cases h2 : dblOr cv ts 2 ≠ 0 ∨ dblOr cv ts 3 ≠ 0
    all_goals simp only [h1, h2, decide_true, decide_false, if_true, if_false, Bool.false_eq_true, addGroups, h0,
      Option.bind_some, List.nil_append, List.append_nil, List.cons_append]
    · cases addFields cv o 0 ts none shuntPlain c with
      | none => rfl
      | some c =>
        simp only [Option.bind_some]
        cases addFields cv o 0 ts (some 0) shuntIdx c with
        | none => rfl
        | some c =>
          simp only [Option.bind_some]
          congr 1
    · cases addFields cv o 0 ts none shuntPlain c with
      | none => rfl
      | some c =>
        simp only [Option.bind_some]
    · congr 1

theorem keys_busGroups (sbase : ℝ) (caseId : Int) (sh ld : Bool) :
    keysOf (busGroups sbase caseId sh ld) = keysOf (busGroups 0 0 sh ld) := by
  cases sh <;> cases ld <;> rfl

theorem busGroups_ok (sbase : ℝ) (caseId : Int) (sh ld : Bool) :
    (∀ k ∈ keysOf (busGroups sbase caseId sh ld), ':' ∉ k.2.1) ∧ (keysOf (busGroups sbase caseId sh ld)).Nodup ∧
      ∀ g ∈ busGroups sbase caseId sh ld, idxOk g.2 := by
  rw [keys_busGroups]
  refine ⟨?_, ?_, ?_⟩
  · cases sh <;> cases ld <;> decide +kernel
  · cases sh <;> cases ld <;> decide +kernel
  · intro g hg i hi
    simp only [busGroups, List.mem_cons, List.mem_append] at hg
    have h : g.2 = none ∨ g.2 = some 0 := by
      rcases hg with rfl | hg | hg
      · exact Or.inl rfl
      · cases sh
        · simp at hg
        · simp only [if_true, List.mem_cons, List.not_mem_nil, or_false] at hg
          rcases hg with rfl | rfl
          · exact Or.inl rfl
          · exact Or.inr rfl
      · cases ld
        · simp at hg
        · simp only [if_true, List.mem_cons, List.not_mem_nil, or_false] at hg
          rcases hg with rfl | rfl
          · exact Or.inr rfl
          · exact Or.inl rfl
    rcases h with h | h <;> rw [h] at hi <;> simp at hi
    omega

/-- What the line of a bus leaves in its collection. -/
theorem busData_spec (cv : Conv) (sbase : ℝ) (caseId : Int) (o : Int) (ts : List Str) :
    ∃ c, busData cv sbase caseId o ts = some c ∧
      (∀ g ∈ busGroups sbase caseId (hasShunt cv ts) (hasLoad cv ts), ∀ f ∈ g.1,
        get c f.ty ⟨f.name, g.2⟩ = f.value cv o 0 ts) ∧
      ∀ u (l : Key), ':' ∉ l.name →
        (u, l.name, l.idx) ∉ keysOf (busGroups sbase caseId (hasShunt cv ts) (hasLoad cv ts)) → get c u l = none := by
  obtain ⟨h1, h2, h3⟩ := busGroups_ok sbase caseId (hasShunt cv ts) (hasLoad cv ts)
  obtain ⟨c, e1, e2, e3⟩ := addGroups_spec cv o ts _ h1 h2 h3 empty
  have hemp : ∀ u l, get empty u l = none := by
    intro u l
    unfold RawBus.get
    cases mapKey l <;> rfl
  refine ⟨c, by rw [busData_groups]; exact e1, ?_, ?_⟩
  · intro g hg f hf
    rw [e2 g hg f hf, hemp]
  · intro u l hl hn
    rw [e3 u l hl hn, hemp]

theorem areaFields_ok : FieldsOk areaFields := ⟨by decide +kernel, by decide +kernel⟩

end GridPACK.Raw23
