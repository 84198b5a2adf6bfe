import Verif.Model.RawBus
import Verif.Lemmas.DataCollection
import Mathlib.Tactic.Tauto

/-! Lemmas about reading buses and devices. -/
namespace GridPACK.RawBus
open StringUtils BlockParser DataCollection

/-- What is stored under a key. -/
def get (c : Data) (t : Ty) (k : Key) : Option (Val t) := (mapKey k).bind (DataCollection.find (c t))

theorem getValue_get (c : Data) (t : Ty) (k : Key) (old : Val t) (hk : (mapKey k).isSome) :
    getValue c t k old = some (match get c t k with
      | some v => (true, v)
      | none => (false, old)) := by
  obtain ⟨s, hs⟩ := Option.isSome_iff_exists.mp hk
  simp only [getValue, hs, get, Option.map_some, Option.bind_some]
  cases DataCollection.find (c t) s <;> rfl

theorem get_add {c c' : Data} {t : Ty} {k : Key} {v : Val t} (h : addValue c t k v = some c') :
    get c' t k = some ((get c t k).getD v) := by
  unfold addValue at h
  cases hs : mapKey k with
  | none => simp [hs] at h
  | some s =>
    simp only [hs, Option.map_some, Option.some.injEq] at h
    subst h
    simp only [get, hs, Option.bind_some, update_same, find_insert]
    cases DataCollection.find (c t) s <;> simp

theorem get_add_other {c c' : Data} {t u : Ty} {k l : Key} {v : Val t} (h : addValue c t k v = some c')
    (hk : ':' ∉ k.name) (hl : ':' ∉ l.name) (hne : (u, l) ≠ (t, k)) : get c' u l = get c u l := by
  unfold addValue at h
  cases hs : mapKey k with
  | none => simp [hs] at h
  | some s =>
    simp only [hs, Option.map_some, Option.some.injEq] at h
    subst h
    unfold get
    cases hr : mapKey l with
    | none => rfl
    | some r =>
      simp only [Option.bind_some]
      by_cases hu : u = t
      · subst hu
        rw [update_same, find_insert]
        have : r ≠ s := by
          rintro rfl
          exact hne (by rw [mapKey_inj hl hk hr hs])
        simp [this]
      · rw [update_other _ _ hu]

theorem get_set {c c' : Data} {t : Ty} {k : Key} {v : Val t} {b : Bool} (h : setValue c t k v = some (c', b)) :
    get c' t k = (get c t k).map (fun _ => v) := by
  unfold setValue at h
  cases hs : mapKey k with
  | none => simp [hs] at h
  | some s =>
    simp only [hs, Option.map_some, Option.some.injEq] at h
    cases hf : DataCollection.find (c t) s with
    | none =>
      simp only [hf, Prod.mk.injEq] at h
      obtain ⟨rfl, rfl⟩ := h
      simp [get, hs, hf]
    | some w =>
      simp only [hf, Prod.mk.injEq] at h
      obtain ⟨rfl, rfl⟩ := h
      simp [get, hs, hf, update_same, find_assign]

theorem get_set_other {c c' : Data} {t u : Ty} {k l : Key} {v : Val t} {b : Bool}
    (h : setValue c t k v = some (c', b))
    (hk : ':' ∉ k.name) (hl : ':' ∉ l.name) (hne : (u, l) ≠ (t, k)) : get c' u l = get c u l := by
  unfold setValue at h
  cases hs : mapKey k with
  | none => simp [hs] at h
  | some s =>
    simp only [hs, Option.map_some, Option.some.injEq] at h
    cases hf : DataCollection.find (c t) s with
    | none =>
      simp only [hf, Prod.mk.injEq] at h
      obtain ⟨rfl, rfl⟩ := h
      rfl
    | some w =>
      simp only [hf, Prod.mk.injEq] at h
      obtain ⟨rfl, rfl⟩ := h
      unfold get
      cases hr : mapKey l with
      | none => rfl
      | some r =>
        simp only [Option.bind_some]
        by_cases hu : u = t
        · subst hu
          rw [update_same, find_assign]
          have : r ≠ s := by
            rintro rfl
            exact hne (by rw [mapKey_inj hl hk hr hs])
          simp [this]
        · rw [update_other _ _ hu]

/-- An index of up to seven digits can be printed. -/
def idxOk (idx : Option Int) : Prop := ∀ i, idx = some i → -999999 ≤ i ∧ i ≤ 9999999

theorem mapKey_some (name : Str) (idx : Option Int) (h : idxOk idx) : ∃ s, mapKey ⟨name, idx⟩ = some s :=
  mapKey_of_small (k := ⟨name, idx⟩) h

/-- Fields with different names or types, none with a colon. -/
def FieldsOk (fs : List Field) : Prop :=
  (∀ f ∈ fs, ':' ∉ f.name) ∧ (fs.map (fun f => (f.ty, f.name))).Nodup

theorem addFields_ok (cv : Conv) (o owner : Int) (ts : List Str) (idx : Option Int) (hi : idxOk idx)
    (fs : List Field) : ∀ c : Data, ∃ c', addFields cv o owner ts idx fs c = some c' := by
  induction fs with
  | nil => intro c; exact ⟨c, rfl⟩
  | cons f fs ih =>
    intro c
    simp only [addFields]
    cases f.value cv o owner ts with
    | none => exact ih c
    | some v =>
      obtain ⟨s, hs⟩ := mapKey_some f.name idx hi
      simp only [addValue, hs, Option.map_some, Option.bind_some]
      exact ih _

theorem addFields_get_other (cv : Conv) (o owner : Int) (ts : List Str) (idx : Option Int) (fs : List Field)
    (hfs : ∀ f ∈ fs, ':' ∉ f.name) (u : Ty) (l : Key) (hl : ':' ∉ l.name) :
    ∀ c c' : Data, addFields cv o owner ts idx fs c = some c' →
      (∀ f ∈ fs, (u, l) ≠ (f.ty, (⟨f.name, idx⟩ : Key))) → get c' u l = get c u l := by
  induction fs with
  | nil => intro c c' h _; simp only [addFields, Option.some.injEq] at h; rw [h]
  | cons f fs ih =>
    intro c c' h hne
    have ih := ih (fun g hg => hfs g (by simp [hg]))
    simp only [addFields] at h
    cases hv : f.value cv o owner ts with
    | none =>
      simp only [hv] at h
      exact ih c c' h (fun g hg => hne g (by simp [hg]))
    | some v =>
      simp only [hv] at h
      cases ha : addValue c f.ty ⟨f.name, idx⟩ v with
      | none => simp [ha] at h
      | some d =>
        simp only [ha, Option.bind_some] at h
        rw [ih d c' h (fun g hg => hne g (by simp [hg]))]
        exact get_add_other ha (hfs f (by simp)) hl (hne f (by simp))

theorem addFields_get (cv : Conv) (o owner : Int) (ts : List Str) (idx : Option Int) (fs : List Field)
    (hfs : FieldsOk fs) : ∀ c c' : Data, addFields cv o owner ts idx fs c = some c' →
      ∀ f ∈ fs, get c' f.ty ⟨f.name, idx⟩ =
        (match get c f.ty ⟨f.name, idx⟩ with
          | some w => some w
          | none => f.value cv o owner ts) := by
  induction fs with
  | nil => intro c c' _ f hf; simp at hf
  | cons g fs ih =>
    intro c c' h f hf
    obtain ⟨hcol, hnd⟩ := hfs
    simp only [List.map_cons, List.nodup_cons] at hnd
    have hcol' : ∀ f ∈ fs, ':' ∉ f.name := fun f hf => hcol f (by simp [hf])
    have ih := ih ⟨hcol', hnd.2⟩
    have hnotin : ∀ e ∈ fs, (g.ty, (⟨g.name, idx⟩ : Key)) ≠ (e.ty, ⟨e.name, idx⟩) := by
      intro e he heq
      simp only [Prod.mk.injEq, Key.mk.injEq] at heq
      exact hnd.1 (List.mem_map.mpr ⟨e, he, by rw [heq.1, heq.2.1]⟩)
    simp only [addFields] at h
    cases hv : g.value cv o owner ts with
    | none =>
      simp only [hv] at h
      rcases List.mem_cons.mp hf with rfl | hf
      · rw [addFields_get_other cv o owner ts idx fs hcol' _ _ (hcol _ (by simp)) c c' h hnotin, hv]
        cases get c f.ty ⟨f.name, idx⟩ <;> rfl
      · exact ih c c' h f hf
    | some v =>
      simp only [hv] at h
      cases ha : addValue c g.ty ⟨g.name, idx⟩ v with
      | none => simp [ha] at h
      | some d =>
        simp only [ha, Option.bind_some] at h
        rcases List.mem_cons.mp hf with rfl | hf
        · rw [addFields_get_other cv o owner ts idx fs hcol' _ _ (hcol _ (by simp)) d c' h hnotin, get_add ha, hv]
          cases get c f.ty ⟨f.name, idx⟩ <;> rfl
        · rw [ih d c' h f hf, get_add_other ha (hcol g (by simp)) (hcol' f hf) (fun he => hnotin f hf he.symm)]

/-! ### Devices of one bus -/

/-- Names of a block that do not get into each other's way. -/
structure KindOk (k : Kind) : Prop where
  fields : FieldsOk k.fields
  plain : FieldsOk k.plain
  count : ':' ∉ k.count
  countPlain : ∀ f ∈ k.plain, (Ty.int, k.count) ≠ (f.ty, f.name)
  owner : k.count ≠ "BUS_OWNER".toList
  ownerPlain : ∀ f ∈ k.plain, (Ty.int, "BUS_OWNER".toList) ≠ (f.ty, f.name)

/-- Keys a block writes to. -/
def Owns (k : Kind) (u : Ty) (l : Key) : Prop :=
  (l.idx = none ∧ ((u, l.name) = (.int, k.count) ∨ ∃ f ∈ k.plain, (u, l.name) = (f.ty, f.name))) ∨
  (l.idx ≠ none ∧ ∃ f ∈ k.fields, (u, l.name) = (f.ty, f.name))

/-- The largest index that can be printed. -/
@[irreducible] def top : ℕ := 9999999

theorem top_eq : top = 9999999 := by unfold top; rfl

/-- A number stored under a name without index. -/
def getInt (c : Data) (name : Str) : Option Int := get c .int ⟨name, none⟩

/-- Collection `c` is `c0` with the given devices. -/
structure Has (cv : Conv) (k : Kind) (o : Int) (c0 c : Data) (devs : List (List Str)) : Prop where
  count : getInt c k.count = if devs = [] then none else some (devs.length : Int)
  fields : ∀ f ∈ k.fields, ∀ j : ℕ, j ≤ top →
    get c f.ty ⟨f.name, some (j : Int)⟩ = devs[j]?.bind (fun r => f.value cv o (intVal c0 "BUS_OWNER".toList) r)
  plain : ∀ f ∈ k.plain, get c f.ty ⟨f.name, none⟩ =
    devs.head?.bind (fun r => f.value cv o (intVal c0 "BUS_OWNER".toList) r)
  frame : ∀ u l, ':' ∉ l.name → ¬ Owns k u l → get c u l = get c0 u l

/-- No device of the block yet. -/
structure Fresh (k : Kind) (c : Data) : Prop where
  count : getInt c k.count = none
  fields : ∀ f ∈ k.fields, ∀ j : ℕ, j ≤ top → get c f.ty ⟨f.name, some (j : Int)⟩ = none
  plain : ∀ f ∈ k.plain, get c f.ty ⟨f.name, none⟩ = none

theorem has_nil (cv : Conv) (k : Kind) (o : Int) (c : Data) (h : Fresh k c) : Has cv k o c c [] where
  count := by rw [h.count]; rfl
  fields := by intro f hf j hj; rw [h.fields f hf j hj]; rfl
  plain := by intro f hf; rw [h.plain f hf]; rfl
  frame := by intro u l _ _; rfl

theorem intVal_get (c : Data) (name : Str) :
    intVal c name = (getInt c name).getD 0 := by
  have h := getValue_get c .int ⟨name, none⟩ (show Int from 0) (by simp [mapKey])
  unfold intVal getInt
  rw [h]
  cases get c .int ⟨name, none⟩ <;> rfl

theorem has_step (cv : Conv) (k : Kind) (hk : KindOk k) (o : Int) (c0 c : Data) (devs : List (List Str))
    (h : Has cv k o c0 c devs) (hlen : devs.length ≤ top) (r : List Str) :
    ∃ c', addDev cv k o c r = some c' ∧ Has cv k o c0 c' (devs ++ [r]) := by
  have hn : intVal c k.count = devs.length := by
    rw [intVal_get, h.count]
    cases devs with
    | nil => rfl
    | cons d ds => simp only [List.cons_ne_nil, if_false]; rfl
  have howner : intVal c "BUS_OWNER".toList = intVal c0 "BUS_OWNER".toList := by
    have hf : getInt c "BUS_OWNER".toList = getInt c0 "BUS_OWNER".toList := by
      refine h.frame _ _ (by decide) ?_
      rintro (⟨_, h1 | ⟨f, hf, h1⟩⟩ | ⟨h1, _⟩)
      · exact hk.owner (by simpa using h1.symm)
      · exact hk.ownerPlain f hf h1
      · simp at h1
    rw [intVal_get, intVal_get, hf]
  have hidx : idxOk (some (devs.length : Int)) := by
    intro i hi
    simp only [Option.some.injEq] at hi
    rw [top_eq] at hlen
    omega
  have hcolF : ∀ f ∈ k.fields, ':' ∉ f.name := hk.fields.1
  have hcolP : ∀ f ∈ k.plain, ':' ∉ f.name := hk.plain.1
  obtain ⟨c1, h1⟩ := addFields_ok cv o (intVal c "BUS_OWNER".toList) r _ hidx k.fields c
  have g1 := addFields_get cv o (intVal c "BUS_OWNER".toList) r _ k.fields hk.fields c c1 h1
  have f1 : ∀ u l, ':' ∉ l.name → (∀ f ∈ k.fields, (u, l) ≠ (f.ty, (⟨f.name, some (devs.length : Int)⟩ : Key))) →
      get c1 u l = get c u l :=
    fun u l hl => addFields_get_other cv o (intVal c "BUS_OWNER".toList) r _ k.fields hcolF u l hl c c1 h1
  -- values without index
  obtain ⟨c2, h2, g2, f2⟩ : ∃ c2, (if intVal c k.count = 0 then
        addFields cv o (intVal c "BUS_OWNER".toList) r none k.plain c1 else some c1) = some c2 ∧
      (∀ f ∈ k.plain, get c2 f.ty ⟨f.name, none⟩ =
        (devs ++ [r]).head?.bind (fun r => f.value cv o (intVal c0 "BUS_OWNER".toList) r)) ∧
      (∀ u l, ':' ∉ l.name → (∀ f ∈ k.plain, (u, l) ≠ (f.ty, (⟨f.name, none⟩ : Key))) →
        get c2 u l = get c1 u l) := by
    have hp1 : ∀ f ∈ k.plain, get c1 f.ty ⟨f.name, none⟩ =
        devs.head?.bind (fun r => f.value cv o (intVal c0 "BUS_OWNER".toList) r) := by
      intro f hf
      rw [f1 _ _ (hcolP f hf) (by intro g hg; simp), h.plain f hf]
    cases devs with
    | nil =>
      have hz : intVal c k.count = 0 := by rw [hn]; rfl
      rw [if_pos hz]
      obtain ⟨c2, h2⟩ := addFields_ok cv o (intVal c "BUS_OWNER".toList) r none (by intro i hi; simp at hi)
        k.plain c1
      refine ⟨c2, h2, ?_, ?_⟩
      · intro f hf
        rw [addFields_get cv o (intVal c "BUS_OWNER".toList) r none k.plain hk.plain c1 c2 h2 f hf, hp1 f hf, howner]
        simp
      · intro u l hl hne
        exact addFields_get_other cv o (intVal c "BUS_OWNER".toList) r none k.plain hcolP u l hl c1 c2 h2 hne
    | cons d ds =>
      have hz : intVal c k.count ≠ 0 := by rw [hn]; simp only [List.length_cons]; omega
      rw [if_neg hz]
      refine ⟨c1, rfl, ?_, fun _ _ _ _ => rfl⟩
      intro f hf
      rw [hp1 f hf]
      simp
  have hc2 : getInt c2 k.count = if devs = [] then none else some (devs.length : Int) := by
    rw [← h.count]
    exact (f2 _ _ hk.count (by intro f hf he; exact hk.countPlain f hf (by simpa using he))).trans
      (f1 _ _ hk.count (by intro f hf; simp))
  -- the number
  obtain ⟨c3, h3, g3, f3⟩ : ∃ c3, (if intVal c k.count = 0 then addValue c2 .int ⟨k.count, none⟩ (1 : Int)
        else (setValue c2 .int ⟨k.count, none⟩ (intVal c k.count + 1)).map (fun r => r.1)) = some c3 ∧
      getInt c3 k.count = some (((devs ++ [r]).length : ℕ) : Int) ∧
      (∀ u l, ':' ∉ l.name → (u, l) ≠ (.int, (⟨k.count, none⟩ : Key)) → get c3 u l = get c2 u l) := by
    obtain ⟨s, hs⟩ := mapKey_some k.count none (by intro i hi; simp at hi)
    cases devs with
    | nil =>
      have hz : intVal c k.count = 0 := by rw [hn]; rfl
      rw [if_pos hz]
      have ha : addValue c2 .int ⟨k.count, none⟩ (1 : Int) =
        some (c2.update .int (DataCollection.insert (c2 .int) s (1 : Int))) := by simp [addValue, hs]
      refine ⟨_, ha, ?_, fun u l hl hne => get_add_other ha hk.count hl hne⟩
      refine (get_add ha).trans ?_
      have hc2' : get c2 .int ⟨k.count, none⟩ = none := hc2
      rw [hc2']
      rfl
    | cons d ds =>
      have hz : intVal c k.count ≠ 0 := by rw [hn]; simp only [List.length_cons]; omega
      rw [if_neg hz]
      cases ha : setValue c2 .int ⟨k.count, none⟩ (intVal c k.count + 1) with
      | none => simp [setValue, hs] at ha
      | some p =>
        obtain ⟨c3, b⟩ := p
        refine ⟨c3, rfl, ?_, fun u l hl hne => get_set_other ha hk.count hl hne⟩
        refine (get_set ha).trans ?_
        have hc2' : get c2 .int ⟨k.count, none⟩ = some (((d :: ds).length : ℕ) : Int) := hc2
        rw [hc2', hn]
        simp only [Option.map_some, List.length_append, List.length_cons, List.length_nil]
        rfl
  refine ⟨c3, ?_, ?_⟩
  · unfold addDev
    simp only
    rw [hn, h1]
    simp only [Option.bind_some]
    rw [← hn, h2]
    simp only [Option.bind_some]
    exact h3
  · refine ⟨?_, ?_, ?_, ?_⟩
    · rw [g3, if_neg (by simp)]
    · intro f hf j hj
      rw [f3 _ _ (hcolF f hf) (by simp), f2 _ _ (hcolF f hf) (by intro g hg; simp)]
      by_cases hjn : j = devs.length
      · subst hjn
        rw [g1 f hf, h.fields f hf _ hj, howner, List.getElem?_eq_none (le_refl _),
          List.getElem?_concat_length]
        rfl
      · rw [f1 _ _ (hcolF f hf) (by
          intro g hg he
          simp only [Prod.mk.injEq, Key.mk.injEq, Option.some.injEq] at he
          omega), h.fields f hf j hj]
        by_cases hlt : j < devs.length
        · rw [List.getElem?_append_left hlt]
        · rw [List.getElem?_eq_none (by omega), List.getElem?_eq_none (by simp; omega)]
    · intro f hf
      rw [f3 _ _ (hcolP f hf) (by intro he; exact hk.countPlain f hf (by simpa using he.symm)), g2 f hf]
    · intro u l hl hno
      have e1 : (u, l) ≠ (.int, (⟨k.count, none⟩ : Key)) := by
        intro he
        obtain ⟨rfl, rfl⟩ := Prod.mk.inj he
        exact hno (Or.inl ⟨rfl, Or.inl rfl⟩)
      have e2 : ∀ f ∈ k.plain, (u, l) ≠ (f.ty, (⟨f.name, none⟩ : Key)) := by
        intro f hf he
        obtain ⟨rfl, rfl⟩ := Prod.mk.inj he
        exact hno (Or.inl ⟨rfl, Or.inr ⟨f, hf, rfl⟩⟩)
      have e3 : ∀ f ∈ k.fields, (u, l) ≠ (f.ty, (⟨f.name, some (devs.length : Int)⟩ : Key)) := by
        intro f hf he
        obtain ⟨rfl, rfl⟩ := Prod.mk.inj he
        exact hno (Or.inr ⟨by simp, f, hf, rfl⟩)
      rw [f3 u l hl e1, f2 u l hl e2, f1 u l hl e3, h.frame u l hl hno]

/-! ### A block -/

/-- Tables in which every number of the map is that of one bus. -/
structure MapOk (t : Tables) : Prop where
  valid : ∀ n l, lookup t.busMap n = some l → l < t.bus.length
  inj : ∀ n n' l, lookup t.busMap n = some l → lookup t.busMap n' = some l → n = n'
  nonneg : ∀ n l, lookup t.busMap n = some l → 0 ≤ n

/-- `t'` is `t` with the devices of the given records. -/
structure Filled (cv : Conv) (k : Kind) (home : List Str → Int) (t t' : Tables) (recs : List (List Str)) :
    Prop where
  busMap : t'.busMap = t.busMap
  nameMap : t'.nameMap = t.nameMap
  length : t'.bus.length = t.bus.length
  bus : ∀ n l c0, lookup t.busMap n = some l → t.bus[l]? = some c0 →
    ∃ c, t'.bus[l]? = some c ∧ Has cv k n c0 c (recs.filter (fun r => home r = n))

theorem readDevs_filled (cv : Conv) (k : Kind) (hk : KindOk k) (home : List Str → Int) (t : Tables) (ht : MapOk t) :
    ∀ (recs done : List (List Str)) (t' : Tables), Filled cv k home t t' done →
    (∀ r ∈ recs, ∃ s ss, r = s :: ss ∧ getBusIndex cv t.nameMap s = some (home r)) →
    (∀ r ∈ recs, (lookup t.busMap (home r)).isSome → k.need ≤ r.length) →
    done.length + recs.length ≤ 10000000 →
    ∃ t'', readDevs cv k t' recs = some t'' ∧ Filled cv k home t t'' (done ++ recs) := by
  intro recs
  induction recs with
  | nil => intro done t' h _ _ _; exact ⟨t', rfl, by simpa using h⟩
  | cons r rs ih =>
    intro done t' h hhome hneed hlen
    obtain ⟨s, ss, hr, hg⟩ := hhome r (by simp)
    have hstep : ∃ t1, readDev cv k t' r = some t1 ∧ Filled cv k home t t1 (done ++ [r]) := by
      have hskip : lookup t.busMap (home r) = none →
          Filled cv k home t t' (done ++ [r]) := by
        intro hno
        refine ⟨h.busMap, h.nameMap, h.length, ?_⟩
        intro n l c0 hl hc
        have : home r ≠ n := by rintro rfl; rw [hno] at hl; simp at hl
        obtain ⟨c, h1, h2⟩ := h.bus n l c0 hl hc
        refine ⟨c, h1, ?_⟩
        simpa [this] using h2
      have hgo : readDev cv k t' r = (if k.skipNeg ∧ home r < 0 then some t'
        else match lookup t.busMap (home r) with
          | none => some t'
          | some l =>
            if r.length < k.need then none
            else match t'.bus[l]? with
              | none => none
              | some c => (addDev cv k (home r) c r).map (fun c => { t' with bus := t'.bus.set l c })) := by
        subst hr
        simp only [readDev, h.nameMap, h.busMap, hg]
        rfl
      cases hl : lookup t.busMap (home r) with
      | none =>
        refine ⟨t', ?_, hskip hl⟩
        rw [hgo, hl]
        split_ifs <;> rfl
      | some l =>
        have hlt := ht.valid _ _ hl
        have hc0 : t.bus[l]? = some t.bus[l] := List.getElem?_eq_getElem hlt
        obtain ⟨c, hc, hhas⟩ := h.bus (home r) l _ hl hc0
        obtain ⟨c', ha, hhas'⟩ := has_step cv k hk (home r) _ c _ hhas (by
          have := List.length_filter_le (fun r' => decide (home r' = home r)) done
          simp only [List.length_cons] at hlen
          rw [top_eq]
          omega) r
        refine ⟨{ t' with bus := t'.bus.set l c' }, ?_, ?_⟩
        · rw [hgo, if_neg (by have := ht.nonneg _ _ hl; intro hh; omega), hl]
          have := hneed r (by simp) (by rw [hl]; rfl)
          simp only [hc, ha, Option.map_some]
          rw [if_neg (by omega)]
        · refine ⟨h.busMap, h.nameMap, by simp [h.length], ?_⟩
          intro n m d0 hm hd
          by_cases hnl : n = home r
          · subst hnl
            rw [hl] at hm
            obtain rfl : l = m := by simpa using hm
            rw [hc0] at hd
            obtain rfl : t.bus[l] = d0 := by simpa using hd
            refine ⟨c', by simp [h.length, hlt], ?_⟩
            simpa using hhas'
          · have hml : m ≠ l := by
              rintro rfl
              exact hnl (ht.inj _ _ _ hm hl)
            obtain ⟨d, h1, h2⟩ := h.bus n m d0 hm hd
            refine ⟨d, by rw [← h1]; exact List.getElem?_set_ne (by omega), ?_⟩
            simpa [show home r ≠ n from fun he => hnl he.symm] using h2
    obtain ⟨t1, h1, h2⟩ := hstep
    simp only [readDevs, h1, Option.bind_some]
    obtain ⟨t2, h3, h4⟩ := ih (done ++ [r]) t1 h2 (fun r' hr' => hhome r' (by simp [hr']))
      (fun r' hr' => hneed r' (by simp [hr'])) (by simp only [List.length_append, List.length_cons] at *; simp; omega)
    exact ⟨t2, h3, by simpa using h4⟩

end GridPACK.RawBus

namespace GridPACK.RawBus
open StringUtils BlockParser DataCollection

/-! ### Switched shunts -/

/-- Collection `c` is `c0` with the values of the given records where it had none. -/
structure HasSw (cv : Conv) (c0 c : Data) (devs : List (List Str)) : Prop where
  fields : ∀ f ∈ swFields, get c f.ty ⟨f.name, none⟩ =
    (get c0 f.ty ⟨f.name, none⟩).or (devs.findSome? (fun r => f.value cv 0 0 r))
  frame : ∀ u l, ':' ∉ l.name → (∀ f ∈ swFields, (u, l) ≠ (f.ty, (⟨f.name, none⟩ : Key))) → get c u l = get c0 u l

theorem swFields_ok : FieldsOk swFields := by
  constructor
  · simp only [swFields, intAt, dblAt]
    decide
  · simp only [swFields, intAt, dblAt]
    decide

theorem hasSw_step (cv : Conv) (c0 c : Data) (devs : List (List Str)) (h : HasSw cv c0 c devs) (r : List Str) :
    ∃ c', addFields cv 0 0 r none swFields c = some c' ∧ HasSw cv c0 c' (devs ++ [r]) := by
  obtain ⟨c', h1⟩ := addFields_ok cv 0 0 r none (by intro i hi; simp at hi) swFields c
  refine ⟨c', h1, ?_, ?_⟩
  · intro f hf
    rw [addFields_get cv 0 0 r none swFields swFields_ok c c' h1 f hf, h.fields f hf]
    rw [List.findSome?_append]
    cases get c0 f.ty ⟨f.name, none⟩ with
    | some w => rfl
    | none =>
      cases List.findSome? (fun r => f.value cv 0 0 r) devs with
      | some w => rfl
      | none => simp only [Option.or, List.findSome?_cons, List.findSome?_nil]; cases f.value cv 0 0 r <;> rfl
  · intro u l hl hne
    rw [addFields_get_other cv 0 0 r none swFields swFields_ok.1 u l hl c c' h1 hne, h.frame u l hl hne]

/-- `t'` is `t` with the switched shunts of the given records. -/
structure FilledSw (cv : Conv) (home : List Str → Int) (t t' : Tables) (recs : List (List Str)) : Prop where
  busMap : t'.busMap = t.busMap
  nameMap : t'.nameMap = t.nameMap
  length : t'.bus.length = t.bus.length
  bus : ∀ n l c0, lookup t.busMap n = some l → t.bus[l]? = some c0 →
    ∃ c, t'.bus[l]? = some c ∧ HasSw cv c0 c (recs.filter (fun r => home r = n))

theorem readSws_filled (cv : Conv) (home : List Str → Int) (t : Tables) (ht : MapOk t) :
    ∀ (recs done : List (List Str)) (t' : Tables), FilledSw cv home t t' done →
    (∀ r ∈ recs, ∃ s ss, r = s :: ss ∧ cv.atoi s = home r) →
    (∀ r ∈ recs, (lookup t.busMap (home r)).isSome → 10 ≤ r.length) →
    ∃ t'', readSws cv t' recs = some t'' ∧ FilledSw cv home t t'' (done ++ recs) := by
  intro recs
  induction recs with
  | nil => intro done t' h _ _; exact ⟨t', rfl, by simpa using h⟩
  | cons r rs ih =>
    intro done t' h hhome hneed
    obtain ⟨s, ss, hr, hg⟩ := hhome r (by simp)
    have hstep : ∃ t1, readSw cv t' r = some t1 ∧ FilledSw cv home t t1 (done ++ [r]) := by
      have hgo : readSw cv t' r = (match lookup t.busMap (home r) with
          | none => some t'
          | some l =>
            if r.length < 10 then none
            else match t'.bus[l]? with
              | none => none
              | some c => (addFields cv 0 0 r none swFields c).map (fun c => { t' with bus := t'.bus.set l c })) := by
        rw [← hg]
        subst hr
        simp only [readSw, h.busMap]
        rfl
      cases hl : lookup t.busMap (home r) with
      | none =>
        refine ⟨t', by rw [hgo, hl], h.busMap, h.nameMap, h.length, ?_⟩
        intro n l c0 hl' hc
        have : home r ≠ n := by rintro rfl; rw [hl] at hl'; simp at hl'
        obtain ⟨c, h1, h2⟩ := h.bus n l c0 hl' hc
        refine ⟨c, h1, ?_⟩
        simpa [this] using h2
      | some l =>
        have hlt := ht.valid _ _ hl
        have hc0 : t.bus[l]? = some t.bus[l] := List.getElem?_eq_getElem hlt
        obtain ⟨c, hc, hhas⟩ := h.bus (home r) l _ hl hc0
        obtain ⟨c', ha, hhas'⟩ := hasSw_step cv _ c _ hhas r
        refine ⟨{ t' with bus := t'.bus.set l c' }, ?_, ?_⟩
        · rw [hgo, hl]
          have := hneed r (by simp) (by rw [hl]; rfl)
          simp only [hc, ha, Option.map_some]
          rw [if_neg (by omega)]
        · refine ⟨h.busMap, h.nameMap, by simp [h.length], ?_⟩
          intro n m d0 hm hd
          by_cases hnl : n = home r
          · subst hnl
            rw [hl] at hm
            obtain rfl : l = m := by simpa using hm
            rw [hc0] at hd
            obtain rfl : t.bus[l] = d0 := by simpa using hd
            refine ⟨c', by simp [h.length, hlt], ?_⟩
            simpa using hhas'
          · have hml : m ≠ l := by
              rintro rfl
              exact hnl (ht.inj _ _ _ hm hl)
            obtain ⟨d, h1, h2⟩ := h.bus n m d0 hm hd
            refine ⟨d, by rw [← h1]; exact List.getElem?_set_ne (by omega), ?_⟩
            simpa [show home r ≠ n from fun he => hnl he.symm] using h2
    obtain ⟨t1, h1, h2⟩ := hstep
    simp only [readSws, h1, Option.bind_some]
    obtain ⟨t2, h3, h4⟩ := ih (done ++ [r]) t1 h2 (fun r' hr' => hhome r' (by simp [hr']))
      (fun r' hr' => hneed r' (by simp [hr']))
    exact ⟨t2, h3, by simpa using h4⟩

/-! ### Buses -/

/-- The number of a bus record. -/
def num (cv : Conv) (r : List Str) : Int := cv.atoi (r.headD [])

theorem readBuses_eq (cv : Conv) (sbase : ℝ) (caseId : Int) (nm : List Str → Str) :
    ∀ (recs : List (List Str)) (t : Tables),
    (∀ r ∈ recs, ∃ a b ss q, r = a :: b :: ss ∧ checkString b = .ok (q, nm r)) →
    ∃ ds : List Data, readBuses cv sbase caseId t recs = some
        { bus := t.bus ++ ds
          busMap := t.busMap ++ recs.mapIdx (fun i r => (num cv r, t.bus.length + i))
          nameMap := t.nameMap ++ recs.map (fun r => (nm r, |num cv r|)) } ∧
      ds.length = recs.length ∧ ∀ (i : ℕ) r d, recs[i]? = some r → ds[i]? = some d →
        addFields cv 0 0 r none (busFields sbase caseId (nm r)) empty = some d := by
  intro recs
  induction recs with
  | nil => intro t _; exact ⟨[], by simp [readBuses], rfl, by simp⟩
  | cons r rs ih =>
    intro t h
    obtain ⟨a, b, ss, q, hr, hq⟩ := h r (by simp)
    obtain ⟨d, hd⟩ := addFields_ok cv 0 0 r none (by intro i hi; simp at hi) (busFields sbase caseId (nm r)) empty
    have h1 : readBus cv sbase caseId t r = some
        { bus := t.bus ++ [d]
          busMap := t.busMap ++ [(num cv r, t.bus.length)]
          nameMap := t.nameMap ++ [(nm r, |num cv r|)] } := by
      subst hr
      unfold readBus
      simp only [hq, hd, Option.map_some, num, List.headD_cons]
    obtain ⟨ds, h2, h3, h4⟩ := ih
        { bus := t.bus ++ [d]
          busMap := t.busMap ++ [(num cv r, t.bus.length)]
          nameMap := t.nameMap ++ [(nm r, |num cv r|)] } (fun r' hr' => h r' (by simp [hr']))
    refine ⟨d :: ds, ?_, by simp [h3], ?_⟩
    · simp only [readBuses, h1, Option.bind_some, h2]
      simp only [List.append_assoc, List.cons_append, List.nil_append, List.mapIdx_cons, List.map_cons,
        List.length_append, List.length_cons, List.length_nil, Option.some.injEq, Tables.mk.injEq, true_and,
        Nat.add_zero, and_true]
      congr 3
      funext i r'
      simp only [Prod.mk.injEq, true_and]
      omega
    · intro i r' d' hr' hd'
      cases i with
      | zero => simp at hr' hd'; rw [← hr', ← hd']; exact hd
      | succ i => simp at hr' hd'; exact h4 i r' d' hr' hd'

end GridPACK.RawBus

namespace GridPACK.RawBus
open StringUtils BlockParser DataCollection

/-! ### The blocks of a file do not get into each other's way -/

/-- All names of a block. -/
def Kind.names (k : Kind) : List Str := k.count :: (k.fields ++ k.plain).map Field.name

theorem not_owns (k : Kind) (u : Ty) (l : Key) (h : l.name ∉ k.names) : ¬ Owns k u l := by
  rintro (⟨_, h1 | ⟨f, hf, h1⟩⟩ | ⟨_, f, hf, h1⟩)
  · exact h (by simp only [Prod.mk.injEq] at h1; simp [Kind.names, h1.2])
  · simp only [Prod.mk.injEq] at h1
    exact h (by simp only [Kind.names, List.mem_cons, List.mem_map, List.mem_append]
                exact Or.inr ⟨f, Or.inr hf, h1.2.symm⟩)
  · simp only [Prod.mk.injEq] at h1
    exact h (by simp only [Kind.names, List.mem_cons, List.mem_map, List.mem_append]
                exact Or.inr ⟨f, Or.inl hf, h1.2.symm⟩)

theorem colons_names {k : Kind} (hk : KindOk k) : ∀ s ∈ k.names, ':' ∉ s := by
  intro s hs
  simp only [Kind.names, List.mem_cons, List.mem_map, List.mem_append] at hs
  rcases hs with rfl | ⟨f, hf | hf, rfl⟩
  · exact hk.count
  · exact hk.fields.1 f hf
  · exact hk.plain.1 f hf

/-- A collection without the names of a block is fresh for it. -/
theorem fresh_of (k : Kind) (c : Data) (h : ∀ u l, l.name ∈ k.names → get c u l = none) : Fresh k c where
  count := h _ _ (by simp [Kind.names])
  fields := by
    intro f hf j _
    refine h _ _ ?_
    simp only [Kind.names, List.mem_cons, List.mem_map, List.mem_append]
    exact Or.inr ⟨f, Or.inl hf, rfl⟩
  plain := by
    intro f hf
    refine h _ _ ?_
    simp only [Kind.names, List.mem_cons, List.mem_map, List.mem_append]
    exact Or.inr ⟨f, Or.inr hf, rfl⟩

theorem loadKind_ok : KindOk loadKind where
  fields := ⟨by decide +kernel,
    by decide +kernel⟩
  plain := ⟨by decide +kernel, by decide +kernel⟩
  count := by decide +kernel
  countPlain := by decide +kernel
  owner := by decide +kernel
  ownerPlain := by decide +kernel

theorem shuntKind_ok : KindOk shuntKind where
  fields := ⟨by decide +kernel,
    by decide +kernel⟩
  plain := ⟨by decide +kernel, by decide +kernel⟩
  count := by decide +kernel
  countPlain := by decide +kernel
  owner := by decide +kernel
  ownerPlain := by decide +kernel

theorem genKind_ok : KindOk genKind where
  fields := ⟨by decide +kernel,
    by decide +kernel⟩
  plain := ⟨by decide +kernel, by decide +kernel⟩
  count := by decide +kernel
  countPlain := by decide +kernel
  owner := by decide +kernel
  ownerPlain := by decide +kernel

/-- Names of the values of a bus. -/
def busNames : List Str := (busFields 0 0 []).map Field.name

theorem busFields_names (sbase : ℝ) (caseId : Int) (name : Str) :
    (busFields sbase caseId name).map Field.name = busNames := rfl

theorem busFields_ok (sbase : ℝ) (caseId : Int) (name : Str) : FieldsOk (busFields sbase caseId name) := by
  constructor
  · have h : ∀ s ∈ busNames, ':' ∉ s := by decide +kernel
    intro f hf
    exact h _ (by rw [← busFields_names sbase caseId name]; exact List.mem_map_of_mem hf)
  · have h : ((busFields 0 0 []).map (fun f => (f.ty, f.name))).Nodup := by decide +kernel
    exact h

/-- Names of the values of a switched shunt. -/
def swNames : List Str := swFields.map Field.name

theorem load_shunt : ∀ s ∈ shuntKind.names, s ∉ loadKind.names := by
  decide +kernel

theorem load_gen : ∀ s ∈ genKind.names, s ∉ loadKind.names := by
  decide +kernel

theorem shunt_gen : ∀ s ∈ genKind.names, s ∉ shuntKind.names := by
  decide +kernel

theorem bus_load : ∀ s ∈ busNames, s ∉ loadKind.names := by
  decide +kernel

theorem bus_shunt : ∀ s ∈ busNames, s ∉ shuntKind.names := by
  decide +kernel

theorem bus_gen : ∀ s ∈ busNames, s ∉ genKind.names := by
  decide +kernel

theorem bus_sw : ∀ s ∈ busNames, s ∉ swNames := by
  decide +kernel

theorem sw_load : ∀ s ∈ swNames, s ∉ loadKind.names := by
  decide +kernel

theorem sw_shunt : ∀ s ∈ swNames, s ∉ shuntKind.names := by
  decide +kernel

theorem sw_gen : ∀ s ∈ swNames, s ∉ genKind.names := by
  decide +kernel

end GridPACK.RawBus
