import Verif.Model.DyrTables
import Verif.Lemmas.RawBus

/-! Lemmas about reading .dyr files: what a list of steps leaves in a data collection. -/
namespace GridPACK.Dyr
open StringUtils DataCollection
open RawBus (Val Data get idxOk get_add get_add_other get_set get_set_other mapKey_some)

/-- A typed value is stored under a key. -/
def Has (c : Data) (k : Key) (v : AnyVal) : Prop := get c v.1 k = some v.2

theorem probe_get (c : Data) (t : Ty) (k : Key) {s : Str} (hs : mapKey k = some s) :
    (DataCollection.find (c t) s).isSome = (get c t k).isSome := by
  unfold RawBus.get
  rw [hs]; rfl

/-- What happens in one step, without the map keys. -/
theorem runEntry_eq {α : Type} (val : α → Option AnyVal) (nstr : Nat) (idx : Option Int) (hi : idxOk idx)
    (e : Entry α) (c : Data) :
    runEntry val nstr idx e c =
      if passes nstr e.guard then
        if (get c e.probe ⟨e.probeKey.toList, idx⟩).isSome then
          (val e.set).bind (fun v => (setValue c v.1 ⟨e.setKey.toList, idx⟩ v.2).map (·.1))
        else (val e.add).bind (fun v => addValue c v.1 ⟨e.addKey.toList, idx⟩ v.2)
      else some c := by
  obtain ⟨s, hs⟩ := mapKey_some e.probeKey.toList idx hi
  unfold runEntry
  rw [hs, Option.map_some, probe_get c e.probe ⟨e.probeKey.toList, idx⟩ hs]
  cases (get c e.probe ⟨e.probeKey.toList, idx⟩).isSome <;> simp

/-- All values needed are there: every guard is passed and every value can be computed. -/
def Full {α : Type} (val : α → Option AnyVal) (nstr : Nat) (es : List (Entry α)) : Prop :=
  ∀ e ∈ es, passes nstr e.guard = true ∧ (val e.add).isSome ∧ (val e.set).isSome

theorem runEntry_some {α : Type} {val : α → Option AnyVal} {nstr : Nat} {idx : Option Int} (hi : idxOk idx)
    {e : Entry α} (h : passes nstr e.guard = true ∧ (val e.add).isSome ∧ (val e.set).isSome) (c : Data) :
    ∃ c', runEntry val nstr idx e c = some c' := by
  obtain ⟨_, ha, hb⟩ := h
  obtain ⟨a, ha⟩ := Option.isSome_iff_exists.mp ha
  obtain ⟨b, hb⟩ := Option.isSome_iff_exists.mp hb
  obtain ⟨s, hs⟩ := mapKey_some e.setKey.toList idx hi
  obtain ⟨r, hr⟩ := mapKey_some e.addKey.toList idx hi
  rw [runEntry_eq _ _ _ hi]
  simp only [ha, hb, Option.bind_some, addValue, setValue, hs, hr, Option.map_some]
  split_ifs <;> exact ⟨_, rfl⟩

theorem runEntries_some {α : Type} {val : α → Option AnyVal} {nstr : Nat} {idx : Option Int} (hi : idxOk idx)
    {es : List (Entry α)} (h : Full val nstr es) : ∀ c : Data, ∃ c', runEntries val nstr idx es c = some c' := by
  induction es with
  | nil => intro c; exact ⟨c, rfl⟩
  | cons e es ih =>
    intro c
    obtain ⟨c1, h1⟩ := runEntry_some hi (h e (by simp)) c
    obtain ⟨c2, h2⟩ := ih (fun x hx => h x (by simp [hx])) c1
    exact ⟨c2, by simp [runEntries, h1, h2]⟩

theorem runEntry_other {α : Type} {val : α → Option AnyVal} {nstr : Nat} {idx : Option Int} (hi : idxOk idx)
    {e : Entry α} {c c' : Data} (h : runEntry val nstr idx e c = some c')
    (ha : ':' ∉ e.addKey.toList) (hs : ':' ∉ e.setKey.toList) {u : Ty} {l : Key} (hl : ':' ∉ l.name)
    (hne : l.idx = idx → l.name ≠ e.addKey.toList ∧ l.name ≠ e.setKey.toList) :
    get c' u l = get c u l := by
  rw [runEntry_eq _ _ _ hi] at h
  have key : ∀ (t : Ty) (n : Str), (l.idx = idx → l.name ≠ n) → (u, l) ≠ (t, (⟨n, idx⟩ : Key)) := by
    intro t n hn heq
    rw [Prod.mk.injEq] at heq
    rw [heq.2] at hn
    exact hn rfl rfl
  split at h
  · split at h
    · cases hv : val e.set with
      | none => simp [hv] at h
      | some v =>
        simp only [hv, Option.bind_some, Option.map_eq_some_iff] at h
        obtain ⟨r, hr, rfl⟩ := h
        obtain ⟨d, b⟩ := r
        exact get_set_other hr hs hl (key _ _ (fun hh => (hne hh).2))
    · cases hv : val e.add with
      | none => simp [hv] at h
      | some v =>
        simp only [hv, Option.bind_some] at h
        exact get_add_other h ha hl (key _ _ (fun hh => (hne hh).1))
  · obtain rfl := Option.some.inj h
    rfl

/-- The bytes of a string as one number. -/
def code (s : String) : Nat := s.toByteArray.data.toList.foldl (fun n b => n * 256 + b.toNat) 0

/-- Equality of strings, quick to evaluate when they differ. -/
def same (a b : String) : Bool := Nat.beq (code a) (code b) && a == b

theorem same_iff {a b : String} : same a b = true ↔ a = b := by
  unfold same
  constructor
  · intro h
    rw [Bool.and_eq_true] at h
    exact beq_iff_eq.mp h.2
  · rintro rfl
    simp

theorem same_false {a b : String} : same a b = false ↔ a ≠ b := by
  rw [← Bool.not_eq_true, same_iff]

/-- No byte of the string is a colon. -/
def plainName (s : String) : Bool := s.toByteArray.data.toList.all (fun b => !Nat.beq b.toNat 58)

theorem noColon_of {s : String} (h : plainName s = true) : ':' ∉ s.toList := by
  intro hm
  have hb : (58 : UInt8) ∈ s.toByteArray.data.toList := by
    rw [← String.utf8Encode_toList]
    simp only [List.utf8Encode, List.data_toByteArray]
    exact List.mem_flatMap.mpr ⟨':', hm, by decide⟩
  unfold plainName at h
  rw [List.all_eq_true] at h
  have := h 58 hb
  simp at this

/-- A step that always stores `a` under the name `k`. -/
def Entry.Sets {α : Type} (ty : α → Ty) (e : Entry α) (k : String) (a : α) : Prop :=
  e.probeKey = k ∧ e.addKey = k ∧ e.setKey = k ∧ e.add = a ∧ e.set = a ∧ e.probe = ty a

/-- The test for it. -/
def Entry.sets {α : Type} [DecidableEq α] (ty : α → Ty) (e : Entry α) (k : String) : Bool :=
  same e.probeKey k && same e.addKey k && same e.setKey k && decide (e.set = e.add) && decide (e.probe = ty e.add)

theorem Entry.sets_iff {α : Type} [DecidableEq α] {ty : α → Ty} {e : Entry α} {k : String} :
    e.sets ty k = true ↔ e.Sets ty k e.add := by
  simp [Entry.sets, Entry.Sets, same_iff, and_assoc]

theorem runEntry_sets {α : Type} {ty : α → Ty} {val : α → Option AnyVal}
    (hty : ∀ a v, val a = some v → v.1 = ty a) {nstr : Nat} {idx : Option Int} (hi : idxOk idx)
    {e : Entry α} {c c' : Data} (h : runEntry val nstr idx e c = some c') (hp : passes nstr e.guard = true)
    {k : String} {a : α} (hs : e.Sets ty k a) {v : AnyVal} (hv : val a = some v) :
    Has c' ⟨k.toList, idx⟩ v := by
  obtain ⟨h1, h2, h3, h4, h5, h6⟩ := hs
  rw [runEntry_eq _ _ _ hi, if_pos hp, h1, h2, h3, h4, h5, h6, hv] at h
  have ht := hty a v hv
  simp only [Option.bind_some] at h
  rw [← ht] at h
  unfold Has
  split at h
  · rename_i hsome
    simp only [Option.map_eq_some_iff] at h
    obtain ⟨r, hr, rfl⟩ := h
    obtain ⟨d, b⟩ := r
    rw [get_set hr]
    obtain ⟨w, hw⟩ := Option.isSome_iff_exists.mp hsome
    rw [hw]; rfl
  · rename_i hnone
    rw [get_add h]
    simp only [Bool.not_eq_true, Option.isSome_eq_false_iff, Option.isNone_iff_eq_none] at hnone
    rw [hnone]; rfl

/-- What a list of steps does under a name: nothing, store a certain value, or something else. -/
inductive Fate (α : Type) where
  | untouched
  | gives (a : α)
  | unclear
deriving DecidableEq

/-- The last step that stores under the name decides. -/
def fate {α : Type} [DecidableEq α] (ty : α → Ty) : List (Entry α) → String → Fate α
  | [], _ => .untouched
  | e :: es, k =>
    match fate ty es k with
    | .untouched =>
      if same e.addKey k || same e.setKey k then
        if e.sets ty k then .gives e.add else .unclear
      else .untouched
    | r => r

/-- No name contains a colon. -/
def NoColon {α : Type} (es : List (Entry α)) : Prop :=
  ∀ e ∈ es, ':' ∉ e.addKey.toList ∧ ':' ∉ e.setKey.toList

instance {α : Type} (es : List (Entry α)) : Decidable (NoColon es) := by unfold NoColon; infer_instance

theorem ofList_toList_ne {a b : String} (h : a ≠ b) : a.toList ≠ b.toList := fun h' => h (String.toList_injective h')

theorem fate_untouched {α : Type} [DecidableEq α] {ty : α → Ty} {es : List (Entry α)} {k : String}
    (h : fate ty es k = .untouched) : ∀ e ∈ es, e.addKey ≠ k ∧ e.setKey ≠ k := by
  induction es with
  | nil => simp
  | cons e es ih =>
    simp only [fate] at h
    cases hf : fate ty es k with
    | gives a => simp [hf] at h
    | unclear => simp [hf] at h
    | untouched =>
      simp only [hf] at h
      split at h
      · split at h <;> simp at h
      · rename_i hne
        intro x hx
        rcases List.mem_cons.mp hx with rfl | hx
        · simpa only [Bool.or_eq_true, same_iff, not_or] using hne
        · exact ih hf x hx

/-- A key whose index differs, or whose name no step stores, keeps its value. -/
theorem runEntries_other {α : Type} {val : α → Option AnyVal} {nstr : Nat} {idx : Option Int} (hi : idxOk idx)
    {es : List (Entry α)} (hc : NoColon es) {u : Ty} {l : Key} (hl : ':' ∉ l.name)
    (hne : l.idx = idx → ∀ e ∈ es, l.name ≠ e.addKey.toList ∧ l.name ≠ e.setKey.toList) :
    ∀ {c c' : Data}, runEntries val nstr idx es c = some c' → get c' u l = get c u l := by
  induction es with
  | nil => intro c c' h; obtain rfl := Option.some.inj h; rfl
  | cons e es ih =>
    intro c c' h
    simp only [runEntries, Option.bind_eq_some_iff] at h
    obtain ⟨c1, h1, h2⟩ := h
    rw [ih (fun x hx => hc x (by simp [hx])) (fun hh x hx => hne hh x (by simp [hx])) h2]
    exact runEntry_other hi h1 (hc e (by simp)).1 (hc e (by simp)).2 hl (fun hh => hne hh e (by simp))

/-- A name whose last step stores `a` has this value afterwards. -/
theorem runEntries_gives {α : Type} [DecidableEq α] {ty : α → Ty} {val : α → Option AnyVal}
    (hty : ∀ a v, val a = some v → v.1 = ty a) {nstr : Nat} {idx : Option Int} (hi : idxOk idx)
    {k : String} (hk : ':' ∉ k.toList) {a : α} {v : AnyVal} (hv : val a = some v)
    {es : List (Entry α)} (hc : NoColon es) (hp : ∀ e ∈ es, e.add = a → passes nstr e.guard = true) :
    ∀ {c c' : Data}, fate ty es k = .gives a → runEntries val nstr idx es c = some c' →
      Has c' ⟨k.toList, idx⟩ v := by
  induction es with
  | nil => intro c c' h; simp [fate] at h
  | cons e es ih =>
    intro c c' hf h
    simp only [runEntries, Option.bind_eq_some_iff] at h
    obtain ⟨c1, h1, h2⟩ := h
    simp only [fate] at hf
    cases hg : fate ty es k with
    | gives b =>
      simp only [hg, Fate.gives.injEq] at hf
      exact ih (fun x hx => hc x (by simp [hx])) (fun x hx => hp x (by simp [hx])) (hf ▸ hg) h2
    | unclear => simp [hg] at hf
    | untouched =>
      simp only [hg] at hf
      split at hf
      · split at hf
        · rename_i hs
          simp only [Fate.gives.injEq] at hf
          have := runEntry_sets hty hi h1 (hp e (by simp) hf) (hf ▸ Entry.sets_iff.mp hs) hv
          unfold Has at this ⊢
          rw [← this]
          exact runEntries_other hi (fun x hx => hc x (by simp [hx])) hk
            (fun _ x hx => ⟨(ofList_toList_ne (fate_untouched hg x hx).1).symm,
              (ofList_toList_ne (fate_untouched hg x hx).2).symm⟩) h2
        · simp at hf
      · simp at hf

theorem src_ty (cv : Conv) (ts : List Str) (a : Src) (v : AnyVal) (h : a.eval cv ts = some v) : v.1 = a.ty := by
  cases a <;> simp only [Src.eval, Option.map_eq_some_iff, Option.some.injEq] at h <;>
    first
    | (obtain ⟨_, _, rfl⟩ := h; rfl)
    | (subst h; rfl)

theorem fsrc_ty (s : Struct) (a : FSrc) (v : AnyVal) (h : some (a.eval s) = some v) : v.1 = a.ty := by
  obtain rfl := Option.some.inj h
  cases a <;> rfl

/-- Which source a member of the struct has after `store`. -/
def memberSrc : List SEntry → String → Option Src
  | [], _ => none
  | e :: es, f =>
    match memberSrc es f with
    | some a => some a
    | none => if same e.field f then some e.src else none

theorem put_same (s : Struct) (f : String) (v : AnyVal) : (s.put f v) v.1 f = v.2 := by
  simp [Struct.put]

theorem put_other (s : Struct) (f : String) (v : AnyVal) {t : Ty} {g : String} (h : g ≠ f) :
    (s.put f v) t g = s t g := by
  simp [Struct.put, h]

theorem memberSrc_none {es : List SEntry} {f : String} (h : memberSrc es f = none) : ∀ e ∈ es, e.field ≠ f := by
  induction es with
  | nil => simp
  | cons e es ih =>
    simp only [memberSrc] at h
    cases hm : memberSrc es f with
    | some a => simp [hm] at h
    | none =>
      simp only [hm] at h
      intro x hx
      rcases List.mem_cons.mp hx with rfl | hx
      · intro hf; simp [same_iff.mpr hf] at h
      · exact ih hm x hx

theorem runStore_other {cv : Conv} {ts : List Str} {t : Ty} {f : String} : ∀ {es : List SEntry} {s s' : Struct},
    (∀ e ∈ es, e.field ≠ f) → runStore cv ts es s = some s' → s' t f = s t f := by
  intro es
  induction es with
  | nil => intro s s' _ h; obtain rfl := Option.some.inj h; rfl
  | cons e es ih =>
    intro s s' hne h
    simp only [runStore] at h
    split at h
    · simp only [Option.bind_eq_some_iff] at h
      obtain ⟨v, _, h⟩ := h
      rw [ih (fun x hx => hne x (by simp [hx])) h, put_other _ _ _ (hne e (by simp)).symm]
    · exact ih (fun x hx => hne x (by simp [hx])) h

theorem runStore_member {cv : Conv} {ts : List Str} {f : String} {a : Src} {v : AnyVal}
    (hv : a.eval cv ts = some v) : ∀ {es : List SEntry} {s s' : Struct}, memberSrc es f = some a →
      (∀ e ∈ es, passes ts.length e.guard = true) → runStore cv ts es s = some s' → s' v.1 f = v.2 := by
  intro es
  induction es with
  | nil => intro s s' h; simp [memberSrc] at h
  | cons e es ih =>
    intro s s' hm hp h
    simp only [runStore, hp e (by simp), if_true, Option.bind_eq_some_iff] at h
    obtain ⟨w, hw, h⟩ := h
    simp only [memberSrc] at hm
    cases hr : memberSrc es f with
    | some b =>
      simp only [hr, Option.some.injEq] at hm
      exact ih (hm ▸ hr) (fun x hx => hp x (by simp [hx])) h
    | none =>
      simp only [hr] at hm
      split at hm
      · rename_i hf
        obtain rfl := Option.some.inj hm
        rw [hv] at hw
        obtain rfl := Option.some.inj hw
        rw [runStore_other (memberSrc_none hr) h, same_iff.mp hf, put_same]
      · simp at hm

theorem runStore_some {cv : Conv} {ts : List Str} : ∀ {es : List SEntry} (s : Struct),
    (∀ e ∈ es, passes ts.length e.guard = true → (e.src.eval cv ts).isSome) → ∃ s', runStore cv ts es s = some s' := by
  intro es
  induction es with
  | nil => intro s _; exact ⟨s, rfl⟩
  | cons e es ih =>
    intro s h
    simp only [runStore]
    split
    · rename_i hp
      obtain ⟨v, hv⟩ := Option.isSome_iff_exists.mp (h e (by simp) hp)
      rw [hv]
      exact ih _ (fun x hx => h x (by simp [hx]))
    · exact ih s (fun x hx => h x (by simp [hx]))

end GridPACK.Dyr
