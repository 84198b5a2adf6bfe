import Verif.Spec.DeviceLoad
import Verif.Lemmas.DyrExternal

/-! Lemmas on loading devices. -/
namespace GridPACK.DeviceLoad
open StringUtils DataCollection Dyr DyrSpec DeviceSpec
open RawBus (Val Data get idxOk mapKey_some getValue_get)

theorem fetch_eq {c : Data} {m : String} {t : Ty} {k : Key} {d : Dflt} {s : Struct} (hk : (mapKey k).isSome) :
    fetch c m t k d s = some (match get c t k with | some v => s.put m ⟨t, v⟩ | none => d.run s m t) := by
  unfold fetch
  rw [getValue_get c t k _ hk]
  cases get c t k <;> rfl

theorem key_some {idx : Int} (hi : idxOk (some idx)) (k : String) : (mapKey ⟨k.toList, some idx⟩).isSome := by
  obtain ⟨s, hs⟩ := mapKey_some k.toList (some idx) hi
  rw [hs]; rfl

theorem bus_some (k : String) : (mapKey ⟨k.toList, none⟩).isSome := by simp [mapKey]

theorem step_some {c : Data} {idx : Int} (hi : idxOk (some idx)) (e : Step) (s : Struct) :
    ∃ s', e.run c idx s = some s' := by
  cases e with
  | get m t k d => exact ⟨_, fetch_eq (key_some hi k)⟩
  | bus m t k d => exact ⟨_, fetch_eq (bus_some k)⟩
  | put m v => exact ⟨_, rfl⟩
  | whenTiny m o => exact ⟨_, rfl⟩

theorem load_some {c : Data} {idx : Int} (hi : idxOk (some idx)) : ∀ (es : List Step) (s : Struct),
    ∃ s', load c idx es s = some s'
  | [], s => ⟨s, rfl⟩
  | e :: es, s => by
    obtain ⟨s1, h1⟩ := step_some (c := c) hi e s
    obtain ⟨s2, h2⟩ := load_some hi es s1
    exact ⟨s2, by rw [load, h1]; exact h2⟩

/-- The member that a statement is about. -/
def Step.member : Step → String
  | .get m _ _ _ | .bus m _ _ _ | .put m _ | .whenTiny m _ => m

/-- The key whose value the member has in the end. -/
def source (mem : String) : Option (Ty × String) → List Step → Option (Ty × String)
  | a, [] => a
  | a, e :: es =>
    source mem (if same e.member mem then (match e with | .get _ t k _ => some (t, k) | _ => none) else a) es

/-- Statements that assign to another member only if there is no value. -/
def intos : List Step → List (Ty × String)
  | [] => []
  | .get _ t k (.into _ _) :: es => (t, k) :: intos es
  | _ :: es => intos es

/-- No such statements without index. -/
def noBusInto : List Step → Bool
  | [] => true
  | .bus _ _ _ (.into _ _) :: _ => false
  | _ :: es => noBusInto es

theorem dflt_other {d : Dflt} {s : Struct} {m : String} {t u : Ty} {mem : String} (h : mem ≠ m)
    (hd : ∀ o v, d ≠ .into o v) : d.run s m t u mem = s u mem := by
  cases d with
  | keep => rfl
  | num v => cases t <;> first | rfl | exact put_other _ _ _ h
  | pair a b => exact put_other _ _ _ h
  | text x => exact put_other _ _ _ h
  | copy o => exact put_other _ _ _ h
  | copyInt o => exact put_other _ _ _ h
  | into o v => exact absurd rfl (hd o v)

theorem fetch_other {c : Data} {m : String} {t : Ty} {k : Key} {d : Dflt} {s s' : Struct} (hk : (mapKey k).isSome)
    (hf : fetch c m t k d s = some s') {u : Ty} {mem : String} (h : mem ≠ m)
    (hd : (∃ o v, d = .into o v) → (get c t k).isSome) : s' u mem = s u mem := by
  rw [fetch_eq hk] at hf
  obtain rfl := Option.some.inj hf
  cases hg : get c t k with
  | some v => simp only []; exact put_other _ _ _ h
  | none =>
    simp only []
    exact dflt_other h (fun o v he => by have := hd ⟨o, v, he⟩; rw [hg] at this; simp at this)

theorem load_source {c : Data} {idx : Int} (hi : idxOk (some idx)) {mem : String} {t : Ty} {k : String} {v : Val t}
    (hv : get c t ⟨k.toList, some idx⟩ = some v) : ∀ (es : List Step) (a : Option (Ty × String)) (s s' : Struct),
    (∀ x ∈ intos es, (get c x.1 ⟨x.2.toList, some idx⟩).isSome) → noBusInto es = true →
    (a = some (t, k) → s t mem = v) → source mem a es = some (t, k) → load c idx es s = some s' → s' t mem = v := by
  intro es
  induction es with
  | nil =>
    intro a s s' _ _ h hs hl
    obtain rfl := Option.some.inj hl
    exact h hs
  | cons e es ih =>
    intro a s s' hin hnb h hs hl
    rw [load] at hl
    obtain ⟨s1, h1⟩ := step_some (c := c) hi e s
    rw [h1] at hl
    have hin' : ∀ x ∈ intos es, (get c x.1 ⟨x.2.toList, some idx⟩).isSome := by
      intro x hx
      refine hin x ?_
      unfold intos
      split <;> simp_all
    have hnb' : noBusInto es = true := by
      unfold noBusInto at hnb
      split at hnb <;> simp_all
    refine ih _ s1 s' hin' hnb' ?_ hs hl
    intro ha
    by_cases hm : same e.member mem = true
    · rw [if_pos hm] at ha
      rw [same_iff] at hm
      cases e with
      | get m t' k' d =>
        simp only [Option.some.injEq, Prod.mk.injEq] at ha
        obtain ⟨rfl, rfl⟩ := ha
        simp only [Step.member] at hm
        subst hm
        rw [Step.run, fetch_eq (key_some hi _), hv] at h1
        obtain rfl := Option.some.inj h1
        exact put_same _ _ _
      | bus m t' k' d => simp at ha
      | put m v => simp at ha
      | whenTiny m o => simp at ha
    · rw [if_neg hm] at ha
      have hne : mem ≠ e.member := fun he => hm (same_iff.mpr he.symm)
      rw [← h ha]
      cases e with
      | get m t' k' d =>
        refine fetch_other (key_some hi _) h1 hne ?_
        rintro ⟨o, w, rfl⟩
        exact hin (t', k') (by simp [intos])
      | bus m t' k' d =>
        refine fetch_other (bus_some _) h1 hne ?_
        rintro ⟨o, w, rfl⟩
        simp [noBusInto] at hnb
      | put m w =>
        obtain rfl := Option.some.inj h1
        exact put_other _ _ _ hne
      | whenTiny m o =>
        obtain rfl := Option.some.inj h1
        split_ifs
        · exact put_other _ _ _ hne
        · rfl

/-! ### Tables -/

/-- The entry of a table for a name. -/
def lookup {β : Type} (tab : List (String × β)) (m : String) : Option β := (tab.find? (fun x => same x.1 m)).map (·.2)

theorem lookup_of {β : Type} {tab : List (String × β)} (hd : distinctNames tab = true) {m : String} {k : β}
    (h : (m, k) ∈ tab) : lookup tab m = some k := by
  induction tab with
  | nil => simp at h
  | cons x xs ih =>
    simp only [distinctNames, Bool.and_eq_true, Bool.not_eq_true'] at hd
    rcases List.mem_cons.mp h with rfl | h
    · have : same m m = true := same_iff.mpr rfl
      simp [lookup, this]
    · have hne : same x.1 m = false := by
        rw [same_false]
        rintro rfl
        have h1 : among (xs.map (·.1)) x.1 = true := among_iff.mpr (List.mem_map.mpr ⟨_, h, rfl⟩)
        rw [h1] at hd
        simp at hd
      have := ih hd.2 h
      unfold lookup at this ⊢
      rw [List.find?_cons, hne]
      exact this

theorem lookup_mem {β : Type} {tab : List (String × β)} {m : String} {k : β} (h : lookup tab m = some k) :
    (m, k) ∈ tab := by
  unfold lookup at h
  obtain ⟨x, hx, rfl⟩ := Option.map_eq_some_iff.mp h
  have h1 := List.find?_some hx
  rw [same_iff] at h1
  subst h1
  exact List.mem_of_find?_eq_some hx

theorem find_of {β : Type} {tab : List (String × β)} (hd : distinctNames tab = true) {m : String} {k : β}
    (h : (m, k) ∈ tab) : tab.find? (fun x => decide (x.1.toList = m.toList)) = some (m, k) := by
  induction tab with
  | nil => simp at h
  | cons x xs ih =>
    simp only [distinctNames, Bool.and_eq_true, Bool.not_eq_true'] at hd
    rcases List.mem_cons.mp h with rfl | h
    · simp
    · have hne : x.1 ≠ m := by
        rintro rfl
        have h1 : among (xs.map (·.1)) x.1 = true := among_iff.mpr (List.mem_map.mpr ⟨_, h, rfl⟩)
        rw [h1] at hd
        simp at hd
      have hne' : decide (x.1.toList = m.toList) = false := by
        simpa using fun he => hne (String.toList_injective he)
      rw [List.find?_cons, hne']
      exact ih hd.2 h

/-- Equality of parameters. -/
def parIs : Par → Par → Bool
  | .num k n, .num k' n' | .int k n, .int k' n' | .whole k n, .whole k' n' | .tag k n, .tag k' n'
  | .name k n, .name k' n' => same k k' && Nat.beq n n'
  | .flag k, .flag k' => same k k'
  | _, _ => false

theorem parIs_eq {a b : Par} (h : parIs a b = true) : a = b := by
  cases a <;> cases b <;> simp only [parIs, Bool.and_eq_true, same_iff, Nat.beq_eq, reduceCtorEq, Bool.false_eq_true] at h
  case flag.flag => rw [h]
  all_goals rw [h.1, h.2]

def hasPar (ps : List Par) (p : Par) : Bool := ps.any (fun x => parIs x p)

theorem hasPar_mem {ps : List Par} {p : Par} (h : hasPar ps p = true) : p ∈ ps := by
  obtain ⟨x, hx, he⟩ := List.any_eq_true.mp h
  exact parIs_eq he ▸ hx

/-- A pair is in a table. -/
def amongPairs (l : List (String × String)) (a b : String) : Bool := l.any (fun x => same x.1 a && same x.2 b)

theorem amongPairs_iff {l : List (String × String)} {a b : String} : amongPairs l a b = true ↔ (a, b) ∈ l := by
  simp only [amongPairs, List.any_eq_true, Bool.and_eq_true, same_iff]
  constructor
  · rintro ⟨⟨x, y⟩, hx, rfl, rfl⟩; exact hx
  · intro h; exact ⟨(a, b), h, rfl, rfl⟩

/-- The parameter that fits a quantity. -/
def _root_.GridPACK.DeviceSpec.Quantity.par (k : String) : Quantity → Par
  | .num _ n => .num k n
  | .int _ n => .int k n
  | .whole _ n => .whole k n
  | .word _ n => .tag k n

def _root_.GridPACK.DeviceSpec.Quantity.ty : Quantity → Ty
  | .num _ _ => .double
  | .int _ _ => .int
  | .whole _ _ => .int
  | .word _ _ => .string

/-- A parameter is read by the device and stored by the reader. -/
def good (m : String) (ps : List Par) (p : Par) : Bool :=
  hasPar ps p && !amongPairs externalErrors m p.key && !same p.key "WIND_ID"

def wired (m : String) (ps : List Par) (es : List Step) (q : Quantity) : Bool :=
  match source q.name none es with
  | some (t, k) => decide (t = q.ty) && good m ps (q.par k)
  | none => false

def headOk (m : String) (sl : Slot) (ps : List Par) : Bool :=
  good m ps (.name sl.model 1) && (match sl.flag with | none => true | some f => good m ps (.flag f))

def deviceOk (d : String × Slot × List Quantity) : Bool :=
  match lookup DyrSpec.gens d.1, lookup d.2.1.classes d.1 with
  | some ps, some es =>
    d.2.2.all (fun q => amongPairs deviceErrors d.1 q.name || wired d.1 ps es q) &&
      (intos es).all (fun x => decide (x.1 = .double) && ps.any (fun p => match p with
        | .num k n => same k x.2 && good d.1 ps (.num k n) | _ => false)) && noBusInto es && headOk d.1 d.2.1 ps
  | _, _ => false

set_option maxRecDepth 100000 in
theorem devices_ok : devices.all deviceOk = true := by decide +kernel

def namesOk (m : String) : Bool := decide (typeOf m.toList = some m.toList)

theorem names_ok : (kinds.map (·.1)).all namesOk = true := by decide +kernel

theorem classes_distinct (sl : Slot) : distinctNames sl.classes = true := by cases sl <;> decide +kernel

theorem kinds_distinct : distinctNames kinds = true := by decide +kernel

theorem heads_ok : kinds.all (fun x => match lookup DyrSpec.gens x.1 with
    | some ps => headOk x.1 x.2 ps | none => false) = true := by decide +kernel

theorem gens_kinds : DyrSpec.gens.all (fun x => (lookup kinds x.1).isSome) = true := by decide +kernel

def ofKind (sl : Slot) (x : String × List Par) : Bool := decide (lookup kinds x.1 = some sl)

/-- The formats of the models of a kind, without the parameter that the parts of a wind turbine share. -/
def ownKeys (sl : Slot) : List (String × List Par) :=
  (DyrSpec.gens.filter (ofKind sl)).map (fun x => (x.1, x.2.filter (fun p => !same p.key "WIND_ID")))

set_option maxRecDepth 100000 in
theorem kinds_disjoint (sl : Slot) :
    avoids (ownKeys sl) (keysOf (DyrSpec.gens.filter (fun x => !ofKind sl x))) = true := by
  cases sl <;> decide +kernel

theorem others_disjoint {sl : Slot} {m m' : String} {ps ps' : List Par} (hm : (m, ps) ∈ DyrSpec.gens)
    (hk : (m, sl) ∈ kinds) (hm' : (m', ps') ∈ DyrSpec.gens) (hk' : (m', sl) ∉ kinds) {p : Par} (hp : p ∈ ps)
    (hw : p.key ≠ "WIND_ID") : p.key ∉ ps'.map Par.key := by
  intro hin
  have h1 : (m, ps.filter (fun p => !same p.key "WIND_ID")) ∈ ownKeys sl := by
    refine List.mem_map.mpr ⟨(m, ps), List.mem_filter.mpr ⟨hm, ?_⟩, rfl⟩
    simp [ofKind, lookup_of kinds_distinct hk]
  have h2 : p ∈ ps.filter (fun p => !same p.key "WIND_ID") := by
    refine List.mem_filter.mpr ⟨hp, ?_⟩
    simpa [same_false] using hw
  refine avoids_use (kinds_disjoint sl) h1 h2 ?_
  refine List.mem_flatMap.mpr ⟨(m', ps'), List.mem_filter.mpr ⟨hm', ?_⟩, hin⟩
  simp only [ofKind, Bool.not_eq_true', decide_eq_false_iff_not]
  exact fun he => hk' (lookup_mem he)

/-- The reader stores the parameters of the record. -/
def AllStored (cv : Conv) (r : List Str) (m : String) (ps : List Par) (c : Data) (g : Int) : Prop :=
  ∀ p ∈ ps, (m, p.key) ∉ externalErrors → p.key ≠ "WIND_ID" → p.Stored cv r c (some g)

theorem good_stored {cv : Conv} {r : List Str} {m : String} {ps : List Par} {c : Data} {g : Int}
    (h : AllStored cv r m ps c g) {p : Par} (hp : good m ps p = true) : p.Stored cv r c (some g) := by
  simp only [good, Bool.and_eq_true, Bool.not_eq_true'] at hp
  refine h p (hasPar_mem hp.1.1) (fun he => ?_) (same_false.mp hp.2)
  rw [amongPairs_iff.mpr he] at hp
  simp at hp

theorem head_stored {cv : Conv} {r : List Str} {m : String} {sl : Slot} {ps : List Par} {c : Data} {g : Int}
    (hk : (m, sl) ∈ kinds) (hps : (m, ps) ∈ DyrSpec.gens) (h : AllStored cv r m ps c g) {t1 : Str}
    (h1 : r[1]? = some t1) (hn : cv.name t1 = m.toList) :
    get c .string ⟨sl.model.toList, some g⟩ = some m.toList ∧
      ∀ f, sl.flag = some f → get c .bool ⟨f.toList, some g⟩ = some true := by
  have ho := List.all_eq_true.mp heads_ok _ hk
  simp only [lookup_of spec_gens_distinct hps, headOk, Bool.and_eq_true] at ho
  constructor
  · obtain ⟨t, ht, hs⟩ := good_stored h ho.1
    rw [h1] at ht
    obtain rfl := Option.some.inj ht
    rw [hs, hn]
  · intro f hf
    have h2 := ho.2
    rw [hf] at h2
    exact good_stored h h2

theorem create_of {m : String} {sl : Slot} {es : List Step} (hk : (m, sl) ∈ kinds) (h : (m, es) ∈ sl.classes) :
    sl.create m.toList = some (m, es) := by
  have hn := List.all_eq_true.mp names_ok m (List.mem_map.mpr ⟨_, hk, rfl⟩)
  simp only [namesOk, decide_eq_true_eq] at hn
  rw [Slot.create, hn, Option.bind_some, find_of (classes_distinct sl) h]

theorem kinds_of_devices {m : String} {sl : Slot} {qs : List Quantity} (h : (m, sl, qs) ∈ devices) :
    (m, sl) ∈ kinds := List.mem_append_left _ (List.mem_map.mpr ⟨_, h, rfl⟩)

/-- A device gets the values of its record. -/
theorem device_holds {cv : Conv} {r : List Str} {m : String} {sl : Slot} {qs : List Quantity} {ps : List Par}
    {c : Data} {g : Int} (hd : (m, sl, qs) ∈ devices) (hps : (m, ps) ∈ DyrSpec.gens) (hi : idxOk (some g))
    (h : AllStored cv r m ps c g) (junk : Struct) :
    ∃ es s, sl.create m.toList = some (m, es) ∧ load c g es junk = some s ∧
      ∀ q ∈ qs, (m, q.name) ∉ deviceErrors → q.Holds cv r s := by
  have ho := List.all_eq_true.mp devices_ok _ hd
  unfold deviceOk at ho
  simp only [lookup_of spec_gens_distinct hps] at ho
  cases hl : lookup sl.classes m with
  | none => rw [hl] at ho; simp at ho
  | some es =>
    rw [hl] at ho
    simp only [Bool.and_eq_true, List.all_eq_true] at ho
    obtain ⟨⟨⟨hq, hin⟩, hnb⟩, -⟩ := ho
    obtain ⟨s, hs⟩ := load_some (c := c) hi es junk
    refine ⟨es, s, create_of (kinds_of_devices hd) (lookup_mem hl), hs, ?_⟩
    have hin' : ∀ x ∈ intos es, (get c x.1 ⟨x.2.toList, some g⟩).isSome := by
      intro x hx
      obtain ⟨h1, h2⟩ := hin x hx
      obtain ⟨p, hp, h3⟩ := List.any_eq_true.mp h2
      rw [decide_eq_true_eq] at h1
      cases p with
      | num k n =>
        simp only [Bool.and_eq_true, same_iff] at h3
        obtain ⟨t, _, h4⟩ := good_stored h h3.2
        rw [h1, ← h3.1, h4]; rfl
      | _ => simp at h3
    intro q hqm hne
    have hw := hq q hqm
    rw [Bool.or_eq_true] at hw
    rcases hw with hw | hw
    · exact absurd (amongPairs_iff.mp hw) hne
    unfold wired at hw
    cases hsrc : source q.name none es with
    | none => rw [hsrc] at hw; simp at hw
    | some x =>
      obtain ⟨t, k⟩ := x
      rw [hsrc] at hw
      simp only [Bool.and_eq_true, decide_eq_true_eq] at hw
      obtain ⟨rfl, hg⟩ := hw
      have hst := good_stored h hg
      cases q with
      | num a n =>
        obtain ⟨t, ht, hv⟩ := hst
        exact ⟨t, ht, load_source hi hv es none junk s hin' hnb (by simp) hsrc hs⟩
      | int a n =>
        obtain ⟨t, ht, hv⟩ := hst
        exact ⟨t, ht, load_source hi hv es none junk s hin' hnb (by simp) hsrc hs⟩
      | whole a n =>
        obtain ⟨t, ht, hv⟩ := hst
        exact ⟨t, ht, load_source hi hv es none junk s hin' hnb (by simp) hsrc hs⟩
      | word a n =>
        obtain ⟨t, ht, hv⟩ := hst
        exact ⟨t, ht, load_source hi hv es none junk s hin' hnb (by simp) hsrc hs⟩

end GridPACK.DeviceLoad
