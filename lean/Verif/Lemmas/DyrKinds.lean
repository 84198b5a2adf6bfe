import Verif.Lemmas.Dyr
import Verif.Model.DyrFile
import Verif.Spec.Dyr

/-! Lemmas about reading .dyr files: comparison of the steps of a class with the file format. -/
namespace GridPACK.Dyr
open StringUtils DataCollection
open RawBus (Val Data get idxOk)
open DyrSpec (Par Complete Rest IsDevice)

/-- The source of a parameter according to the format. -/
def srcOf : Par → Src
  | .num _ n => .dbl n
  | .int _ n => .int n
  | .whole _ n => .trunc n
  | .tag _ n => .tag n
  | .name _ n => .name n
  | .flag _ => .yes

/-- The place of the token. -/
def Src.place : Src → Option Nat
  | .int n | .dbl n | .trunc n | .name n | .tag n => some n
  | .yes => none

theorem eval_of_place (cv : Conv) (ts : List Str) (a : Src) (h : ∀ n, a.place = some n → n < ts.length) :
    ∃ v, a.eval cv ts = some v := by
  cases a <;> simp only [Src.place, Option.some.injEq, forall_eq'] at h <;>
    simp only [Src.eval] <;> first | exact ⟨_, rfl⟩ | (rw [List.getElem?_eq_getElem h]; exact ⟨_, rfl⟩)

theorem stored_iff (cv : Conv) (ts : List Str) (c : Data) (idx : Option Int) (p : Par) :
    p.Stored cv ts c idx ↔ ∃ v, (srcOf p).eval cv ts = some v ∧ Has c ⟨p.key.toList, idx⟩ v := by
  cases p <;>
    simp only [Par.Stored, srcOf, Src.eval, Option.map_eq_some_iff, Par.key, Has, Option.some.injEq]
  case flag k => exact ⟨fun h => ⟨_, rfl, h⟩, by rintro ⟨v, rfl, h⟩; exact h⟩
  all_goals
    constructor
    · rintro ⟨t, ht, h⟩; exact ⟨_, ⟨t, ht, rfl⟩, h⟩
    · rintro ⟨v, ⟨t, ht, rfl⟩, h⟩; exact ⟨t, ht, h⟩

/-- The last place of a format. -/
def lastPlace (ps : List Par) : Nat := ps.foldr (fun p m => max (p.place.getD 0) m) 0

theorem lt_of_lastPlace {ps : List Par} {ts : List Str} (h : Complete ps ts) (hne : ∃ p ∈ ps, p.place ≠ none) :
    lastPlace ps < ts.length := by
  have key : ∀ qs : List Par, (∀ p ∈ qs, p ∈ ps) → 0 < ts.length → lastPlace qs < ts.length := by
    intro qs
    induction qs with
    | nil => intro _ h0; exact h0
    | cons p qs ih =>
      intro hsub h0
      have h1 : lastPlace qs < ts.length := ih (fun x hx => hsub x (by simp [hx])) h0
      have h2 : p.place.getD 0 < ts.length := by
        cases hp : p.place with
        | none => exact h0
        | some n => exact h p (hsub p (by simp)) n hp
      have : lastPlace (p :: qs) = max (p.place.getD 0) (lastPlace qs) := rfl
      rw [this]
      exact max_lt h2 h1
  obtain ⟨p, hp, hn⟩ := hne
  obtain ⟨n, hn⟩ := Option.ne_none_iff_exists'.mp hn
  exact key ps (fun _ h => h) (lt_of_le_of_lt (Nat.zero_le _) (h p hp n hn))

/-- The source of the value that `store` and `extract` leave under a name. -/
def extSrc (k : Kind) (name : String) : Option Src :=
  match fate FSrc.ty k.extract name with
  | .gives .yes => some .yes
  | .gives (.field t f) =>
    match memberSrc k.store f with
    | some a => if a.ty = t then some a else none
    | none => none
  | _ => none

/-- The source of the value that `parse` leaves under a name. -/
def dirSrc (k : Kind) (name : String) : Option Src :=
  match fate Src.ty k.parse name with
  | .gives a => some a
  | _ => none

/-- Guard and place are not beyond place `w`. -/
def within (w : Nat) (g : Option Nat) (a : Src) : Bool := g.getD 0 ≤ w && a.place.getD 0 ≤ w

/-- The name is in the list. -/
def among (l : List String) (k : String) : Bool := l.any (fun x => same x k)

theorem among_iff {l : List String} {k : String} : among l k = true ↔ k ∈ l := by
  simp [among, same_iff]

/-- The parameters of a format have proper names and a token at place 2 or later. -/
def formatOk (ps : List Par) : Bool := ps.all (fun p => plainName p.key) && decide (2 ≤ lastPlace ps)

/-- `store` and `extract` follow the format, except for the names in `bad`. -/
def extOk (k : Kind) (ps : List Par) (bad : List String) : Bool :=
  k.extract.all (fun e => e.guard.isNone && among (ps.map Par.key) e.addKey && among (ps.map Par.key) e.setKey) &&
  k.store.all (fun e => within (lastPlace ps) e.guard e.src) &&
  ps.all (fun p => among bad p.key || decide (extSrc k p.key = some (srcOf p)))

/-- `parse` follows the format, except for the names in `bad`. -/
def dirOk (k : Kind) (ps : List Par) (bad : List String) : Bool :=
  k.parse.all (fun e => among (ps.map Par.key) e.addKey && among (ps.map Par.key) e.setKey &&
    within (lastPlace ps) e.guard e.add && within (lastPlace ps) none e.set) &&
  ps.all (fun p => among bad p.key || decide (dirSrc k p.key = some (srcOf p)))

theorem within_use {w : Nat} {g : Option Nat} {a : Src} (h : within w g a = true) {ts : List Str}
    (hw : w < ts.length) (cv : Conv) : passes ts.length g = true ∧ (a.eval cv ts).isSome := by
  simp only [within, Bool.and_eq_true, decide_eq_true_eq] at h
  refine ⟨?_, ?_⟩
  · cases g with
    | none => rfl
    | some n => simpa [passes] using lt_of_le_of_lt h.1 hw
  · obtain ⟨v, hv⟩ := eval_of_place cv ts a (fun n hn => by
      have := h.2
      rw [hn] at this
      exact lt_of_le_of_lt this hw)
    simp [hv]

theorem last_lt {ps : List Par} (hf : formatOk ps = true) {ts : List Str} (hc : Complete ps ts) :
    lastPlace ps < ts.length := by
  apply lt_of_lastPlace hc
  simp only [formatOk, Bool.and_eq_true, decide_eq_true_eq] at hf
  by_contra hne
  push Not at hne
  have : ∀ qs : List Par, (∀ p ∈ qs, p.place = none) → lastPlace qs = 0 := by
    intro qs
    induction qs with
    | nil => intro _; rfl
    | cons p qs ih =>
      intro h
      have e : lastPlace (p :: qs) = max (p.place.getD 0) (lastPlace qs) := rfl
      rw [e, h p (by simp), ih (fun x hx => h x (by simp [hx]))]
      rfl
  rw [this ps hne] at hf
  omega

theorem two_lt {ps : List Par} (hf : formatOk ps = true) {ts : List Str} (hc : Complete ps ts) : 2 < ts.length := by
  have := last_lt hf hc
  simp only [formatOk, Bool.and_eq_true, decide_eq_true_eq] at hf
  omega

theorem key_plain {ps : List Par} (hf : formatOk ps = true) : ∀ p ∈ ps, ':' ∉ p.key.toList := by
  simp only [formatOk, Bool.and_eq_true, List.all_eq_true] at hf
  exact fun p hp => noColon_of (hf.1 p hp)

theorem rest_of {ps : List Par} {idx : Option Int} {α : Type} {es : List (Entry α)}
    (h : ∀ e ∈ es, e.addKey ∈ ps.map Par.key ∧ e.setKey ∈ ps.map Par.key) {k : Key}
    (hk : k.idx = idx → ∀ p ∈ ps, k.name ≠ p.key.toList) :
    k.idx = idx → ∀ e ∈ es, k.name ≠ e.addKey.toList ∧ k.name ≠ e.setKey.toList := by
  intro hi e he
  obtain ⟨h1, h2⟩ := h e he
  obtain ⟨p, hp, h1⟩ := List.mem_map.mp h1
  obtain ⟨q, hq, h2⟩ := List.mem_map.mp h2
  exact ⟨h1 ▸ hk hi p hp, h2 ▸ hk hi q hq⟩

/-- What `parse` does with a complete record. -/
theorem parse_ok {k : Kind} {ps : List Par} {bad : List String} (hf : formatOk ps = true)
    (hk : dirOk k ps bad = true) (cv : Conv) {ts : List Str} (hc : Complete ps ts) {idx : Option Int}
    (hi : idxOk idx) (c : Data) :
    ∃ c', k.runParse cv ts idx c = some c' ∧ (∀ p ∈ ps, p.key ∉ bad → p.Stored cv ts c' idx) ∧ Rest ps idx c c' := by
  have hw := last_lt hf hc
  have hpl := key_plain hf
  simp only [dirOk, Bool.and_eq_true, List.all_eq_true, Bool.or_eq_true, among_iff, decide_eq_true_eq] at hk
  obtain ⟨hes, hps⟩ := hk
  have hfull : Full (Src.eval cv ts) ts.length k.parse := fun e he =>
    ⟨(within_use (hes e he).1.2 hw cv).1, (within_use (hes e he).1.2 hw cv).2, (within_use (hes e he).2 hw cv).2⟩
  have hno : NoColon k.parse := by
    intro e he
    obtain ⟨p, hp, h1⟩ := List.mem_map.mp (hes e he).1.1.1
    obtain ⟨q, hq, h2⟩ := List.mem_map.mp (hes e he).1.1.2
    exact ⟨h1 ▸ hpl p hp, h2 ▸ hpl q hq⟩
  obtain ⟨c', hc'⟩ := runEntries_some hi hfull c
  refine ⟨c', hc', ?_, ?_⟩
  · intro p hp hb
    rw [stored_iff]
    have hsrc := (hps p hp).resolve_left hb
    unfold dirSrc at hsrc
    cases hft : fate Src.ty k.parse p.key with
    | untouched => simp [hft] at hsrc
    | unclear => simp [hft] at hsrc
    | gives a =>
      simp only [hft, Option.some.injEq] at hsrc
      subst hsrc
      obtain ⟨v, hv⟩ : ∃ v, (srcOf p).eval cv ts = some v := by
        apply eval_of_place
        intro n hn
        refine hc p hp n ?_
        cases p <;> simp_all [srcOf, Src.place, Par.place]
      exact ⟨v, hv, runEntries_gives (src_ty cv ts) hi (hpl p hp) hv hno (fun e he _ => (hfull e he).1) hft hc'⟩
  · intro t key hname hne
    exact runEntries_other hi hno hname (rest_of (fun e he => ⟨(hes e he).1.1.1, (hes e he).1.1.2⟩) hne) hc'

/-- What `store` and `extract` do with a complete record. -/
theorem ext_ok {k : Kind} {ps : List Par} {bad : List String} (hf : formatOk ps = true)
    (hk : extOk k ps bad = true) (cv : Conv) {ts : List Str} (hc : Complete ps ts) (s0 : Struct) :
    ∃ s, runStore cv ts k.store s0 = some s ∧
      (∀ f a v, memberSrc k.store f = some a → a.eval cv ts = some v → s v.1 f = v.2) ∧
      (∀ t f, memberSrc k.store f = none → s t f = s0 t f) ∧
      ∀ {idx : Option Int}, idxOk idx → ∀ c, ∃ c', k.runExtract s idx c = some c' ∧
        (∀ p ∈ ps, p.key ∉ bad → p.Stored cv ts c' idx) ∧ Rest ps idx c c' := by
  have hw := last_lt hf hc
  have hpl := key_plain hf
  simp only [extOk, Bool.and_eq_true, List.all_eq_true, Bool.or_eq_true, among_iff, decide_eq_true_eq] at hk
  obtain ⟨⟨hes, hst⟩, hps⟩ := hk
  obtain ⟨s, hs⟩ := runStore_some s0 (fun e he _ => (within_use (hst e he) hw cv).2)
  have hmem : ∀ f a v, memberSrc k.store f = some a → a.eval cv ts = some v → s v.1 f = v.2 :=
    fun f a v hm hv => runStore_member hv hm (fun e he => (within_use (hst e he) hw cv).1) hs
  refine ⟨s, hs, hmem, fun t f hm => runStore_other (memberSrc_none hm) hs, ?_⟩
  intro idx hi c
  have hfull : Full (fun f => some (FSrc.eval s f)) 0 k.extract := by
    intro e he
    have hg := (hes e he).1.1
    rw [Option.isNone_iff_eq_none] at hg
    refine ⟨by rw [hg]; rfl, rfl, rfl⟩
  have hno : NoColon k.extract := by
    intro e he
    obtain ⟨p, hp, h1⟩ := List.mem_map.mp (hes e he).1.2
    obtain ⟨q, hq, h2⟩ := List.mem_map.mp (hes e he).2
    exact ⟨h1 ▸ hpl p hp, h2 ▸ hpl q hq⟩
  obtain ⟨c', hc'⟩ := runEntries_some hi hfull c
  refine ⟨c', hc', ?_, ?_⟩
  · intro p hp hb
    rw [stored_iff]
    have hsrc := (hps p hp).resolve_left hb
    obtain ⟨v, hv⟩ : ∃ v, (srcOf p).eval cv ts = some v := by
      apply eval_of_place
      intro n hn
      refine hc p hp n ?_
      cases p <;> simp_all [srcOf, Src.place, Par.place]
    refine ⟨v, hv, ?_⟩
    unfold extSrc at hsrc
    cases hft : fate FSrc.ty k.extract p.key with
    | untouched => simp [hft] at hsrc
    | unclear => simp [hft] at hsrc
    | gives a =>
      refine runEntries_gives (fsrc_ty s) hi (hpl p hp) ?_ hno (fun e he _ => (hfull e he).1) hft hc'
      cases a with
      | yes =>
        simp only [hft, Option.some.injEq] at hsrc
        rw [← hsrc] at hv
        exact hv
      | field t f =>
        simp only [hft] at hsrc
        cases hms : memberSrc k.store f with
        | none => simp [hms] at hsrc
        | some b =>
          simp only [hms] at hsrc
          split at hsrc
          · rename_i hty
            obtain rfl := Option.some.inj hsrc
            have h1 := hmem f _ v hms hv
            have h2 := src_ty cv ts _ v hv
            simp only [FSrc.eval, Option.some.injEq]
            rw [← hty, ← h2, h1]
          · simp at hsrc
  · intro t key hname hne
    exact runEntries_other hi hno hname (rest_of (fun e he => ⟨(hes e he).1.2, (hes e he).2⟩) hne) hc'

end GridPACK.Dyr
