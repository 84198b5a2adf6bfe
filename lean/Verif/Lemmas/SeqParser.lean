import Verif.Lemmas.DyrSpread
import Verif.Props.StringUtils
import Verif.Model.SeqParser
import Verif.Spec.SeqParser

namespace GridPACK.SeqParser
open StringUtils DataCollection Dyr
open RawBus (Val Data get idxOk)
open DyrSpec (count deviceName)

/-! ### Lines -/

theorem rowText_render : ∀ (ws : Row), ws ≠ [] → ∃ l, rowText ws = render ',' 0 l ∧ l.map (·.1) = ws ∧
    ((∀ w ∈ ws, w ≠ [] ∧ ',' ∉ w) → Tokens ',' l) ∧ trailing l = 0 := by
  intro ws h
  induction ws with
  | nil => exact absurd rfl h
  | cons w ws ih =>
    cases ws with
    | nil =>
      refine ⟨[(w, 0)], by simp [rowText, render, List.intercalate], rfl, ?_, by simp [trailing]⟩
      intro hw
      exact hw w (by simp)
    | cons w' ws =>
      obtain ⟨l, h1, h2, h3, h4⟩ := ih (by simp)
      cases l with
      | nil => simp at h2
      | cons x l =>
        refine ⟨(w, 1) :: x :: l, ?_, by simp [h2], ?_, ?_⟩
        · simp only [rowText, render, List.intercalate, List.intersperse_cons₂, List.flatten_cons] at h1 ⊢
          rw [h1]
          simp
        · intro hw
          exact ⟨(hw w (by simp)).1, (hw w (by simp)).2, by simp, h3 (fun y hy => hw y (by simp [hy]))⟩
        · simp [trailing] at h4 ⊢
          exact h4

theorem split_row {ws : Row} (h : Words ws) : charTokenizer (rowText ws) ',' = .ok ws := by
  obtain ⟨l, h1, h2, h3, h4⟩ := rowText_render ws h.1
  rw [h1, StringUtils.C26_charTokenizer_partial ',' 0 l (h3 h.2) (by rintro rfl; exact h.1 (by simpa using h2.symm))
    (by omega), h2]

theorem rowText_head {w : Str} {ws : Row} (hw : w ≠ []) : ∃ r, rowText (w :: ws) = w ++ r := by
  cases ws with
  | nil => exact ⟨[], by simp [rowText, List.intercalate]⟩
  | cons w' ws => exact ⟨_, by simp only [rowText, List.intercalate, List.intersperse_cons₂, List.flatten_cons]; rfl⟩

theorem dropBlanks (n : Nat) {c : Char} (hc : c ≠ ' ') (r : Str) :
    (List.replicate n ' ' ++ c :: r).dropWhile (· = ' ') = c :: r := by
  induction n with
  | zero => simp [hc]
  | succ n ih => simpa [List.replicate_succ] using ih

theorem testEnd_row {m : Nat} {ws : Row} (h : RowOk m ws) : testEnd (rowText ws) = true := by
  obtain ⟨n, c, r, h1, h2, h3⟩ := h.start
  cases ws with
  | nil => simp at h1
  | cons w ws =>
    obtain rfl := Option.some.inj h1
    obtain ⟨r', hr⟩ := rowText_head (w := List.replicate n ' ' ++ c :: r) (ws := ws) (by simp)
    rw [hr, testEnd, List.append_assoc, List.cons_append]
    rw [if_neg (by
      cases n with
      | zero => simp [h3]
      | succ n => simp [List.replicate_succ])]
    rw [dropBlanks n h2]
    simp [h3]

theorem testEnd_end {line : Str} (h : IsEnd line) : testEnd line = false := by
  rcases h with ⟨r, rfl⟩ | ⟨n, r, rfl, hr⟩
  · simp [testEnd]
  · unfold testEnd
    split
    · rfl
    · rw [dropBlanks n (by decide)]
      cases r with
      | nil => simp
      | cons d r =>
        obtain rfl : d = ' ' := by simpa using hr
        simp

/-! ### Tables -/

variable {K : Type} [DecidableEq K]

/-- The struct of a component. -/
def Table.look (t : Table K) (k : K) : Option Struct := (t.place k).bind (fun i => t.data[i]?)

/-- The map numbers the structs. -/
structure Table.WF (t : Table K) : Prop where
  places : t.ids.map (·.2) = List.range t.data.length
  nodup : (t.ids.map (·.1)).Nodup

theorem Table.WF.length {t : Table K} (h : t.WF) : t.ids.length = t.data.length := by
  have := congrArg List.length h.places
  simpa using this

theorem Table.WF.at {t : Table K} (h : t.WF) {i : Nat} {p : K × Nat} (hp : t.ids[i]? = some p) : p.2 = i := by
  have h1 : (t.ids.map (·.2))[i]? = some p.2 := by rw [List.getElem?_map, hp]; rfl
  rw [h.places] at h1
  obtain ⟨h2, h3⟩ := List.getElem?_eq_some_iff.mp h1
  simpa using h3.symm

theorem Table.WF.place_iff {t : Table K} (h : t.WF) {k : K} {i : Nat} :
    t.place k = some i ↔ (t.ids.map (·.1))[i]? = some k := by
  unfold Table.place
  constructor
  · intro hp
    obtain ⟨p, h1, rfl⟩ := Option.map_eq_some_iff.mp hp
    have hk : p.1 = k := by simpa using List.find?_some h1
    obtain ⟨j, hj⟩ := List.getElem?_of_mem (List.mem_of_find?_eq_some h1)
    rw [h.at hj, List.getElem?_map, hj, Option.map_some, hk]
  · intro hi
    obtain ⟨p, hp, hk⟩ : ∃ p, t.ids[i]? = some p ∧ p.1 = k := by
      rw [List.getElem?_map] at hi
      exact Option.map_eq_some_iff.mp hi
    have hsome : (t.ids.find? (fun p => p.1 = k)).isSome := by
      rw [List.find?_isSome]
      exact ⟨p, List.mem_of_getElem? hp, by simpa using hk⟩
    obtain ⟨q, hq⟩ := Option.isSome_iff_exists.mp hsome
    have hqk : q.1 = k := by simpa using List.find?_some hq
    obtain ⟨j, hj⟩ := List.getElem?_of_mem (List.mem_of_find?_eq_some hq)
    have hij : i = j := by
      have hi' : i < (t.ids.map (·.1)).length := (List.getElem?_eq_some_iff.mp hi).1
      refine (List.getElem?_inj hi' h.nodup).mp ?_
      rw [hi, List.getElem?_map, hj, Option.map_some, hqk]
    subst hij
    rw [hq, Option.map_some, h.at hj]

theorem Table.WF.look_at {t : Table K} (h : t.WF) {k : K} {i : Nat} (hp : t.place k = some i) :
    ∃ s, t.data[i]? = some s ∧ t.look k = some s := by
  have h1 := h.place_iff.mp hp
  have hi : i < t.data.length := by
    have := (List.getElem?_eq_some_iff.mp h1).1
    rw [List.length_map, h.length] at this
    exact this
  exact ⟨t.data[i], List.getElem?_eq_getElem hi, by simp [Table.look, hp, hi]⟩

theorem Table.WF.look_none {t : Table K} (h : t.WF) {k : K} : t.look k = none ↔ t.place k = none := by
  constructor
  · intro hl
    cases hp : t.place k with
    | none => rfl
    | some i =>
      obtain ⟨s, -, hs⟩ := h.look_at hp
      rw [hl] at hs
      cases hs
  · intro hp
    simp [Table.look, hp]

/-- The structs are those of the components. -/
theorem Table.WF.mem {t : Table K} (h : t.WF) {s : Struct} (hs : s ∈ t.data) : ∃ k, t.look k = some s := by
  obtain ⟨i, hi⟩ := List.getElem?_of_mem hs
  have hl : i < t.ids.length := by rw [h.length]; exact (List.getElem?_eq_some_iff.mp hi).1
  refine ⟨t.ids[i].1, ?_⟩
  have : t.place t.ids[i].1 = some i := h.place_iff.mpr (by simp [hl])
  simp [Table.look, this, hi]

/-- The struct of a component, the others before and after it. -/
theorem Table.WF.split {t : Table K} (h : t.WF) {k : K} {s : Struct} (hs : t.look k = some s) :
    ∃ d1 d2, t.data = d1 ++ s :: d2 ∧ ∀ x ∈ d1 ++ d2, ∃ k', k' ≠ k ∧ t.look k' = some x := by
  obtain ⟨i, hp, hi⟩ := Option.bind_eq_some_iff.mp hs
  obtain ⟨hl, hi'⟩ := List.getElem?_eq_some_iff.mp hi
  refine ⟨t.data.take i, t.data.drop (i + 1), ?_, ?_⟩
  · rw [← hi', ← List.drop_eq_getElem_cons hl, List.take_append_drop]
  · have key : ∀ j, j ≠ i → ∀ x, t.data[j]? = some x → ∃ k', k' ≠ k ∧ t.look k' = some x := by
      intro j hj x hx
      have hjl : j < t.ids.length := by rw [h.length]; exact (List.getElem?_eq_some_iff.mp hx).1
      have hpj : t.place t.ids[j].1 = some j := h.place_iff.mpr (by simp [hjl])
      refine ⟨t.ids[j].1, ?_, by simp [Table.look, hpj, hx]⟩
      intro he
      rw [he, hp] at hpj
      exact hj (Option.some.inj hpj).symm
    intro x hx
    rcases List.mem_append.mp hx with hx | hx
    · obtain ⟨j, hj⟩ := List.getElem?_of_mem hx
      have hjl : j < i := by
        have := (List.getElem?_eq_some_iff.mp hj).1
        rw [List.length_take] at this
        omega
      rw [List.getElem?_take_of_lt hjl] at hj
      exact key j (by omega) x hj
    · obtain ⟨j, hj⟩ := List.getElem?_of_mem hx
      rw [List.getElem?_drop] at hj
      exact key (i + 1 + j) (by omega) x hj

theorem fresh_wf : (⟨[], []⟩ : Table K).WF := ⟨rfl, List.nodup_nil⟩

theorem fresh_look (k : K) : (⟨[], []⟩ : Table K).look k = none := rfl

/-- One row: the struct of its component is changed or made, the others stay. -/
theorem step_ok {sec : Sec K} {cv : Conv} {t : Table K} (h : t.WF) {junk : Struct} {ts : List Str} {k : K}
    (hk : sec.key cv ts = some k)
    (hold : ∀ s, t.look k = some s → ∃ s', runStore cv ts (sec.old ts) (setFlags (sec.oldFlags ts) s) = some s')
    (hnew : t.look k = none → ∃ s', runStore cv ts (sec.new ts) (setFlags (sec.newFlags ts) junk) = some s') :
    ∃ t' s', sec.step cv t (junk, ts) = some t' ∧ t'.WF ∧ t'.look k = some s' ∧
      (∀ k', k' ≠ k → t'.look k' = t.look k') ∧
      ((∃ s, t.look k = some s ∧ runStore cv ts (sec.old ts) (setFlags (sec.oldFlags ts) s) = some s') ∨
        (t.look k = none ∧ runStore cv ts (sec.new ts) (setFlags (sec.newFlags ts) junk) = some s')) := by
  unfold Sec.step
  simp only [hk, Option.bind_some]
  cases hp : t.place k with
  | some i =>
    obtain ⟨s, hs, hl⟩ := h.look_at hp
    obtain ⟨s', hs'⟩ := hold s hl
    have hil : i < t.data.length := (List.getElem?_eq_some_iff.mp hs).1
    have hplace : ∀ k', Table.place (⟨t.data.set i s', t.ids⟩ : Table K) k' = t.place k' := fun _ => rfl
    refine ⟨⟨t.data.set i s', t.ids⟩, s', by simp [hs, hs'], ⟨by simpa using h.places, h.nodup⟩, ?_, ?_,
      Or.inl ⟨s, hl, hs'⟩⟩
    · simp [Table.look, hplace, hp, hil]
    · intro k' hk'
      unfold Table.look
      rw [hplace]
      cases hp' : t.place k' with
      | none => rfl
      | some j =>
        have hji : i ≠ j := by
          rintro rfl
          have h1 := h.place_iff.mp hp
          have h2 := h.place_iff.mp hp'
          rw [h1] at h2
          exact hk' (Option.some.inj h2).symm
        simp [hji]
  | none =>
    have hl : t.look k = none := h.look_none.mpr hp
    obtain ⟨s', hs'⟩ := hnew hl
    have hwf : Table.WF (⟨t.data ++ [s'], t.ids ++ [(k, t.data.length)]⟩ : Table K) := by
      refine ⟨?_, ?_⟩
      · simp [h.places, List.range_succ]
      · simp only [List.map_append, List.map_cons, List.map_nil]
        rw [List.nodup_append]
        refine ⟨h.nodup, by simp, ?_⟩
        intro a ha b hb
        obtain rfl : b = k := by simpa using hb
        rintro rfl
        obtain ⟨i, hi⟩ := List.getElem?_of_mem ha
        rw [h.place_iff.mpr hi] at hp
        cases hp
    refine ⟨⟨t.data ++ [s'], t.ids ++ [(k, t.data.length)]⟩, s', by simp [hs'], hwf, ?_, ?_, Or.inr ⟨hl, hs'⟩⟩
    · have : Table.place (⟨t.data ++ [s'], t.ids ++ [(k, t.data.length)]⟩ : Table K) k = some t.data.length :=
        hwf.place_iff.mpr (by simp [← h.length])
      simp [Table.look, this]
    · intro k' hk'
      unfold Table.look
      have hpp : Table.place (⟨t.data ++ [s'], t.ids ++ [(k, t.data.length)]⟩ : Table K) k' = t.place k' := by
        simp only [Table.place, List.find?_append]
        cases hf : t.ids.find? (fun p => p.1 = k') with
        | some q => simp
        | none => simp [Ne.symm hk']
      rw [hpp]
      cases hp' : t.place k' with
      | none => rfl
      | some j =>
        have : j < t.data.length := by
          obtain ⟨x, hx, -⟩ := h.look_at hp'
          exact (List.getElem?_eq_some_iff.mp hx).1
        simp only [Option.bind_some]
        rw [List.getElem?_append_left this]

/-- A section: an invariant that each row keeps. -/
theorem read_ok {sec : Sec K} {cv : Conv} {m : Nat} {e : Str} (he : IsEnd e) (Inv : List Row → Table K → Prop)
    {rows : List Row} (hrows : ∀ r ∈ rows, RowOk m r) (J : Struct → Prop)
    (hstep : ∀ done r t junk, r ∈ rows → J junk → Inv done t →
      ∃ t', sec.step cv t (junk, r) = some t' ∧ Inv (done ++ [r]) t') :
    ∀ {recs : List (Struct × Str)} {rest : List Str}, recs.map (·.2) = rows.map rowText ++ e :: rest →
      (∀ r ∈ recs, J r.1) →
      ∀ {done : List Row} {t : Table K}, Inv done t → ∃ t' recs', sec.read cv recs t = some (t', recs') ∧
        recs'.map (·.2) = rest ∧ (∀ r ∈ recs', r ∈ recs) ∧ Inv (done ++ rows) t' := by
  induction rows with
  | nil =>
    intro recs rest hr hJ done t hi
    obtain ⟨r, recs', rfl, h1, h2⟩ := List.map_eq_cons_iff.mp hr
    refine ⟨t, recs', ?_, h2, fun x hx => List.mem_cons_of_mem _ hx, by simpa using hi⟩
    rw [Sec.read, h1, testEnd_end he]
    rfl
  | cons row rows ih =>
    intro recs rest hr hJ done t hi
    obtain ⟨r, recs', rfl, h1, h2⟩ := List.map_eq_cons_iff.mp hr
    have hok := hrows row (by simp)
    obtain ⟨t1, h3, h4⟩ := hstep done row t r.1 (by simp) (hJ r (by simp)) hi
    obtain ⟨t', recs'', h5, h6, h7, h8⟩ := ih (fun x hx => hrows x (by simp [hx]))
      (fun d x t j hx => hstep d x t j (by simp [hx])) h2 (fun x hx => hJ x (by simp [hx])) h4
    refine ⟨t', recs'', ?_, h6, fun x hx => List.mem_cons_of_mem _ (h7 x hx), by simpa using h8⟩
    rw [Sec.read, h1, testEnd_row hok, split_row hok.words]
    simp [h3, h5]

theorem skip_ok {e : Str} (he : IsEnd e) {m : Nat} {rows : List Row} (hrows : ∀ r ∈ rows, RowOk m r) :
    ∀ {recs : List (Struct × Str)} {rest : List Str}, recs.map (·.2) = rows.map rowText ++ e :: rest →
      (skip recs).map (·.2) = rest ∧ ∀ r ∈ skip recs, r ∈ recs := by
  induction rows with
  | nil =>
    intro recs rest hr
    obtain ⟨r, recs', rfl, h1, h2⟩ := List.map_eq_cons_iff.mp hr
    rw [skip, h1, testEnd_end he]
    exact ⟨h2, fun x hx => List.mem_cons_of_mem _ hx⟩
  | cons row rows ih =>
    intro recs rest hr
    obtain ⟨r, recs', rfl, h1, h2⟩ := List.map_eq_cons_iff.mp hr
    rw [skip, h1, testEnd_row (hrows row (by simp))]
    obtain ⟨h3, h4⟩ := ih (fun x hx => hrows x (by simp [hx])) h2
    exact ⟨h3, fun x hx => List.mem_cons_of_mem _ (h4 x hx)⟩

end GridPACK.SeqParser
