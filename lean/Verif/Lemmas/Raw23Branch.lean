import Verif.Spec.Raw23
import Verif.Lemmas.Raw23

/-! Auxiliary facts for the branches of files of version 23. -/
namespace GridPACK.Raw23
open StringUtils BlockParser DataCollection RawBus RawBranch YMatrix

theorem ends_link (cv : Conv) (ts : List Str) : ends cv ts = ((link cv ts).a, (link cv ts).b) := by
  cases ts with
  | nil => rfl
  | cons a ts => cases ts <;> rfl

theorem long_line (ts : List Str) (h : 16 ≤ ts.length) :
    ∃ t0 t1 t2 t3 t4 t5 t6 t7 t8 t9 t10 t11 t12 t13 t14 t15 rest, ts =
      t0 :: t1 :: t2 :: t3 :: t4 :: t5 :: t6 :: t7 :: t8 :: t9 :: t10 :: t11 :: t12 :: t13 :: t14 :: t15 :: rest := by
  have cut : ∀ (l : List Str) n, n + 1 ≤ l.length → ∃ a m, l = a :: m ∧ n ≤ m.length := by
    intro l n hl
    cases l with
    | nil => simp at hl
    | cons a m => exact ⟨a, m, rfl, by simpa using hl⟩
  obtain ⟨t0, r0, rfl, h0⟩ := cut _ _ h
  obtain ⟨t1, r1, rfl, h1⟩ := cut _ _ h0
  obtain ⟨t2, r2, rfl, h2⟩ := cut _ _ h1
  obtain ⟨t3, r3, rfl, h3⟩ := cut _ _ h2
  obtain ⟨t4, r4, rfl, h4⟩ := cut _ _ h3
  obtain ⟨t5, r5, rfl, h5⟩ := cut _ _ h4
  obtain ⟨t6, r6, rfl, h6⟩ := cut _ _ h5
  obtain ⟨t7, r7, rfl, h7⟩ := cut _ _ h6
  obtain ⟨t8, r8, rfl, h8⟩ := cut _ _ h7
  obtain ⟨t9, r9, rfl, h9⟩ := cut _ _ h8
  obtain ⟨t10, r10, rfl, h10⟩ := cut _ _ h9
  obtain ⟨t11, r11, rfl, h11⟩ := cut _ _ h10
  obtain ⟨t12, r12, rfl, h12⟩ := cut _ _ h11
  obtain ⟨t13, r13, rfl, h13⟩ := cut _ _ h12
  obtain ⟨t14, r14, rfl, h14⟩ := cut _ _ h13
  obtain ⟨t15, r15, rfl, h15⟩ := cut _ _ h14
  exact ⟨t0, t1, t2, t3, t4, t5, t6, t7, t8, t9, t10, t11, t12, t13, t14, t15, r15, rfl⟩

/-- The port of the link as the branch sees it when the line has the opposite direction: the shunts stay at the
ends of the branch. -/
noncomputable def portSwitched (cv : Conv) (ts : List Str) : TwoPort :=
  let v := colOf cv ts
  let P := YMatrix.twoPort (1 / ⟨v 3, v 4⟩) (v 5) (open Classical in if v 9 = 0 then 1 else polar (v 9) (v 10))
  if cv.atoi (ts.getD 15 []) = 0 then ⟨0, 0, 0, 0⟩
  else ⟨P.tt + ⟨v 11, v 12⟩, P.tf, P.ft, P.ff + ⟨v 13, v 14⟩⟩

theorem half_charging (x : ℝ) : Complex.I * ((x : ℂ) / 2) = ⟨0, x / 2⟩ := by
  apply Complex.ext <;> simp

theorem acts_el (cv : Conv) (ts : List Str) (h : 16 ≤ ts.length) :
    ∃ e, lineEl cv false ts = some e ∧ e.ckt = cv.tag (ts.getD 2 []) ∧ Acts e (link cv ts).port := by
  obtain ⟨t0, t1, t2, t3, t4, t5, t6, t7, t8, t9, t10, t11, t12, t13, t14, t15, rest, rfl⟩ := long_line ts h
  refine ⟨_, rfl, rfl, ?_⟩
  intro rv
  by_cases hs : cv.atoi t15 = 0
  · simp [loadElem, link, hs, Elem.frwd, Elem.rvrs, diagPart, Elem.admittance, Elem.transformer, Elem.shuntOf]
  · by_cases ht : cv.atof t9 = 0
    · simp [loadElem, link, hs, ht, Elem.frwd, Elem.rvrs, diagPart, Elem.admittance, Elem.transformer,
        Elem.shuntOf, Elem.z, neg_div, colOf, twoPort, half_charging]
      constructor <;> ring
    · simp [loadElem, link, hs, ht, Elem.frwd, Elem.rvrs, diagPart, Elem.admittance, Elem.transformer,
        Elem.shuntOf, Elem.z, neg_div, colOf, twoPort, Elem.a, Elem.ratio, polar, half_charging]
      constructor <;> ring

theorem acts_el_switched (cv : Conv) (ts : List Str) (h : 16 ≤ ts.length) :
    ∃ e, lineEl cv true ts = some e ∧ e.ckt = cv.tag (ts.getD 2 []) ∧ Acts e (portSwitched cv ts) := by
  obtain ⟨t0, t1, t2, t3, t4, t5, t6, t7, t8, t9, t10, t11, t12, t13, t14, t15, rest, rfl⟩ := long_line ts h
  refine ⟨_, rfl, rfl, ?_⟩
  intro rv
  by_cases hs : cv.atoi t15 = 0
  · simp [loadElem, portSwitched, hs, Elem.frwd, Elem.rvrs, diagPart, Elem.admittance, Elem.transformer, Elem.shuntOf]
  · by_cases ht : cv.atof t9 = 0
    · simp [loadElem, portSwitched, hs, ht, Elem.frwd, Elem.rvrs, diagPart, Elem.admittance, Elem.transformer,
        Elem.shuntOf, Elem.z, neg_div, colOf, twoPort, half_charging]
      constructor <;> ring
    · simp [loadElem, portSwitched, hs, ht, Elem.frwd, Elem.rvrs, diagPart, Elem.admittance, Elem.transformer,
        Elem.shuntOf, Elem.z, neg_div, colOf, twoPort, Elem.a, Elem.ratio, polar, half_charging]
      constructor <;> ring

theorem portSwitched_same (cv : Conv) (ts : List Str) (h : SameShunts cv ts) :
    portSwitched cv ts = RawBranch.flip (link cv ts).port := by
  unfold portSwitched link RawBranch.flip
  simp only [h.1, h.2]
  split_ifs <;> rfl

/-- Elements of a branch come from lines between its buses. -/
def FromLines (cv : Conv) (done : List (List Str)) (bs : List BrData) : Prop :=
  ∀ b ∈ bs, ∀ e ∈ b.elems, ∃ l ∈ done, e.ckt = cv.tag (l.getD 2 []) ∧
    (((link cv l).a = b.frm ∧ (link cv l).b = b.tob) ∨ ((link cv l).a = b.tob ∧ (link cv l).b = b.frm))

/-- State after the lines `done`. -/
structure LinesInv (cv : Conv) (done : List (List Str)) (st : St) : Prop where
  inv : Inv st
  idx : st.index = st.branches.length
  keys : ∀ k n, RawBranch.find st.map k = some n → ∃ l ∈ done, ends cv l = k
  all : ∀ l ∈ done, (RawBranch.find st.map (ends cv l)).isSome ∨
    (RawBranch.find st.map ((ends cv l).2, (ends cv l).1)).isSome
  elems : ∀ l ∈ done, ∀ n, RawBranch.find st.map (ends cv l) = some n →
    ∃ b, st.branches[n]? = some b ∧ ∃ e ∈ b.elems, e.ckt = cv.tag (l.getD 2 [])
  from_ : FromLines cv done st.branches

theorem FromLines.more {cv : Conv} {done : List (List Str)} {bs : List BrData} (h : FromLines cv done bs)
    (l : List Str) : FromLines cv (done ++ [l]) bs := by
  intro b hb e he
  obtain ⟨x, hx, h1⟩ := h b hb e he
  exact ⟨x, by simp [hx], h1⟩

theorem FromLines.addEl {cv : Conv} {done : List (List Str)} {bs : List BrData} (h : FromLines cv done bs)
    (n : ℕ) (b : BrData) (hb : bs[n]? = some b) (e : El) (he : ∃ l ∈ done, e.ckt = cv.tag (l.getD 2 []) ∧
    (((link cv l).a = b.frm ∧ (link cv l).b = b.tob) ∨ ((link cv l).a = b.tob ∧ (link cv l).b = b.frm))) :
    FromLines cv done (RawBranch.addEl bs n e) := by
  intro b' hb' e' he'
  obtain ⟨m, hm⟩ := List.mem_iff_getElem?.mp hb'
  unfold RawBranch.addEl at hm
  rw [List.getElem?_modify] at hm
  cases hbm : bs[m]? with
  | none => simp [hbm] at hm
  | some c =>
    simp only [hbm, Option.map_eq_map, Option.map_some, Option.some.injEq] at hm
    by_cases hnm : n = m
    · subst hnm
      rw [hb] at hbm
      obtain rfl : b = c := by simpa using hbm
      simp only [if_true] at hm
      subst hm
      simp only [List.mem_append, List.mem_singleton] at he'
      rcases he' with he' | rfl
      · exact h b (List.mem_of_getElem? hb) e' he'
      · exact he
    · simp only [hnm, if_false] at hm
      subst hm
      exact h c (List.mem_of_getElem? hbm) e' he'

theorem addEl_has (bs : List BrData) (n : Nat) (e : El) (m : Nat) (b : BrData) (h : bs[m]? = some b) :
    ∃ b', (RawBranch.addEl bs n e)[m]? = some b' ∧ (∀ x ∈ b.elems, x ∈ b'.elems) ∧ (n = m → e ∈ b'.elems) := by
  unfold RawBranch.addEl
  rw [List.getElem?_modify]
  simp only [h, Option.map_eq_map, Option.map_some]
  by_cases hnm : n = m
  · exact ⟨_, rfl, by simp [hnm]; tauto, by simp [hnm]⟩
  · exact ⟨_, rfl, by simp [hnm], fun h => absurd h hnm⟩

theorem readLine_spec (cv : Conv) (done : List (List Str)) (st : St) (hI : LinesInv cv done st) (l : List Str)
    (hlen : 16 ≤ l.length) :
    ∃ st', readLine cv st l = some st' ∧ LinesInv cv (done ++ [l]) st' ∧
      ((SameShunts cv l ∨ ∀ x ∈ done, ¬ Opposite cv l x) → Adds st.branches st'.branches [link cv l]) := by
  have hk : ends cv l = ((link cv l).a, (link cv l).b) := ends_link cv l
  unfold readLine
  simp only
  cases h1 : RawBranch.find st.map (ends cv l) with
  | some n =>
    have h1' := h1
    rw [hk] at h1'
    obtain ⟨b, hb, hf, ht⟩ := hI.inv.leads _ _ _ h1'
    obtain ⟨e, he, hckt, hacts⟩ := acts_el cv l hlen
    simp only [hb, he]
    refine ⟨_, rfl, ⟨hI.inv.addEl n _, by simpa [RawBranch.addEl] using hI.idx, ?_, ?_, ?_, ?_⟩, ?_⟩
    · intro k m hm
      obtain ⟨x, hx, hxk⟩ := hI.keys k m hm
      exact ⟨x, by simp [hx], hxk⟩
    · intro x hx
      simp only [List.mem_append, List.mem_singleton] at hx
      rcases hx with hx | rfl
      · exact hI.all x hx
      · left; simp only [h1]; rfl
    · intro x hx m hm
      simp only [List.mem_append, List.mem_singleton] at hx
      rcases hx with hx | rfl
      · obtain ⟨b', hb', e', he', hc⟩ := hI.elems x hx m hm
        obtain ⟨b'', hb'', h2, _⟩ := addEl_has st.branches n e m b' hb'
        exact ⟨b'', hb'', e', h2 e' he', hc⟩
      · simp only [h1, Option.some.injEq] at hm
        subst hm
        obtain ⟨b'', hb'', _, h2⟩ := addEl_has st.branches n e n b hb
        exact ⟨b'', hb'', e, h2 rfl, hckt⟩
    · exact (hI.from_.more l).addEl n b hb e ⟨l, by simp, hckt, Or.inl ⟨hf.symm, ht.symm⟩⟩
    · intro _
      have := adds_at st.branches n b hb e _ hacts
      rw [hf, ht] at this
      exact this
  | none =>
    cases h2 : RawBranch.find st.map ((ends cv l).2, (ends cv l).1) with
    | some n =>
      have h2' := h2
      rw [hk] at h2'
      obtain ⟨b, hb, hf, ht⟩ := hI.inv.leads _ _ _ h2'
      obtain ⟨e, he, hckt, hacts⟩ := acts_el_switched cv l hlen
      simp only [hb, he]
      refine ⟨_, rfl, ⟨hI.inv.addEl n _, by simpa [RawBranch.addEl] using hI.idx, ?_, ?_, ?_, ?_⟩, ?_⟩
      · intro k m hm
        obtain ⟨x, hx, hxk⟩ := hI.keys k m hm
        exact ⟨x, by simp [hx], hxk⟩
      · intro x hx
        simp only [List.mem_append, List.mem_singleton] at hx
        rcases hx with hx | rfl
        · exact hI.all x hx
        · right; simp only [h2]; rfl
      · intro x hx m hm
        simp only [List.mem_append, List.mem_singleton] at hx
        rcases hx with hx | rfl
        · obtain ⟨b', hb', e', he', hc⟩ := hI.elems x hx m hm
          obtain ⟨b'', hb'', h3, _⟩ := addEl_has st.branches n e m b' hb'
          exact ⟨b'', hb'', e', h3 e' he', hc⟩
        · simp only [h1] at hm
          cases hm
      · exact (hI.from_.more l).addEl n b hb e ⟨l, by simp, hckt, Or.inr ⟨ht.symm, hf.symm⟩⟩
      · intro hsym
        have hs : SameShunts cv l := by
          rcases hsym with h | h
          · exact h
          · obtain ⟨x, hx, hxk⟩ := hI.keys _ _ h2
            rw [ends_link, hk] at hxk
            simp only [Prod.mk.injEq] at hxk
            exact absurd ⟨hxk.1, hxk.2⟩ (h x hx)
        rw [portSwitched_same cv l hs] at hacts
        have := adds_at st.branches n b hb e _ hacts
        rw [hf, ht] at this
        exact adds_flip _ _ _ _ _ this
    | none =>
      obtain ⟨e, he, hckt, hacts⟩ := acts_el cv l hlen
      simp only [he, Option.map_some]
      refine ⟨_, rfl, ⟨?_, by simp [hI.idx], ?_, ?_, ?_, ?_⟩, ?_⟩
      · have := hI.inv.new (ends cv l).1 (ends cv l).2 h1 st.index (st.index + 1) [e]
        rw [← hI.idx] at this
        exact this
      · intro k m hm
        simp only at hm
        rw [find_insert _ _ _ _ h1] at hm
        by_cases hkk : k = ends cv l
        · exact ⟨l, by simp, hkk.symm⟩
        · simp only [hkk, if_false] at hm
          obtain ⟨x, hx, hxk⟩ := hI.keys k m hm
          exact ⟨x, by simp [hx], hxk⟩
      · intro x hx
        simp only [List.mem_append, List.mem_singleton] at hx
        simp only [find_insert _ _ _ _ h1]
        rcases hx with hx | rfl
        · rcases hI.all x hx with h | h
          · left
            split_ifs
            · rfl
            · exact h
          · right
            split_ifs
            · rfl
            · exact h
        · left; simp
      · intro x hx m hm
        simp only [find_insert _ _ _ _ h1] at hm
        by_cases hkk : ends cv x = ends cv l
        · simp only [hkk, if_true, Option.some.injEq] at hm
          subst hm
          simp only [List.mem_append, List.mem_singleton] at hx
          rcases hx with hx | rfl
          · exfalso
            rcases hI.all x hx with h | h
            · rw [hkk, h1] at h; cases h
            · rw [hkk, h2] at h; cases h
          · exact ⟨⟨(ends cv x).1, (ends cv x).2, st.index, [e]⟩, by simp [hI.idx], e, by simp, hckt⟩
        · simp only [hkk, if_false] at hm
          have hx' : x ∈ done := by
            simp only [List.mem_append, List.mem_singleton] at hx
            rcases hx with hx | rfl
            · exact hx
            · exact absurd rfl hkk
          obtain ⟨b, hb, h3⟩ := hI.elems x hx' m hm
          refine ⟨b, ?_, h3⟩
          simp only
          rw [List.getElem?_append_left]
          · exact hb
          · exact (List.getElem?_eq_some_iff.mp hb).1
      · intro b hb e' he'
        simp only [List.mem_append, List.mem_singleton] at hb
        rcases hb with hb | rfl
        · exact (hI.from_.more l) b hb e' he'
        · simp only [List.mem_singleton] at he'
          subst he'
          exact ⟨l, by simp, hckt, Or.inl (by rw [hk]; exact ⟨rfl, rfl⟩)⟩
      · intro _
        have := adds_new st.branches (ends cv l).1 (ends cv l).2 st.index _ _ hacts
        rw [hk] at this ⊢
        exact this

theorem readLines_spec (cv : Conv) (ls : List (List Str)) (hlen : ∀ l ∈ ls, 16 ≤ l.length) :
    ∀ (done : List (List Str)) (st : St), LinesInv cv done st →
    ∃ st', readLines cv st ls = some st' ∧ LinesInv cv (done ++ ls) st' ∧
      ((∀ l ∈ ls, SameShunts cv l ∨ ∀ x ∈ done ++ ls, ¬ Opposite cv l x) →
        Adds st.branches st'.branches (ls.map (link cv))) := by
  induction ls with
  | nil => intro done st h; exact ⟨st, rfl, by simpa using h, fun _ => Adds.refl _⟩
  | cons l ls ih =>
    intro done st h
    obtain ⟨s1, e1, i1, a1⟩ := readLine_spec cv done st h l (hlen l (by simp))
    obtain ⟨s2, e2, i2, a2⟩ := ih (fun x hx => hlen x (by simp [hx])) (done ++ [l]) s1 i1
    refine ⟨s2, by simp [readLines, e1, e2], by simpa using i2, ?_⟩
    intro hs
    have b1 := a1 (by
      rcases hs l (by simp) with h | h
      · exact Or.inl h
      · exact Or.inr (fun x hx => h x (by simp [hx])))
    have b2 := a2 (by
      intro x hx
      rcases hs x (by simp [hx]) with h | h
      · exact Or.inl h
      · exact Or.inr (fun y hy => h y (by simpa using hy)))
    exact b1.trans b2

theorem LinesInv.start (cv : Conv) : LinesInv cv [] ⟨[], [], 0, 0, []⟩ where
  inv := ⟨by intro i j n h; simp [RawBranch.find] at h⟩
  idx := rfl
  keys := by intro k n h; simp [RawBranch.find] at h
  all := by simp
  elems := by simp
  from_ := by intro b hb; simp at hb

end GridPACK.Raw23
