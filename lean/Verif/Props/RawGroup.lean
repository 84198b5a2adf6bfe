import Verif.Props.RawBranch
import Mathlib.Data.List.Nodup

/-! Properties C168 (number of the star bus), C170 (one branch per pair of buses), C171 (a parser object used
again). -/
namespace GridPACK.RawBranch

open GridPACK.YMatrix

/-- The buses a branch connects. -/
def ends (bs : List BrData) : List (Int × Int) := bs.map (fun b => (b.frm, b.tob))

/-- Two pairs that name the same two buses. -/
def SamePair (a b : Int × Int) : Prop := a = b ∨ a = (b.2, b.1)

/-- Number of elements of all branches. -/
def count (bs : List BrData) : Nat := (bs.map (fun b => b.elems.length)).sum

theorem ends_addEl (bs : List BrData) (n : Nat) (e : El) : ends (addEl bs n e) = ends bs := by
  unfold ends addEl
  induction bs generalizing n with
  | nil => simp
  | cons b bs ih =>
    cases n with
    | zero => simp
    | succ n => simpa using ih n

theorem count_addEl (bs : List BrData) (n : Nat) (e : El) (b : BrData) (h : bs[n]? = some b) :
    count (addEl bs n e) = count bs + 1 := by
  unfold count addEl
  induction bs generalizing n with
  | nil => simp at h
  | cons x xs ih =>
    cases n with
    | zero => simp; omega
    | succ n => simp at h; simp [ih n h]; omega

/-- What holds while the blocks are read; `M` is the largest bus number of the file. -/
structure Grouped (M : Int) (st : St) : Prop where
  pair : (ends st.branches).Pairwise (fun a b => ¬ SamePair a b)
  mapped : ∀ k ∈ ends st.branches, (find st.map k).isSome ∨ (M < k.2 ∧ k.2 ≤ st.maxBus ∧ k.1 ≤ M)
  small : ∀ k, (find st.map k).isSome → k.1 ≤ M ∧ k.2 ≤ M
  maxb : M ≤ st.maxBus

theorem Grouped.new {M : Int} {st : St} (h : Grouped M st) (i j : Int) (n m idx : Nat) (es : List El)
    (h1 : find st.map (i, j) = none) (h2 : find st.map (j, i) = none) (hi : i ≤ M) (hj : j ≤ M) :
    Grouped M ⟨st.branches ++ [⟨i, j, n, es⟩], insert st.map (i, j) m, idx, st.maxBus, st.newBuses⟩ := by
  constructor
  · simp only [ends, List.map_append, List.map_cons, List.map_nil]
    rw [List.pairwise_append]
    refine ⟨h.pair, by simp, ?_⟩
    intro a ha b hb
    simp only [List.mem_cons, List.not_mem_nil, or_false] at hb
    subst hb
    intro hs
    rcases h.mapped a ha with hm | ⟨hm, _⟩
    · rcases hs with hs | hs
      · rw [hs, h1] at hm; simp at hm
      · rw [hs, h2] at hm; simp at hm
    · rcases hs with hs | hs <;> rw [hs] at hm <;> simp at hm <;> omega
  · intro k hk
    simp only [ends, List.map_append, List.map_cons, List.map_nil, List.mem_append, List.mem_cons,
      List.not_mem_nil, or_false] at hk
    simp only
    rw [find_insert _ _ _ _ h1]
    rcases hk with hk | hk
    · by_cases hkk : k = (i, j)
      · left; simp [hkk]
      · simp only [hkk, if_false]
        exact h.mapped k hk
    · left; simp [hk]
  · intro k hk
    simp only at hk
    rw [find_insert _ _ _ _ h1] at hk
    by_cases hkk : k = (i, j)
    · rw [hkk]; exact ⟨hi, hj⟩
    · simp only [hkk, if_false] at hk
      exact h.small k hk
  · exact h.maxb

theorem Grouped.addEl {M : Int} {st : St} (h : Grouped M st) (n : Nat) (e : El) :
    Grouped M { st with branches := addEl st.branches n e } :=
  ⟨by simpa only [ends_addEl] using h.pair, by simpa only [ends_addEl] using h.mapped, h.small, h.maxb⟩

theorem readLine_grouped {M : Int} {st st' : St} (h : Grouped M st) (l : LineRec) (hi : l.i ≤ M) (hj : l.j ≤ M)
    (hr : readLine st l = some st') : Grouped M st' ∧ count st'.branches = count st.branches + 1 ∧
      st'.maxBus = st.maxBus ∧ st'.newBuses = st.newBuses := by
  unfold readLine at hr
  cases h1 : find st.map (l.i, l.j) with
  | some n =>
    simp only [h1] at hr
    cases hb : st.branches[n]? with
    | none => simp [hb] at hr
    | some b =>
      simp only [hb, Option.some.injEq] at hr
      subst hr
      exact ⟨h.addEl n _, count_addEl _ _ _ _ hb, rfl, rfl⟩
  | none =>
    cases h2 : find st.map (l.j, l.i) with
    | some n =>
      simp only [h1, h2] at hr
      cases hb : st.branches[n]? with
      | none => simp [hb] at hr
      | some b =>
        simp only [hb, Option.some.injEq] at hr
        subst hr
        exact ⟨h.addEl n _, count_addEl _ _ _ _ hb, rfl, rfl⟩
    | none =>
      simp only [h1, h2, Option.some.injEq] at hr
      subst hr
      exact ⟨h.new _ _ _ _ _ _ h1 h2 hi hj, by simp [count], rfl, rfl⟩

theorem readXf2_grouped {M : Int} {sbase : ℝ} {st st' : St} (h : Grouped M st) (t : Xf2Rec) (hi : t.i ≤ M)
    (hj : t.j ≤ M) (hr : readXf2 sbase st t = some st') :
    Grouped M st' ∧ count st'.branches = count st.branches + 1 ∧
      st'.maxBus = st.maxBus ∧ st'.newBuses = st.newBuses := by
  unfold readXf2 at hr
  cases he : t.el sbase with
  | none => simp [he] at hr
  | some e =>
  simp only [he] at hr
  cases h1 : find st.map (t.i, t.j) with
  | some n =>
    simp only [h1] at hr
    cases hb : st.branches[n]? with
    | none => simp [hb] at hr
    | some b =>
      simp only [hb, Option.some.injEq] at hr
      subst hr
      exact ⟨h.addEl n _, count_addEl _ _ _ _ hb, rfl, rfl⟩
  | none =>
    cases h2 : find st.map (t.j, t.i) with
    | some n =>
      simp only [h1, h2] at hr
      cases hb : st.branches[n]? with
      | none => simp [hb] at hr
      | some b =>
        simp only [hb, Option.some.injEq] at hr
        subst hr
        exact ⟨h.addEl n _, count_addEl _ _ _ _ hb, rfl, rfl⟩
    | none =>
      simp only [h1, h2, Option.some.injEq] at hr
      subst hr
      refine ⟨?_, by simp [count], rfl, rfl⟩
      rw [insert_same]
      exact h.new _ _ _ _ _ _ h1 h2 hi hj

theorem readXf3_grouped {M : Int} {sbase : ℝ} {known : Int → Bool} {st st' : St} (h : Grouped M st) (t : Xf3Rec)
    (hs : (t.short || decide (t.status = 0)) = false) (hi : t.i ≤ M) (hj : t.j ≤ M) (hk : t.k ≤ M)
    (hd : t.i ≠ t.j ∧ t.j ≠ t.k ∧ t.i ≠ t.k)
    (hr : readXf3 sbase known st t = some st') :
    Grouped M st' ∧ count st'.branches = count st.branches + 3 ∧
      st'.maxBus = st.maxBus + 1 ∧ st'.newBuses = st.newBuses ++ [st.maxBus + 1] := by
  unfold readXf3 at hr
  simp only [hs, Bool.false_eq_true, if_false] at hr
  split_ifs at hr
  cases he : t.els sbase with
  | none => simp [he] at hr
  | some es =>
    obtain ⟨e1, e2, e3⟩ := es
    simp only [he, Option.some.injEq] at hr
    subst hr
    obtain ⟨d1, d2, d3⟩ := hd
    have hM := h.maxb
    refine ⟨⟨?_, ?_, h.small, ?_⟩, by simp [count], rfl, rfl⟩
    · simp only [ends, List.map_append, List.map_cons, List.map_nil]
      rw [List.pairwise_append]
      refine ⟨h.pair, ?_, ?_⟩
      · simp only [SamePair, List.pairwise_cons, List.mem_cons, List.not_mem_nil, or_false, Prod.mk.injEq,
          List.Pairwise.nil, and_true, forall_eq_or_imp, forall_eq, IsEmpty.forall_iff, implies_true]
        refine ⟨⟨?_, ?_⟩, ?_⟩ <;> omega
      · intro a ha b hb hsp
        have hlt : a.2 ≤ st.maxBus ∧ a.1 ≤ M := by
          rcases h.mapped a ha with hm | ⟨_, hm, hm2⟩
          · have := h.small a hm
            constructor <;> omega
          · exact ⟨hm, hm2⟩
        simp only [List.mem_cons, List.not_mem_nil, or_false] at hb
        rcases hb with hb | hb | hb <;> subst hb <;> rcases hsp with hsp | hsp <;> rw [hsp] at hlt <;>
          simp only at hlt <;> omega
    · intro k hk
      simp only [ends, List.map_append, List.map_cons, List.map_nil, List.mem_append, List.mem_cons,
        List.not_mem_nil, or_false] at hk
      rcases hk with hk | hk
      · rcases h.mapped k hk with hm | ⟨hm, hm2, hm3⟩
        · exact Or.inl hm
        · right; simp only; exact ⟨hm, by omega, hm3⟩
      · right
        simp only
        rcases hk with hk | hk | hk <;> subst hk <;> simp only <;> exact ⟨by omega, le_refl _, by omega⟩
    · simp only; omega

/-! ### Whole files -/

/-- Elements the transformers of a file give: one each, three for an active one with three windings. -/
def xfCount : List XfRec → Nat
  | [] => 0
  | .two _ :: ts => xfCount ts + 1
  | .three t :: ts => xfCount ts + (if t.short || t.status = 0 then 0 else 3)

/-- Number of active transformers with three windings. -/
def starCount : List XfRec → Nat
  | [] => 0
  | .two _ :: ts => starCount ts
  | .three t :: ts => starCount ts + (if t.short || t.status = 0 then 0 else 1)

/-- The buses of a record are in the file, and those of three windings differ. -/
def XfRec.On (buses : List Int) : XfRec → Prop
  | .two t => t.i ∈ buses ∧ t.j ∈ buses
  | .three t => t.i ∈ buses ∧ t.j ∈ buses ∧ t.k ∈ buses ∧ t.i ≠ t.j ∧ t.j ≠ t.k ∧ t.i ≠ t.k

theorem le_maxIndex (buses : List Int) : ∀ start, start ≤ maxIndex start buses ∧
    ∀ b ∈ buses, b ≤ maxIndex start buses := by
  induction buses with
  | nil => intro s; simp [maxIndex]
  | cons x xs ih =>
    intro s
    have h := ih (if s < x then x else s)
    have e : maxIndex s (x :: xs) = maxIndex (if s < x then x else s) xs := rfl
    rw [e]
    have h1 := h.1
    refine ⟨by split_ifs at h1 ⊢ <;> omega, ?_⟩
    intro b hb
    rcases List.mem_cons.mp hb with hb | hb
    · subst hb; split_ifs at h1 ⊢ <;> omega
    · exact h.2 b hb

theorem readLines_grouped {M : Int} (ls : List LineRec) : ∀ {st st' : St}, Grouped M st →
    (∀ l ∈ ls, l.i ≤ M ∧ l.j ≤ M) → readLines st ls = some st' →
    Grouped M st' ∧ count st'.branches = count st.branches + ls.length ∧
      st'.maxBus = st.maxBus ∧ st'.newBuses = st.newBuses := by
  induction ls with
  | nil => intro st st' h _ hr; simp [readLines] at hr; subst hr; exact ⟨h, by simp, rfl, rfl⟩
  | cons l ls ih =>
    intro st st' h hM hr
    simp only [readLines] at hr
    cases h1 : readLine st l with
    | none => simp [h1] at hr
    | some s1 =>
      simp only [h1, Option.bind_some] at hr
      obtain ⟨a1, a2, a3, a4⟩ := readLine_grouped h l (hM l (by simp)).1 (hM l (by simp)).2 h1
      obtain ⟨b1, b2, b3, b4⟩ := ih a1 (fun x hx => hM x (by simp [hx])) hr
      exact ⟨b1, by rw [b2, a2, List.length_cons]; omega, by rw [b3, a3], by rw [b4, a4]⟩

/-- Consecutive numbers. -/
def run (start : Int) (n : Nat) : List Int := (List.range n).map (fun (k : Nat) => start + (k : Int))

theorem run_succ (start : Int) (n : Nat) : run start (n + 1) = start :: run (start + 1) n := by
  simp only [run, List.range_succ_eq_map, List.map_cons, List.map_map, Nat.cast_zero, add_zero]
  congr 1
  apply List.map_congr_left
  intro k _
  simp
  omega

theorem readXfs_grouped {M : Int} {sbase : ℝ} {known : Int → Bool} (buses : List Int)
    (hM : ∀ b ∈ buses, b ≤ M) (ts : List XfRec) : ∀ {st st' : St}, Grouped M st →
    (∀ t ∈ ts, t.On buses) → readXfs sbase known st ts = some st' →
    Grouped M st' ∧ count st'.branches = count st.branches + xfCount ts ∧
      st'.newBuses = st.newBuses ++ run (st.maxBus + 1) (starCount ts) := by
  induction ts with
  | nil => intro st st' h _ hr; simp [readXfs] at hr; subst hr; exact ⟨h, by simp [xfCount], by simp [starCount, run]⟩
  | cons t ts ih =>
    intro st st' h hon hr
    simp only [readXfs] at hr
    have ht := hon t (by simp)
    cases t with
    | two t =>
      cases h1 : readXf2 sbase st t with
      | none => simp [readXf, h1] at hr
      | some s1 =>
        simp only [readXf, h1, Option.bind_some] at hr
        obtain ⟨a1, a2, a3, a4⟩ := readXf2_grouped h t (hM _ ht.1) (hM _ ht.2) h1
        obtain ⟨b1, b2, b3⟩ := ih a1 (fun x hx => hon x (by simp [hx])) hr
        exact ⟨b1, by rw [b2, a2, xfCount]; omega, by rw [b3, a3, a4]; rfl⟩
    | three t =>
      cases hs : (t.short || decide (t.status = 0)) with
      | true =>
        simp only [readXf, readXf3, hs, if_true, Option.bind_some] at hr
        obtain ⟨b1, b2, b3⟩ := ih h (fun x hx => hon x (by simp [hx])) hr
        exact ⟨b1, by simpa [xfCount, hs] using b2, by simpa [starCount, hs] using b3⟩
      | false =>
        cases h1 : readXf3 sbase known st t with
        | none => simp [readXf, h1] at hr
        | some s1 =>
          simp only [readXf, h1, Option.bind_some] at hr
          obtain ⟨o1, o2, o3, o4⟩ := ht
          obtain ⟨a1, a2, a3, a4⟩ := readXf3_grouped h t hs (hM _ o1) (hM _ o2) (hM _ o3) o4 h1
          obtain ⟨b1, b2, b3⟩ := ih a1 (fun x hx => hon x (by simp [hx])) hr
          refine ⟨b1, ?_, ?_⟩
          · rw [b2, a2]
            simp only [xfCount, hs, Bool.false_eq_true, if_false]
            omega
          · rw [b3, a3, a4]
            simp only [starCount, hs, Bool.false_eq_true, if_false, run_succ, List.append_assoc,
              List.cons_append, List.nil_append]

theorem getCase_grouped (c : Case) (st : St) (hl : ∀ l ∈ c.lines, l.i ∈ c.buses ∧ l.j ∈ c.buses)
    (hx : ∀ t ∈ c.xfs, t.On c.buses) (h : getCase fresh c = some st) :
    Grouped (maxIndex (-1) c.buses) st ∧ count st.branches = c.lines.length + xfCount c.xfs ∧
      st.newBuses = run (maxIndex (-1) c.buses + 1) (starCount c.xfs) := by
  have hM := (le_maxIndex c.buses (-1)).2
  unfold getCase at h
  cases h1 : readLines ⟨[], fresh.map, 0, maxIndex fresh.maxBus c.buses, []⟩ c.lines with
  | none => simp [h1] at h
  | some s1 =>
    simp only [h1, Option.bind_some] at h
    have hG : Grouped (maxIndex (-1) c.buses) ⟨[], fresh.map, 0, maxIndex fresh.maxBus c.buses, []⟩ :=
      ⟨by simp [ends], by simp [ends], by simp [fresh, find], le_refl _⟩
    obtain ⟨a1, a2, a3, a4⟩ := readLines_grouped c.lines hG
      (fun l hll => ⟨hM _ (hl l hll).1, hM _ (hl l hll).2⟩) h1
    have hG1 : Grouped (maxIndex (-1) c.buses) { s1 with index := s1.branches.length } :=
      ⟨a1.pair, a1.mapped, a1.small, a1.maxb⟩
    obtain ⟨b1, b2, b3⟩ := readXfs_grouped c.buses hM c.xfs hG1 hx h
    refine ⟨b1, ?_, ?_⟩
    · rw [b2]; simp only; rw [a2]; simp [count]
    · rw [b3]; simp only; rw [a3, a4]; rfl

/-- C170.  For every file whose records name buses of the file: no two branches connect the same two buses
(in either direction), so parallel elements are always elements of one branch, and no record is lost or
counted twice. -/
theorem C170_one_branch (c : Case) (st : St) (hl : ∀ l ∈ c.lines, l.i ∈ c.buses ∧ l.j ∈ c.buses)
    (hx : ∀ t ∈ c.xfs, t.On c.buses) (h : getCase fresh c = some st) :
    (ends st.branches).Pairwise (fun a b => ¬ SamePair a b) ∧
    count st.branches = c.lines.length + xfCount c.xfs := by
  obtain ⟨h1, h2, _⟩ := getCase_grouped c st hl hx h
  exact ⟨h1.pair, h2⟩

/-- C168, number of the star bus: the buses added for three-winding transformers, one for each in service,
have numbers of their own, larger than any number of the file. -/
theorem C168_star_number (c : Case) (st : St) (hl : ∀ l ∈ c.lines, l.i ∈ c.buses ∧ l.j ∈ c.buses)
    (hx : ∀ t ∈ c.xfs, t.On c.buses) (h : getCase fresh c = some st) :
    st.newBuses.Nodup ∧ st.newBuses.length = starCount c.xfs ∧
      ∀ n ∈ st.newBuses, ∀ b ∈ c.buses, b < n := by
  obtain ⟨_, _, h3⟩ := getCase_grouped c st hl hx h
  rw [h3]
  refine ⟨?_, by simp [run], ?_⟩
  · unfold run
    apply List.Nodup.map
    · intro a b hab
      simp at hab
      exact hab
    · exact List.nodup_range
  · intro n hn b hb
    have := (le_maxIndex c.buses (-1)).2 b hb
    simp only [run, List.mem_map, List.mem_range] at hn
    obtain ⟨k, _, hk⟩ := hn
    omega

/-! ### A parser object used again -/

theorem find_insert_mono (m : List ((Int × Int) × Nat)) (k k' : Int × Int) (n : Nat)
    (h : (find m k').isSome) : (find (insert m k n) k').isSome := by
  cases hk : find m k with
  | none =>
    rw [find_insert _ _ _ _ hk]
    by_cases hkk : k' = k <;> simp [hkk, h]
  | some v => simpa [insert, hk] using h

theorem find_insert_self (m : List ((Int × Int) × Nat)) (k : Int × Int) (n : Nat) :
    (find (insert m k n) k).isSome := by
  cases hk : find m k with
  | none => rw [find_insert _ _ _ _ hk]; simp
  | some v => simp [insert, hk]

theorem readLine_map {st st' : St} (l : LineRec) (h : readLine st l = some st') :
    (∀ k, (find st.map k).isSome → (find st'.map k).isSome) ∧
    ((find st'.map (l.i, l.j)).isSome ∨ (find st'.map (l.j, l.i)).isSome) := by
  unfold readLine at h
  cases h1 : find st.map (l.i, l.j) with
  | some n =>
    simp only [h1] at h
    split at h
    · simp at h
    · simp only [Option.some.injEq] at h; subst h; simp [h1]
  | none =>
    cases h2 : find st.map (l.j, l.i) with
    | some n =>
      simp only [h1, h2] at h
      split at h
      · simp at h
      · simp only [Option.some.injEq] at h; subst h; simp [h2]
    | none =>
      simp only [h1, h2, Option.some.injEq] at h
      subst h
      exact ⟨fun k hk => find_insert_mono _ _ _ _ hk, Or.inl (find_insert_self _ _ _)⟩

theorem readLines_map (ls : List LineRec) : ∀ {st st' : St}, readLines st ls = some st' →
    ∀ k, (find st.map k).isSome → (find st'.map k).isSome := by
  induction ls with
  | nil => intro st st' h k hk; simp [readLines] at h; subst h; exact hk
  | cons l ls ih =>
    intro st st' h k hk
    simp only [readLines] at h
    cases h1 : readLine st l with
    | none => simp [h1] at h
    | some s1 =>
      simp only [h1, Option.bind_some] at h
      exact ih h k ((readLine_map l h1).1 k hk)

theorem readXfs_map {sbase : ℝ} {known : Int → Bool} (ts : List XfRec) : ∀ {st st' : St},
    readXfs sbase known st ts = some st' → ∀ k, (find st.map k).isSome → (find st'.map k).isSome := by
  induction ts with
  | nil => intro st st' h k hk; simp [readXfs] at h; subst h; exact hk
  | cons t ts ih =>
    intro st st' h k hk
    simp only [readXfs] at h
    cases h1 : readXf sbase known st t with
    | none => simp [h1] at h
    | some s1 =>
      simp only [h1, Option.bind_some] at h
      refine ih h k ?_
      cases t with
      | two t =>
        simp only [readXf, readXf2] at h1
        split at h1
        · simp at h1
        · split at h1
          · split at h1
            · simp at h1
            · simp only [Option.some.injEq] at h1; subst h1; exact hk
          · split at h1
            · split at h1
              · simp at h1
              · simp only [Option.some.injEq] at h1; subst h1; exact hk
            · simp only [Option.some.injEq] at h1; subst h1
              exact find_insert_mono _ _ _ _ (find_insert_mono _ _ _ _ hk)
      | three t =>
        simp only [readXf, readXf3] at h1
        split_ifs at h1
        · simp only [Option.some.injEq] at h1; subst h1; exact hk
        · split at h1
          · simp at h1
          · simp only [Option.some.injEq] at h1; subst h1; exact hk

/-- C171 fails for every file with at least one line: a parser object that has read the file cannot read it
again, because the branches of the first reading are still in its map (an access outside the list of
branches). -/
theorem C171_reuse_violated (c : Case) (st : St) (hne : c.lines ≠ []) (h : getCase fresh c = some st) :
    getCase st c = none := by
  obtain ⟨l, ls, hls⟩ := List.exists_cons_of_ne_nil hne
  unfold getCase at h
  rw [hls] at h
  simp only [readLines] at h
  cases h1 : readLine ⟨[], fresh.map, 0, maxIndex fresh.maxBus c.buses, []⟩ l with
  | none => simp [h1] at h
  | some s1 =>
    simp only [h1, Option.bind_some] at h
    cases h2 : readLines s1 ls with
    | none => simp [h2] at h
    | some s2 =>
      simp only [h2, Option.bind_some] at h
      have hm : ∀ k, (find s1.map k).isSome → (find st.map k).isSome := fun k hk =>
        readXfs_map c.xfs h k (readLines_map ls h2 k hk)
      have hk : (find st.map (l.i, l.j)).isSome ∨ (find st.map (l.j, l.i)).isSome :=
        (readLine_map l h1).2.imp (hm _) (hm _)
      unfold getCase
      rw [hls]
      have : readLine ⟨[], st.map, 0, maxIndex st.maxBus c.buses, []⟩ l = none := by
        unfold readLine
        cases h3 : find st.map (l.i, l.j) with
        | some n => simp
        | none =>
          cases h4 : find st.map (l.j, l.i) with
          | some n => simp
          | none => simp [h3, h4] at hk
      simp [readLines, this]

/-- Two states that look the same for the pairs in `P`. -/
structure Like (P : List (Int × Int)) (a b : St) : Prop where
  branches : a.branches = b.branches
  index : a.index = b.index
  maxBus : a.maxBus = b.maxBus
  newBuses : a.newBuses = b.newBuses
  map : ∀ k, (k ∈ P ∨ (k.2, k.1) ∈ P) → find a.map k = find b.map k

theorem Like.addEl {P : List (Int × Int)} {a b : St} (h : Like P a b) (n : Nat) (e : El) :
    Like P { a with branches := addEl a.branches n e } { b with branches := addEl b.branches n e } :=
  ⟨by simp only [h.branches], h.index, h.maxBus, h.newBuses, h.map⟩

theorem Like.new {P : List (Int × Int)} {a b : St} (h : Like P a b) (i j : Int) (n m : Nat) (es : List El)
    (h1 : find a.map (i, j) = none) (h2 : find b.map (i, j) = none) :
    Like P ⟨a.branches ++ [⟨i, j, n, es⟩], insert a.map (i, j) m, a.index + 1, a.maxBus, a.newBuses⟩
      ⟨b.branches ++ [⟨i, j, n, es⟩], insert b.map (i, j) m, b.index + 1, b.maxBus, b.newBuses⟩ := by
  refine ⟨by simp only [h.branches], by simp only [h.index], h.maxBus, h.newBuses, ?_⟩
  intro k hk
  simp only
  rw [find_insert _ _ _ _ h1, find_insert _ _ _ _ h2]
  split_ifs
  · rfl
  · exact h.map k hk

/-- Both fail, or both give states that look the same. -/
def LikeOpt (P : List (Int × Int)) : Option St → Option St → Prop
  | none, none => True
  | some a, some b => Like P a b
  | _, _ => False

theorem readLine_like {P : List (Int × Int)} {a b : St} (h : Like P a b) (l : LineRec) (hl : (l.i, l.j) ∈ P) :
    LikeOpt P (readLine a l) (readLine b l) := by
  have k1 := h.map (l.i, l.j) (Or.inl hl)
  have k2 := h.map (l.j, l.i) (Or.inr hl)
  unfold readLine
  rw [k1, k2, h.branches]
  cases h1 : find b.map (l.i, l.j) with
  | some n =>
    cases hb : b.branches[n]? with
    | none => simp only [hb]; trivial
    | some x => have := h.addEl n (l.el false); rw [h.branches] at this; simp only [hb]; exact this
  | none =>
    cases h2 : find b.map (l.j, l.i) with
    | some n =>
      cases hb : b.branches[n]? with
      | none => simp only [hb]; trivial
      | some x => have := h.addEl n (l.el true); rw [h.branches] at this; simp only [hb]; exact this
    | none =>
      have := h.new l.i l.j b.index b.index [l.el false] (by rw [k1, h1]) h1
      rw [h.branches] at this
      simp only [h.index] at this ⊢
      exact this

theorem readXf2_like {P : List (Int × Int)} {a b : St} (h : Like P a b) (sbase : ℝ) (t : Xf2Rec)
    (hl : (t.i, t.j) ∈ P) : LikeOpt P (readXf2 sbase a t) (readXf2 sbase b t) := by
  have k1 := h.map (t.i, t.j) (Or.inl hl)
  have k2 := h.map (t.j, t.i) (Or.inr hl)
  unfold readXf2
  cases he : t.el sbase with
  | none => trivial
  | some e =>
  simp only
  rw [k1, k2, h.branches]
  cases h1 : find b.map (t.i, t.j) with
  | some n =>
    cases hb : b.branches[n]? with
    | none => simp only [hb]; trivial
    | some x => have := h.addEl n e; rw [h.branches] at this; simp only [hb]; exact this
  | none =>
    cases h2 : find b.map (t.j, t.i) with
    | some n =>
      cases hb : b.branches[n]? with
      | none => simp only [hb]; trivial
      | some x => have := h.addEl n e; rw [h.branches] at this; simp only [hb]; exact this
    | none =>
      have := h.new t.i t.j b.index b.branches.length [e] (by rw [k1, h1]) h1
      rw [h.branches] at this
      simp only [insert_same]
      simp only [h.index] at this ⊢
      exact this

theorem readXf3_like {P : List (Int × Int)} {a b : St} (h : Like P a b) (sbase : ℝ) (known : Int → Bool)
    (t : Xf3Rec) : LikeOpt P (readXf3 sbase known a t) (readXf3 sbase known b t) := by
  unfold readXf3
  split_ifs
  · exact h
  · cases he : t.els sbase with
    | none => trivial
    | some es =>
      obtain ⟨e1, e2, e3⟩ := es
      exact ⟨by simp only [h.branches, h.maxBus], h.index, by simp only [h.maxBus],
        by simp only [h.newBuses, h.maxBus], h.map⟩
  · trivial

theorem readLines_like {P : List (Int × Int)} (ls : List LineRec) (hl : ∀ l ∈ ls, (l.i, l.j) ∈ P) :
    ∀ {a b : St}, Like P a b → LikeOpt P (readLines a ls) (readLines b ls) := by
  induction ls with
  | nil => intro a b h; exact h
  | cons l ls ih =>
    intro a b h
    have h1 := readLine_like h l (hl l (by simp))
    simp only [readLines]
    cases ha : readLine a l <;> cases hb : readLine b l <;> simp only [ha, hb, LikeOpt] at h1
    · trivial
    · exact ih (fun x hx => hl x (by simp [hx])) h1

theorem readXfs_like {P : List (Int × Int)} (sbase : ℝ) (known : Int → Bool) (ts : List XfRec)
    (hl : ∀ t ∈ ts, ∀ k, t.pair? = some k → k ∈ P) :
    ∀ {a b : St}, Like P a b → LikeOpt P (readXfs sbase known a ts) (readXfs sbase known b ts) := by
  induction ts with
  | nil => intro a b h; exact h
  | cons t ts ih =>
    intro a b h
    have h1 : LikeOpt P (readXf sbase known a t) (readXf sbase known b t) := by
      cases t with
      | two t => exact readXf2_like h sbase t (hl (.two t) (by simp) _ rfl)
      | three t => exact readXf3_like h sbase known t
    simp only [readXfs]
    cases ha : readXf sbase known a t <;> cases hb : readXf sbase known b t <;>
      simp only [ha, hb, LikeOpt] at h1
    · trivial
    · exact ih (fun x hx => hl x (by simp [hx])) h1

/-- C171, the part that holds: a parser object reads a further file as a new one would if none of the pairs of
buses of the file occurred in the files before and the file has the largest bus number so far. -/
theorem C171_reuse_partial (c : Case) (old : St) (hp : ∀ k ∈ c.pairs, find old.map k = none ∧
    find old.map (k.2, k.1) = none) (hm : maxIndex old.maxBus c.buses = maxIndex (-1) c.buses) :
    (getCase old c).map (fun s => (s.branches, s.newBuses)) =
      (getCase fresh c).map (fun s => (s.branches, s.newBuses)) := by
  have h0 : Like c.pairs ⟨[], old.map, 0, maxIndex old.maxBus c.buses, []⟩
      ⟨[], fresh.map, 0, maxIndex fresh.maxBus c.buses, []⟩ := by
    refine ⟨rfl, rfl, hm, rfl, ?_⟩
    intro k hk
    have e : find fresh.map k = none := by simp [fresh, find]
    simp only
    rw [e]
    rcases hk with hk | hk
    · exact (hp k hk).1
    · exact (hp _ hk).2
  have h1 := readLines_like c.lines
    (fun l hl => List.mem_append_left _ (List.mem_map.mpr ⟨l, hl, rfl⟩)) h0
  unfold getCase
  cases ha : readLines ⟨[], old.map, 0, maxIndex old.maxBus c.buses, []⟩ c.lines <;>
    cases hb : readLines ⟨[], fresh.map, 0, maxIndex fresh.maxBus c.buses, []⟩ c.lines <;>
    simp only [ha, hb, LikeOpt] at h1
  · rfl
  · rename_i a b
    have h2 : Like c.pairs { a with index := a.branches.length } { b with index := b.branches.length } :=
      ⟨h1.branches, by simp only [h1.branches], h1.maxBus, h1.newBuses, h1.map⟩
    have h3 := readXfs_like c.sbase (fun b => decide (b ∈ c.buses)) c.xfs
      (fun t ht k hk => List.mem_append_right _ (List.mem_filterMap.mpr ⟨t, ht, hk⟩)) h2
    simp only [Option.bind_some]
    cases hc : readXfs c.sbase (fun b => decide (b ∈ c.buses)) { a with index := a.branches.length } c.xfs <;>
      cases hd : readXfs c.sbase (fun b => decide (b ∈ c.buses)) { b with index := b.branches.length } c.xfs <;>
      simp only [hc, hd, LikeOpt] at h3
    · rfl
    · simp [h3.branches, h3.newBuses]

/-! ### Examples -/

/-- A line and, in the same direction, a transformer; a second line in the opposite direction; three
windings. -/
def line12 : LineRec := ⟨1, 2, [], some 0.01, some 0.1, some 0.02, some 0, some 0, some 0, some 0, some 1⟩
def line21 : LineRec := ⟨2, 1, [], some 0.02, some 0.2, some 0.04, some 0, some 0, some 0, some 0, none⟩
def xf12 : Xf2Rec := ⟨1, 3, [], 1, 2, 1, 0, 0, 1, 0.01, 0.05, 50, 1.05, 0, 30, 0.98, 0⟩
def xf123 : Xf3Rec := ⟨1, 2, 3, [], 1, 0.001, -0.01, 2, false, 0.01, 0.1, 100, 0.01, 0.12, 100, 0.01, 0.15, 100,
  1, 0, 1.02, 0, 0.99, 30⟩
def sample : Case := ⟨[1, 2, 3], 100, [line12, line21], [.two xf12, .three xf123]⟩

example : ∃ st, getCase fresh sample = some st ∧ ∀ rv,
    let links := sample.lines.map LineRec.link ++
      xfLinks (fun _ => 110) sample.sbase (maxIndex (-1) sample.buses + 1) sample.xfs
    (∀ p q, entry rv st.branches p q = linkEntry links p q) ∧
    ∀ p, diag rv st.branches p = linkDiag links p := by
  apply C166_network_partial
  · intro l hl
    simp only [sample, List.mem_cons, List.not_mem_nil, or_false] at hl
    rcases hl with rfl | rfl
    · exact ⟨_, _, _, _, _, _, _, rfl, rfl, rfl, rfl, rfl, rfl, rfl⟩
    · exact ⟨_, _, _, _, _, _, _, rfl, rfl, rfl, rfl, rfl, rfl, rfl⟩
  · intro t ht
    simp only [sample, List.mem_cons, List.not_mem_nil, or_false] at ht
    rcases ht with rfl | rfl
    · constructor <;> norm_num [xf12, sample]
    · refine ⟨?_, by decide, by decide, by decide⟩
      constructor <;> norm_num [xf123, sample]
  · intro l hl
    simp only [sample, List.mem_cons, List.not_mem_nil, or_false] at hl
    left
    rcases hl with rfl | rfl <;> exact ⟨rfl, rfl⟩
  · intro t ht k hk
    simp only [sample, List.mem_cons, List.not_mem_nil, or_false] at ht
    right
    rcases ht with rfl | rfl
    · simp only [XfRec.pair?, Option.some.injEq] at hk
      subst hk
      decide
    · simp [XfRec.pair?] at hk

example : (∀ l ∈ sample.lines, l.i ∈ sample.buses ∧ l.j ∈ sample.buses) ∧ (∀ t ∈ sample.xfs, t.On sample.buses) ∧
    sample.lines ≠ [] ∧ starCount sample.xfs = 1 ∧ xfCount sample.xfs = 4 := by
  refine ⟨?_, ?_, by simp [sample], ?_, ?_⟩
  · intro l hl
    simp only [sample, List.mem_cons, List.not_mem_nil, or_false] at hl
    rcases hl with rfl | rfl <;> decide
  · intro t ht
    simp only [sample, List.mem_cons, List.not_mem_nil, or_false] at ht
    rcases ht with rfl | rfl
    · exact ⟨by decide, by decide⟩
    · exact ⟨by decide, by decide, by decide, by decide, by decide, by decide⟩
  · simp [sample, starCount, xf123]
  · simp [sample, xfCount, xf123]

/-- A transformer in the opposite direction with different ratios. -/
example : let t : Xf2Rec := ⟨2, 1, [], 1, 1, 1, 0, 0, 1, 0.01, 0.05, 100, 1.05, 0, 0, 1, 0⟩
    line12.Complete ∧ t.Plain (fun _ => 110) 100 ∧
      perUnit t.cw t.windv1 t.nomv1 110 ^ 2 ≠ perUnit t.cw t.windv2 t.nomv2 110 ^ 2 := by
  refine ⟨⟨_, _, _, _, _, _, _, rfl, rfl, rfl, rfl, rfl, rfl, rfl⟩, ?_, ?_⟩
  · constructor <;> norm_num
  · norm_num [perUnit]

/-- The second file has other buses than the first. -/
example : let old : St := ⟨[], [((1, 2), 0), ((2, 3), 1)], 2, 3, []⟩
    let c : Case := ⟨[1, 4, 5], 100, [{ line12 with i := 1, j := 4 }], [.two { xf12 with i := 5, j := 4 }]⟩
    (∀ k ∈ c.pairs, find old.map k = none ∧ find old.map (k.2, k.1) = none) ∧
      maxIndex old.maxBus c.buses = maxIndex (-1) c.buses := by
  refine ⟨?_, by decide⟩
  intro k hk
  simp only [Case.pairs, List.map_cons, List.map_nil, List.filterMap_cons, XfRec.pair?, List.filterMap_nil,
    List.cons_append, List.nil_append, List.mem_cons, List.not_mem_nil, or_false] at hk
  rcases hk with rfl | rfl <;> exact ⟨by decide, by decide⟩

/-! The violations for concrete transformers: system base 100, buses of 110 kV. -/

theorem xf12_z : (⟨0.01, 0.05⟩ : ℂ) ≠ 0 := by
  intro h
  have := congrArg Complex.re h
  norm_num at this

example := C167_base_violated (fun _ => 110) 100 0 { xf12 with cz := 1 } (by decide) rfl rfl (by norm_num [xf12])
  (by norm_num [xf12]) (by decide) rfl xf12_z (by norm_num [xf12]) (by norm_num [xf12]) (by norm_num)

example := C167_magnetising_violated (fun _ => 110) 100 0 { xf12 with cz := 1, sbase := 100, mag2 := -0.01 } (by decide)
  rfl rfl (by norm_num [xf12]) (by norm_num [xf12]) (by decide) (by norm_num) rfl

example := C167_conductance_violated (fun _ => 110) 100 0 { xf12 with cz := 1, sbase := 100, mag1 := 0.01 } (by decide)
  rfl rfl (by norm_num [xf12]) (by norm_num [xf12]) (by decide) rfl (by norm_num) rfl

example := C167_kilovolts_violated 100 { xf12 with cw := 2, windv1 := 115 } rfl (Or.inl rfl)

example := C167_nominal_violated (fun _ => 110) 100 0 { xf12 with cw := 3, cz := 1, sbase := 100, nomv2 := 115 }
  (by decide) rfl rfl (by norm_num [xf12]) (by norm_num [xf12]) (by decide) rfl xf12_z rfl (by norm_num) (by norm_num)
  (by norm_num)

example := C166_short_line_violated 100 0 { line12 with g1 := none, b1 := none, g2 := none, b2 := none } (by decide)
  rfl rfl 0.02 rfl (by norm_num) rfl rfl (by decide)

example := C168_base_violated 100 50 0 { xf123 with cz := 2, status := 1, sb12 := 50, sb23 := 50, sb31 := 50 } rfl rfl
  rfl rfl rfl rfl (by norm_num) (by norm_num) (by norm_num) (by norm_num [xf123]) (by decide) (by decide) (by
    intro h
    have := congrArg Complex.re h
    norm_num [xf123] at this)

example := C168_zero_base_violated 100 { xf123 with sb12 := 0 } (by decide) rfl (by norm_num) (Or.inl rfl)

end GridPACK.RawBranch
