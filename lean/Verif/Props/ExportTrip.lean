import Verif.Props.Export
import Verif.Props.RawGroup

/-! Property C175: a network that is written to a RAW file and read again. -/
namespace GridPACK.Export

open GridPACK.RawBranch
open GridPACK.YMatrix hiding diag

/-! ### Specification -/

/-- A number with six decimals. -/
def Six (v : ℝ) : Prop := ∃ n : ℤ, v = n / 10 ^ 6

/-- The branch as the simulation sees it. -/
def XBr.data (b : XBr) : BrData := ⟨b.frm, b.tob, b.glob, b.elems.map XEl.el⟩

/-- What the parser keeps of a two-winding transformer. -/
noncomputable def keptOf (t : Xf2Rec) : Option Kept :=
  t.turns.map (fun w => ⟨t.mag1, t.mag2, t.r, t.x, t.sbase, w.1, w.2, t.ang1⟩)

/-- The elements that survive: lines; windings of three-winding transformers without phase shift (and, if
their ratio is not 1, without magnetising admittance); two-winding transformers.  All numbers have six
decimals. -/
inductive Survives (sbase : ℝ) : XEl → Prop
  | line (ckt : List Char) (r x b g1 b1 g2 b2 : ℝ) (shift : Option ℝ) (status : Option Int)
      (switched : Option Bool) (h : ∀ v ∈ [r, x, b, g1, b1, g2, b2], Six v) :
      Survives sbase ⟨⟨ckt, some r, some x, some b, some 0, shift, some g1, some b1, some g2, some b2,
        status, switched⟩, none⟩
  | nominal (ckt : List Char) (r x g1 b1 : ℝ) (on : Bool) (h : ∀ v ∈ [r, x, g1, b1], Six v) :
      Survives sbase ⟨windEl ckt r x 1 0 g1 b1 on, none⟩
  | winding (ckt : List Char) (r x tap : ℝ) (on : Bool) (h0 : tap ≠ 0) (h1 : tap ≠ 1)
      (h : ∀ v ∈ [r, x, tap, sbase], Six v) : Survives sbase ⟨windEl ckt r x tap 0 0 0 on, none⟩
  | two (t : Xf2Rec) (e : El) (k : Kept) (he : t.el sbase = some e) (hk : keptOf t = some k)
      (h : ∀ v ∈ [k.mag1, k.mag2, k.r12, k.x12, k.sbase, k.windv1, k.windv2, k.ang1], Six v) :
      Survives sbase ⟨e, some k⟩

theorem fmt_six (v : ℝ) (h : Six v) : fmt v = v := by
  obtain ⟨n, rfl⟩ := h
  unfold fmt
  have : ((n : ℝ) / 10 ^ 6 * 10 ^ 6) = (n : ℝ) := by field_simp
  rw [this, round_intCast]

theorem six_zero : Six 0 := ⟨0, by simp⟩

theorem six_one : Six 1 := ⟨10 ^ 6, by norm_num⟩

/-! ### Elements -/

/-- The two-port of an element. -/
noncomputable def elPort (e : El) : TwoPort :=
  ⟨diagPart (loadElem 0 e).1 .bus1, (loadElem 0 e).1.frwd, (loadElem 0 e).1.rvrs,
    diagPart (loadElem 0 e).1 .bus2⟩

theorem loadElem_rv (e : El) (h : e.x.isSome) (rv rv' : ℝ) : loadElem rv e = loadElem rv' e := by
  obtain ⟨x, hx⟩ := Option.isSome_iff_exists.mp h
  simp only [loadElem, hx, Option.getD_some, Option.isSome_some, if_true]

theorem acts_elPort (e : El) (h : e.x.isSome) : Acts e (elPort e) := by
  intro rv
  rw [loadElem_rv e h rv 0]
  exact ⟨rfl, rfl, rfl, rfl⟩

theorem acts_unique {e : El} {P Q : TwoPort} (h : Acts e P) (k : Acts e Q) : P = Q := by
  obtain ⟨a1, a2, a3, a4⟩ := h 0
  obtain ⟨b1, b2, b3, b4⟩ := k 0
  cases P; cases Q
  simp only at a1 a2 a3 a4 b1 b2 b3 b4
  rw [← a1, ← a2, ← a3, ← a4, ← b1, ← b2, ← b3, ← b4]

theorem Survives.x {sbase : ℝ} {e : XEl} (h : Survives sbase e) : e.el.x.isSome := by
  cases h with
  | line => rfl
  | nominal => rfl
  | winding => rfl
  | two t e k he hk h =>
    unfold Xf2Rec.el at he
    split at he
    · simp at he
    · split at he
      · simp at he
      · simp only [Option.some.injEq] at he
        rw [← he]
        rfl

/-- A line that is written and read again. -/
theorem line_port (sbase : ℝ) (b : XBr) (e : XEl) (h : Survives sbase e) (hx : e.isXf = false) :
    (lineRec b e).link = ⟨b.frm, b.tob, elPort e.el⟩ := by
  have hc : (lineRec b e).Complete := ⟨_, _, _, _, _, _, _, rfl, rfl, rfl, rfl, rfl, rfl, rfl⟩
  have hl : (lineRec b e).link = ⟨b.frm, b.tob, (lineRec b e).link.port⟩ := rfl
  rw [hl]
  congr 1
  apply acts_unique (acts_line _ hc)
  have key : elPort e.el = elPort ((lineRec b e).el false) := by
    cases h with
    | line ckt r x b' g1 b1 g2 b2 shift status switched h =>
      simp only [List.mem_cons, List.not_mem_nil, or_false, forall_eq_or_imp, forall_eq] at h
      obtain ⟨a1, a2, a3, a4, a5, a6, a7⟩ := h
      simp [elPort, lineRec, LineRec.el, fmt_six, a1, a2, a3, a4, a5, a6, a7, loadElem, diagPart,
        Elem.frwd, Elem.rvrs, Elem.admittance, Elem.transformer, Elem.shuntOf, Elem.z]
    | nominal ckt r x g1 b1 on h =>
      simp only [List.mem_cons, List.not_mem_nil, or_false, forall_eq_or_imp, forall_eq] at h
      obtain ⟨a1, a2, a3, a4⟩ := h
      have hone : (⟨1, 0⟩ : ℂ) = 1 := rfl
      have hzero : (⟨0, 0⟩ : ℂ) = 0 := rfl
      cases on <;>
      simp [elPort, lineRec, LineRec.el, windEl, fmt_six, a1, a2, a3, a4, six_zero, loadElem, diagPart,
        Elem.frwd, Elem.rvrs, Elem.admittance, Elem.transformer, Elem.shuntOf, Elem.z, Elem.a, Elem.ratio,
        hone, hzero]
    | winding ckt r x tap on h0 h1 h => exact absurd (by simpa [XEl.isXf, windEl, h0] using hx) h1
    | two t e k he hk h => simp [XEl.isXf] at hx
  rw [key]
  exact acts_elPort _ rfl

/-- A transformer that is written and read again. -/
theorem xf_port (sbase : ℝ) (b : XBr) (e : XEl) (h : Survives sbase e) (hx : e.isXf = true) :
    ∃ e', (xfRec sbase b e).el sbase = some e' ∧ e'.x.isSome ∧ elPort e' = elPort e.el := by
  cases h with
  | line ckt r x b' g1 b1 g2 b2 shift status switched h => simp [XEl.isXf] at hx
  | nominal ckt r x g1 b1 on h => simp [XEl.isXf, windEl] at hx
  | winding ckt r x tap on h0 h1 h =>
    simp only [List.mem_cons, List.not_mem_nil, or_false, forall_eq_or_imp, forall_eq] at h
    obtain ⟨a1, a2, a3, a4⟩ := h
    have hz : (⟨0, 0⟩ : ℂ) = 0 := rfl
    refine ⟨_, by simp [xfRec, Xf2Rec.el, Xf2Rec.turns, fmt_six, six_one, divide, windEl]; rfl, rfl, ?_⟩
    cases on <;>
    simp [elPort, xfRec, windEl, fmt_six, a1, a2, a3, a4, six_zero, six_one, Xf2Rec.scale, loadElem,
      diagPart, Elem.frwd, Elem.rvrs, Elem.admittance, Elem.transformer, Elem.shuntOf, Elem.z, Elem.a,
      Elem.ratio, h0, hz]
  | two t e k he hk h =>
    simp only [List.mem_cons, List.not_mem_nil, or_false, forall_eq_or_imp, forall_eq] at h
    obtain ⟨a1, a2, a3, a4, a5, a6, a7, a8⟩ := h
    unfold Xf2Rec.el at he
    unfold keptOf at hk
    cases ht : t.turns with
    | none => rw [ht] at hk; simp at hk
    | some w =>
      obtain ⟨w1, w2⟩ := w
      rw [ht] at hk he
      simp only [Option.map_some, Option.some.injEq] at hk
      subst hk
      simp only at he a1 a2 a3 a4 a5 a6 a7 a8
      cases hd : divide w1 w2 with
      | none => rw [hd] at he; simp at he
      | some tap =>
        rw [hd] at he
        simp only [Option.some.injEq] at he
        subst he
        refine ⟨_, ?_, ?_, rfl⟩
        · simp [xfRec, Xf2Rec.el, Xf2Rec.turns, Xf2Rec.scale, fmt_six, a1, a2, a3, a4, a5, a6, a7, a8, hd]
        · rfl

/-! ### Networks -/

/-- The two-ports of a network. -/
noncomputable def links (bs : List XBr) : List Link :=
  bs.flatMap (fun b => b.elems.map (fun e => ⟨b.frm, b.tob, elPort e.el⟩))

theorem parts_sum (rv : ℝ) (es : List El) (h : ∀ e ∈ es, e.x.isSome) :
    setYBus (loadElems rv es) = ((es.map (fun e => (elPort e).ft)).sum, (es.map (fun e => (elPort e).tf)).sum) ∧
    diagOf (loadElems rv es) .bus1 = (es.map (fun e => (elPort e).ff)).sum ∧
    diagOf (loadElems rv es) .bus2 = (es.map (fun e => (elPort e).tt)).sum := by
  induction es generalizing rv with
  | nil => simp [loadElems, setYBus, diagOf_nil]
  | cons e es ih =>
    obtain ⟨h1, h2, h3⟩ := ih (loadElem rv e).2 (fun x hx => h x (List.mem_cons_of_mem _ hx))
    obtain ⟨k1, k2, k3, k4⟩ := acts_elPort e (h e List.mem_cons_self) rv
    simp only [setYBus, Prod.mk.injEq] at h1
    simp only [loadElems, setYBus, diagOf_cons, List.map_cons, List.sum_cons, h1, h2, h3, k1, k2, k3, k4,
      and_self]

theorem network_links (rv : ℝ) (bs : List XBr) (h : ∀ b ∈ bs, ∀ e ∈ b.elems, e.el.x.isSome) :
    (∀ p q, entry rv (bs.map XBr.data) p q = linkEntry (links bs) p q) ∧
    ∀ p, diag rv (bs.map XBr.data) p = linkDiag (links bs) p := by
  induction bs with
  | nil => simp [entry, diag, linkEntry, linkDiag, links]
  | cons b bs ih =>
    obtain ⟨i1, i2⟩ := ih (fun c hc => h c (List.mem_cons_of_mem _ hc))
    obtain ⟨h1, h2, h3⟩ := parts_sum rv (b.elems.map XEl.el) (by
      intro e he
      obtain ⟨x, hx, rfl⟩ := List.mem_map.mp he
      exact h b List.mem_cons_self x hx)
    have hl : links (b :: bs) = b.elems.map (fun e => ⟨b.frm, b.tob, elPort e.el⟩) ++ links bs := rfl
    have hsum : ∀ (c : Prop) [Decidable c] (f : El → ℂ), (if c then ((b.elems.map XEl.el).map f).sum else 0) =
        (b.elems.map (fun e => if c then f e.el else 0)).sum := by
      intro c _ f
      by_cases hc : c <;> simp [hc, List.map_map, Function.comp_def]
    constructor
    · intro p q
      rw [hl, linkEntry_append, ← i1 p q]
      simp only [entry, List.map_cons, List.sum_cons]
      congr 1
      simp only [XBr.data, h1, linkEntry, List.map_map, Function.comp_def]
      have e1 := hsum (b.frm = p ∧ b.tob = q) (fun e => (elPort e).ft)
      have e2 := hsum (b.frm = q ∧ b.tob = p) (fun e => (elPort e).tf)
      simp only [List.map_map, Function.comp_def] at e1 e2
      rw [e1, e2, ← List.sum_map_add]
    · intro p
      rw [hl, linkDiag_append, ← i2 p]
      simp only [diag, List.map_cons, List.sum_cons]
      congr 1
      simp only [XBr.data, h2, h3, linkDiag, List.map_map, Function.comp_def]
      have e1 := hsum (b.frm = p) (fun e => (elPort e).ff)
      have e2 := hsum (b.tob = p) (fun e => (elPort e).tt)
      simp only [List.map_map, Function.comp_def] at e1 e2
      rw [e1, e2, ← List.sum_map_add]

/-- The two-port of a transformer record as the parser reads it. -/
noncomputable def xlink (sbase : ℝ) (t : Xf2Rec) : Link :=
  ⟨t.i, t.j, match t.el sbase with
    | some e => elPort e
    | none => ⟨0, 0, 0, 0⟩⟩

theorem readXf2_port (sbase : ℝ) (st : St) (hI : Inv st) (P : List (Int × Int))
    (hP : ∀ k n, find st.map k = some n → k ∈ P) (t : Xf2Rec) (e : El) (he : t.el sbase = some e)
    (hx : e.x.isSome) (hl : (t.i, t.j) ∈ P) (hrev : (t.j, t.i) ∉ P) :
    ∃ st', readXf2 sbase st t = some st' ∧ Inv st' ∧
      (∀ k n, find st'.map k = some n → k ∈ P) ∧ Adds st.branches st'.branches [xlink sbase t] := by
  have hacts := acts_elPort e hx
  have hlink : xlink sbase t = ⟨t.i, t.j, elPort e⟩ := by simp [xlink, he]
  rw [hlink]
  unfold readXf2
  simp only [he]
  cases h1 : find st.map (t.i, t.j) with
  | some n =>
    obtain ⟨b, hb, hf, ht⟩ := hI.leads _ _ _ h1
    simp only [hb]
    refine ⟨_, rfl, hI.addEl n _, hP, ?_⟩
    have := adds_at st.branches n b hb e _ hacts
    rw [hf, ht] at this
    exact this
  | none =>
    cases h2 : find st.map (t.j, t.i) with
    | some n => exact absurd (hP _ _ h2) hrev
    | none =>
      refine ⟨_, rfl, ?_, ?_, adds_new st.branches t.i t.j st.index _ _ hacts⟩
      · rw [insert_same]
        exact hI.new t.i t.j h1 st.index (st.index + 1) [e]
      · intro k n hk
        simp only [insert_same] at hk
        rw [find_insert _ _ _ _ h1] at hk
        by_cases hkk : k = (t.i, t.j)
        · rw [hkk]; exact hl
        · simp only [hkk, if_false] at hk
          exact hP k n hk

theorem readXfs_port (sbase : ℝ) (known : Int → Bool) (P : List (Int × Int)) (ts : List Xf2Rec)
    (he : ∀ t ∈ ts, ∃ e, t.el sbase = some e ∧ e.x.isSome)
    (hl : ∀ t ∈ ts, (t.i, t.j) ∈ P ∧ (t.j, t.i) ∉ P) : ∀ st : St, Inv st →
    (∀ k n, find st.map k = some n → k ∈ P) →
    ∃ st', readXfs sbase known st (ts.map XfRec.two) = some st' ∧
      Adds st.branches st'.branches (ts.map (xlink sbase)) := by
  induction ts with
  | nil => intro st _ _; exact ⟨st, rfl, Adds.refl _⟩
  | cons t ts ih =>
    intro st h1 h2
    obtain ⟨e, he1, he2⟩ := he t List.mem_cons_self
    obtain ⟨l1, l2⟩ := hl t List.mem_cons_self
    obtain ⟨s1, e1, a1, a2, a3⟩ := readXf2_port sbase st h1 P h2 t e he1 he2 l1 l2
    obtain ⟨s2, e2, b2⟩ := ih (fun x hx => he x (List.mem_cons_of_mem _ hx))
      (fun x hx => hl x (List.mem_cons_of_mem _ hx)) s1 a1 a2
    exact ⟨s2, by simp [readXfs, readXf, e1, e2], a3.trans b2⟩

/-- Lines and transformers together are all elements. -/
theorem texts_sum (sbase : ℝ) (φ : Link → ℂ) (bs : List XBr)
    (h : ∀ b ∈ bs, ∀ e ∈ b.elems, Survives sbase e) :
    ((lineTexts bs).map (fun t => φ t.text.link)).sum +
      ((xfTexts sbase bs).map (fun t => φ (xlink sbase t.text))).sum = ((links bs).map φ).sum := by
  have one : ∀ (b : XBr) (es : List XEl), (∀ e ∈ es, Survives sbase e) → ∀ j j',
      ((devTexts b.glob (fun e => if e.isXf then none else some (lineRec b e)) j es).map
        (fun t => φ t.text.link)).sum +
      ((devTexts b.glob (fun e => if e.isXf then some (xfRec sbase b e) else none) j' es).map
        (fun t => φ (xlink sbase t.text))).sum =
      ((es.map (fun e => (⟨b.frm, b.tob, elPort e.el⟩ : Link))).map φ).sum := by
    intro b es
    induction es with
    | nil => intro _ j j'; simp [devTexts]
    | cons e es ih =>
      intro hs j j'
      have ih := ih (fun x hx => hs x (List.mem_cons_of_mem _ hx)) (j + 1) (j' + 1)
      cases hx : e.isXf with
      | false =>
        have hp := line_port sbase b e (hs e List.mem_cons_self) hx
        simp only [devTexts, hx, Bool.false_eq_true, if_false, List.map_cons, List.sum_cons, hp]
        rw [← ih]
        ring
      | true =>
        obtain ⟨e', h1, _, h3⟩ := xf_port sbase b e (hs e List.mem_cons_self) hx
        have hp : xlink sbase (xfRec sbase b e) = ⟨b.frm, b.tob, elPort e.el⟩ := by
          unfold xlink
          rw [h1]
          simp only [h3]
          rfl
        simp only [devTexts, hx, if_true, List.map_cons, List.sum_cons, hp]
        rw [← ih]
        ring
  induction bs with
  | nil => simp [lineTexts, xfTexts, links]
  | cons b bs ih =>
    have ih := ih (fun c hc => h c (List.mem_cons_of_mem _ hc))
    have h1 := one b b.elems (h b List.mem_cons_self) 0 0
    simp only [lineTexts, xfTexts, links, List.flatMap_cons, List.map_append, List.sum_append] at ih h1 ⊢
    rw [← ih, ← h1]
    ring

/-- C175.  A network without a transformer in parallel with a line, whose elements are of the kinds
`Survives` lists, is written to a file from which the parser builds a network with the same admittance
matrix — for every distribution over processes and every order of their writes.  (What is missing: the
other elements, see the `_violated` theorems.) -/
theorem C175_round_trip_partial (sbase : ℝ) (buses : List Int) (procs : List (List XBr))
    (hnd : (procs.flatten.map XBr.glob).Nodup)
    (hpair : ∀ b ∈ procs.flatten, ∀ c ∈ procs.flatten, (b.frm, b.tob) ≠ (c.tob, c.frm))
    (hpure : ∀ b ∈ procs.flatten, (∀ e ∈ b.elems, e.isXf = false) ∨ ∀ e ∈ b.elems, e.isXf = true)
    (hs : ∀ b ∈ procs.flatten, ∀ e ∈ b.elems, Survives sbase e)
    (d1 d2 d3 d4 : List Nat) (o1 : List (TextLine LineRec)) (o2 : List (TextLine Xf2Rec))
    (hr1 : Run d1 d2 o1 (procs.map lineTexts)) (hr2 : Run d3 d4 o2 (procs.map (xfTexts sbase))) :
    ∃ (ls : List LineRec) (xs : List Xf2Rec) (st : St),
      writeDataBlock d1 d2 o1 (procs.map lineTexts) = some (ls.map some) ∧
      writeDataBlock d3 d4 o2 (procs.map (xfTexts sbase)) = some (xs.map some) ∧
      getCase fresh ⟨buses, sbase, ls, xs.map XfRec.two⟩ = some st ∧ ∀ rv,
        (∀ p q, entry rv st.branches p q = entry rv (procs.flatten.map XBr.data) p q) ∧
        ∀ p, diag rv st.branches p = diag rv (procs.flatten.map XBr.data) p := by
  have hlf : ∀ b ∈ procs.flatten, LinesFirst b.elems := by
    intro b hb
    rcases hpure b hb with h | h
    · exact ⟨b.elems, [], by simp, h, by simp⟩
    · exact ⟨[], b.elems, rfl, by simp, h⟩
  obtain ⟨t1, p1, _, w1⟩ := C173_lines_partial procs hnd hlf d1 d2 o1 hr1
  obtain ⟨t2, p2, _, w2⟩ := C173_transformers_partial sbase procs hnd hpure d3 d4 o2 hr2
  generalize procs.flatten = bs at *
  -- where the records come from
  have m1 : ∀ t ∈ t1, ∃ b ∈ bs, ∃ e, t.text = lineRec b e := by
    intro t ht
    obtain ⟨b, hb, h⟩ := List.mem_flatMap.mp (p1.mem_iff.mp ht)
    obtain ⟨_, _, e, _, h2⟩ := devTexts_mem _ _ _ _ _ h
    split_ifs at h2
    exact ⟨b, hb, e, by simpa using h2.symm⟩
  have m2 : ∀ t ∈ t2, ∃ b ∈ bs, ∃ e ∈ b.elems, e.isXf = true ∧ t.text = xfRec sbase b e := by
    intro t ht
    obtain ⟨b, hb, h⟩ := List.mem_flatMap.mp (p2.mem_iff.mp ht)
    obtain ⟨_, _, e, h1, h2⟩ := devTexts_mem _ _ _ _ _ h
    split_ifs at h2 with hx
    exact ⟨b, hb, e, List.mem_of_getElem? h1, hx, by simpa using h2.symm⟩
  have hrev : ∀ b ∈ bs, (b.tob, b.frm) ∉ bs.map (fun c => (c.frm, c.tob)) := by
    intro b hb h
    obtain ⟨c, hc, h⟩ := List.mem_map.mp h
    exact hpair c hc b hb h
  have hin : ∀ b ∈ bs, (b.frm, b.tob) ∈ bs.map (fun c => (c.frm, c.tob)) :=
    fun b hb => List.mem_map.mpr ⟨b, hb, rfl⟩
  have hI : Inv ⟨[], fresh.map, 0, maxIndex fresh.maxBus buses, []⟩ := by
    constructor
    intro i j n h
    simp [fresh, find] at h
  obtain ⟨s1, e1, a1, a2, a3, a4, a5⟩ := readLines_adds (bs.map (fun c => (c.frm, c.tob)))
    (t1.map TextLine.text)
    (by
      intro l hl
      obtain ⟨t, ht, rfl⟩ := List.mem_map.mp hl
      obtain ⟨b, _, e, h⟩ := m1 t ht
      rw [h]
      exact ⟨_, _, _, _, _, _, _, rfl, rfl, rfl, rfl, rfl, rfl, rfl⟩)
    (by
      intro l hl
      obtain ⟨t, ht, rfl⟩ := List.mem_map.mp hl
      obtain ⟨b, hb, e, h⟩ := m1 t ht
      rw [h]
      exact hin b hb)
    (by
      intro l hl
      obtain ⟨t, ht, rfl⟩ := List.mem_map.mp hl
      obtain ⟨b, hb, e, h⟩ := m1 t ht
      rw [h]
      exact Or.inr (hrev b hb)) _ hI rfl (fun k n h => by simp [fresh, find] at h)
  have hI1 : Inv { s1 with index := s1.branches.length } := ⟨a1.leads⟩
  obtain ⟨s2, e2, b2⟩ := readXfs_port sbase (fun b => decide (b ∈ buses)) (bs.map (fun c => (c.frm, c.tob)))
    (t2.map TextLine.text)
    (by
      intro l hl
      obtain ⟨t, ht, rfl⟩ := List.mem_map.mp hl
      obtain ⟨b, hb, e, he, hx, h⟩ := m2 t ht
      obtain ⟨e', k1, k2, _⟩ := xf_port sbase b e (hs b hb e he) hx
      rw [h]
      exact ⟨e', k1, k2⟩)
    (by
      intro l hl
      obtain ⟨t, ht, rfl⟩ := List.mem_map.mp hl
      obtain ⟨b, hb, e, he, hx, h⟩ := m2 t ht
      rw [h]
      exact ⟨hin b hb, hrev b hb⟩)
    { s1 with index := s1.branches.length } hI1 a3
  refine ⟨t1.map TextLine.text, t2.map TextLine.text, s2, by rw [w1, List.map_map]; rfl,
    by rw [w2, List.map_map]; rfl, by rw [getCase, e1]; exact e2, ?_⟩
  intro rv
  obtain ⟨h1, h2⟩ := (a5.trans b2) rv
  obtain ⟨n1, n2⟩ := network_links rv bs (fun b hb e he => (hs b hb e he).x)
  have hsum : ∀ φ : Link → ℂ, (((t1.map TextLine.text).map LineRec.link ++
      (t2.map TextLine.text).map (xlink sbase)).map φ).sum = ((links bs).map φ).sum := by
    intro φ
    rw [← texts_sum sbase φ bs hs, List.map_append, List.sum_append]
    simp only [List.map_map, Function.comp_def]
    rw [(p1.map _).sum_eq, (p2.map _).sum_eq]
  constructor
  · intro p q
    rw [h1, n1]
    simp only [entry, List.map_nil, List.sum_nil, zero_add]
    exact hsum _
  · intro p
    rw [h2, n2]
    simp only [diag, List.map_nil, List.sum_nil, zero_add]
    exact hsum _

/-! ### What is lost -/

/-- The file of a network with one branch, read again. -/
noncomputable def again (buses : List Int) (sbase : ℝ) (b : XBr) : Option St :=
  getCase fresh ⟨buses, sbase, (lineTexts [b]).map TextLine.text,
    (xfTexts sbase [b]).map (fun t => XfRec.two t.text)⟩

theorem conj_unit_ne (a : ℝ) (h : Real.sin a ≠ 0) : (starRingEnd ℂ) (⟨Real.cos a, Real.sin a⟩ : ℂ) ≠ 1 := by
  intro hc
  have := congrArg Complex.im hc
  simp at this
  exact h this

/-- C175: the phase shift of a winding of a three-winding transformer is lost, whatever its ratio. -/
theorem C175_shift_violated (buses : List Int) (sbase : ℝ) (i s : Int) (his : i ≠ s) (g : Nat) (ckt : List Char)
    (r x tap ang g1 b1 : ℝ) (h0 : tap ≠ 0) (hz : r ≠ 0 ∨ x ≠ 0) (hang : Real.sin (ang * Real.pi / 180) ≠ 0)
    (h : ∀ v ∈ [r, x, tap, sbase], Six v) :
    let b : XBr := ⟨i, s, g, [⟨windEl ckt r x tap ang g1 b1 true, none⟩]⟩
    ∃ st, again buses sbase b = some st ∧ ∀ rv, entry rv st.branches i s ≠ entry rv [b.data] i s := by
  intro b
  simp only [List.mem_cons, List.not_mem_nil, or_false, forall_eq_or_imp, forall_eq] at h
  obtain ⟨a1, a2, a3, a4⟩ := h
  have hsi : ¬ (i = s ∧ s = i) := fun h => his h.1
  have hsi' : ¬ (s = i ∧ i = s) := fun h => his h.2
  have hzz : (⟨r, x⟩ : ℂ) ≠ 0 := by
    intro h
    have h1 := congrArg Complex.re h
    have h2 := congrArg Complex.im h
    simp at h1 h2
    rcases hz with h | h
    · exact h h1
    · exact h h2
  have ht : (tap : ℂ) ≠ 0 := by exact_mod_cast h0
  have hu : (starRingEnd ℂ) (⟨Real.cos (ang * Real.pi / 180), Real.sin (ang * Real.pi / 180)⟩ : ℂ) ≠ 0 := by
    rw [ne_eq, map_eq_zero]
    exact unit_ne _
  have hne := conj_unit_ne _ hang
  have orig : ∀ rv, entry rv [b.data] i s = (-1 / (⟨r, x⟩ : ℂ)) / ((tap : ℂ) *
      (starRingEnd ℂ) (⟨Real.cos (ang * Real.pi / 180), Real.sin (ang * Real.pi / 180)⟩ : ℂ)) := by
    intro rv
    simp [b, entry, XBr.data, loadElems, setYBus, loadElem, windEl, Elem.frwd, Elem.a, Elem.ratio, Elem.z, h0,
      his]
  have final : (-1 / (⟨r, x⟩ : ℂ)) / (tap : ℂ) ≠ (-1 / (⟨r, x⟩ : ℂ)) / ((tap : ℂ) *
      (starRingEnd ℂ) (⟨Real.cos (ang * Real.pi / 180), Real.sin (ang * Real.pi / 180)⟩ : ℂ)) := by
    intro h
    rw [← div_div] at h
    have hy : (-1 / (⟨r, x⟩ : ℂ)) / (tap : ℂ) ≠ 0 :=
      div_ne_zero (div_ne_zero (neg_ne_zero.mpr one_ne_zero) hzz) ht
    rw [eq_div_iff hu] at h
    exact hne (mul_left_cancel₀ hy (by rw [h, mul_one]))
  by_cases h1 : tap = 1
  · refine ⟨_, by
      simp [again, b, lineTexts, xfTexts, devTexts, XEl.isXf, windEl, h1, getCase, readLines, readLine, readXfs,
        fresh, find]; rfl, ?_⟩
    intro rv
    rw [orig]
    have hone : ((1 : ℝ) : ℂ) = 1 := by simp
    rw [h1, hone, div_one] at final
    rw [h1]
    simpa [entry, loadElems, setYBus, loadElem, LineRec.el, lineRec, windEl, fmt_six, a1, a2, Elem.frwd, Elem.z,
      his] using final
  · refine ⟨_, by
      simp [again, b, lineTexts, xfTexts, devTexts, XEl.isXf, windEl, h0, h1, getCase, readLines, readXfs, readXf,
        readXf2, xfRec, Xf2Rec.el, Xf2Rec.turns, divide, fmt_six, six_zero, six_one, a1, a2, a3, a4, fresh, find]
      rfl, ?_⟩
    intro rv
    rw [orig]
    have hone : (⟨1, 0⟩ : ℂ) = 1 := rfl
    simpa [entry, loadElems, setYBus, loadElem, Xf2Rec.scale, Elem.frwd, Elem.z, Elem.a, Elem.ratio, his, h0, hone]
      using final

/-- C175: the magnetising admittance of a three-winding transformer is lost when the ratio of its first
winding is not 1. -/
theorem C175_magnetising_violated (buses : List Int) (sbase : ℝ) (i s : Int) (his : i ≠ s) (g : Nat)
    (ckt : List Char) (r x tap g1 b1 : ℝ) (h0 : tap ≠ 0) (h1 : tap ≠ 1) (hm : g1 ≠ 0 ∨ b1 ≠ 0)
    (h : ∀ v ∈ [r, x, tap, sbase], Six v) :
    let b : XBr := ⟨i, s, g, [⟨windEl ckt r x tap 0 g1 b1 true, none⟩]⟩
    ∃ st, again buses sbase b = some st ∧ ∀ rv, diag rv [b.data] i = diag rv st.branches i + ⟨g1, b1⟩ ∧
      diag rv st.branches i ≠ diag rv [b.data] i := by
  intro b
  simp only [List.mem_cons, List.not_mem_nil, or_false, forall_eq_or_imp, forall_eq] at h
  obtain ⟨a1, a2, a3, a4⟩ := h
  have hmm : (⟨g1, b1⟩ : ℂ) ≠ 0 := by
    intro h
    have h1 := congrArg Complex.re h
    have h2 := congrArg Complex.im h
    simp at h1 h2
    rcases hm with h | h
    · exact h h1
    · exact h h2
  refine ⟨_, by
      simp [again, b, lineTexts, xfTexts, devTexts, XEl.isXf, windEl, h0, h1, getCase, readLines, readXfs, readXf,
        readXf2, xfRec, Xf2Rec.el, Xf2Rec.turns, divide, fmt_six, six_zero, six_one, a1, a2, a3, a4, fresh, find]
      rfl, ?_⟩
  intro rv
  have his' : ¬ s = i := fun h => his h.symm
  have key : diag rv [b.data] i = diag rv [⟨i, s, 0, [⟨ckt, some r, some x, some 0, some tap, some 0, none, none,
      none, none, some 1, none⟩]⟩] i + ⟨g1, b1⟩ := by
    simp [b, diag, XBr.data, loadElems, diagOf_cons, diagOf_nil, diagPart, loadElem, windEl, Elem.transformer,
      Elem.admittance, Elem.shuntOf, Elem.ratio, Elem.z, h0, his']
  have same : diag rv [⟨i, s, 0, [⟨ckt, some r, some x, some 0, some tap, some 0, none, none,
      none, none, some 1, none⟩]⟩] i ≠ diag rv [b.data] i := by
    rw [key]
    intro h
    exact hmm (by simpa using h.symm)
  simp only [Xf2Rec.scale, mul_one, true_or, if_true] at key same ⊢
  exact ⟨key, same⟩

/-- C175: every number of the file is within half a unit of the sixth decimal. -/
theorem C175_digits_partial (v : ℝ) : |fmt v - v| ≤ 1 / 2 / 10 ^ 6 := by
  have h := abs_sub_round (v * 10 ^ 6)
  have e : fmt v - v = -(v * 10 ^ 6 - round (v * 10 ^ 6)) / 10 ^ 6 := by
    unfold fmt
    field_simp
    ring
  rw [e, abs_div, abs_neg, abs_of_pos (show (0 : ℝ) < 10 ^ 6 by positivity)]
  exact div_le_div_of_nonneg_right h (by positivity)

/-- C175: a line with a small impedance is written as a line without impedance. -/
theorem C175_digits_violated (b : XBr) (e : XEl) (r x : ℝ) (hr : e.el.r = some r) (hx : e.el.x = some x)
    (h1 : |r| < 1 / 2 / 10 ^ 6) (h2 : |x| < 1 / 2 / 10 ^ 6) :
    (lineRec b e).r = some 0 ∧ (lineRec b e).x = some 0 := by
  have key : ∀ v : ℝ, |v| < 1 / 2 / 10 ^ 6 → fmt v = 0 := by
    intro v hv
    have h : round (v * 10 ^ 6) = 0 := by
      rw [round_eq_zero_iff]
      rw [abs_lt] at hv
      constructor
      · have := hv.1
        rw [← neg_div, div_lt_iff₀ (by positivity)] at this
        exact le_of_lt this
      · have := hv.2
        rw [lt_div_iff₀ (by positivity)] at this
        exact this
    unfold fmt
    rw [h]
    simp
  simp [lineRec, hr, hx, key r h1, key x h2]

/-! ### Examples -/

/-- A line and a winding with ratio 1.05. -/
noncomputable def exLine : XEl :=
  ⟨⟨['1'], some 0.01, some 0.1, some 0.02, some 0, some 0, some 0, some 0, some 0, some 0, some 1,
    some false⟩, none⟩

noncomputable def exWind : XEl := ⟨windEl ['1'] 0.001 0.05 1.05 0 0 0 true, none⟩

theorem exLine_survives : Survives 100 exLine := by
  apply Survives.line
  intro v hv
  simp only [List.mem_cons, List.not_mem_nil, or_false] at hv
  rcases hv with rfl | rfl | rfl | rfl | rfl | rfl | rfl
  · exact ⟨10000, by norm_num⟩
  · exact ⟨100000, by norm_num⟩
  · exact ⟨20000, by norm_num⟩
  all_goals exact six_zero

theorem exWind_survives : Survives 100 exWind := by
  apply Survives.winding
  · norm_num
  · norm_num
  · intro v hv
    simp only [List.mem_cons, List.not_mem_nil, or_false] at hv
    rcases hv with rfl | rfl | rfl | rfl
    · exact ⟨1000, by norm_num⟩
    · exact ⟨50000, by norm_num⟩
    · exact ⟨1050000, by norm_num⟩
    · exact ⟨100000000, by norm_num⟩

theorem exLine_isXf : exLine.isXf = false := by simp [exLine, XEl.isXf]

theorem exWind_isXf : exWind.isXf = true := by
  simp only [exWind, XEl.isXf, windEl, Option.getD_some]
  norm_num

/-- Two processes: a line on the one and a winding on the other. -/
noncomputable def exNet : List (List XBr) := [[⟨1, 2, 1, [exLine]⟩], [⟨2, 3, 0, [exWind]⟩]]

example : (exNet.flatten.map XBr.glob).Nodup ∧
    (∀ b ∈ exNet.flatten, ∀ c ∈ exNet.flatten, (b.frm, b.tob) ≠ (c.tob, c.frm)) ∧
    (∀ b ∈ exNet.flatten, (∀ e ∈ b.elems, e.isXf = false) ∨ ∀ e ∈ b.elems, e.isXf = true) ∧
    (∀ b ∈ exNet.flatten, ∀ e ∈ b.elems, Survives 100 e) ∧
    Run [1, 1] [1, 0] (lineTexts exNet.flatten) (exNet.map lineTexts) := by
  refine ⟨by simp [exNet], by simp [exNet], ?_, ?_, ?_⟩
  · simp [exNet, exLine_isXf, exWind_isXf]
  · simp [exNet, exLine_survives, exWind_survives]
  · constructor
    · simp [exNet, gmax, localMax, lineTexts, devTexts, exLine_isXf, exWind_isXf]
    · simp [exNet, lineTexts, devTexts, exLine_isXf, exWind_isXf]
    · simp [exNet, lineTexts]

/-- A line with a winding in parallel. -/
example : LinesFirst [exLine, exWind] ∧ (∃ e ∈ [exLine, exWind], e.isXf = false) ∧
    (∃ e ∈ [exLine, exWind], e.isXf = true) ∧
    writeDataBlock [1] [1] (xfTexts 100 [⟨1, 2, 0, [exLine, exWind]⟩])
      [xfTexts 100 [⟨1, 2, 0, [exLine, exWind]⟩]] = none := by
  refine ⟨⟨[exLine], [exWind], rfl, by simp [exLine_isXf], by simp [exWind_isXf]⟩, by simp [exLine_isXf],
    by simp [exWind_isXf], ?_⟩
  simp [writeDataBlock, xfTexts, devTexts, exLine_isXf, exWind_isXf, gmax, localMax, counts, pieces,
    globalOffsets, localOffsets, scatter]

/-- The block that follows from a gap: the text of another branch is overwritten and one place is empty. -/
example : writeDataBlock [2] [2] [⟨1, 0, "b"⟩, ⟨0, 1, "a"⟩] [[⟨0, 1, "a"⟩, ⟨1, 0, "b"⟩]] =
    some [none, some "a"] := by decide

/-- Two processes, the writes arriving in another order. -/
example : writeDataBlock [1, 1] [2, 1] [⟨1, 0, "c"⟩, ⟨0, 1, "b"⟩, ⟨0, 0, "a"⟩]
    [[⟨0, 1, "b"⟩, ⟨1, 0, "c"⟩], [⟨0, 0, "a"⟩]] = some [some "a", some "b", some "c"] := by decide

example : Numbered [⟨0, 1, "b"⟩, ⟨1, 0, "c"⟩, ⟨0, 0, "a"⟩] := by
  intro g
  rcases g with _ | _ | g
  · exact List.Perm.swap 0 1 []
  · exact List.Perm.refl _
  · simp

/-- A load of constant current is not written. -/
example : loadTexts [⟨7, 0, [⟨['1'], 1, 0, 0, 50, 10, 0, 0⟩]⟩] = [] := by simp [loadTexts, devTexts]

example : Real.sin (30 * Real.pi / 180) ≠ 0 := by
  apply ne_of_gt
  apply Real.sin_pos_of_pos_of_lt_pi
  · positivity
  · have := Real.pi_pos
    linarith

end GridPACK.Export
