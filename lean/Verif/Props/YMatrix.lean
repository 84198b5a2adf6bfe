import Verif.Model.YMatrix
import Mathlib.Algebra.BigOperators.Group.List.Basic
import Mathlib.Tactic.Ring
import Mathlib.Tactic.Linarith
import Mathlib.Tactic.FieldSimp

/-! Properties C43 (symmetry), C44 (row sums), C45 (line elements), C80 (two-port model), C81 (direction of an
element). -/
namespace GridPACK.YMatrix

open Complex

/-! ### Specification: the two-port of an element

An in-service element between its own "from" and "to" ends, with series admittance `y`, line charging
`B`, and (for a transformer) a complex ratio `t` on the "from" side. -/

structure TwoPort where
  ff : ℂ
  ft : ℂ
  tf : ℂ
  tt : ℂ

noncomputable def twoPort (y : ℂ) (charging : ℝ) (t : ℂ) : TwoPort :=
  ⟨(y + I * (charging / 2 : ℝ)) / (t * (starRingEnd ℂ) t), -y / (starRingEnd ℂ) t, -y / t,
   y + I * (charging / 2 : ℝ)⟩

/-- The two-port of an element of a branch: ratio 1 for a line; nothing when out of service. -/
noncomputable def Elem.port (e : Elem) : TwoPort :=
  if e.status then twoPort (1 / e.z) e.charging (if e.xform then e.ratio else 1) else ⟨0, 0, 0, 0⟩

/-- Seen from the branch: a switched element has its "from" end at bus 2. -/
noncomputable def Elem.port11 (e : Elem) : ℂ := if e.switched then e.port.tt else e.port.ff
noncomputable def Elem.port12 (e : Elem) : ℂ := if e.switched then e.port.tf else e.port.ft
noncomputable def Elem.port21 (e : Elem) : ℂ := if e.switched then e.port.ft else e.port.tf
noncomputable def Elem.port22 (e : Elem) : ℂ := if e.switched then e.port.ff else e.port.tt

theorem frwd_eq_port (e : Elem) : e.frwd = e.port12 := by
  unfold Elem.frwd Elem.port12 Elem.port twoPort Elem.a
  cases e.status <;> cases e.xform <;> cases e.switched <;> simp [neg_div]

theorem rvrs_eq_port (e : Elem) : e.rvrs = e.port21 := by
  unfold Elem.rvrs Elem.port21 Elem.port twoPort Elem.a
  cases e.status <;> cases e.xform <;> cases e.switched <;> simp [neg_div]

/-- C80, off-diagonal entries: the admittance between the two buses of a branch is the sum of the
two-ports of its elements, in both directions. -/
theorem C80_offdiag (es : List Elem) :
    setYBus es = ((es.map Elem.port12).sum, (es.map Elem.port21).sum) := by
  unfold setYBus
  rw [List.map_congr_left (fun e _ => frwd_eq_port e), List.map_congr_left (fun e _ => rvrs_eq_port e)]

/-- Shunt admittances given for the ends of an element, as the code assigns them to the buses. -/
noncomputable def Elem.endShunt (e : Elem) (s : Side) : ℂ :=
  if e.status && e.shunt then (match s with | .bus1 => ⟨e.g1, e.b1⟩ | .bus2 => ⟨e.g2, e.b2⟩) else 0

theorem mk_half (c : ℝ) : (⟨0, c / 2⟩ : ℂ) = I * (c / 2 : ℝ) := by
  apply Complex.ext <;> simp

theorem elem_diag (e : Elem) (s : Side) (h : e.xform = false → e.shunt = true) :
    -e.admittance - e.transformer s + e.shuntOf s =
      (match s with | .bus1 => e.port11 | .bus2 => e.port22) + e.endShunt s := by
  unfold Elem.admittance Elem.transformer Elem.shuntOf Elem.port11 Elem.port22 Elem.port twoPort
    Elem.endShunt
  rw [mk_half]
  cases hst : e.status
  · cases s <;> simp
  · cases hx : e.xform
    · have hs := h hx
      cases s <;> cases hsw : e.switched <;> simp [hs, neg_div] <;> ring
    · cases s <;> cases hsw : e.switched <;> cases hs : e.shunt <;>
        simp [neg_div] <;> ring

/-- C80, diagonal entries: the contribution of a branch to the diagonal of an end bus is the sum of the
two-ports of its elements, plus the shunts given for that end.  (For lines the shunt data must be
complete.) -/
theorem C80_diag_partial (b : Branch) (hne : b.bus1 ≠ b.bus2)
    (h : ∀ e ∈ b.elems, e.xform = false → e.shunt = true) :
    b.diagOf b.bus1 = (b.elems.map Elem.port11).sum + (b.elems.map (fun e => e.endShunt .bus1)).sum ∧
    b.diagOf b.bus2 = (b.elems.map Elem.port22).sum + (b.elems.map (fun e => e.endShunt .bus2)).sum := by
  have key : ∀ (s : Side) (es : List Elem), (∀ e ∈ es, e.xform = false → e.shunt = true) →
      -getAdmittance es - getTransformer es s + getShunt es s =
        (es.map (fun e => match s with | .bus1 => e.port11 | .bus2 => e.port22)).sum +
        (es.map (fun e => e.endShunt s)).sum := by
    intro s es hes
    unfold getAdmittance getTransformer getShunt
    induction es with
    | nil => simp
    | cons e es ih =>
      have h1 := elem_diag e s (hes e (by simp))
      have h2 := ih (fun x hx => hes x (List.mem_cons_of_mem _ hx))
      simp only [List.map_cons, List.sum_cons]
      linear_combination h1 + h2
  constructor
  · unfold Branch.diagOf Branch.side
    simp only [if_true]
    exact key .bus1 b.elems h
  · unfold Branch.diagOf Branch.side
    have : ¬ b.bus2 = b.bus1 := fun e => hne e.symm
    simp only [this, if_false]
    exact key .bus2 b.elems h

/-- C80 fails for a line whose shunt data is incomplete (for example no `BRANCH_SHUNT_ADMTTNC_G1`): its
charging is left out of the matrix although it is kept for transformers. -/
theorem C80_incomplete_shunt_violated (e : Elem) (hs : e.status = true) (hx : e.xform = false)
    (hsh : e.shunt = false) (hc : e.charging ≠ 0) :
    -getAdmittance [e] - getTransformer [e] .bus1 + getShunt [e] .bus1 ≠ e.port11 := by
  unfold getAdmittance getTransformer getShunt Elem.admittance Elem.transformer Elem.shuntOf Elem.port11
    Elem.port twoPort
  cases hsw : e.switched <;> simp [hs, hx, hsh, hc, neg_div]

/-! ### C43 -/

/-- C43.  Without phase shift both directions of a branch have the same entry, for any list of elements. -/
theorem C43_symmetric (es : List Elem) (h : ∀ e ∈ es, e.xform = true → e.phase = 0) :
    (setYBus es).1 = (setYBus es).2 := by
  unfold setYBus
  simp only
  congr 1
  apply List.map_congr_left
  intro e he
  unfold Elem.frwd Elem.rvrs Elem.a Elem.ratio
  cases hx : e.xform
  · rfl
  · have hp := h e he hx
    have hreal : (starRingEnd ℂ) ((e.tap : ℂ) * ⟨Real.cos 0, Real.sin 0⟩) =
        (e.tap : ℂ) * ⟨Real.cos 0, Real.sin 0⟩ := by
      apply Complex.ext <;> simp
    rw [hp]
    cases e.switched <;> simp only [if_true, if_false, hreal, Bool.false_eq_true]

/-- Reversing all phase shifts. -/
def Elem.flip (e : Elem) : Elem := { e with phase := -e.phase }

/-- C43, with phase shifts: one direction is the other with all ratios conjugated (all phase shifts
reversed). -/
theorem C43_conjugate (es : List Elem) : setYBus (es.map Elem.flip) = ((setYBus es).2, (setYBus es).1) := by
  have hz : ∀ e : Elem, e.flip.z = e.z := fun _ => rfl
  have ha : ∀ e : Elem, e.flip.a = (starRingEnd ℂ) e.a := by
    intro e
    have hr : e.flip.ratio = (starRingEnd ℂ) e.ratio := by
      unfold Elem.flip Elem.ratio
      apply Complex.ext <;> simp
    have hc : (⟨Real.cos (-e.phase), Real.sin (-e.phase)⟩ : ℂ) =
        (starRingEnd ℂ) ⟨Real.cos e.phase, Real.sin e.phase⟩ := by
      apply Complex.ext <;> simp
    unfold Elem.a
    rw [hr]
    show (if e.switched = true then _ else _) = _
    have hx : e.flip.xform = e.xform := rfl
    have hp : e.flip.phase = -e.phase := rfl
    rw [hx, hp, hc]
    cases e.switched <;> cases e.xform <;> simp
  unfold setYBus
  rw [List.map_map, List.map_map]
  congr 1
  · congr 1
    apply List.map_congr_left
    intro e _
    show e.flip.frwd = e.rvrs
    unfold Elem.frwd Elem.rvrs
    rw [ha, hz]
    have h1 : e.flip.status = e.status := rfl
    have h2 : e.flip.xform = e.xform := rfl
    rw [h1, h2]; simp
  · congr 1
    apply List.map_congr_left
    intro e _
    show e.flip.rvrs = e.frwd
    unfold Elem.frwd Elem.rvrs
    rw [ha, hz]
    rfl

/-! ### C44 -/

/-- Sum of row `i` of the admittance matrix: the diagonal entry and the entries of all branches at bus
`i`. -/
noncomputable def rowSum (n : Net) (i : Nat) : ℂ :=
  diag n i + ((n.branches.filter (fun b => b.bus1 = i ∨ b.bus2 = i)).map (fun b => b.offDiag n i)).sum

/-- A plain line: no transformer. -/
def Branch.lines (b : Branch) : Prop := ∀ e ∈ b.elems, e.xform = false

/-- `p_active` agrees with the statuses. -/
def Branch.activeOk (b : Branch) : Prop := ∀ e ∈ b.elems, e.status = true → b.active = true

theorem branch_row (n : Net) (b : Branch) (i : Nat) (hl : b.lines) (ha : b.activeOk)
    (hi : (n.bus b.bus1).isolated = false ∧ (n.bus b.bus2).isolated = false) :
    b.diagOf i + b.offDiag n i = getShunt b.elems (if i = b.bus1 then .bus1 else .bus2) := by
  have htr : ∀ s, getTransformer b.elems s = 0 := by
    intro s
    unfold getTransformer
    apply List.sum_eq_zero
    intro y hy
    obtain ⟨e, he, rfl⟩ := List.mem_map.mp hy
    unfold Elem.transformer
    simp [hl e he]
  have hfr : (setYBus b.elems).1 = getAdmittance b.elems ∧ (setYBus b.elems).2 = getAdmittance b.elems := by
    unfold setYBus getAdmittance
    constructor
    · show (b.elems.map Elem.frwd).sum = _
      congr 1
      apply List.map_congr_left
      intro e he
      unfold Elem.frwd Elem.admittance
      simp [hl e he]
    · show (b.elems.map Elem.rvrs).sum = _
      congr 1
      apply List.map_congr_left
      intro e he
      unfold Elem.rvrs Elem.admittance
      simp [hl e he]
  have hoff : b.offDiag n i = getAdmittance b.elems := by
    unfold Branch.offDiag Branch.contributes
    rw [hi.1, hi.2]
    cases hact : b.active
    · have hz : getAdmittance b.elems = 0 := by
        unfold getAdmittance
        apply List.sum_eq_zero
        intro y hy
        obtain ⟨e, he, rfl⟩ := List.mem_map.mp hy
        unfold Elem.admittance
        cases hs : e.status
        · simp
        · have := ha e he hs
          rw [hact] at this; cases this
      simp [hz]
    · simp only [Bool.not_false, Bool.and_self, if_true]
      split
      · exact hfr.1
      · exact hfr.2
  rw [hoff]
  unfold Branch.diagOf Branch.side
  rw [htr]
  ring

/-- C44, general form: with plain lines only (any impedances, statuses, parallel elements, charging and
shunts) every row sums to the shunts at the bus.  Isolated neighbours are excluded, and `p_active` must agree
with the statuses. -/
theorem C44_row_sum_partial (n : Net) (i : Nat)
    (hl : ∀ b ∈ n.branches, (b.bus1 = i ∨ b.bus2 = i) → b.lines ∧ b.activeOk ∧
      (n.bus b.bus1).isolated = false ∧ (n.bus b.bus2).isolated = false) :
    rowSum n i =
      ((n.branches.filter (fun b => b.bus1 = i ∨ b.bus2 = i)).map
        (fun b => getShunt b.elems (if i = b.bus1 then .bus1 else .bus2))).sum +
      (if (n.bus i).shunt then ⟨(n.bus i).gs, (n.bus i).bs⟩ else 0) := by
  unfold rowSum diag
  have hmem : ∀ b ∈ n.branches.filter (fun b => b.bus1 = i ∨ b.bus2 = i), b.lines ∧ b.activeOk ∧
      (n.bus b.bus1).isolated = false ∧ (n.bus b.bus2).isolated = false := by
    intro b hb
    obtain ⟨h1, h2⟩ := List.mem_filter.mp hb
    exact hl b h1 (by simpa using h2)
  generalize n.branches.filter (fun b => b.bus1 = i ∨ b.bus2 = i) = bs at hmem
  have : (bs.map (fun b => b.diagOf i)).sum + (bs.map (fun b => b.offDiag n i)).sum =
      (bs.map (fun b => getShunt b.elems (if i = b.bus1 then .bus1 else .bus2))).sum := by
    induction bs with
    | nil => simp
    | cons b bs ih =>
      obtain ⟨h1, h2, h3⟩ := hmem b (by simp)
      have hb := branch_row n b i h1 h2 h3
      have := ih (fun x hx => hmem x (List.mem_cons_of_mem _ hx))
      simp only [List.map_cons, List.sum_cons]
      linear_combination hb + this
  linear_combination this

/-- C44.  Without charging and shunts every row sums to zero. -/
theorem C44_kirchhoff_partial (n : Net) (i : Nat)
    (hl : ∀ b ∈ n.branches, (b.bus1 = i ∨ b.bus2 = i) → b.lines ∧ b.activeOk ∧
      (n.bus b.bus1).isolated = false ∧ (n.bus b.bus2).isolated = false)
    (hsh : ∀ b ∈ n.branches, ∀ e ∈ b.elems,
      e.charging = 0 ∧ e.g1 = 0 ∧ e.b1 = 0 ∧ e.g2 = 0 ∧ e.b2 = 0)
    (hb : (n.bus i).shunt = false) : rowSum n i = 0 := by
  rw [C44_row_sum_partial n i hl, hb]
  simp only [Bool.false_eq_true, if_false, add_zero]
  apply List.sum_eq_zero
  intro y hy
  obtain ⟨b, hbm, rfl⟩ := List.mem_map.mp hy
  have hbm' := (List.mem_filter.mp hbm).1
  unfold getShunt
  apply List.sum_eq_zero
  intro y hy
  obtain ⟨e, he, rfl⟩ := List.mem_map.mp hy
  obtain ⟨h1, h2, h3, h4, h5⟩ := hsh b hbm' e he
  have hz : (⟨0, 0⟩ : ℂ) = 0 := rfl
  unfold Elem.shuntOf
  rw [h1, h2, h3, h4, h5]
  split
  · split <;> split <;> simp [hz]
  · rfl

/-- C44 fails next to an isolated bus: an in-service line to it stays in the diagonal entry of its
neighbour. -/
theorem C44_isolated_neighbour_violated (n : Net) (b : Branch) (e : Elem) (hn : n.branches = [b])
    (he : b.elems = [e]) (_hne : b.bus1 ≠ b.bus2) (hst : e.status = true) (hx : e.xform = false)
    (hz : e.z ≠ 0) (hc : e.charging = 0 ∧ e.g1 = 0 ∧ e.b1 = 0) (hs : (n.bus b.bus1).shunt = false)
    (hiso : (n.bus b.bus2).isolated = true) : rowSum n b.bus1 ≠ 0 := by
  have hz0 : (⟨0, 0⟩ : ℂ) = 0 := rfl
  unfold rowSum diag Branch.diagOf Branch.side Branch.offDiag Branch.contributes getAdmittance getTransformer getShunt
    Elem.admittance Elem.transformer Elem.shuntOf
  rw [hn]
  simp [he, hst, hx, hs, hiso, hc.1, hc.2.1, hc.2.2, hz0, hz]

/-- C44 fails after a line of a branch that was completely out of service is switched on through
`setLineStatus`: `p_active` stays false, so the diagonal has the line but the off-diagonal entry is missing. -/
theorem C44_set_status_violated (n : Net) (b : Branch) (e : Elem) (hn : n.branches = [b])
    (he : b.elems = (setLineStatus e.tag true [{ e with status := false }]).1) (hact : b.active = false)
    (_hne : b.bus1 ≠ b.bus2) (hx : e.xform = false) (hz : e.z ≠ 0)
    (hc : e.charging = 0 ∧ e.g1 = 0 ∧ e.b1 = 0) (hs : (n.bus b.bus1).shunt = false) :
    rowSum n b.bus1 ≠ 0 := by
  have hz0 : (⟨0, 0⟩ : ℂ) = 0 := rfl
  have he' : b.elems = [{ e with status := true }] := by
    rw [he]; simp [setLineStatus]
  unfold rowSum diag Branch.diagOf Branch.side Branch.offDiag Branch.contributes getAdmittance getTransformer getShunt
    Elem.admittance Elem.transformer Elem.shuntOf
  rw [hn]
  simp [he', hx, hs, hact, hc.1, hc.2.1, hc.2.2, hz0]
  exact hz

/-- C80, switching a line: the call reports whether the branch has a line with the tag; if so the first such line
gets the status, and everything else stays. -/
theorem C80_set_line_status (tag : List Char) (st : Bool) (es : List Elem) :
    ((setLineStatus tag st es).2 = true ↔ ∃ e ∈ es, e.tag = tag) ∧
    (∀ pre e post, es = pre ++ e :: post → (∀ x ∈ pre, x.tag ≠ tag) → e.tag = tag →
      (setLineStatus tag st es).1 = pre ++ { e with status := st } :: post) ∧
    ((∀ e ∈ es, e.tag ≠ tag) → (setLineStatus tag st es).1 = es) := by
  induction es with
  | nil => simp [setLineStatus]
  | cons a es ih =>
    by_cases ha : a.tag = tag
    · refine ⟨by simp [setLineStatus, ha], ?_, fun h => absurd ha (h a (by simp))⟩
      intro pre e post he hpre het
      cases pre with
      | nil =>
        simp only [List.nil_append, List.cons.injEq] at he
        rw [he.1, he.2]
        simp [setLineStatus, het]
      | cons x pre =>
        simp only [List.cons_append, List.cons.injEq] at he
        exact absurd (he.1 ▸ ha) (hpre x (by simp))
    · refine ⟨by simp [setLineStatus, ha, ih.1], ?_, ?_⟩
      · intro pre e post he hpre het
        cases pre with
        | nil =>
          simp only [List.nil_append, List.cons.injEq] at he
          exact absurd (he.1 ▸ het) ha
        | cons x pre =>
          simp only [List.cons_append, List.cons.injEq] at he
          have := ih.2.1 pre e post he.2 (fun y hy => hpre y (by simp [hy])) het
          rw [setLineStatus, if_neg ha]
          simp only [this, he.1, List.cons_append]
      · intro h
        simp only [setLineStatus, ha, if_false]
        rw [ih.2.2 (fun e he => h e (by simp [he]))]

/-- Also `load` can make status and `p_active` disagree: a status of 2 counts as in service for the
elements but not for the branch. -/
theorem C44_load_status_violated : loadStatus [2] = ([true], false) := rfl

/-! ### C45 -/

theorem find_own (es : List Elem) (hn : (es.map Elem.tag).Nodup) (e : Elem) (he : e ∈ es) :
    es.find? (fun x => x.tag = e.tag) = some e := by
  induction es with
  | nil => cases he
  | cons a es ih =>
    rw [List.find?_cons]
    rw [List.map_cons, List.nodup_cons] at hn
    rcases List.mem_cons.mp he with rfl | he'
    · simp
    · have hne : a.tag ≠ e.tag := by
        intro h
        exact hn.1 (h ▸ List.mem_map_of_mem he')
      simp only [hne, decide_false]
      exact ih hn.2 he'

theorem line_eq (e : Elem) (hz : e.z ≠ 0) (ha : e.xform = true → e.ratio ≠ 0) :
    (e.status = true → e.line = (e.port11, e.port12) ∧ e.lineRvrs = (e.port22, e.port21)) := by
  intro hs
  have hB : (1 / 2 : ℂ) * ⟨0, e.charging⟩ = I * (e.charging / 2 : ℝ) := by
    apply Complex.ext <;> simp [Complex.mul_re, Complex.mul_im]
    ring
  unfold Elem.line Elem.lineRvrs Elem.port11 Elem.port12 Elem.port22 Elem.port21 Elem.port twoPort
  simp only [if_pos hz]
  rw [hB, hs]
  cases hx : e.xform
  · cases e.switched <;> simp [neg_div] <;> ring
  · have ha' := ha hx
    cases e.switched <;> simp [ha', neg_div] <;> ring

/-- C45.  For every branch whose elements have different tags and nonzero impedances and ratios, the line
elements reported for the in-service elements add up to the off-diagonal entries of the matrix in both
directions, and to the branch's part of the diagonal entries apart from the end shunts. -/
theorem C45_line_elements_partial (b : Branch) (hne : b.bus1 ≠ b.bus2)
    (hn : (b.elems.map Elem.tag).Nodup) (hz : ∀ e ∈ b.elems, e.z ≠ 0)
    (ha : ∀ e ∈ b.elems, e.xform = true → e.ratio ≠ 0)
    (hsh : ∀ e ∈ b.elems, e.xform = false → e.shunt = true) :
    let on := b.elems.filter (fun e => e.status)
    (on.map (fun e => (getLineElements b.elems e.tag).2)).sum = (setYBus b.elems).1 ∧
    (on.map (fun e => (getRvrsLineElements b.elems e.tag).2)).sum = (setYBus b.elems).2 ∧
    (on.map (fun e => (getLineElements b.elems e.tag).1)).sum +
      (b.elems.map (fun e => e.endShunt .bus1)).sum = b.diagOf b.bus1 ∧
    (on.map (fun e => (getRvrsLineElements b.elems e.tag).1)).sum +
      (b.elems.map (fun e => e.endShunt .bus2)).sum = b.diagOf b.bus2 := by
  intro on
  obtain ⟨hd1, hd2⟩ := C80_diag_partial b hne hsh
  have hY := C80_offdiag b.elems
  have hone : ∀ e ∈ on, getLineElements b.elems e.tag = (e.port11, e.port12) ∧
      getRvrsLineElements b.elems e.tag = (e.port22, e.port21) := by
    intro e he
    obtain ⟨hm, hs⟩ := List.mem_filter.mp he
    unfold getLineElements getRvrsLineElements
    rw [find_own b.elems hn e hm]
    exact line_eq e (hz e hm) (ha e hm) hs
  have hfil : ∀ f : Elem → ℂ, (∀ e, e.status = false → f e = 0) →
      (on.map f).sum = (b.elems.map f).sum := by
    intro f hf
    show ((b.elems.filter (fun e => e.status)).map f).sum = _
    induction b.elems with
    | nil => rfl
    | cons e es ih =>
      rw [List.filter_cons]
      cases hs : e.status
      · simp [ih, hf e hs]
      · simp [ih]
  have z11 : ∀ e : Elem, e.status = false → e.port11 = 0 := by
    intro e h; unfold Elem.port11 Elem.port; rw [h]; simp
  have z12 : ∀ e : Elem, e.status = false → e.port12 = 0 := by
    intro e h; unfold Elem.port12 Elem.port; rw [h]; simp
  have z21 : ∀ e : Elem, e.status = false → e.port21 = 0 := by
    intro e h; unfold Elem.port21 Elem.port; rw [h]; simp
  have z22 : ∀ e : Elem, e.status = false → e.port22 = 0 := by
    intro e h; unfold Elem.port22 Elem.port; rw [h]; simp
  refine ⟨?_, ?_, ?_, ?_⟩
  · rw [hY, List.map_congr_left (fun e he => by rw [(hone e he).1])]
    exact hfil Elem.port12 z12
  · rw [hY, List.map_congr_left (fun e he => by rw [(hone e he).2])]
    exact hfil Elem.port21 z21
  · rw [hd1, List.map_congr_left (fun e he => by rw [(hone e he).1])]
    congr 1
    exact hfil Elem.port11 z11
  · rw [hd2, List.map_congr_left (fun e he => by rw [(hone e he).2])]
    congr 1
    exact hfil Elem.port22 z22

/-- C45 fails for two lines with the same tag: the second one is reported as the first. -/
theorem C45_same_tag_violated (e1 e2 : Elem) (ht : e2.tag = e1.tag) (h1 : e1.status = true)
    (h2 : e2.status = true) (hx1 : e1.xform = false) (hx2 : e2.xform = false) (hz1 : e1.z ≠ 0)
    (_hz2 : e2.z ≠ 0) (hne : e1.z ≠ e2.z) :
    ([e1, e2].map (fun e => (getLineElements [e1, e2] e.tag).2)).sum ≠ (setYBus [e1, e2]).1 := by
  have hf : ([e1, e2] : List Elem).find? (fun x => x.tag = e1.tag) = some e1 := by simp
  unfold getLineElements setYBus Elem.frwd
  simp only [List.map_cons, List.map_nil, ht, hf, h1, h2, hx1, hx2]
  unfold Elem.line
  simp only [hx1, hz1, if_true, if_false, ne_eq, not_false_eq_true, List.sum_cons, List.sum_nil,
    Bool.false_eq_true]
  intro h
  apply hne
  have : -1 / e1.z = -1 / e2.z := by linear_combination h
  have h' := congrArg (fun w : ℂ => -1 / w) this
  simp only [div_div_eq_mul_div] at h'
  simpa using h'

/-! ### C81 -/

/-- An element entered in the other direction: its own ends are exchanged and it is marked as switched.
The end shunts belong to the element's own ends, so `g1`, `b1` stay with the "from" end. -/
def Elem.reverse (e : Elem) : Elem := { e with switched := !e.switched }

/-- C81, the part that holds: entering an element in the other direction exchanges the roles of the two
buses, for every entry of the matrix except the end shunts. -/
theorem C81_direction_partial (es : List Elem) :
    setYBus (es.map Elem.reverse) = ((setYBus es).2, (setYBus es).1) ∧
    getAdmittance (es.map Elem.reverse) = getAdmittance es ∧
    getTransformer (es.map Elem.reverse) .bus1 = getTransformer es .bus2 ∧
    getTransformer (es.map Elem.reverse) .bus2 = getTransformer es .bus1 := by
  refine ⟨?_, ?_, ?_, ?_⟩
  · rw [C80_offdiag, C80_offdiag, List.map_map, List.map_map]
    congr 2
    · apply List.map_congr_left
      intro e _
      show (if !e.switched then _ else _) = _
      unfold Elem.port21
      cases e.switched <;> rfl
    · apply List.map_congr_left
      intro e _
      show (if !e.switched then _ else _) = _
      unfold Elem.port12
      cases e.switched <;> rfl
  · unfold getAdmittance
    rw [List.map_map]
    rfl
  · unfold getTransformer
    rw [List.map_map]
    congr 1
    apply List.map_congr_left
    intro e _
    show e.reverse.transformer .bus1 = _
    unfold Elem.transformer Elem.reverse Elem.ratio Elem.z
    cases e.switched <;> simp
  · unfold getTransformer
    rw [List.map_map]
    congr 1
    apply List.map_congr_left
    intro e _
    show e.reverse.transformer .bus2 = _
    unfold Elem.transformer Elem.reverse Elem.ratio Elem.z
    cases e.switched <;> simp

/-- C81 fails for end shunts: they are assigned to the buses of the branch without regard to the direction
of the element. -/
theorem C81_end_shunt_violated (e : Elem) (hs : e.shunt = true) (hst : e.status = true)
    (hg : e.g1 ≠ e.g2) : getShunt [e.reverse] .bus1 ≠ getShunt [e] .bus2 := by
  unfold getShunt Elem.shuntOf Elem.reverse
  simp only [List.map_cons, List.map_nil, List.sum_cons, List.sum_nil, hs, hst]
  intro h
  apply hg
  have := congrArg Complex.re h
  cases hx : e.xform <;> simpa [hx] using this

/-! ### Examples -/

/-- An in-service line with impedance j/10. -/
noncomputable def sampleLine : Elem :=
  ⟨0, 1 / 10, 0, 0, 0, 0, 0, 0, 0, false, true, true, false, ['1']⟩

/-- A transformer with ratio 2 and phase shift 1. -/
noncomputable def sampleTrafo : Elem :=
  ⟨0, 1 / 10, 2, 1, 0, 0, 0, 0, 0, true, true, true, true, ['2']⟩

example : sampleLine.z ≠ 0 := by
  unfold Elem.z sampleLine
  intro h
  have := congrArg Complex.im h
  norm_num at this

/-- Two buses, one line: `C44_kirchhoff_partial` applies. -/
example : rowSum ⟨fun _ => ⟨false, 0, 0, false⟩, [⟨0, 1, [sampleLine], true⟩]⟩ 0 = 0 := by
  apply C44_kirchhoff_partial
  · intro b hb _
    simp at hb
    subst hb
    refine ⟨?_, ?_, rfl, rfl⟩
    · intro e he; simp at he; subst he; rfl
    · intro e he _; rfl
  · intro b hb e he
    simp at hb
    subst hb
    simp at he
    subst he
    exact ⟨rfl, rfl, rfl, rfl, rfl⟩
  · rfl

/-- Different tags, nonzero ratio: `C45_line_elements_partial` applies to this branch. -/
example : (([sampleLine, sampleTrafo] : List Elem).map Elem.tag).Nodup ∧ sampleTrafo.ratio ≠ 0 := by
  constructor
  · simp [sampleLine, sampleTrafo]
  · unfold Elem.ratio sampleTrafo
    intro h
    have h1 := congrArg Complex.re h
    have h2 := congrArg Complex.im h
    simp at h1 h2
    have := Real.sin_sq_add_cos_sq 1
    rw [h1, h2] at this
    norm_num at this

end GridPACK.YMatrix
