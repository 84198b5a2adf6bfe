import Verif.Model.FactoryChecks
import Verif.Props.GhostUpdate
import Mathlib.Tactic.NormNum
import Mathlib.Tactic.Linarith

/-! C50, C51, C86, C87: lone buses, voltage limits and line overloads. -/
namespace GridPACK.FactoryChecks

/-! ### C50 -/

/-- Specification: no line in service is connected to the bus. -/
def LBus.Lone (b : LBus) : Prop := ¬ ∃ branch ∈ b.lines, true ∈ branch

theorem foldl_any {α : Type} (f : α → Bool) (l : List α) (a : Bool) :
    l.foldl (fun b s => if f s then true else b) a = true ↔ a = true ∨ ∃ s ∈ l, f s = true := by
  induction l generalizing a with
  | nil => simp
  | cons x l ih =>
    rw [List.foldl_cons, ih]
    cases h : f x <;> simp [h]

theorem lineOk_iff (lines : List (List Bool)) :
    lineOk lines = true ↔ ∃ branch ∈ lines, true ∈ branch := by
  unfold lineOk
  have h2 : ∀ status : List Bool,
      (status.foldl (fun b s => if s then true else b) false = true) ↔ true ∈ status := by
    intro s
    rw [foldl_any (fun x => x)]
    simp
  by_cases h : lines.length = 0
  · have : lines = [] := List.length_eq_zero_iff.mp h
    subst this; simp
  · simp only [h, if_false, if_true]
    rw [foldl_any (fun status : List Bool => status.foldl (fun b s => if s then true else b) false)]
    simp only [Bool.false_eq_true, false_or]
    constructor
    · rintro ⟨s, hs, h⟩; exact ⟨s, hs, (h2 s).mp h⟩
    · rintro ⟨s, hs, h⟩; exact ⟨s, hs, (h2 s).mpr h⟩

theorem lineOk_false (b : LBus) : (!(lineOk b.lines)) = true ↔ b.Lone := by
  unfold LBus.Lone
  rw [← lineOk_iff]
  simp

/-- C50, the marking, for every list of buses: after the check a bus is isolated exactly if it was before or if
it is owned and lone; everything else is unchanged.  (Missing: the returned value, which is the opposite and
needs a lone bus on every process.) -/
theorem C50_marks_partial (bs : List LBus) :
    (loneLoop bs).1.length = bs.length ∧
    ∀ (i : Nat) (b b' : LBus), bs[i]? = some b → (loneLoop bs).1[i]? = some b' →
      (b'.active = b.active ∧ b'.lines = b.lines) ∧
      (b'.isolated = true ↔ b.isolated = true ∨ (b.active = true ∧ b.Lone)) := by
  induction bs with
  | nil => exact ⟨rfl, by intro i b b' h; simp at h⟩
  | cons a bs ih =>
    obtain ⟨ihl, ih⟩ := ih
    by_cases ha : a.active = true
    · by_cases hl : a.Lone
      · have hl' := (lineOk_false a).mpr hl
        have e : (loneLoop (a :: bs)).1 = { a with isolated := true } :: (loneLoop bs).1 := by
          simp only [loneLoop, ha, hl']; simp
        rw [e]
        refine ⟨by simp [ihl], ?_⟩
        intro i b b' h h'
        cases i with
        | zero =>
          simp only [List.getElem?_cons_zero, Option.some.injEq] at h h'
          subst h; subst h'
          simp [ha, hl]
        | succ i => exact ih i b b' (by simpa using h) (by simpa using h')
      · have hl' : ¬ ((!(lineOk a.lines)) = true) := fun h => hl ((lineOk_false a).mp h)
        have e : (loneLoop (a :: bs)).1 = a :: (loneLoop bs).1 := by
          simp only [loneLoop, ha, hl']; simp
        rw [e]
        refine ⟨by simp [ihl], ?_⟩
        intro i b b' h h'
        cases i with
        | zero =>
          simp only [List.getElem?_cons_zero, Option.some.injEq] at h h'
          subst h; subst h'
          simp [hl]
        | succ i => exact ih i b b' (by simpa using h) (by simpa using h')
    · have e : (loneLoop (a :: bs)).1 = a :: (loneLoop bs).1 := by
        simp only [loneLoop, ha]; simp
      rw [e]
      refine ⟨by simp [ihl], ?_⟩
      intro i b b' h h'
      cases i with
      | zero =>
        simp only [List.getElem?_cons_zero, Option.some.injEq] at h h'
        subst h; subst h'
        simp [ha]
      | succ i => exact ih i b b' (by simpa using h) (by simpa using h')

theorem loneLoop_ok (bs : List LBus) :
    (loneLoop bs).2.2 = true ↔ ∀ b ∈ bs, ¬ (b.active = true ∧ b.Lone) := by
  induction bs with
  | nil => simp [loneLoop]
  | cons a bs ih =>
    have hl' := lineOk_false a
    by_cases ha : a.active = true
    · by_cases hl : a.Lone
      · simp only [loneLoop, ha, hl'.mpr hl]
        simp [ha, hl]
      · have : ¬ ((!(lineOk a.lines)) = true) := fun h => hl (hl'.mp h)
        simp only [loneLoop, ha, this]
        simp [hl, ih]
    · simp only [loneLoop, ha]
      simp [ha, ih]

/-- C50, exact value returned, for every network: true if and only if *every* process owns a lone bus.  (The
documentation: false exactly if there is a lone bus.) -/
theorem C50_result_exact (n : Nat) (procs : Nat → List LBus) :
    checkLoneBus n procs = true ↔ ∀ p, p < n → ∃ b ∈ procs p, b.active = true ∧ b.Lone := by
  unfold checkLoneBus
  rw [GhostUpdate.C20_checkTrue]
  refine forall_congr' fun p => forall_congr' fun _ => ?_
  have h := loneLoop_ok (procs p)
  constructor
  · intro h'
    by_contra hc
    have : (loneLoop (procs p)).2.2 = true := h.mpr (by
      intro b hb hl; exact hc ⟨b, hb, hl⟩)
    simp [this] at h'
  · rintro ⟨b, hb, hl⟩
    have : ¬ (loneLoop (procs p)).2.2 = true := fun h' => h.mp h' b hb hl
    simpa using this

/-- C50 fails on every network without a lone bus: the value is false as if there were one. -/
theorem C50_no_lone_bus_violated (n : Nat) (procs : Nat → List LBus) (hn : 0 < n)
    (h : ∀ p, p < n → ∀ b ∈ procs p, ¬ (b.active = true ∧ b.Lone)) : checkLoneBus n procs = false := by
  by_contra hc
  have := (C50_result_exact n procs).mp (by simpa using hc) 0 hn
  obtain ⟨b, hb, hl⟩ := this
  exact h 0 hn b hb hl

/-- C50 fails on every network with a lone bus on each process: the value is true. -/
theorem C50_lone_bus_violated (n : Nat) (procs : Nat → List LBus)
    (h : ∀ p, p < n → ∃ b ∈ procs p, b.active = true ∧ b.Lone) : checkLoneBus n procs = true :=
  (C50_result_exact n procs).mpr h

/-- A bus connected by a line in service, and one with its only line out of service, on a single process. -/
example : ((loneLoop [⟨true, false, [[true]]⟩, ⟨true, false, [[false]]⟩]).1.map LBus.isolated = [false, true]) ∧
    checkLoneBus 1 (fun _ => [⟨true, false, [[true]]⟩, ⟨true, false, [[false]]⟩]) = true := by
  refine ⟨by simp [loneLoop, lineOk], ?_⟩
  refine C50_lone_bus_violated _ _ ?_
  intro p _
  exact ⟨_, List.mem_cons_of_mem _ (List.mem_singleton.mpr rfl), rfl, by simp [LBus.Lone]⟩

/-- Clearing after the check restores the isolated flags of all buses (used for C49). -/
theorem clear_after_check (bs : List LBus) (extra : List Bool) :
    clearLoop (loneLoop bs).1 ((loneLoop bs).2.1 ++ extra) = some bs := by
  induction bs with
  | nil => simp [loneLoop, clearLoop]
  | cons a bs ih =>
    by_cases ha : a.active = true
    · by_cases hl : (!(lineOk a.lines)) = true
      · have e : (loneLoop (a :: bs)) = ({ a with isolated := true } :: (loneLoop bs).1,
            a.isolated :: (loneLoop bs).2.1, false) := by
          simp only [loneLoop, ha, hl]; simp
        rw [e]
        simp only [List.cons_append, clearLoop, ha, hl]
        simp [ih, ← ha]
      · have e : (loneLoop (a :: bs)) = (a :: (loneLoop bs).1, (loneLoop bs).2.1, (loneLoop bs).2.2) := by
          simp only [loneLoop, ha, hl]; simp
        rw [e]
        simp only [clearLoop, ha, hl]
        simp [ih]
    · have e : (loneLoop (a :: bs)) = (a :: (loneLoop bs).1, (loneLoop bs).2.1, (loneLoop bs).2.2) := by
        simp only [loneLoop, ha]; simp
      rw [e]
      simp only [clearLoop, ha]
      simp [ih]

theorem loneLoop_none_saved (bs : List LBus) (h : (loneLoop bs).2.1 = []) : (loneLoop bs).1 = bs := by
  induction bs with
  | nil => rfl
  | cons a bs ih =>
    by_cases ha : a.active = true
    · by_cases hl : (!(lineOk a.lines)) = true
      · have e : (loneLoop (a :: bs)).2.1 = a.isolated :: (loneLoop bs).2.1 := by
          simp only [loneLoop, ha, hl]; simp
        rw [e] at h; simp at h
      · have e : (loneLoop (a :: bs)) = (a :: (loneLoop bs).1, (loneLoop bs).2.1, (loneLoop bs).2.2) := by
          simp only [loneLoop, ha, hl]; simp
        rw [e] at h ⊢; simp only at h ⊢; rw [ih h]
    · have e : (loneLoop (a :: bs)) = (a :: (loneLoop bs).1, (loneLoop bs).2.1, (loneLoop bs).2.2) := by
        simp only [loneLoop, ha]; simp
      rw [e] at h ⊢; simp only at h ⊢; rw [ih h]

/-- C86: clearing directly after the check restores the isolated flag of every bus, for every list of buses. -/
theorem C86_clear_restores (bs : List LBus) : clearLoneBus (loneLoop bs).1 (loneLoop bs).2.1 = some bs := by
  unfold clearLoneBus
  split
  · next h => rw [loneLoop_none_saved bs (List.length_eq_zero_iff.mp h)]
  · simpa using clear_after_check bs []

example : (loneLoop [⟨true, false, []⟩, ⟨true, true, [[false]]⟩]).2.1 = [false, true] := by
  simp [loneLoop, lineOk]

/-! ### C51 -/

/-- Specification: the voltage is outside the limits. -/
def VBus.Violates (b : VBus) : Prop := b.v > b.vmax ∨ b.v < b.vmin

theorem foldl_all {α : Type} (f : α → Bool) (l : List α) (a : Bool) :
    l.foldl (fun ok s => if f s then ok else false) a = true ↔ a = true ∧ ∀ s ∈ l, f s = true := by
  induction l generalizing a with
  | nil => simp
  | cons x l ih =>
    rw [List.foldl_cons, ih]
    cases h : f x <;> simp [h]

theorem check_iff (b : VBus) : checkVoltageViolation b = true ↔ ¬ b.Violates := by
  unfold checkVoltageViolation VBus.Violates
  split <;> simp_all

/-- C51, what holds: the check is true exactly if every owned bus that is not ignored is within its limits, on
every distribution of the buses. -/
theorem C51_check_partial (n : Nat) (procs : Nat → List VBus) :
    checkVoltageViolations n procs = true ↔
      ∀ p, p < n → ∀ b ∈ procs p, b.active = true → b.ignore = false → ¬ b.Violates := by
  unfold checkVoltageViolations
  rw [GhostUpdate.C20_checkTrue]
  refine forall_congr' fun p => forall_congr' fun _ => ?_
  unfold voltageOk
  have e : (fun (ok : Bool) (b : VBus) => if b.active then
      (if !b.ignore then (if !checkVoltageViolation b then false else ok) else ok) else ok) =
      (fun ok b => if (!b.active || b.ignore || checkVoltageViolation b) then ok else false) := by
    funext ok b
    cases b.active <;> cases b.ignore <;> cases checkVoltageViolation b <;> rfl
  rw [e, foldl_all (fun b : VBus => !b.active || b.ignore || checkVoltageViolation b)]
  simp only [true_and]
  refine forall_congr' fun b => forall_congr' fun _ => ?_
  rw [← check_iff]
  cases b.active <;> cases b.ignore <;> simp

/-- The same for the version restricted to an area. -/
theorem C51_area_check_partial (area : Int) (n : Nat) (procs : Nat → List VBus) :
    checkVoltageViolationsArea area n procs = true ↔
      ∀ p, p < n → ∀ b ∈ procs p, b.active = true → b.ignore = false → b.area = area → ¬ b.Violates := by
  unfold checkVoltageViolationsArea
  rw [GhostUpdate.C20_checkTrue]
  refine forall_congr' fun p => forall_congr' fun _ => ?_
  unfold voltageOkArea
  have e : (fun (ok : Bool) (b : VBus) => if b.active then
      (if !b.ignore && decide (b.area = area) then (if !checkVoltageViolation b then false else ok) else ok)
      else ok) =
      (fun ok b => if (!b.active || b.ignore || !decide (b.area = area) || checkVoltageViolation b)
        then ok else false) := by
    funext ok b
    cases b.active <;> cases b.ignore <;> cases decide (b.area = area) <;>
      cases checkVoltageViolation b <;> rfl
  rw [e, foldl_all (fun b : VBus => !b.active || b.ignore || !decide (b.area = area) || checkVoltageViolation b)]
  simp only [true_and]
  refine forall_congr' fun b => forall_congr' fun _ => ?_
  rw [← check_iff]
  by_cases ha : b.area = area <;> cases b.active <;> cases b.ignore <;> simp [ha]

/-- After clearing, the check reports exactly whether any owned bus is outside its limits. -/
theorem C51_clear_partial (n : Nat) (procs : Nat → List VBus) :
    checkVoltageViolations n (fun p => (procs p).map clearBus) = true ↔
      ∀ p, p < n → ∀ b ∈ procs p, b.active = true → ¬ b.Violates := by
  rw [C51_check_partial]
  refine forall_congr' fun p => forall_congr' fun _ => ?_
  simp only [List.mem_map, forall_exists_index, and_imp, forall_apply_eq_imp_iff₂]
  refine forall_congr' fun b => forall_congr' fun _ => ?_
  unfold clearBus VBus.Violates
  cases ha : b.active <;> simp [ha]

/-- C51, exact effect of `ignoreVoltageViolations`: the buses ignored afterwards are those ignored before and
the owned buses that do *not* violate their limits. -/
theorem C51_ignore_exact (b : VBus) :
    (ignoreBus b).ignore = true ↔ b.ignore = true ∨ (b.active = true ∧ ¬ b.Violates) := by
  unfold ignoreBus
  rw [← check_iff]
  cases ha : b.active <;> cases hc : checkVoltageViolation b <;> simp

/-- C51 fails: every owned bus that violates its limits and was not ignored before is still reported. -/
theorem C51_still_reported_violated (n : Nat) (procs : Nat → List VBus) (p : Nat) (hp : p < n) (b : VBus)
    (hb : b ∈ procs p) (ha : b.active = true) (hi : b.ignore = false) (hv : b.Violates) :
    checkVoltageViolations n (fun p => (procs p).map ignoreBus) = false := by
  by_contra hc
  have h := (C51_check_partial _ _).mp (by simpa using hc) p hp (ignoreBus b) (List.mem_map_of_mem hb)
  have e : ignoreBus b = b := by
    unfold ignoreBus
    have : checkVoltageViolation b = false := by
      by_contra hc; exact (check_iff b).mp (by simpa using hc) hv
    simp [this]
  rw [e] at h
  exact h ha hi hv

/-- C51 fails: a bus that was within its limits is ignored from then on, so that a new violation on it is not
reported: with any new voltages `w` the answer is the same as if that bus were fine. -/
theorem C51_new_violation_violated (b : VBus) (ha : b.active = true) (hv : ¬ b.Violates) (w : ℝ) :
    checkVoltageViolations 1 (fun _ => [{ ignoreBus b with v := w }]) = true := by
  rw [C51_check_partial]
  intro p _ c hc _ hi
  simp only [List.mem_singleton] at hc
  subst hc
  have := (C51_ignore_exact b).mpr (Or.inr ⟨ha, hv⟩)
  simp only at hi
  rw [this] at hi
  simp at hi

example : (⟨true, 1, 0.9, 1.1, false, 1⟩ : VBus).active = true ∧
    ¬ (⟨true, 1, 0.9, 1.1, false, 1⟩ : VBus).Violates ∧ (⟨true, 1.2, 0.9, 1.1, false, 1⟩ : VBus).Violates := by
  refine ⟨rfl, ?_, ?_⟩
  · unfold VBus.Violates; norm_num
  · unfold VBus.Violates; norm_num

/-! ### C87: line overloads -/

/-- Specification: the rating in use is rating B if it is selected and given, otherwise rating A. -/
def Line.InUse (useB : Bool) (l : Line) (r : ℝ) : Prop :=
  (useB = true ∧ l.rateB = some r) ∨ (¬ (useB = true ∧ ∃ b, l.rateB = some b) ∧ l.rateA = some r)

/-- Specification: the apparent power of the line exceeds the rating in use. -/
def Line.Overloaded (useB : Bool) (l : Line) : Prop := ∃ r, l.InUse useB r ∧ 0 < r ∧ l.pq > r

theorem inUse_iff (useB : Bool) (l : Line) (r : ℝ) : l.InUse useB r ↔ rating useB l = some r := by
  unfold Line.InUse rating
  cases useB <;> cases l.rateB <;> simp

/-- The lines of the branch have different tags. -/
def OBranch.Distinct (b : OBranch) : Prop := (b.lines.map Line.tag).Nodup

theorem lookup_self {α : Type} (f : Line → α) (d : α) (ls : List Line) (h : (ls.map Line.tag).Nodup)
    (l : Line) (hl : l ∈ ls) : lookup f d ls l.tag = f l := by
  unfold lookup
  induction ls with
  | nil => simp at hl
  | cons a ls ih =>
    rw [List.map_cons, List.nodup_cons] at h
    rw [List.find?_cons]
    rcases List.mem_cons.mp hl with rfl | hl
    · simp
    · have : a.tag ≠ l.tag := fun e => h.1 (e ▸ List.mem_map_of_mem hl)
      simp only [this, decide_false]
      exact ih h.2 hl

theorem lineFine_iff (useB : Bool) (ls : List Line) (h : (ls.map Line.tag).Nodup) (l : Line) (hl : l ∈ ls) :
    lineFine useB ls l = true ↔ (l.ignore = false → ¬ l.Overloaded useB) := by
  unfold lineFine Line.Overloaded
  simp only [inUse_iff]
  rw [lookup_self Line.ignore false ls h l hl, lookup_self Line.pq 0 ls h l hl]
  cases hi : l.ignore
  · cases hr : rating useB l with
    | none => simp
    | some r =>
      by_cases h0 : 0 < r
      · by_cases h1 : l.pq > r
        · simp [h0, h1]
        · simp [h0, h1]
      · simp [h0]
  · simp

/-- C87: the check is true exactly if no owned line that is not ignored is overloaded, for branches whose lines
have different tags. -/
theorem C87_check (useB : Bool) (n : Nat) (procs : Nat → List OBranch)
    (hd : ∀ p, p < n → ∀ b ∈ procs p, b.Distinct) :
    checkLineOverload useB n procs = true ↔
      ∀ p, p < n → ∀ b ∈ procs p, b.active = true → ∀ l ∈ b.lines, l.ignore = false → ¬ l.Overloaded useB := by
  unfold checkLineOverload
  rw [GhostUpdate.C20_checkTrue]
  refine forall_congr' fun p => forall_congr' fun hp => ?_
  unfold linesOk
  have key : ∀ (bs : List OBranch), (∀ b ∈ bs, b.Distinct) → ∀ a : Bool,
      bs.foldl (fun ok b => if b.active then
        b.lines.foldl (fun ok l => if lineFine useB b.lines l then ok else false) ok else ok) a = true ↔
      a = true ∧ ∀ b ∈ bs, b.active = true → ∀ l ∈ b.lines, l.ignore = false → ¬ l.Overloaded useB := by
    intro bs
    induction bs with
    | nil => intro _ a; simp
    | cons b bs ih =>
      intro hd a
      rw [List.foldl_cons, ih (fun c hc => hd c (List.mem_cons_of_mem _ hc))]
      have hb := hd b (List.mem_cons_self)
      have e : ((if b.active then
          b.lines.foldl (fun ok l => if lineFine useB b.lines l then ok else false) a else a) = true) ↔
          (a = true ∧ (b.active = true → ∀ l ∈ b.lines, l.ignore = false → ¬ l.Overloaded useB)) := by
        cases ha : b.active
        · simp
        · simp only [if_true, true_implies]
          rw [foldl_all (fun l => lineFine useB b.lines l)]
          refine and_congr Iff.rfl (forall_congr' fun l => forall_congr' fun hl => ?_)
          exact lineFine_iff useB b.lines hb l hl
      rw [e, List.forall_mem_cons]
      tauto
  rw [key _ (hd p hp)]
  simp

theorem setIgnore_tags (t : String) (f : Bool) (ls : List Line) :
    (setIgnore t f ls).map Line.tag = ls.map Line.tag := by
  unfold setIgnore
  rw [List.map_map]
  apply List.map_congr_left
  intro l _
  simp only [Function.comp]
  split <;> rfl

/-- The lines of a branch after `ignoreLineOverloadViolations`. -/
theorem ignoreBranch_lines (b : OBranch) (hd : b.Distinct) (ha : b.active = true) :
    (ignoreBranch b).lines = b.lines.map (fun l => if overA b.lines l then { l with ignore := true } else l) := by
  unfold ignoreBranch
  simp only [ha, if_true]
  have key : ∀ (pre suf : List Line) (all : List Line), all = pre ++ suf → (all.map Line.tag).Nodup →
      suf.foldl (fun ls l => if overA all l then setIgnore l.tag true ls else ls)
        (pre.map (fun l => if overA all l then { l with ignore := true } else l) ++ suf) =
      all.map (fun l => if overA all l then { l with ignore := true } else l) := by
    intro pre suf
    induction suf generalizing pre with
    | nil => intro all e _; simp [e]
    | cons l suf ih =>
      intro all e hn
      rw [List.foldl_cons]
      have step : (if overA all l then setIgnore l.tag true
            (pre.map (fun l => if overA all l then { l with ignore := true } else l) ++ l :: suf)
          else pre.map (fun l => if overA all l then { l with ignore := true } else l) ++ l :: suf) =
          (pre ++ [l]).map (fun l => if overA all l then { l with ignore := true } else l) ++ suf := by
        rw [e, List.map_append, List.map_cons, List.nodup_append] at hn
        obtain ⟨hn1, hn2, hn3⟩ := hn
        rw [List.nodup_cons] at hn2
        by_cases ho : overA all l = true
        · simp only [ho, if_true]
          unfold setIgnore
          rw [List.map_append, List.map_cons, List.map_append, List.append_assoc]
          congr 1
          · rw [List.map_map]
            apply List.map_congr_left
            intro x hx
            have hxt : x.tag ≠ l.tag := fun h => hn3 x.tag (List.mem_map_of_mem hx) l.tag
              (by simp) h
            simp only [Function.comp]
            by_cases hox : overA all x = true <;> simp [hox, hxt]
          · simp only [List.map_cons, List.map_nil, ho, if_true, List.singleton_append]
            congr 1
            conv_rhs => rw [← List.map_id suf]
            apply List.map_congr_left
            intro x hx
            have hxt : x.tag ≠ l.tag := fun h => hn2.1 (h ▸ List.mem_map_of_mem hx)
            simp [hxt]
        · simp [ho]
      rw [step]
      exact ih (pre ++ [l]) all (by simp [e]) hn
  exact key [] b.lines b.lines rfl hd

/-- C88: after `ignoreLineOverloadViolations`, the lines ignored are those ignored before and those whose
apparent power exceeds rating A, for branches whose lines have different tags; nothing else changes. -/
theorem C88_ignore_partial (b : OBranch) (hd : b.Distinct) (ha : b.active = true) (i : Nat) (l : Line)
    (hl : b.lines[i]? = some l) :
    ∃ l', (ignoreBranch b).lines[i]? = some l' ∧ l'.tag = l.tag ∧ l'.rateA = l.rateA ∧ l'.rateB = l.rateB ∧
      l'.pq = l.pq ∧ (l'.ignore = true ↔ l.ignore = true ∨ l.Overloaded false) := by
  rw [ignoreBranch_lines b hd ha, List.getElem?_map, hl]
  have hmem : l ∈ b.lines := List.mem_of_getElem? hl
  have ho : overA b.lines l = true ↔ l.Overloaded false := by
    unfold overA Line.Overloaded
    simp only [inUse_iff, rating]
    rw [lookup_self Line.pq 0 b.lines hd l hmem]
    cases hr : l.rateA with
    | none => simp
    | some r =>
      by_cases h0 : 0 < r
      · by_cases h1 : l.pq > r <;> simp [h0, h1]
      · simp [h0]
  refine ⟨_, rfl, ?_⟩
  by_cases h : overA b.lines l = true
  · simp [h, ho.mp h]
  · have : ¬ l.Overloaded false := fun h' => h (ho.mpr h')
    simp [h, this]

/-- C88 fails with rating B in use: a line loaded above rating A but below rating B is not in violation, yet it
is ignored from then on. -/
theorem C88_rate_b_violated (b : OBranch) (hd : b.Distinct) (ha : b.active = true) (i : Nat) (l : Line)
    (hl : b.lines[i]? = some l) (ra rb : ℝ) (hra : l.rateA = some ra) (hrb : l.rateB = some rb)
    (h0 : 0 < ra) (h1 : l.pq > ra) (h2 : l.pq ≤ rb) :
    ¬ l.Overloaded true ∧ ∃ l', (ignoreBranch b).lines[i]? = some l' ∧ l'.ignore = true := by
  constructor
  · rintro ⟨r, hr, hr0, hpq⟩
    simp only [inUse_iff, rating, hrb, if_true, Option.some.injEq] at hr
    subst hr
    linarith
  · obtain ⟨l', h', -, -, -, -, hi⟩ := C88_ignore_partial b hd ha i l hl
    exact ⟨l', h', hi.mpr (Or.inr ⟨ra, by simp [inUse_iff, rating, hra], h0, h1⟩)⟩

/-- C88 fails with rating B in use, the other way: with rating A missing, an overloaded line is not ignored. -/
theorem C88_no_rate_a_violated (b : OBranch) (hd : b.Distinct) (ha : b.active = true) (i : Nat) (l : Line)
    (hl : b.lines[i]? = some l) (rb : ℝ) (hra : l.rateA = none) (hrb : l.rateB = some rb) (h0 : 0 < rb)
    (h1 : l.pq > rb) (hi : l.ignore = false) :
    l.Overloaded true ∧ ∃ l', (ignoreBranch b).lines[i]? = some l' ∧ l'.ignore = false := by
  constructor
  · exact ⟨rb, by simp [inUse_iff, rating, hrb], h0, h1⟩
  · obtain ⟨l', h', -, -, -, -, hi'⟩ := C88_ignore_partial b hd ha i l hl
    refine ⟨l', h', ?_⟩
    by_contra hc
    rcases hi'.mp (by simpa using hc) with h | ⟨r, hr, -⟩
    · simp [hi] at h
    · simp [inUse_iff, rating, hra] at hr

example : (⟨true, [⟨"1", some 10, some 20, false, 15⟩, ⟨"2", some 10, none, false, 5⟩]⟩ : OBranch).Distinct ∧
    (⟨"1", some 10, some 20, false, 15⟩ : Line).Overloaded false ∧
    ¬ (⟨"1", some 10, some 20, false, 15⟩ : Line).Overloaded true := by
  refine ⟨by simp [OBranch.Distinct], ⟨10, by simp [inUse_iff, rating], by norm_num, by norm_num⟩, ?_⟩
  rintro ⟨r, hr, -, h⟩
  simp only [inUse_iff, rating, if_true, Option.some.injEq] at hr
  subst hr
  norm_num at h

/-! ### C89: overload check on given lines -/

/-- C89, the part that holds: if the requested tag at the position of the line found is the requested one (for
example with a single request for the first line), a failure is noted exactly if the line is not ignored and
exceeds rating A. -/
theorem C89_partial (tags : List String) (i k : Nat) (ls : List Line) (hd : (ls.map Line.tag).Nodup) (l : Line)
    (hl : l ∈ ls) (hi : tags[i]? = some l.tag) (hk : tags[k]? = some l.tag) :
    ∃ f, listLine false tags i ls k l = some f ∧ (f = true ↔ l.ignore = false ∧ l.Overloaded false) := by
  unfold listLine Line.Overloaded
  simp only [hi, hk, if_true, lookup_self Line.ignore false ls hd l hl, lookup_self Line.pq 0 ls hd l hl]
  cases hig : l.ignore
  · cases hr : l.rateA with
    | none => exact ⟨false, by simp, by simp [inUse_iff, rating, hr]⟩
    | some r =>
      by_cases h0 : 0 < r
      · by_cases h1 : l.pq > r
        · exact ⟨true, by simp [h0, h1], by simp [inUse_iff, rating, hr, h0, h1]⟩
        · exact ⟨false, by simp [h0, h1], by simp [inUse_iff, rating, hr, h0, h1]⟩
      · exact ⟨false, by simp [h0], by simp [inUse_iff, rating, hr, h0]⟩
  · exact ⟨false, by simp, by simp⟩

/-- C89, the part that holds with rating B selected: lines without rating B or with both ratings equal. -/
theorem C89_rate_b_partial (tags : List String) (i k : Nat) (ls : List Line) (hd : (ls.map Line.tag).Nodup) (l : Line)
    (hl : l ∈ ls) (hi : tags[i]? = some l.tag) (hk : tags[k]? = some l.tag) (hb : l.rateB = none ∨ l.rateB = l.rateA) :
    ∃ f, listLine true tags i ls k l = some f ∧ (f = true ↔ l.ignore = false ∧ l.Overloaded true) := by
  obtain ⟨f, h1, h2⟩ := C89_partial tags i k ls hd l hl hi hk
  refine ⟨f, h1, ?_⟩
  have : rating true l = rating false l := by
    rcases hb with hb | hb
    · simp [rating, hb]
    · cases ha : l.rateA <;> simp [rating, hb, ha]
  rw [h2]
  unfold Line.Overloaded
  simp only [inUse_iff, this]

/-- C89 fails with rating B selected: a line loaded above rating A but below rating B is reported as violated, and
one above rating B that has no rating A is not. -/
theorem C89_rate_b_violated (tags : List String) (i k : Nat) (ls : List Line) (hd : (ls.map Line.tag).Nodup) (l : Line)
    (hl : l ∈ ls) (hi : tags[i]? = some l.tag) (hk : tags[k]? = some l.tag) (hg : l.ignore = false) (rb : ℝ)
    (hrb : l.rateB = some rb) (hb : 0 < rb) :
    (∀ ra, l.rateA = some ra → 0 < ra → ra < l.pq → l.pq ≤ rb →
      listLine true tags i ls k l = some true ∧ ¬ l.Overloaded true) ∧
    (l.rateA = none → rb < l.pq → listLine true tags i ls k l = some false ∧ l.Overloaded true) := by
  constructor
  · intro ra hra h0 h1 h2
    constructor
    · unfold listLine
      simp [hi, hk, lookup_self Line.ignore false ls hd l hl, lookup_self Line.pq 0 ls hd l hl, hg, hra, h0, h1]
    · rintro ⟨r, hr, -, h⟩
      simp only [inUse_iff, rating, hrb, if_true, Option.some.injEq] at hr
      subst hr
      linarith
  · intro hra h1
    constructor
    · unfold listLine
      simp [hi, hk, lookup_self Line.ignore false ls hd l hl, hg, hra]
    · exact ⟨rb, by simp [inUse_iff, rating, hrb], hb, h1⟩

example : (⟨"A", some 1, some 3, false, 2⟩ : Line).pq ≤ 3 ∧ (1 : ℝ) < (⟨"A", some 1, some 3, false, 2⟩ : Line).pq := by
  norm_num

/-- C89 fails: if a requested line stands in its branch at a position not smaller than the number of requests,
the list of requests is read past its end. -/
theorem C89_out_of_range_violated (tags : List String) (i k : Nat) (ls : List Line) (l : Line)
    (hi : tags[i]? = some l.tag) (hk : tags.length ≤ k) : listLine false tags i ls k l = none := by
  unfold listLine
  simp [hi, List.getElem?_eq_none hk]

/-- C89 fails: if the tag requested at the line's position belongs to another line of the branch, that line's
power is compared with this line's rating. -/
theorem C89_wrong_line_violated (tags : List String) (i k : Nat) (ls : List Line)
    (hd : (ls.map Line.tag).Nodup) (l o : Line) (ho : o ∈ ls) (hi : tags[i]? = some l.tag)
    (hk : tags[k]? = some o.tag) (ra : ℝ) (hra : l.rateA = some ra) (h0 : 0 < ra) (hov : l.pq > ra)
    (hlow : o.pq ≤ ra) : listLine false tags i ls k l = some false ∧ l.Overloaded false := by
  constructor
  · unfold listLine
    simp only [hi, hk, if_true, lookup_self Line.ignore false ls hd o ho, lookup_self Line.pq 0 ls hd o ho, hra,
      gt_iff_lt, h0, not_lt.mpr hlow, if_false]
    cases o.ignore <;> simp
  · exact ⟨ra, by simp [inUse_iff, rating, hra], h0, hov⟩

example : ∃ l o : Line, ([l, o].map Line.tag).Nodup ∧ (["A", "B"] : List String)[0]? = some l.tag ∧
    (["A", "B"] : List String)[1]? = some o.tag ∧ l.rateA = some 1 ∧ l.pq > 1 ∧ o.pq ≤ 1 :=
  ⟨⟨"A", some 1, none, false, 2⟩, ⟨"B", some 1, none, false, 1⟩, by simp, rfl, rfl, rfl, by norm_num, by norm_num⟩

end GridPACK.FactoryChecks
