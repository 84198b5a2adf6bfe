import Verif.Spec.FaultSim
import Mathlib.Tactic.Linarith
import Mathlib.Tactic.FieldSimp
import Mathlib.Tactic.Positivity

/-! C248 (network during a fault), C249 (steps of a simulation with a fault). -/
namespace GridPACK.FaultSim

open StringUtils

/-! ### C248 -/

theorem clear_fold (bs : List Bus) (fl : Flags) (x : Int) :
    bs.foldl (fun fl b => busClear b.orig fl) fl x = if x ∈ bs.map (·.orig) then (false, false) else fl x := by
  induction bs generalizing fl with
  | nil => simp
  | cons b bs ih =>
    rw [List.foldl_cons, ih]
    unfold busClear
    by_cases h : x ∈ bs.map (·.orig)
    · rw [if_pos h, if_pos (by simp only [List.map_cons, List.mem_cons]; exact Or.inr h)]
    · rw [if_neg h]
      by_cases e : x = b.orig
      · rw [if_pos e, if_pos (by simp [e])]
      · rw [if_neg e, if_neg (by simp only [List.map_cons, List.mem_cons]; exact fun h' => h'.elim e h)]

theorem bus_fold (i : Int) (bs : List Bus) (fl : Flags) (x : Int) :
    bs.foldl (fun fl b => busSetEvent i i b.orig fl) fl x =
      if x ∈ bs.map (·.orig) then (decide (i = x), decide (i = x)) else fl x := by
  induction bs generalizing fl with
  | nil => simp
  | cons b bs ih =>
    rw [List.foldl_cons, ih]
    unfold busSetEvent
    by_cases h : x ∈ bs.map (·.orig)
    · rw [if_pos h, if_pos (by simp only [List.map_cons, List.mem_cons]; exact Or.inr h)]
    · rw [if_neg h]
      by_cases e : x = b.orig
      · rw [if_pos e, if_pos (by simp [e]), e]
      · rw [if_neg e, if_neg (by simp only [List.map_cons, List.mem_cons]; exact fun h' => h'.elim e h)]

theorem branch_fold (ev : Ev) (hl : ev.isLine = true) (brs : List (Int × Int)) (fl : Flags) (x : Int) :
    brs.foldl (fun fl b => branchSetEvent ev b fl) fl x =
      if (ev.from', ev.to') ∈ brs ∧ (x = ev.from' ∨ x = ev.to') then (decide (ev.from' = x), decide (ev.to' = x))
      else fl x := by
  induction brs generalizing fl with
  | nil => simp
  | cons b brs ih =>
    rw [List.foldl_cons, ih]
    by_cases h : (ev.from', ev.to') ∈ brs ∧ (x = ev.from' ∨ x = ev.to')
    · rw [if_pos h, if_pos ⟨by simp [h.1], h.2⟩]
    · rw [if_neg h]
      unfold branchSetEvent
      rw [if_pos hl]
      by_cases hb : b.1 = ev.from' ∧ b.2 = ev.to'
      · rw [if_pos hb]
        have hmem : (ev.from', ev.to') ∈ b :: brs := by
          have : b = (ev.from', ev.to') := Prod.ext hb.1 hb.2
          simp [this]
        unfold busSetEvent
        rw [hb.1, hb.2]
        by_cases h2 : x = ev.to'
        · rw [if_pos h2, if_pos ⟨hmem, Or.inr h2⟩, h2]
        · rw [if_neg h2]
          by_cases h1 : x = ev.from'
          · rw [if_pos h1, if_pos ⟨hmem, Or.inl h1⟩, h1]
          · rw [if_neg h1, if_neg (fun h' => h'.2.elim h1 h2)]
      · rw [if_neg hb]
        refine (if_neg ?_).symm
        rintro ⟨hm, hx⟩
        rcases List.mem_cons.1 hm with e | hm
        · exact hb ⟨by rw [← e], by rw [← e]⟩
        · exact h ⟨hm, hx⟩

/-- The flag of a bus of the process after `setEvent`. -/
theorem setEvent_from (pr : Proc) (ev : Ev) (old : Flags) (b : Bus) (hb : b ∈ pr.buses) (he : ¬ (ev.isBus = true ∧ ev.isLine = true)) :
    (setEvent pr ev old b.orig).1 = true ↔
      (ev.isBus = true ∧ ev.bus = b.orig) ∨ (ev.isLine = true ∧ (ev.from', ev.to') ∈ pr.branches ∧ ev.from' = b.orig) := by
  have hm : b.orig ∈ pr.buses.map (·.orig) := List.mem_map.2 ⟨b, hb, rfl⟩
  unfold setEvent
  by_cases h1 : ev.isBus = true
  · have h2 : ev.isLine = false := by simpa [h1] using he
    simp only [h1, h2]
    simp only [if_true, Bool.false_eq_true, if_false, false_and, or_false, true_and]
    rw [bus_fold, if_pos hm]
    simp
  · have h1' : ev.isBus = false := by simpa using h1
    by_cases h2 : ev.isLine = true
    · simp only [h1', h2]
      simp only [if_true, Bool.false_eq_true, if_false, false_and, false_or, true_and]
      rw [branch_fold ev h2, clear_fold, if_pos hm]
      by_cases hc : (ev.from', ev.to') ∈ pr.branches ∧ (b.orig = ev.from' ∨ b.orig = ev.to')
      · rw [if_pos hc]
        simp [hc.1]
      · rw [if_neg hc]
        simp only [Bool.false_eq_true, false_iff]
        rintro ⟨h3, h4⟩
        exact hc ⟨h3, Or.inl h4.symm⟩
    · have h2' : ev.isLine = false := by simpa using h2
      simp only [h1', h2']
      simp only [Bool.false_eq_true, if_false, false_and, or_false, iff_false]
      rw [clear_fold, if_pos hm]
      simp

open Classical in
/-- Entries of the matrix after the buses have been inserted. -/
theorem buses_onFY (fl : Flags) (m0 : Mat) (bs : List Bus) (m : Mat) (a b : Int)
    (hd : ∀ x ∈ bs, x.active = true → x.ybus = m0 x.orig x.orig) :
    bs.foldl (busOnFY fl) m a b =
      if a = b ∧ ∃ x ∈ bs, x.active = true ∧ x.orig = a ∧ (fl a).1 = true then m0 a a + ⟨0, -1000000000⟩ else m a b := by
  induction bs generalizing m with
  | nil => simp
  | cons x bs ih =>
    rw [List.foldl_cons, ih _ (fun y hy => hd y (by simp [hy]))]
    by_cases h : a = b ∧ ∃ y ∈ bs, y.active = true ∧ y.orig = a ∧ (fl a).1 = true
    · rw [if_pos h, if_pos]
      obtain ⟨h1, y, hy, h2⟩ := h
      exact ⟨h1, y, by simp [hy], h2⟩
    · rw [if_neg h]
      unfold busOnFY
      by_cases hx : x.active = true ∧ (fl x.orig).1 = true
      · rw [if_pos (by simp [hx.1, hx.2])]
        unfold setDiag
        by_cases hab : a = x.orig ∧ b = x.orig
        · rw [if_pos hab, if_pos ⟨by rw [hab.1, hab.2], x, by simp, hx.1, hab.1.symm, by rw [hab.1]; exact hx.2⟩,
            hd x (by simp) hx.1, hab.1]
          apply Complex.ext
          · simp
          · simp only [Complex.add_im]; norm_num; ring
        · rw [if_neg hab]
          refine (if_neg ?_).symm
          rintro ⟨h1, y, hy, h2, h3, h4⟩
          rcases List.mem_cons.1 hy with rfl | hy
          · exact hab ⟨h3.symm, by rw [← h1, h3]⟩
          · exact h ⟨h1, y, hy, h2, h3, h4⟩
      · rw [if_neg (by simpa using hx)]
        refine (if_neg ?_).symm
        rintro ⟨h1, y, hy, h2, h3, h4⟩
        rcases List.mem_cons.1 hy with rfl | hy
        · exact hx ⟨h2, by rw [h3]; exact h4⟩
        · exact h ⟨h1, y, hy, h2, h3, h4⟩

/-- The bus is faulted: its owner has set the flag. -/
def Marked (n : Nat) (procs : Nat → Proc) (ev : Ev) (old : Nat → Flags) (a : Int) : Prop :=
  ∃ p, p < n ∧ ∃ x ∈ (procs p).buses, x.active = true ∧ x.orig = a ∧ (setEvent (procs p) ev (old p) a).1 = true

open Classical in
/-- The matrix of the faulted network, entry by entry. -/
theorem faultMatrix_entry (n : Nat) (procs : Nat → Proc) (m : Mat) (ev : Ev) (old : Nat → Flags)
    (hd : ∀ p, p < n → ∀ b ∈ (procs p).buses, b.active = true → b.ybus = m b.orig b.orig) (a b : Int) :
    faultMatrix n procs m ev old a b =
      if a = b ∧ Marked n procs ev old a then m a a + ⟨0, -1000000000⟩ else m a b := by
  unfold faultMatrix
  induction n with
  | zero => rw [if_neg]; · rfl
            rintro ⟨-, p, hp, -⟩; omega
  | succ n ih =>
    rw [List.range_succ, List.foldl_append, List.foldl_cons, List.foldl_nil]
    dsimp only
    rw [buses_onFY _ m _ _ a b (hd n (by omega)), ih (fun p hp => hd p (by omega))]
    by_cases h1 : a = b ∧ ∃ x ∈ (procs n).buses, x.active = true ∧ x.orig = a ∧ (setEvent (procs n) ev (old n) a).1 = true
    · rw [if_pos h1, if_pos]
      exact ⟨h1.1, n, by omega, h1.2⟩
    · rw [if_neg h1]
      by_cases h2 : a = b ∧ Marked n procs ev old a
      · rw [if_pos h2, if_pos]
        obtain ⟨h3, p, hp, h4⟩ := h2
        exact ⟨h3, p, by omega, h4⟩
      · rw [if_neg h2, if_neg]
        rintro ⟨h3, p, hp, h4⟩
        by_cases e : p = n
        · subst e; exact h1 ⟨h3, h4⟩
        · exact h2 ⟨h3, p, by omega, h4⟩

/-- C248, the part that holds: an event on a branch, given by its buses in the order of the network file, puts the fault
at the first of them, for every network, distribution, and whatever event the same network was used for before.

Partial: see the `_violated` theorems for the other order and the other kinds of events. -/
theorem C248_line_partial (n : Nat) (procs : Nat → Proc) (m : Mat) (br : List (Int × Int)) (nodes : List Int)
    (hn : Distributed n procs m br nodes) (ev : Ev) (old : Nat → Flags) (h1 : ev.isLine = true) (h2 : ev.isBus = false)
    (hb : (ev.from', ev.to') ∈ br) : FaultAt m (faultMatrix n procs m ev old) ev.from' := by
  classical
  intro a b
  rw [faultMatrix_entry n procs m ev old hn.data]
  have he : ¬ (ev.isBus = true ∧ ev.isLine = true) := by simp [h2]
  by_cases hab : a = ev.from' ∧ b = ev.from'
  · obtain ⟨rfl, rfl⟩ := hab
    refine Eq.trans (if_pos ?_) (by rw [if_pos (⟨rfl, rfl⟩ : _ ∧ _)])
    obtain ⟨p, hp, x, hx, ha, ho⟩ := hn.owner _ (hn.ends _ hb).1
    have ho : x.orig = ev.from' := ho
    refine ⟨rfl, p, hp, x, hx, ha, ho, ?_⟩
    rw [← ho]
    exact (setEvent_from _ _ _ x hx he).2 (Or.inr ⟨h1, hn.known _ hb p hp ⟨x, hx, ha, Or.inl ho⟩, ho.symm⟩)
  · rw [if_neg hab, if_neg, add_zero]
    rintro ⟨hab', p, hp, x, hx, ha, ho, hf⟩
    rw [← ho] at hf
    rcases (setEvent_from _ _ _ x hx he).1 hf with ⟨h, -⟩ | ⟨-, -, h⟩
    · rw [h2] at h; cases h
    · exact hab ⟨by rw [h, ho], by rw [← hab', h, ho]⟩

/-- C248, the part that holds for events with the flag `isBus`: the fault is at that bus. -/
theorem C248_bus_partial (n : Nat) (procs : Nat → Proc) (m : Mat) (br : List (Int × Int)) (nodes : List Int)
    (hn : Distributed n procs m br nodes) (ev : Ev) (old : Nat → Flags) (h1 : ev.isLine = false) (h2 : ev.isBus = true)
    (hb : ev.bus ∈ nodes) : FaultAt m (faultMatrix n procs m ev old) ev.bus := by
  classical
  intro a b
  rw [faultMatrix_entry n procs m ev old hn.data]
  have he : ¬ (ev.isBus = true ∧ ev.isLine = true) := by simp [h1]
  by_cases hab : a = ev.bus ∧ b = ev.bus
  · obtain ⟨rfl, rfl⟩ := hab
    refine Eq.trans (if_pos ?_) (by rw [if_pos (⟨rfl, rfl⟩ : _ ∧ _)])
    obtain ⟨p, hp, x, hx, ha, ho⟩ := hn.owner _ hb
    refine ⟨rfl, p, hp, x, hx, ha, ho, ?_⟩
    rw [← ho]
    exact (setEvent_from _ _ _ x hx he).2 (Or.inl ⟨h2, ho.symm⟩)
  · rw [if_neg hab, if_neg, add_zero]
    rintro ⟨hab', p, hp, x, hx, ha, ho, hf⟩
    rw [← ho] at hf
    rcases (setEvent_from _ _ _ x hx he).1 hf with ⟨-, h⟩ | ⟨h, -⟩
    · exact hab ⟨by rw [h, ho], by rw [← hab', h, ho]⟩
    · rw [h1] at h; cases h

/-- Without a branch in the order given, or with none of the flags, the matrix remains as it is. -/
theorem no_fault (n : Nat) (procs : Nat → Proc) (m : Mat) (ev : Ev) (old : Nat → Flags)
    (hd : ∀ p, p < n → ∀ b ∈ (procs p).buses, b.active = true → b.ybus = m b.orig b.orig) (h2 : ev.isBus = false)
    (h : ev.isLine = true → ∀ p, p < n → (ev.from', ev.to') ∉ (procs p).branches) :
    faultMatrix n procs m ev old = m := by
  classical
  funext a b
  rw [faultMatrix_entry n procs m ev old hd, if_neg]
  rintro ⟨-, p, hp, x, hx, ha, ho, hf⟩
  rw [← ho] at hf
  rcases (setEvent_from _ _ _ x hx (by simp [h2])).1 hf with ⟨h', -⟩ | ⟨h', h3, -⟩
  · rw [h2] at h'; cases h'
  · exact h h' p hp h3

/-- C248 fails if the buses of the branch are given in the other order: there is no fault. -/
theorem C248_order_violated (n : Nat) (procs : Nat → Proc) (m : Mat) (br : List (Int × Int)) (nodes : List Int)
    (hn : Distributed n procs m br nodes) (old : Nat → Flags) (f t : Int) (start stop step : ℝ)
    (_hb : (t, f) ∈ br) (hno : (f, t) ∉ br) :
    faultMatrix n procs m (Ev.ofFaultEvent start stop f t step) old = m :=
  no_fault n procs m _ old hn.data rfl (fun _ p hp h => hno (hn.only p hp _ h))

/-- C248 fails for faults at buses given in the input file: there is no fault. -/
theorem C248_busFault_violated (n : Nat) (procs : Nat → Proc) (m : Mat) (br : List (Int × Int)) (nodes : List Int)
    (hn : Distributed n procs m br nodes) (old : Nat → Flags) (bus : Int) (start stop step : ℝ) :
    faultMatrix n procs m (Ev.ofBusFault start stop bus step) old = m :=
  no_fault n procs m _ old hn.data rfl (fun h => by cases h)

/-- C248 fails for the contingencies of generators in the path rating: their dynamic simulations are simulations of the
undisturbed network. -/
theorem C248_generator_violated (n : Nat) (procs : Nat → Proc) (m : Mat) (br : List (Int × Int)) (nodes : List Int)
    (hn : Distributed n procs m br nodes) (old : Nat → Flags) (name : Str) (gs : List (Int × Str))
    (start stop step : ℝ) (x : RtprCases.Fault) (hx : RtprCases.toFault start stop step (.generator name gs) = some x) :
    faultMatrix n procs m (Ev.ofFault x) old = m := by
  apply no_fault n procs m _ old hn.data rfl
  intro h
  cases gs with
  | nil => cases hx
  | cons g gs =>
    have : x = ⟨true, false, g.1, g.1, g.1, g.2, start, stop, step⟩ := by
      have := hx; simp only [RtprCases.toFault, Option.some.injEq] at this; exact this.symm
    rw [this] at h
    cases h

/-! ### C249 -/

theorem trunc_int (z : ℤ) : trunc (z : ℝ) = z := by
  unfold trunc
  split <;> simp

theorem tStep_mul (dt : ℝ) (hdt : 0 < dt) (a b : ℕ) : tStep dt (a * dt) (b * dt) = (b : ℤ) - a := by
  unfold tStep
  have : ((b : ℝ) * dt - a * dt) / dt = (((b : ℤ) - a : ℤ) : ℝ) := by
    rw [← sub_mul, mul_div_assoc, div_self hdt.ne', mul_one]
    push_cast
    rfl
  rw [this, trunc_int]

/-- C249, the part that holds: if the times are multiples of the time step and the fault does not begin in the first
step, the simulation has the steps asked for, of the length asked for, and the network is the faulted one exactly in
the steps during the fault, otherwise the one before the fault. -/
theorem C249_steps_partial (ev : Ev) (T dt : ℝ) (hdt : 0 < dt) (a b c : ℕ) (ha : 0 < a) (h1 : ev.start = a * dt)
    (h2 : ev.stop = b * dt) (h3 : T = c * dt) (ybus fy : Mat) :
    nSteps ev T dt = c ∧ stepLength ev T dt = some dt ∧
      ∀ k, k < c → (During ev dt k → matrixUsed ev T dt ybus fy k = fy) ∧
        (¬ During ev dt k → matrixUsed ev T dt ybus fy k = ybus) := by
  have e0 : tStep dt 0 ev.start = a := by
    have := tStep_mul dt hdt 0 a
    simpa [h1] using this
  have e1 : tStep dt ev.start ev.stop = (b : ℤ) - a := by rw [h1, h2]; exact tStep_mul dt hdt a b
  have e2 : tStep dt ev.stop T = (c : ℤ) - b := by rw [h2, h3]; exact tStep_mul dt hdt b c
  refine ⟨?_, ?_, ?_⟩
  · unfold nSteps tSteps
    simp only [e0, e1, e2]
    omega
  · unfold stepLength tSteps
    simp only [e0]
    rw [if_neg (by omega), h1]
    have : ((a : ℤ) : ℝ) ≠ 0 := by
      simp only [Int.cast_natCast, ne_eq, Nat.cast_eq_zero]; omega
    rw [sub_zero]
    congr 1
    simp only [Int.cast_natCast] at this ⊢
    field_simp
  · intro k hk
    have hD : During ev dt k ↔ a ≤ k ∧ k + 1 ≤ b := by
      unfold During
      rw [h1, h2, mul_le_mul_iff_left₀ hdt, mul_le_mul_iff_left₀ hdt]
      norm_cast
    have hF : flagP ev T dt k = 1 ↔ a ≤ k ∧ k + 1 ≤ b := by
      unfold flagP tSteps
      simp only [e0, e1]
      split_ifs <;> simp <;> omega
    constructor
    · intro h
      unfold matrixUsed
      rw [if_pos (hF.2 (hD.1 h))]
    · intro h
      unfold matrixUsed
      rw [if_neg (fun h' => h (hD.2 (hF.1 h')))]

/-- C249 fails for a fault that begins before the end of the first step: the length of the steps is the result of a division
by zero. -/
theorem C249_start_violated (ev : Ev) (T dt : ℝ) (h0 : 0 ≤ ev.start) (h1 : ev.start < dt) :
    stepLength ev T dt = none := by
  have : tStep dt 0 ev.start = 0 := by
    have hdt : 0 < dt := lt_of_le_of_lt h0 h1
    unfold tStep trunc
    rw [sub_zero, if_pos (by positivity)]
    rw [Int.floor_eq_zero_iff]
    exact ⟨by positivity, by rw [div_lt_one hdt]; exact h1⟩
  unfold stepLength tSteps
  simp only [this]
  rfl

/-- C249 fails for every other fault that does not begin at a multiple of the time step: all steps, before, during and
after the fault, are longer than asked for. -/
theorem C249_length_violated (ev : Ev) (T dt : ℝ) (hdt : 0 < dt) (h1 : dt ≤ ev.start)
    (h2 : ∀ a : ℤ, ev.start ≠ a * dt) : ∃ h, stepLength ev T dt = some h ∧ dt < h := by
  have hq : 1 ≤ ev.start / dt := by rw [le_div_iff₀ hdt, one_mul]; exact h1
  have hf : tStep dt 0 ev.start = ⌊ev.start / dt⌋ := by
    unfold tStep trunc
    rw [sub_zero, if_pos (by linarith)]
  have h3 : 1 ≤ ⌊ev.start / dt⌋ := Int.le_floor.2 (by simpa using hq)
  refine ⟨ev.start / ⌊ev.start / dt⌋, ?_, ?_⟩
  · unfold stepLength tSteps
    simp only [hf]
    rw [if_neg (by omega), sub_zero]
  · have h4 : (0 : ℝ) < ⌊ev.start / dt⌋ := by exact_mod_cast (by omega : 0 < ⌊ev.start / dt⌋)
    rw [lt_div_iff₀ h4]
    have h5 : (⌊ev.start / dt⌋ : ℝ) ≤ ev.start / dt := Int.floor_le _
    have h6 : dt * ⌊ev.start / dt⌋ ≤ ev.start := by
      rw [le_div_iff₀ hdt] at h5; linarith
    refine lt_of_le_of_ne h6 (fun e => h2 ⌊ev.start / dt⌋ ?_)
    rw [mul_comm]; exact e.symm

/-- C249 fails for a fault shorter than the time step: no step is made with the faulted network. -/
theorem C249_short_violated (ev : Ev) (T dt : ℝ) (h0 : ev.start ≤ ev.stop) (h1 : ev.stop - ev.start < dt)
    (ybus fy : Mat) (k : ℕ) : matrixUsed ev T dt ybus fy k = ybus := by
  have hdt : 0 < dt := lt_of_le_of_lt (sub_nonneg.2 h0) h1
  have : tStep dt ev.start ev.stop = 0 := by
    have h2 := sub_nonneg.2 h0
    unfold tStep trunc
    rw [if_pos (by positivity), Int.floor_eq_zero_iff]
    exact ⟨by positivity, by rw [div_lt_one hdt]; exact h1⟩
  unfold matrixUsed
  rw [if_neg]
  unfold flagP tSteps
  simp only [this]
  split_ifs <;> simp <;> omega

/-- C249 fails: the fractions of a time step that are left over before, during and after the fault are lost each for
itself, so that the simulation is shorter than asked for by one or two steps if they add up to that. -/
theorem C249_total_violated (ev : Ev) (T dt : ℝ) (hdt : 0 < dt) (h0 : 0 ≤ ev.start) (h1 : ev.start ≤ ev.stop)
    (h2 : ev.stop ≤ T)
    (hf : 1 ≤ Int.fract (ev.start / dt) + Int.fract ((ev.stop - ev.start) / dt) + Int.fract ((T - ev.stop) / dt)) :
    (nSteps ev T dt + 1 : ℝ) * dt ≤ T := by
  have e0 : tStep dt 0 ev.start = ⌊ev.start / dt⌋ := by
    unfold tStep trunc; rw [sub_zero, if_pos (by positivity)]
  have e1 : tStep dt ev.start ev.stop = ⌊(ev.stop - ev.start) / dt⌋ := by
    have := sub_nonneg.2 h1
    unfold tStep trunc; rw [if_pos (by positivity)]
  have e2 : tStep dt ev.stop T = ⌊(T - ev.stop) / dt⌋ := by
    have := sub_nonneg.2 h2
    unfold tStep trunc; rw [if_pos (by positivity)]
  have p0 : 0 ≤ ⌊ev.start / dt⌋ := Int.floor_nonneg.2 (by positivity)
  have p1 : 0 ≤ ⌊(ev.stop - ev.start) / dt⌋ := Int.floor_nonneg.2 (div_nonneg (sub_nonneg.2 h1) hdt.le)
  have p2 : 0 ≤ ⌊(T - ev.stop) / dt⌋ := Int.floor_nonneg.2 (div_nonneg (sub_nonneg.2 h2) hdt.le)
  have hn : (nSteps ev T dt : ℝ) = ⌊ev.start / dt⌋ + ⌊(ev.stop - ev.start) / dt⌋ + ⌊(T - ev.stop) / dt⌋ := by
    have : (nSteps ev T dt : ℤ) = ⌊ev.start / dt⌋ + ⌊(ev.stop - ev.start) / dt⌋ + ⌊(T - ev.stop) / dt⌋ := by
      unfold nSteps tSteps
      simp only [e0, e1, e2]
      omega
    exact_mod_cast this
  have hsum : ev.start / dt + (ev.stop - ev.start) / dt + (T - ev.stop) / dt = T / dt := by
    rw [← add_div, ← add_div]; congr 1; ring
  have q0 := Int.floor_add_fract (ev.start / dt)
  have q1 := Int.floor_add_fract ((ev.stop - ev.start) / dt)
  have q2 := Int.floor_add_fract ((T - ev.stop) / dt)
  have : (nSteps ev T dt + 1 : ℝ) ≤ T / dt := by rw [hn]; linarith
  rw [le_div_iff₀ hdt] at this
  exact this

/-- C249 fails: the time step given for the fault is not used. -/
theorem C249_step_violated (ev : Ev) (s T dt : ℝ) :
    nSteps { ev with step := s } T dt = nSteps ev T dt ∧ stepLength { ev with step := s } T dt = stepLength ev T dt ∧
      ∀ ybus fy k, matrixUsed { ev with step := s } T dt ybus fy k = matrixUsed ev T dt ybus fy k :=
  ⟨rfl, rfl, fun _ _ _ => rfl⟩

/-! ### Examples -/

/-- A network of two buses on two processes with one branch from 6 to 7. -/
def exProcs : Nat → Proc := fun p =>
  if p = 0 then ⟨[⟨6, true, ⟨1, -10⟩⟩, ⟨7, false, ⟨1, -10⟩⟩], [(6, 7)]⟩
  else ⟨[⟨6, false, ⟨1, -10⟩⟩, ⟨7, true, ⟨1, -10⟩⟩], [(6, 7)]⟩

def exMat : Mat := fun a b => if a = b then ⟨1, -10⟩ else ⟨-1, 10⟩

theorem ex_distributed : Distributed 2 exProcs exMat [(6, 7)] [6, 7] := by
  constructor
  · intro p hp b hb ha
    rcases p with _ | _ | p
    · simp [exProcs] at hb; rcases hb with rfl | rfl <;> simp [exMat]
    · simp [exProcs] at hb; rcases hb with rfl | rfl <;> simp [exMat]
    · omega
  · intro i hi
    simp at hi
    rcases hi with rfl | rfl
    · exact ⟨0, by decide, ⟨6, true, ⟨1, -10⟩⟩, by simp [exProcs], rfl, rfl⟩
    · exact ⟨1, by decide, ⟨7, true, ⟨1, -10⟩⟩, by simp [exProcs], rfl, rfl⟩
  · intro e he; simp at he; subst he; simp
  · intro e he p hp _
    simp at he; subst he
    unfold exProcs; split <;> simp
  · intro p hp e he
    unfold exProcs at he
    split at he <;> simpa using he

/-- The fault of the user manual, on the branch `6 7`, is at bus 6; given as `7 6` it does not exist. -/
example : FaultAt exMat (faultMatrix 2 exProcs exMat (Ev.ofFaultEvent 2 2.05 6 7 0.005) (fun _ _ => (true, true))) 6 ∧
    faultMatrix 2 exProcs exMat (Ev.ofFaultEvent 2 2.05 7 6 0.005) (fun _ _ => (true, true)) = exMat :=
  ⟨C248_line_partial 2 exProcs exMat _ _ ex_distributed (Ev.ofFaultEvent 2 2.05 6 7 0.005) _ rfl rfl (by decide),
    C248_order_violated 2 exProcs exMat _ _ ex_distributed _ 7 6 _ _ _ (by decide) (by decide)⟩

/-- The times of the user manual: 6000 steps, the fault in the steps from 400 on. -/
example : nSteps (Ev.ofFaultEvent 2 2.05 6 7 0.005) 30 0.005 = 6000 ∧
    stepLength (Ev.ofFaultEvent 2 2.05 6 7 0.005) 30 0.005 = some 0.005 ∧
    During (Ev.ofFaultEvent 2 2.05 6 7 0.005) 0.005 400 ∧ ¬ During (Ev.ofFaultEvent 2 2.05 6 7 0.005) 0.005 410 := by
  have h := C249_steps_partial (Ev.ofFaultEvent 2 2.05 6 7 0.005) 30 0.005 (by norm_num) 400 410 6000 (by norm_num)
    (by norm_num [Ev.ofFaultEvent]) (by norm_num [Ev.ofFaultEvent]) (by norm_num) exMat exMat
  refine ⟨h.1, h.2.1, ?_, ?_⟩ <;> unfold During <;> norm_num [Ev.ofFaultEvent]

/-- A fault from 1.5 to 3 of a simulation to 4.5 with step 1: three steps. -/
example : (nSteps (Ev.ofFaultEvent 1.5 3 6 7 0) 4.5 1 + 1 : ℝ) * 1 ≤ 4.5 :=
  C249_total_violated _ _ _ (by norm_num) (by norm_num [Ev.ofFaultEvent]) (by norm_num [Ev.ofFaultEvent])
    (by norm_num [Ev.ofFaultEvent]) (by
      norm_num [Ev.ofFaultEvent, Int.fract])

end GridPACK.FaultSim
