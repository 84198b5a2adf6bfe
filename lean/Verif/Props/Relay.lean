import Verif.Lemmas.Relay
import Mathlib.Tactic.Linarith
import Mathlib.Tactic.NormNum
import Mathlib.Algebra.Order.Archimedean.Basic
import Mathlib.Algebra.Order.Archimedean.Real.Basic

/-! Theorems about the protection relays. -/
namespace GridPACK.Relay

/-! ### Specification -/

/-- A condition holds at every step from `s` to `q`. -/
def Throughout (P : Nat → Prop) (s q : Nat) : Prop := ∀ j, s ≤ j → j ≤ q → P j

/-- Duration of the steps `s` to `q`. -/
noncomputable def lasts (dt : ℝ) (s q : Nat) : ℝ := ((q - s + 1 : Nat) : ℝ) * dt

/-- The impedance seen by a relay, `z` with `volt = z * curr`, lies in the circle with this centre and diameter. -/
def InCircle (center : ℂ) (reach : ℝ) (r : ℂ × ℂ) : Prop :=
  r.2 ≠ 0 ∧ ∃ z, r.1 = z * r.2 ∧ 2 * ‖z - center‖ < reach

theorem within_iff (c : ℂ) (reach : ℝ) (r : ℂ × ℂ) : within c reach r.1 r.2 ↔ InCircle c reach r := by
  unfold within InCircle
  constructor
  · rintro ⟨h, hd⟩
    exact ⟨h, r.1 / r.2, by rw [div_mul_cancel₀ _ h], by linarith⟩
  · rintro ⟨h, z, hz, hd⟩
    refine ⟨h, ?_⟩
    rw [hz, mul_div_cancel_right₀ _ h]
    linarith

theorem mul_mono {dt : ℝ} (h : 0 ≤ dt) {a b : Nat} (hab : a ≤ b) : (a : ℝ) * dt ≤ (b : ℝ) * dt :=
  mul_le_mul_of_nonneg_right (Nat.cast_le.2 hab) h

/-! ### Under-voltage load shedding -/

open Classical in
theorem lv_proj (p : LvParams) (dt : ℝ) (volt : Nat → ℂ) (k : Nat) :
    (⟨(after (lvUpdate p dt) lvReset volt k).pickup, (after (lvUpdate p dt) lvReset volt k).breaker,
      (after (lvUpdate p dt) lvReset volt k).flag, (after (lvUpdate p dt) lvReset volt k).shed⟩ : GState Nat)
      = after (gstep 0 (runStep (fun v : ℂ => ‖v‖ < p.v1)) (fun c => decide ((c : ℝ) * dt ≥ p.t1))
          (fun b => decide ((b : ℝ) * dt ≥ p.tb))) ⟨0, 0, false, false⟩ volt k := by
  refine after_proj (f := fun s : LvState => (⟨s.pickup, s.breaker, s.flag, s.shed⟩ : GState Nat)) ?_ lvReset k
  intro a r
  simp only [lvUpdate, gstep, runStep, decide_eq_true_eq]
  split_ifs <;> rfl

theorem lv_shed (p : LvParams) (dt : ℝ) (volt : Nat → ℂ) (k : Nat) :
    (after (lvUpdate p dt) lvReset volt k).shed = (after (gstep 0 (runStep (fun v : ℂ => ‖v‖ < p.v1))
      (fun c => @decide ((c : ℝ) * dt ≥ p.t1) (Classical.propDecidable _))
      (fun b => @decide ((b : ℝ) * dt ≥ p.tb) (Classical.propDecidable _))) ⟨0, 0, false, false⟩ volt k).trip :=
  congrArg GState.trip (lv_proj p dt volt k)

/-- **C98** A load shedding relay with a positive pick-up time signals a trip within the first `N` steps exactly if
the voltage was below the threshold at all steps from some `s` to some `q`, for at least the pick-up time, and from
then to a step `n` before `N` at least the breaker time passed.

Partial: the pick-up time must be positive (see `C98_no_pickup_time_violated`). -/
theorem C98_trips_partial (p : LvParams) (dt : ℝ) (hdt : 0 < dt) (ht1 : 0 < p.t1) (volt : Nat → ℂ) (N : Nat) :
    (∃ k, k ≤ N ∧ (after (lvUpdate p dt) lvReset volt k).shed = true) ↔
    ∃ s q n, s ≤ q ∧ q ≤ n ∧ n < N ∧ Throughout (fun j => ‖volt j‖ < p.v1) s q ∧ p.t1 ≤ lasts dt s q ∧
      p.tb ≤ lasts dt q n := by
  classical
  simp only [lv_shed]
  rw [trips_iff]
  · constructor
    · rintro ⟨q, n, hqn, hn, hp, hb⟩
      have hp' := of_decide_eq_true hp
      have hb' := of_decide_eq_true hb
      obtain ⟨s, hs, hall, hlast⟩ := (run_pick_iff (fun v : ℂ => ‖v‖ < p.v1) (fun c : Nat => (c : ℝ) * dt ≥ p.t1)
        (by simp; linarith) (fun a b hab h => le_trans h (mul_mono hdt.le hab)) q).1 hp'
      exact ⟨s, q, n, hs, hqn, hn, hall, hlast, hb'⟩
    · rintro ⟨s, q, n, hs, hqn, hn, hall, h1, hb⟩
      refine ⟨q, n, hqn, hn, decide_eq_true ?_, decide_eq_true hb⟩
      exact (run_pick_iff (fun v : ℂ => ‖v‖ < p.v1) (fun c : Nat => (c : ℝ) * dt ≥ p.t1)
        (by simp; linarith) (fun a b hab h => le_trans h (mul_mono hdt.le hab)) q).2 ⟨s, hs, hall, h1⟩
  · intro a b hab h
    exact decide_eq_true (le_trans (of_decide_eq_true h) (mul_mono hdt.le hab))

/-- **C98** Every trip signal, also after the first, is due to an under-voltage of sufficient length that began
after the preceding trip signals.  Partial as above. -/
theorem C98_every_trip_partial (p : LvParams) (dt : ℝ) (hdt : 0 < dt) (ht1 : 0 < p.t1) (volt : Nat → ℂ) (n : Nat)
    (h0 : (after (lvUpdate p dt) lvReset volt n).shed = false)
    (h1 : (after (lvUpdate p dt) lvReset volt (n + 1)).shed = true) :
    ∃ s q, s ≤ q ∧ q ≤ n ∧ Throughout (fun j => ‖volt j‖ < p.v1) s q ∧ p.t1 ≤ lasts dt s q ∧ p.tb ≤ lasts dt q n ∧
      ∀ i, i < n → (after (lvUpdate p dt) lvReset volt i).shed = false →
        (after (lvUpdate p dt) lvReset volt (i + 1)).shed = true → i < s := by
  classical
  simp only [lv_shed] at h0 h1 ⊢
  obtain ⟨m, q, hmq, hqn, hr, hp, hb⟩ := rise_due n h0 h1
  have hp' := of_decide_eq_true hp
  have hb' := of_decide_eq_true hb
  obtain ⟨s, hs, hall, hlast⟩ := (run_pick_iff (fun v : ℂ => ‖v‖ < p.v1) (fun c : Nat => (c : ℝ) * dt ≥ p.t1)
    (by simp; linarith) (fun a b hab h => le_trans h (mul_mono hdt.le hab)) (q - m)).1 hp'
  refine ⟨m + s, q, by omega, hqn, ?_, ?_, hb', ?_⟩
  · intro j hj hjq
    have := hall (j - m) (by omega) (by omega)
    rwa [show m + (j - m) = j by omega] at this
  · show p.t1 ≤ ((q - (m + s) + 1 : Nat) : ℝ) * dt
    rw [show q - (m + s) + 1 = q - m - s + 1 by omega]
    exact hlast
  · intro i hi ha hb
    have := hr i hi ha hb
    omega

/-- The status of the step before is reported as well: an action is taken when it goes from 0 to 1. -/
theorem C98_previous (p : LvParams) (dt : ℝ) (volt : Nat → ℂ) (k : Nat) :
    (after (lvUpdate p dt) lvReset volt (k + 1)).shedPrev = (after (lvUpdate p dt) lvReset volt k).shed := by
  simp only [after, lvUpdate]
  split_ifs <;> rfl

/-- **C98, violated**: with pick-up time zero, which is also used when the time is missing from the input, the relay
trips whatever the voltage is, as soon as the breaker time has passed. -/
theorem C98_no_pickup_time_violated (p : LvParams) (dt : ℝ) (hdt : 0 < dt) (ht1 : p.t1 = 0) (volt : Nat → ℂ) (n : Nat)
    (hn : p.tb ≤ lasts dt 0 n) :
    ∃ k, k ≤ n + 1 ∧ (after (lvUpdate p dt) lvReset volt k).shed = true := by
  classical
  simp only [lv_shed]
  rw [trips_iff]
  · refine ⟨0, n, by omega, by omega, decide_eq_true ?_, decide_eq_true hn⟩
    rw [ht1]
    exact mul_nonneg (Nat.cast_nonneg _) hdt.le
  · intro a b hab h
    exact decide_eq_true (le_trans (of_decide_eq_true h) (mul_mono hdt.le hab))

/-- Half voltage throughout: below 0.8 from step 0 to 9 for 0.1 s, breaker time 0.05 s later. -/
example : ∃ k, k ≤ 20 ∧ (after (lvUpdate ⟨0.8, 0.1, 0.05⟩ 0.01) lvReset (fun _ => ((1 / 2 : ℝ) : ℂ)) k).shed = true :=
  (C98_trips_partial ⟨0.8, 0.1, 0.05⟩ 0.01 (by norm_num) (by norm_num) _ 20).2
    ⟨0, 9, 13, by norm_num, by norm_num, by norm_num,
      fun j _ _ => by simp only [Complex.norm_real]; norm_num, by norm_num [lasts], by norm_num [lasts]⟩

/-- Normal voltage throughout, no pick-up time. -/
example : ∃ k, k ≤ 5 ∧ (after (lvUpdate ⟨0.8, 0, 0.05⟩ 0.01) lvReset (fun _ => (1 : ℂ)) k).shed = true :=
  C98_no_pickup_time_violated ⟨0.8, 0, 0.05⟩ 0.01 (by norm_num) rfl _ 4 (by norm_num [lasts])

/-! ### Frequency relay -/

open Classical in
/-- The two pick-up counters. -/
noncomputable def frCount (p : FrParams) (c : Nat × Nat) (f : ℝ) : Nat × Nat :=
  (runStep (fun f => f < p.fl) c.1 f, runStep (fun f => f > p.fu) c.2 f)

open Classical in
theorem fr_proj (p : FrParams) (dt : ℝ) (freq : Nat → ℝ) (k : Nat) :
    (after (frUpdate p dt) frReset freq k).trip = (after (gstep (0, 0) (frCount p)
      (fun c => decide ((c.1 : ℝ) * dt ≥ p.tp ∨ (c.2 : ℝ) * dt ≥ p.tp))
      (fun b => decide ((b : ℝ) * dt > p.tb))) ⟨(0, 0), 0, false, false⟩ freq k).trip := by
  refine congrArg GState.trip (after_proj (s := frUpdate p dt)
    (f := fun s : FrState => (⟨(s.low, s.up), s.breaker, s.flag, s.trip⟩ : GState (Nat × Nat))) ?_ frReset k)
  intro a r
  cases hfl : a.flag
  · simp only [frUpdate, gstep, runStep, frCount, decide_eq_true_eq, hfl, if_true]
    split_ifs <;> rfl
  · simp only [frUpdate, gstep, runStep, frCount, decide_eq_true_eq, hfl, Bool.true_eq_false, if_false]
    split_ifs <;> rfl

theorem fr_count (p : FrParams) (freq : Nat → ℝ) (k : Nat) :
    after (frCount p) (0, 0) freq k
      = (after (runStep (fun f => f < p.fl)) 0 freq k, after (runStep (fun f => f > p.fu)) 0 freq k) := by
  induction k with
  | zero => rfl
  | succ k ih => simp only [after]; rw [ih]; rfl

/-- The pick-up condition in terms of readings. -/
theorem fr_pick (p : FrParams) (dt : ℝ) (hdt : 0 < dt) (htp : 0 < p.tp) (freq : Nat → ℝ) (q : Nat) :
    (((after (frCount p) (0, 0) freq (q + 1)).1 : ℝ) * dt ≥ p.tp ∨
      ((after (frCount p) (0, 0) freq (q + 1)).2 : ℝ) * dt ≥ p.tp) ↔
    ∃ s, s ≤ q ∧ (Throughout (fun j => freq j < p.fl) s q ∨ Throughout (fun j => freq j > p.fu) s q) ∧
      p.tp ≤ lasts dt s q := by
  rw [fr_count]
  have hz : ¬ ((0 : Nat) : ℝ) * dt ≥ p.tp := by simp; linarith
  have hm : ∀ a b : Nat, a ≤ b → (a : ℝ) * dt ≥ p.tp → (b : ℝ) * dt ≥ p.tp :=
    fun a b hab h => le_trans h (mul_mono hdt.le hab)
  have hl := run_pick_iff (reading := freq) (fun f => f < p.fl) (fun c : Nat => (c : ℝ) * dt ≥ p.tp) hz hm q
  have hu := run_pick_iff (reading := freq) (fun f => f > p.fu) (fun c : Nat => (c : ℝ) * dt ≥ p.tp) hz hm q
  dsimp only
  rw [hl, hu]
  constructor
  · rintro (⟨s, hs, ha, hb⟩ | ⟨s, hs, ha, hb⟩)
    · exact ⟨s, hs, Or.inl ha, hb⟩
    · exact ⟨s, hs, Or.inr ha, hb⟩
  · rintro ⟨s, hs, ha | ha, hb⟩
    · exact Or.inl ⟨s, hs, ha, hb⟩
    · exact Or.inr ⟨s, hs, ha, hb⟩

/-- **C99** A frequency relay with a positive pick-up time signals a trip within the first `N` steps exactly if the
frequency was below the lower limit at all steps from some `s` to some `q`, or above the upper limit at all of them,
for at least the pick-up time, and from then to a step `n` before `N` more than the breaker time passed.

Partial: the pick-up time must be positive (see `C99_no_pickup_time_violated`). -/
theorem C99_trips_partial (p : FrParams) (dt : ℝ) (hdt : 0 < dt) (htp : 0 < p.tp) (freq : Nat → ℝ) (N : Nat) :
    (∃ k, k ≤ N ∧ (after (frUpdate p dt) frReset freq k).trip = true) ↔
    ∃ s q n, s ≤ q ∧ q ≤ n ∧ n < N ∧
      (Throughout (fun j => freq j < p.fl) s q ∨ Throughout (fun j => freq j > p.fu) s q) ∧
      p.tp ≤ lasts dt s q ∧ p.tb < lasts dt q n := by
  classical
  simp only [fr_proj]
  rw [trips_iff]
  · constructor
    · rintro ⟨q, n, hqn, hn, hp, hb⟩
      obtain ⟨s, hs, hall, hl⟩ := (fr_pick p dt hdt htp freq q).1 (of_decide_eq_true hp)
      exact ⟨s, q, n, hs, hqn, hn, hall, hl, of_decide_eq_true hb⟩
    · rintro ⟨s, q, n, hs, hqn, hn, hall, h1, hb⟩
      exact ⟨q, n, hqn, hn, decide_eq_true ((fr_pick p dt hdt htp freq q).2 ⟨s, hs, hall, h1⟩), decide_eq_true hb⟩
  · intro a b hab h
    exact decide_eq_true (lt_of_lt_of_le (of_decide_eq_true h) (mul_mono hdt.le hab))

/-- **C99** Every trip signal is due to a frequency deviation that began after the preceding trip signals. -/
theorem C99_every_trip_partial (p : FrParams) (dt : ℝ) (hdt : 0 < dt) (htp : 0 < p.tp) (freq : Nat → ℝ) (n : Nat)
    (h0 : (after (frUpdate p dt) frReset freq n).trip = false)
    (h1 : (after (frUpdate p dt) frReset freq (n + 1)).trip = true) :
    ∃ s q, s ≤ q ∧ q ≤ n ∧ (Throughout (fun j => freq j < p.fl) s q ∨ Throughout (fun j => freq j > p.fu) s q) ∧
      p.tp ≤ lasts dt s q ∧ p.tb < lasts dt q n ∧
      ∀ i, i < n → (after (frUpdate p dt) frReset freq i).trip = false →
        (after (frUpdate p dt) frReset freq (i + 1)).trip = true → i < s := by
  classical
  simp only [fr_proj] at h0 h1 ⊢
  obtain ⟨m, q, hmq, hqn, hr, hp, hb⟩ := rise_due n h0 h1
  obtain ⟨s, hs, hall, hl⟩ := (fr_pick p dt hdt htp (fun j => freq (m + j)) (q - m)).1 (of_decide_eq_true hp)
  refine ⟨m + s, q, by omega, hqn, ?_, ?_, of_decide_eq_true hb, ?_⟩
  · refine hall.imp ?_ ?_ <;>
    · intro h j hj hjq
      have := h (j - m) (by omega) (by omega)
      dsimp only at this
      rwa [show m + (j - m) = j by omega] at this
  · show p.tp ≤ ((q - (m + s) + 1 : Nat) : ℝ) * dt
    rw [show q - (m + s) + 1 = q - m - s + 1 by omega]
    exact hl
  · intro i hi ha hb
    have := hr i hi ha hb
    omega

/-- The status of the step before is reported as well. -/
theorem C99_previous (p : FrParams) (dt : ℝ) (freq : Nat → ℝ) (k : Nat) :
    (after (frUpdate p dt) frReset freq (k + 1)).tripPrev = (after (frUpdate p dt) frReset freq k).trip := by
  simp only [after, frUpdate]
  split_ifs <;> rfl

/-- **C99, violated**: with pick-up time zero, which is also used when the time is missing from the input, the relay
trips the generator whatever the frequency is, as soon as the breaker time has passed. -/
theorem C99_no_pickup_time_violated (p : FrParams) (dt : ℝ) (hdt : 0 < dt) (htp : p.tp = 0) (freq : Nat → ℝ) (n : Nat)
    (hn : p.tb < lasts dt 0 n) :
    ∃ k, k ≤ n + 1 ∧ (after (frUpdate p dt) frReset freq k).trip = true := by
  classical
  simp only [fr_proj]
  rw [trips_iff]
  · refine ⟨0, n, by omega, by omega, decide_eq_true (Or.inl ?_), decide_eq_true hn⟩
    rw [htp]
    exact mul_nonneg (Nat.cast_nonneg _) hdt.le
  · intro a b hab h
    exact decide_eq_true (lt_of_lt_of_le (of_decide_eq_true h) (mul_mono hdt.le hab))

/-- 62 Hz throughout with an upper limit of 61.5 Hz. -/
example : ∃ k, k ≤ 20 ∧ (after (frUpdate ⟨58, 61.5, 0.1, 0.05⟩ 0.01) frReset (fun _ => 62) k).trip = true :=
  (C99_trips_partial ⟨58, 61.5, 0.1, 0.05⟩ 0.01 (by norm_num) (by norm_num) _ 20).2
    ⟨0, 9, 14, by norm_num, by norm_num, by norm_num, Or.inr fun j _ _ => by norm_num, by norm_num [lasts],
      by norm_num [lasts]⟩

/-! ### Distance relay -/

open Classical in
/-- The two zone counters. -/
noncomputable def diCount (p : DiParams) (c : Nat × Nat) (r : ℂ × ℂ) : Nat × Nat :=
  if within p.center2 p.reach2 r.1 r.2 then
    (if within p.center1 p.reach1 r.1 r.2 then c.1 + 1 else 0, c.2 + 1) else (c.1, 0)

open Classical in
theorem diCount_eq (p : DiParams) (c : Nat × Nat) (r : ℂ × ℂ) : diCount p c r =
    if InCircle p.center2 p.reach2 r then
      (if InCircle p.center1 p.reach1 r then c.1 + 1 else 0, c.2 + 1) else (c.1, 0) := by
  unfold diCount
  by_cases h2 : InCircle p.center2 p.reach2 r
  · rw [if_pos h2, if_pos ((within_iff _ _ _).2 h2)]
    by_cases h1 : InCircle p.center1 p.reach1 r
    · rw [if_pos h1, if_pos ((within_iff _ _ _).2 h1)]
    · rw [if_neg h1, if_neg (fun h => h1 ((within_iff _ _ _).1 h))]
  · rw [if_neg h2, if_neg (fun h => h2 ((within_iff _ _ _).1 h))]

open Classical in
theorem di_proj (p : DiParams) (dt : ℝ) (r : Nat → ℂ × ℂ) (k : Nat) :
    (after (diUpdate p dt) diReset r k).trip = (after (gstep (0, 0) (diCount p)
      (fun c => decide ((c.1 : ℝ) * dt > p.time1 / 60 ∨ (c.2 : ℝ) * dt > p.time2 / 60))
      (fun b => decide ((b : ℝ) * dt > p.sebtime / 60))) ⟨(0, 0), 0, false, false⟩ r k).trip := by
  refine congrArg GState.trip (after_proj (s := diUpdate p dt)
    (f := fun s : DiState => (⟨(s.zone1, s.zone2), s.breaker, s.flag, s.trip⟩ : GState (Nat × Nat))) ?_ diReset k)
  intro a x
  cases hfl : a.flag
  · simp only [diUpdate, gstep, diCount, decide_eq_true_eq, hfl, if_true]
    by_cases h2 : within p.center2 p.reach2 x.1 x.2
    · simp only [h2, if_true]
      split_ifs <;> rfl
    · simp only [h2, if_false]
      split_ifs <;> rfl
  · simp only [diUpdate, gstep, diCount, decide_eq_true_eq, hfl, Bool.true_eq_false, if_false]
    split_ifs <;> rfl

theorem di_count2 (p : DiParams) (r : Nat → ℂ × ℂ) (k : Nat) :
    (after (diCount p) (0, 0) r k).2 = after (runStep (InCircle p.center2 p.reach2)) 0 r k := by
  induction k with
  | zero => rfl
  | succ k ih =>
    simp only [after, diCount_eq, runStep]
    by_cases h : InCircle p.center2 p.reach2 (r k)
    · rw [if_pos h, if_pos h]; dsimp only; rw [ih]
    · rw [if_neg h, if_neg h]

/-- With zone 1 inside zone 2 the counter of zone 1 is never behind. -/
theorem di_count1_ge (p : DiParams) (r : Nat → ℂ × ℂ)
    (hin : ∀ j, InCircle p.center1 p.reach1 (r j) → InCircle p.center2 p.reach2 (r j)) (k : Nat) :
    after (runStep (InCircle p.center1 p.reach1)) 0 r k ≤ (after (diCount p) (0, 0) r k).1 := by
  induction k with
  | zero => exact le_refl _
  | succ k ih =>
    simp only [after, diCount_eq, runStep]
    by_cases h1 : InCircle p.center1 p.reach1 (r k)
    · rw [if_pos h1, if_pos (hin k h1), if_pos h1]
      dsimp only
      omega
    · rw [if_neg h1]
      omega

/-- If in addition the impedance never jumps from zone 1 out of zone 2, it is exact. -/
theorem di_count1_eq (p : DiParams) (r : Nat → ℂ × ℂ)
    (hin : ∀ j, InCircle p.center1 p.reach1 (r j) → InCircle p.center2 p.reach2 (r j))
    (hno : ∀ j, InCircle p.center1 p.reach1 (r j) → InCircle p.center2 p.reach2 (r (j + 1))) (k : Nat) :
    (after (diCount p) (0, 0) r k).1 = after (runStep (InCircle p.center1 p.reach1)) 0 r k := by
  induction k with
  | zero => rfl
  | succ k ih =>
    simp only [after, diCount_eq, runStep]
    by_cases h1 : InCircle p.center1 p.reach1 (r k)
    · rw [if_pos h1, if_pos (hin k h1), if_pos h1]
      dsimp only
      omega
    · simp only [if_neg h1]
      by_cases h2 : InCircle p.center2 p.reach2 (r k)
      · rw [if_pos h2]
      · rw [if_neg h2]
        dsimp only
        rw [ih]
        cases k with
        | zero => rfl
        | succ k =>
          simp only [after, runStep]
          rw [if_neg (fun h => h2 (hno k h))]

theorem di_run (low : ℂ × ℂ → Prop) (dt t : ℝ) (hdt : 0 < dt) (ht : 0 ≤ t) (r : Nat → ℂ × ℂ) (q : Nat) :
    ((after (runStep low) 0 r (q + 1) : Nat) : ℝ) * dt > t / 60 ↔
      ∃ s, s ≤ q ∧ Throughout (fun j => low (r j)) s q ∧ t / 60 < lasts dt s q := by
  exact run_pick_iff (reading := r) low (fun c : Nat => (c : ℝ) * dt > t / 60) (by simp; positivity)
    (fun a b hab h => lt_of_lt_of_le h (mul_mono hdt.le hab)) q

theorem di_brk_mono (p : DiParams) (dt : ℝ) (hdt : 0 < dt) : ∀ a b : Nat, a ≤ b →
    @decide ((a : ℝ) * dt > p.sebtime / 60) (Classical.propDecidable _) = true →
    @decide ((b : ℝ) * dt > p.sebtime / 60) (Classical.propDecidable _) = true := by
  classical
  intro a b hab h
  exact decide_eq_true (lt_of_lt_of_le (of_decide_eq_true h) (mul_mono hdt.le hab))

/-- **C100** A distance relay never misses a trip: if the impedance stays in zone 1, or in zone 2, for more than the
time of that zone (in cycles), and more than the breaker time passes from then on, a trip is signalled by then.
Zone 1 is assumed to lie inside zone 2. -/
theorem C100_no_missed_trip (p : DiParams) (dt : ℝ) (hdt : 0 < dt) (ht1 : 0 ≤ p.time1) (ht2 : 0 ≤ p.time2)
    (r : Nat → ℂ × ℂ) (hin : ∀ j, InCircle p.center1 p.reach1 (r j) → InCircle p.center2 p.reach2 (r j)) (s q n : Nat)
    (hs : s ≤ q) (hq : q ≤ n)
    (hz : (Throughout (fun j => InCircle p.center1 p.reach1 (r j)) s q ∧ p.time1 / 60 < lasts dt s q) ∨
      (Throughout (fun j => InCircle p.center2 p.reach2 (r j)) s q ∧ p.time2 / 60 < lasts dt s q))
    (hb : p.sebtime / 60 < lasts dt q n) :
    ∃ k, k ≤ n + 1 ∧ (after (diUpdate p dt) diReset r k).trip = true := by
  classical
  simp only [di_proj]
  rw [trips_iff (di_brk_mono p dt hdt)]
  refine ⟨q, n, hq, by omega, decide_eq_true ?_, decide_eq_true hb⟩
  rcases hz with ⟨ha, hl⟩ | ⟨ha, hl⟩
  · left
    have := (di_run (InCircle p.center1 p.reach1) dt p.time1 hdt ht1 r q).2 ⟨s, hs, ha, hl⟩
    exact lt_of_lt_of_le this (mul_mono hdt.le (di_count1_ge p r hin (q + 1)))
  · right
    rw [show (free (0, 0) (diCount p) r (q + 1)).2 = _ from di_count2 p r (q + 1)]
    exact (di_run (InCircle p.center2 p.reach2) dt p.time2 hdt ht2 r q).2 ⟨s, hs, ha, hl⟩

/-- **C100** ... and a trip is signalled only then.

Partial: the impedance must not jump from zone 1 out of zone 2 within one step (see
`C100_intermittent_violated`). -/
theorem C100_trips_partial (p : DiParams) (dt : ℝ) (hdt : 0 < dt) (ht1 : 0 ≤ p.time1) (ht2 : 0 ≤ p.time2)
    (r : Nat → ℂ × ℂ) (hin : ∀ j, InCircle p.center1 p.reach1 (r j) → InCircle p.center2 p.reach2 (r j))
    (hno : ∀ j, InCircle p.center1 p.reach1 (r j) → InCircle p.center2 p.reach2 (r (j + 1))) (N : Nat) :
    (∃ k, k ≤ N ∧ (after (diUpdate p dt) diReset r k).trip = true) ↔
    ∃ s q n, s ≤ q ∧ q ≤ n ∧ n < N ∧
      ((Throughout (fun j => InCircle p.center1 p.reach1 (r j)) s q ∧ p.time1 / 60 < lasts dt s q) ∨
       (Throughout (fun j => InCircle p.center2 p.reach2 (r j)) s q ∧ p.time2 / 60 < lasts dt s q)) ∧
      p.sebtime / 60 < lasts dt q n := by
  constructor
  · classical
    simp only [di_proj]
    rw [trips_iff (di_brk_mono p dt hdt)]
    rintro ⟨q, n, hqn, hn, hp, hb⟩
    rcases of_decide_eq_true hp with h | h
    · rw [show (free (0, 0) (diCount p) r (q + 1)).1 = _ from di_count1_eq p r hin hno (q + 1)] at h
      obtain ⟨s, hs, ha, hl⟩ := (di_run _ dt p.time1 hdt ht1 r q).1 h
      exact ⟨s, q, n, hs, hqn, hn, Or.inl ⟨ha, hl⟩, of_decide_eq_true hb⟩
    · rw [show (free (0, 0) (diCount p) r (q + 1)).2 = _ from di_count2 p r (q + 1)] at h
      obtain ⟨s, hs, ha, hl⟩ := (di_run _ dt p.time2 hdt ht2 r q).1 h
      exact ⟨s, q, n, hs, hqn, hn, Or.inr ⟨ha, hl⟩, of_decide_eq_true hb⟩
  · rintro ⟨s, q, n, hs, hqn, hn, hz, hb⟩
    obtain ⟨k, hk, ht⟩ := C100_no_missed_trip p dt hdt ht1 ht2 r hin s q n hs hqn hz hb
    exact ⟨k, by omega, ht⟩

/-- **C100** Every trip signal is due to an impedance in a zone since the preceding trip signals.  Partial as
above. -/
theorem C100_every_trip_partial (p : DiParams) (dt : ℝ) (hdt : 0 < dt) (ht1 : 0 ≤ p.time1) (ht2 : 0 ≤ p.time2)
    (r : Nat → ℂ × ℂ) (hin : ∀ j, InCircle p.center1 p.reach1 (r j) → InCircle p.center2 p.reach2 (r j))
    (hno : ∀ j, InCircle p.center1 p.reach1 (r j) → InCircle p.center2 p.reach2 (r (j + 1))) (n : Nat)
    (h0 : (after (diUpdate p dt) diReset r n).trip = false)
    (h1 : (after (diUpdate p dt) diReset r (n + 1)).trip = true) :
    ∃ s q, s ≤ q ∧ q ≤ n ∧
      ((Throughout (fun j => InCircle p.center1 p.reach1 (r j)) s q ∧ p.time1 / 60 < lasts dt s q) ∨
       (Throughout (fun j => InCircle p.center2 p.reach2 (r j)) s q ∧ p.time2 / 60 < lasts dt s q)) ∧
      p.sebtime / 60 < lasts dt q n ∧
      ∀ i, i < n → (after (diUpdate p dt) diReset r i).trip = false →
        (after (diUpdate p dt) diReset r (i + 1)).trip = true → i < s := by
  classical
  simp only [di_proj] at h0 h1 ⊢
  obtain ⟨m, q, hmq, hqn, hr, hp, hb⟩ := rise_due n h0 h1
  have key : ∃ s, s ≤ q - m ∧
      ((Throughout (fun j => InCircle p.center1 p.reach1 (r (m + j))) s (q - m) ∧ p.time1 / 60 < lasts dt s (q - m)) ∨
       (Throughout (fun j => InCircle p.center2 p.reach2 (r (m + j))) s (q - m) ∧
        p.time2 / 60 < lasts dt s (q - m))) := by
    rcases of_decide_eq_true hp with h | h
    · rw [show (free (0, 0) (diCount p) (fun j => r (m + j)) (q - m + 1)).1 = _ from
        di_count1_eq p (fun j => r (m + j)) (fun j => hin _) (fun j => hno _) (q - m + 1)] at h
      obtain ⟨s, hs, ha, hl⟩ := (di_run _ dt p.time1 hdt ht1 _ _).1 h
      exact ⟨s, hs, Or.inl ⟨ha, hl⟩⟩
    · rw [show (free (0, 0) (diCount p) (fun j => r (m + j)) (q - m + 1)).2 = _ from
        di_count2 p (fun j => r (m + j)) (q - m + 1)] at h
      obtain ⟨s, hs, ha, hl⟩ := (di_run _ dt p.time2 hdt ht2 _ _).1 h
      exact ⟨s, hs, Or.inr ⟨ha, hl⟩⟩
  obtain ⟨s, hs, hz⟩ := key
  have hlen : lasts dt s (q - m) = lasts dt (m + s) q := by
    simp only [lasts]; rw [show q - m - s + 1 = q - (m + s) + 1 by omega]
  refine ⟨m + s, q, by omega, hqn, ?_, of_decide_eq_true hb, ?_⟩
  · rw [hlen] at hz
    refine hz.imp ?_ ?_ <;>
    · rintro ⟨h, hl⟩
      refine ⟨fun j hj hjq => ?_, hl⟩
      have := h (j - m) (by omega) (by omega)
      dsimp only at this
      rwa [show m + (j - m) = j by omega] at this
  · intro i hi ha hb
    have := hr i hi ha hb
    omega

/-- The status of the step before is reported as well. -/
theorem C100_previous (p : DiParams) (dt : ℝ) (r : Nat → ℂ × ℂ) (k : Nat) :
    (after (diUpdate p dt) diReset r (k + 1)).tripPrev = (after (diUpdate p dt) diReset r k).trip := by
  simp only [after, diUpdate]
  split_ifs <;> rfl

/-- **C100, violated**: an impedance that is in zone 1 at every second step only, and outside both zones in between,
trips the relay whatever the zone times are, although it never stays in a zone longer than one step. -/
theorem C100_intermittent_violated (p : DiParams) (dt : ℝ) (hdt : 0 < dt) (r : Nat → ℂ × ℂ)
    (hev : ∀ j, InCircle p.center1 p.reach1 (r (2 * j)) ∧ InCircle p.center2 p.reach2 (r (2 * j)))
    (hodd : ∀ j, ¬ InCircle p.center1 p.reach1 (r (2 * j + 1)) ∧ ¬ InCircle p.center2 p.reach2 (r (2 * j + 1))) :
    (∃ k, (after (diUpdate p dt) diReset r k).trip = true) ∧
    ∀ s q, s ≤ q → (Throughout (fun j => InCircle p.center1 p.reach1 (r j)) s q ∨
      Throughout (fun j => InCircle p.center2 p.reach2 (r j)) s q) → s = q := by
  constructor
  · have hcount : ∀ k, (after (diCount p) (0, 0) r (2 * k)).1 = k ∧ (after (diCount p) (0, 0) r (2 * k + 1)).1 = k + 1 := by
      intro k
      induction k with
      | zero =>
        refine ⟨rfl, ?_⟩
        have := hev 0
        simp only [Nat.mul_zero] at this
        simp [after, diCount_eq, this.1, this.2]
      | succ k ih =>
        have h1 : (after (diCount p) (0, 0) r (2 * (k + 1))).1 = k + 1 := by
          rw [show 2 * (k + 1) = 2 * k + 1 + 1 by omega]
          show (diCount p (after (diCount p) (0, 0) r (2 * k + 1)) (r (2 * k + 1))).1 = k + 1
          simp only [diCount_eq]
          rw [if_neg (hodd k).2]
          exact ih.2
        refine ⟨h1, ?_⟩
        show (diCount p (after (diCount p) (0, 0) r (2 * (k + 1))) (r (2 * (k + 1)))).1 = k + 1 + 1
        simp only [diCount_eq]
        rw [if_pos (hev (k + 1)).2, if_pos (hev (k + 1)).1]
        dsimp only
        rw [h1]
    obtain ⟨a, ha⟩ := Archimedean.arch (p.time1 / 60) hdt
    obtain ⟨b, hb⟩ := Archimedean.arch (p.sebtime / 60) hdt
    rw [nsmul_eq_mul] at ha hb
    classical
    have : ∃ k, k ≤ 2 * a + b + 1 ∧ (after (diUpdate p dt) diReset r k).trip = true := by
      simp only [di_proj]
      rw [trips_iff (di_brk_mono p dt hdt)]
      refine ⟨2 * a, 2 * a + b, by omega, by omega, decide_eq_true (Or.inl ?_), decide_eq_true ?_⟩
      · rw [show (free (0, 0) (diCount p) r (2 * a + 1)).1 = a + 1 from (hcount a).2]
        push_cast
        nlinarith
      · rw [Nat.add_sub_cancel_left]
        push_cast
        nlinarith
    exact this.imp fun _ h => h.2
  · intro s q hs h
    by_contra hne
    have : ∀ P : ℂ × ℂ → Prop, (∀ j, ¬ P (r (2 * j + 1))) → ¬ Throughout (fun j => P (r j)) s q := by
      intro P hP ht
      rcases Nat.even_or_odd' s with ⟨c, hc | hc⟩
      · exact hP c (ht (2 * c + 1) (by omega) (by omega))
      · exact hP c (ht (2 * c + 1) (by omega) (by omega))
    rcases h with h | h
    · exact this _ (fun j => (hodd j).1) h
    · exact this _ (fun j => (hodd j).2) h

/-- A relay with zone 1 inside zone 2; impedance 0 at all steps. -/
example : ∃ k, k ≤ 20 ∧ (after (diUpdate ⟨0, 2, 3, 0, 4, 30, 3⟩ 0.01) diReset (fun _ => (0, 1)) k).trip = true :=
  (C100_trips_partial ⟨0, 2, 3, 0, 4, 30, 3⟩ 0.01 (by norm_num) (by norm_num) (by norm_num) _
    (fun j _ => ⟨by simp, 0, by simp, by simp⟩) (fun j _ => ⟨by simp, 0, by simp, by simp⟩) 20).2
    ⟨0, 9, 16, by norm_num, by norm_num, by norm_num,
      Or.inl ⟨fun j _ _ => ⟨by simp, 0, by simp, by simp⟩, by norm_num [lasts]⟩, by norm_num [lasts]⟩

/-- An intermittent impedance: no current at odd steps. -/
example : ∃ k, (after (diUpdate ⟨0, 2, 3, 0, 4, 30, 3⟩ 0.01) diReset (fun j => (0, if j % 2 = 0 then 1 else 0)) k).trip
    = true :=
  (C100_intermittent_violated ⟨0, 2, 3, 0, 4, 30, 3⟩ 0.01 (by norm_num) _
    (fun j => by simp [InCircle])
    (fun j => by simp [InCircle])).1

end GridPACK.Relay
