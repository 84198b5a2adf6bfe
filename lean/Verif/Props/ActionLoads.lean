import Verif.Spec.Actions
import Mathlib.Tactic.FieldSimp
import Mathlib.Algebra.Order.BigOperators.Group.List

/-! Properties C225 (load changes in MW and MVar), C226 (shedding of static loads), C227 (loads given as injections),
C228 (loads given as impedances), C229 (shedding of dynamic loads), C230 (time axis). -/
namespace GridPACK.Actions

open Complex YMatrix

/-! ### C225 -/

/-- The change of active power of a command on bus `i`, as it enters the matrix. -/
noncomputable def partP (s : Loads) (i : Nat) (c : Change) : ℂ :=
  if c.1 = i ∧ c.2.1 = true then ⟨c.2.2 / 100 / ((s.bus i).v * (s.bus i).v), 0⟩ else 0

noncomputable def partQ (s : Loads) (i : Nat) (c : Change) : ℂ :=
  if c.1 = i ∧ c.2.1 = false then ⟨0, -(c.2.2 / 100) / ((s.bus i).v * (s.bus i).v)⟩ else 0

theorem command_bus_ne (s : Loads) (c : Change) (i : Nat) (h : c.1 ≠ i) : (s.command c).bus i = s.bus i := by
  unfold Loads.command
  cases c.2.1 <;> simp [Loads.changeP, Loads.changeQ, Function.update_of_ne (fun e => h e.symm)]

theorem command_facts (s : Loads) (c : Change) (i : Nat) :
    ((s.command c).bus i).v = (s.bus i).v ∧ (s.command c).y = s.y ∧
    (s.command c).bP = (s.bP || c.2.1) ∧ (s.command c).bQ = (s.bQ || !c.2.1) ∧
    (c.2.1 = true → ((s.command c).bus i).chQ = (s.bus i).chQ ∧ ((s.command c).bus i).incQ = (s.bus i).incQ) ∧
    (c.2.1 = false → ((s.command c).bus i).chP = (s.bus i).chP ∧ ((s.command c).bus i).incP = (s.bus i).incP) ∧
    (c.2.1 = true → c.1 = i → ((s.command c).bus i).incP = partP s i c) ∧
    (c.2.1 = false → c.1 = i → ((s.command c).bus i).incQ = partQ s i c) := by
  unfold Loads.command
  cases hc : c.2.1
  · refine ⟨?_, rfl, ?_, ?_, by simp, ?_, by simp, ?_⟩
    · by_cases hi : i = c.1
      · subst hi; simp [Loads.changeQ, LoadBus.changeQ]
      · simp [Loads.changeQ, Function.update_of_ne hi]
    · simp [Loads.changeQ]
    · simp [Loads.changeQ]
    · intro _
      by_cases hi : i = c.1
      · subst hi; simp [Loads.changeQ, LoadBus.changeQ, LoadBus.incP]
      · simp [Loads.changeQ, Function.update_of_ne hi]
    · intro _ hi
      subst hi
      simp [Loads.changeQ, LoadBus.changeQ, LoadBus.incQ, partQ, hc]
  · refine ⟨?_, rfl, ?_, ?_, ?_, by simp, ?_, by simp⟩
    · by_cases hi : i = c.1
      · subst hi; simp [Loads.changeP, LoadBus.changeP]
      · simp [Loads.changeP, Function.update_of_ne hi]
    · simp [Loads.changeP]
    · simp [Loads.changeP]
    · intro _
      by_cases hi : i = c.1
      · subst hi; simp [Loads.changeP, LoadBus.changeP, LoadBus.incQ]
      · simp [Loads.changeP, Function.update_of_ne hi]
    · intro _ hi
      subst hi
      simp [Loads.changeP, LoadBus.changeP, LoadBus.incP, partP, hc]

theorem part_congr (s s' : Loads) (i : Nat) (h : (s'.bus i).v = (s.bus i).v) (c : Change) :
    partP s' i c = partP s i c ∧ partQ s' i c = partQ s i c := by
  unfold partP partQ
  rw [h]
  exact ⟨rfl, rfl⟩

theorem fold_changes (i : Nat) (cs : List Change) : ∀ s : Loads, (cs.map (fun c => (c.1, c.2.1))).Nodup →
    ((cs.foldl Loads.command s).bus i).v = (s.bus i).v ∧ (cs.foldl Loads.command s).y = s.y ∧
    ((∀ c ∈ cs, c.1 = i → c.2.1 = true → (s.bus i).chP = false) →
      ((cs.foldl Loads.command s).bus i).incP = (s.bus i).incP + (cs.map (partP s i)).sum) ∧
    ((∀ c ∈ cs, c.1 = i → c.2.1 = false → (s.bus i).chQ = false) →
      ((cs.foldl Loads.command s).bus i).incQ = (s.bus i).incQ + (cs.map (partQ s i)).sum) ∧
    (cs.foldl Loads.command s).bP = (s.bP || cs.any (fun c => c.2.1)) ∧
    (cs.foldl Loads.command s).bQ = (s.bQ || cs.any (fun c => !c.2.1)) := by
  induction cs with
  | nil => intro s _; simp
  | cons c cs ih =>
    intro s hn
    rw [List.map_cons, List.nodup_cons] at hn
    obtain ⟨hc, hn⟩ := hn
    obtain ⟨f1, f2, f3, f4, f5, f6, f7, f8⟩ := command_facts s c i
    obtain ⟨g1, g2, g3, g4, g5, g6⟩ := ih (s.command c) hn
    rw [List.foldl_cons]
    have hfresh : ∀ d ∈ cs, ¬ (d.1 = c.1 ∧ d.2.1 = c.2.1) := by
      intro d hd e
      exact hc (List.mem_map.2 ⟨d, hd, Prod.ext e.1 e.2⟩)
    have hpP : cs.map (partP (s.command c) i) = cs.map (partP s i) :=
      List.map_congr_left (fun d _ => (part_congr s _ i f1 d).1)
    have hpQ : cs.map (partQ (s.command c) i) = cs.map (partQ s i) :=
      List.map_congr_left (fun d _ => (part_congr s _ i f1 d).2)
    refine ⟨g1.trans f1, g2.trans f2, fun h => ?_, fun h => ?_, ?_, ?_⟩
    · rw [List.map_cons, List.sum_cons]
      have hs : ∀ d ∈ cs, d.1 = i → d.2.1 = true → (s.bus i).chP = false :=
        fun d hd => h d (List.mem_cons_of_mem _ hd)
      cases hk : c.2.1
      · rw [g3 (fun d hd h1 h2 => by rw [(f6 hk).1]; exact hs d hd h1 h2), (f6 hk).2, hpP]
        unfold partP
        simp [hk]
      · by_cases hi : c.1 = i
        · have hno : ∀ d ∈ cs, d.1 = i → d.2.1 = true → ((s.command c).bus i).chP = false := by
            intro d hd h1 h2
            exact absurd ⟨h1.trans hi.symm, h2.trans hk.symm⟩ (hfresh d hd)
          have h0 : (s.bus i).incP = 0 := by
            unfold LoadBus.incP
            rw [h c (by simp) hi hk]
            simp
          rw [g3 hno, f7 hk hi, hpP, h0, zero_add]
        · rw [g3 (fun d hd h1 h2 => by rw [command_bus_ne s c i hi]; exact hs d hd h1 h2), command_bus_ne s c i hi, hpP]
          unfold partP
          simp [hi]
    · rw [List.map_cons, List.sum_cons]
      have hs : ∀ d ∈ cs, d.1 = i → d.2.1 = false → (s.bus i).chQ = false :=
        fun d hd => h d (List.mem_cons_of_mem _ hd)
      cases hk : c.2.1
      · by_cases hi : c.1 = i
        · have hno : ∀ d ∈ cs, d.1 = i → d.2.1 = false → ((s.command c).bus i).chQ = false := by
            intro d hd h1 h2
            exact absurd ⟨h1.trans hi.symm, h2.trans hk.symm⟩ (hfresh d hd)
          have h0 : (s.bus i).incQ = 0 := by
            unfold LoadBus.incQ
            rw [h c (by simp) hi hk]
            simp
          rw [g4 hno, f8 hk hi, hpQ, h0, zero_add]
        · rw [g4 (fun d hd h1 h2 => by rw [command_bus_ne s c i hi]; exact hs d hd h1 h2), command_bus_ne s c i hi, hpQ]
          unfold partQ
          simp [hi]
      · rw [g4 (fun d hd h1 h2 => by rw [(f5 hk).1]; exact hs d hd h1 h2), (f5 hk).2, hpQ]
        unfold partQ
        simp [hk]
    · rw [g5, f3]; simp [Bool.or_assoc]
    · rw [g6, f4]; simp [Bool.or_assoc]

theorem clearP_fold_incQ (is : List Nat) : ∀ (f : Nat → LoadBus) (i : Nat),
    ((is.foldl (fun f i => Function.update f i (f i).clearP) f) i).incQ = (f i).incQ := by
  induction is with
  | nil => intro f i; rfl
  | cons a is ih =>
    intro f i
    rw [List.foldl_cons, ih]
    by_cases h : i = a
    · subst h; simp [LoadBus.clearP, LoadBus.incQ]
    · rw [Function.update_of_ne h]

/-- What a step adds to the diagonal, in terms of the pending changes. -/
theorem step_y (s : Loads) (i : Nat) :
    s.step.y i = s.y i + ((if s.bP then (s.bus i).incP else 0) + (if s.bQ then (s.bus i).incQ else 0)) := by
  unfold Loads.step Loads.stepP Loads.stepQ
  cases hP : s.bP <;> cases hQ : s.bQ <;> simp [hQ, Loads.clearP, Loads.clearQ, clearP_fold_incQ, add_assoc]

/-- The changes wait in the lists of the buses to be cleared. -/
def Loads.Listed (s : Loads) : Prop :=
  ∀ i, ((s.bus i).chP = true → s.bP = true ∧ i ∈ s.needP) ∧ ((s.bus i).chQ = true → s.bQ = true ∧ i ∈ s.needQ)

theorem command_listed (s : Loads) (h : s.Listed) (c : Change) : (s.command c).Listed := by
  intro i
  obtain ⟨h1, h2⟩ := h i
  unfold Loads.command
  cases hc : c.2.1
  · by_cases hi : i = c.1
    · subst hi
      simp only [Bool.false_eq_true, if_false, Loads.changeQ, Function.update_self, LoadBus.changeQ]
      exact ⟨h1, fun _ => ⟨trivial, by simp⟩⟩
    · simp only [Bool.false_eq_true, if_false, Loads.changeQ, Function.update_of_ne hi]
      exact ⟨h1, fun h => ⟨trivial, by simp [(h2 h).2]⟩⟩
  · by_cases hi : i = c.1
    · subst hi
      simp only [if_true, Loads.changeP, Function.update_self, LoadBus.changeP]
      exact ⟨fun _ => ⟨trivial, by simp⟩, h2⟩
    · simp only [if_true, Loads.changeP, Function.update_of_ne hi]
      exact ⟨fun h => ⟨trivial, by simp [(h1 h).2]⟩, h2⟩

theorem fold_listed (cs : List Change) : ∀ s : Loads, s.Listed → (cs.foldl Loads.command s).Listed := by
  induction cs with
  | nil => intro s h; exact h
  | cons c cs ih => intro s h; exact ih _ (command_listed s h c)

theorem clearP_fold_flags (is : List Nat) : ∀ (f : Nat → LoadBus) (i : Nat),
    ((is.foldl (fun f i => Function.update f i (f i).clearP) f) i).chQ = (f i).chQ ∧
    (((is.foldl (fun f i => Function.update f i (f i).clearP) f) i).chP = true → (f i).chP = true ∧ i ∉ is) := by
  induction is with
  | nil => intro f i; simp
  | cons a is ih =>
    intro f i
    rw [List.foldl_cons]
    obtain ⟨h1, h2⟩ := ih (Function.update f a (f a).clearP) i
    by_cases h : i = a
    · subst h
      refine ⟨by rw [h1]; simp [LoadBus.clearP], fun e => ?_⟩
      have := (h2 e).1
      simp [LoadBus.clearP] at this
    · rw [Function.update_of_ne h] at h1 h2
      refine ⟨h1, fun e => ⟨(h2 e).1, ?_⟩⟩
      simp [h, (h2 e).2]

theorem clearQ_fold_flags (is : List Nat) : ∀ (f : Nat → LoadBus) (i : Nat),
    ((is.foldl (fun f i => Function.update f i (f i).clearQ) f) i).chP = (f i).chP ∧
    (((is.foldl (fun f i => Function.update f i (f i).clearQ) f) i).chQ = true → (f i).chQ = true ∧ i ∉ is) := by
  induction is with
  | nil => intro f i; simp
  | cons a is ih =>
    intro f i
    rw [List.foldl_cons]
    obtain ⟨h1, h2⟩ := ih (Function.update f a (f a).clearQ) i
    by_cases h : i = a
    · subst h
      refine ⟨by rw [h1]; simp [LoadBus.clearQ], fun e => ?_⟩
      have := (h2 e).1
      simp [LoadBus.clearQ] at this
    · rw [Function.update_of_ne h] at h1 h2
      refine ⟨h1, fun e => ⟨(h2 e).1, ?_⟩⟩
      simp [h, (h2 e).2]

theorem step_clean (s : Loads) (h : s.Listed) (i : Nat) :
    (s.step.bus i).chP = false ∧ (s.step.bus i).chQ = false ∧ s.step.bP = false ∧ s.step.bQ = false := by
  obtain ⟨h1, h2⟩ := h i
  have hP : s.stepP.bP = false ∧ s.stepP.bQ = s.bQ ∧ s.stepP.needQ = s.needQ ∧ (s.stepP.bus i).chP = false ∧
      (s.stepP.bus i).chQ = (s.bus i).chQ := by
    unfold Loads.stepP
    cases hb : s.bP
    · refine ⟨by simpa using hb, rfl, rfl, ?_, rfl⟩
      simp only [Bool.false_eq_true, if_false]
      cases hc : (s.bus i).chP
      · rfl
      · have := (h1 hc).1
        rw [hb] at this
        cases this
    · simp only [if_true, Loads.clearP]
      obtain ⟨k1, k2⟩ := clearP_fold_flags s.needP s.bus i
      refine ⟨trivial, trivial, trivial, ?_, k1⟩
      cases hc : ((s.needP.foldl (fun f i => Function.update f i (f i).clearP) s.bus) i).chP
      · rfl
      · obtain ⟨x, y⟩ := k2 hc
        exact absurd (h1 x).2 y
  obtain ⟨p1, p2, p3, p4, p5⟩ := hP
  unfold Loads.step Loads.stepQ
  cases hb : s.stepP.bQ
  · simp only [Bool.false_eq_true, if_false]
    refine ⟨p4, ?_, p1, hb⟩
    rw [p5]
    cases hc : (s.bus i).chQ
    · rfl
    · have := (h2 hc).1
      rw [← p2, hb] at this
      cases this
  · simp only [if_true, Loads.clearQ]
    obtain ⟨k1, k2⟩ := clearQ_fold_flags s.stepP.needQ s.stepP.bus i
    refine ⟨k1.trans p4, ?_, p1, trivial⟩
    cases hc : ((s.stepP.needQ.foldl (fun f i => Function.update f i (f i).clearQ) s.stepP.bus) i).chQ
    · rfl
    · obtain ⟨x, y⟩ := k2 hc
      rw [p5] at x
      rw [p3] at y
      exact absurd (h2 x).2 y

theorem part_changeY (s : Loads) (i : Nat) (c : Change) :
    partP s i c + partQ s i c = if c.1 = i then changeY 100 (s.bus i).v c else 0 := by
  unfold partP partQ changeY
  by_cases hi : c.1 = i
  · cases hk : c.2.1
    · simp only [hi, true_and, Bool.false_eq_true, if_false, if_true, zero_add]
      apply Complex.ext
      · simp [← Complex.ofReal_pow, ← Complex.ofReal_mul, Complex.div_re, Complex.normSq_apply, pow_two]
      · rw [pow_two]
        rw [show (((100 : ℝ) : ℂ) * (((s.bus i).v : ℂ) * ((s.bus i).v : ℂ))) = ((100 * ((s.bus i).v * (s.bus i).v) : ℝ) : ℂ) by
          push_cast; ring]
        rw [Complex.div_ofReal_im]
        simp
        rw [neg_div, neg_div, div_div]
    · simp only [hi, true_and, if_true]
      have e : ((100 : ℝ) : ℂ) * ((s.bus i).v : ℂ) ^ 2 = ((100 * ((s.bus i).v * (s.bus i).v) : ℝ) : ℂ) := by
        push_cast; ring
      rw [e]
      apply Complex.ext
      · rw [Complex.div_ofReal_re]
        simp [div_div]
      · rw [Complex.div_ofReal_im]
        simp
  · simp [hi]

/-- **C225** (partial).  For any list of changes of static loads between two steps, at most one of active and one of reactive
power for each bus: after the step every diagonal entry has changed by the admittances of the changes given for that bus, on a
base of 100 MVA, and nothing is waiting any more. -/
theorem C225_changes_partial (s : Loads) (hs : s.Idle) (cs : List Change)
    (hd : (cs.map (fun c => (c.1, c.2.1))).Nodup) (i : Nat) :
    (cs.foldl Loads.command s).step.y i =
      s.y i + ((cs.filter (fun c => c.1 = i)).map (changeY 100 (s.bus i).v)).sum ∧
    ((cs.foldl Loads.command s).step.bus i).chP = false ∧ ((cs.foldl Loads.command s).step.bus i).chQ = false ∧
    (cs.foldl Loads.command s).step.bP = false ∧ (cs.foldl Loads.command s).step.bQ = false := by
  obtain ⟨hb, hP, hQ, _, _⟩ := hs
  have hlist : s.Listed := fun i => by simp [hb i]
  refine ⟨?_, step_clean _ (fold_listed cs s hlist) i⟩
  obtain ⟨g1, g2, g3, g4, g5, g6⟩ := fold_changes i cs s hd
  have e3 := g3 (fun _ _ _ _ => (hb i).1)
  have e4 := g4 (fun _ _ _ _ => (hb i).2)
  have z1 : (s.bus i).incP = 0 := by unfold LoadBus.incP; rw [(hb i).1]; simp
  have z2 : (s.bus i).incQ = 0 := by unfold LoadBus.incQ; rw [(hb i).2]; simp
  rw [z1, zero_add] at e3
  rw [z2, zero_add] at e4
  rw [step_y, g2, e3, e4, g5, g6, hP, hQ, Bool.false_or, Bool.false_or]
  have aP : (if cs.any (fun c => c.2.1) = true then (cs.map (partP s i)).sum else 0) = (cs.map (partP s i)).sum := by
    by_cases h : cs.any (fun c => c.2.1) = true
    · rw [if_pos h]
    · rw [if_neg h]
      rw [List.any_eq_true, not_exists] at h
      rw [List.map_congr_left (g := fun _ => (0 : ℂ))]
      · simp
      · intro c hc
        unfold partP
        rw [if_neg]
        rintro ⟨_, e⟩
        exact h c ⟨hc, e⟩
  have aQ : (if cs.any (fun c => !c.2.1) = true then (cs.map (partQ s i)).sum else 0) = (cs.map (partQ s i)).sum := by
    by_cases h : cs.any (fun c => !c.2.1) = true
    · rw [if_pos h]
    · rw [if_neg h]
      rw [List.any_eq_true, not_exists] at h
      rw [List.map_congr_left (g := fun _ => (0 : ℂ))]
      · simp
      · intro c hc
        unfold partQ
        rw [if_neg]
        rintro ⟨_, e⟩
        exact h c ⟨hc, by simp [e]⟩
  rw [aP, aQ]
  congr 1
  clear hd g1 g2 g3 g4 g5 g6 e3 e4 aP aQ
  induction cs with
  | nil => simp
  | cons c cs ih =>
    have := part_changeY s i c
    by_cases hi : c.1 = i
    · rw [if_pos hi] at this
      simp only [List.map_cons, List.sum_cons, List.filter_cons, hi, decide_true, if_true]
      rw [← this, ← ih]; ring
    · rw [if_neg hi] at this
      simp only [List.map_cons, List.sum_cons, List.filter_cons, hi, decide_false, Bool.false_eq_true, if_false]
      rw [← ih]
      linear_combination this

/-- C225 fails on another system base: the change is divided by 100 whatever the base of the case is. -/
theorem C225_base_violated (s : Loads) (hs : s.Idle) (i : Nat) (mw sbase : ℝ) (hm : mw ≠ 0) (hv : (s.bus i).v ≠ 0)
    (hb : sbase ≠ 0) (hb' : sbase ≠ 100) :
    ([(i, true, mw)].foldl Loads.command s).step.y i ≠ s.y i + changeY sbase (s.bus i).v (i, true, mw) := by
  rw [(C225_changes_partial s hs [(i, true, mw)] (by simp) i).1]
  simp only [List.filter_cons, decide_true, if_true, List.filter_nil, List.map_cons, List.map_nil, List.sum_cons,
    List.sum_nil, add_zero]
  intro h
  have h := add_left_cancel h
  unfold changeY at h
  simp only [if_true] at h
  have hm' : (mw : ℂ) ≠ 0 := by exact_mod_cast hm
  have hv' : (((s.bus i).v : ℂ)) ^ 2 ≠ 0 := pow_ne_zero 2 (by exact_mod_cast hv)
  have hb1 : (sbase : ℂ) ≠ 0 := by exact_mod_cast hb
  rw [div_eq_div_iff (mul_ne_zero (by norm_num) hv') (mul_ne_zero hb1 hv')] at h
  have h2 := mul_left_cancel₀ hm' h
  have h3 := mul_right_cancel₀ hv' h2
  apply hb'
  exact_mod_cast h3

/-- C225 fails for two changes of the active power of one bus before a step: the second replaces the first. -/
theorem C225_twice_violated (s : Loads) (hs : s.Idle) (i : Nat) (x₁ x₂ : ℝ) (h₁ : x₁ ≠ 0) (hv : (s.bus i).v ≠ 0) :
    ([(i, true, x₁), (i, true, x₂)].foldl Loads.command s).step.y i ≠
      s.y i + (changeY 100 (s.bus i).v (i, true, x₁) + changeY 100 (s.bus i).v (i, true, x₂)) := by
  obtain ⟨hb, hP, hQ, _, _⟩ := hs
  rw [step_y]
  have e : ([(i, true, x₁), (i, true, x₂)].foldl Loads.command s).bus i =
      { (s.bus i) with chP := true, cr := x₂ / 100 } := by
    simp [Loads.command, Loads.changeP, LoadBus.changeP]
  have e1 : ([(i, true, x₁), (i, true, x₂)].foldl Loads.command s).bP = true := rfl
  have e2 : ([(i, true, x₁), (i, true, x₂)].foldl Loads.command s).bQ = false := by
    simp [Loads.command, Loads.changeP, hQ]
  have e3 : ([(i, true, x₁), (i, true, x₂)].foldl Loads.command s).y = s.y := by
    simp [Loads.command, Loads.changeP]
  rw [e, e1, e2, e3]
  intro h
  have h := add_left_cancel h
  have hr := congrArg Complex.re h
  unfold changeY LoadBus.incP at hr
  have hc : ((100 : ℝ) : ℂ) * ((s.bus i).v : ℂ) ^ 2 = ((100 * ((s.bus i).v * (s.bus i).v) : ℝ) : ℂ) := by push_cast; ring
  simp only [if_true, Bool.false_eq_true, if_false, add_zero, hc, Complex.add_re, Complex.div_ofReal_re,
    Complex.ofReal_re] at hr
  have hv2 : (s.bus i).v * (s.bus i).v ≠ 0 := mul_ne_zero hv hv
  rw [div_div] at hr
  have : x₁ / (100 * ((s.bus i).v * (s.bus i).v)) = 0 := by linarith
  rw [div_eq_zero_iff] at this
  rcases this with h | h
  · exact h₁ h
  · exact (mul_ne_zero (by norm_num) hv2) h

/-! ### C226 -/

/-- **C226**, the share kept.  After any commands shedding parts of the static load, the share kept is what the parts leave,
and never less than nothing. -/
theorem C226_share (b : LoadBus) (hb : b.remain = 1) (ps : List ℝ) (hp : ∀ p ∈ ps, p ≤ 0) :
    (ps.foldl LoadBus.shedding b).remain = max 0 (1 + ps.sum) := by
  have key : ∀ (ps : List ℝ) (b : LoadBus), (∀ p ∈ ps, p ≤ 0) → 0 ≤ b.remain →
      (ps.foldl LoadBus.shedding b).remain = max 0 (b.remain + ps.sum) := by
    intro ps
    induction ps with
    | nil => intro b _ h0; simp [h0]
    | cons p ps ih =>
      intro b hp h0
      have hps : ps.sum ≤ 0 := by
        have := List.sum_le_card_nsmul ps 0 (fun x hx => hp x (List.mem_cons_of_mem _ hx))
        simpa using this
      rw [List.foldl_cons]
      by_cases hle : b.remain + p ≤ 0
      · have e : (b.shedding p).remain = 0 := by unfold LoadBus.shedding; simp [hle]
        rw [ih _ (fun x hx => hp x (List.mem_cons_of_mem _ hx)) (by rw [e]), e, List.sum_cons,
          max_eq_left (by linarith), max_eq_left (by linarith)]
      · have e : (b.shedding p).remain = b.remain + p := by unfold LoadBus.shedding; simp [hle]
        rw [ih _ (fun x hx => hp x (List.mem_cons_of_mem _ hx)) (by rw [e]; linarith), e, List.sum_cons, add_assoc]
  rw [key ps b hp (by rw [hb]; norm_num), hb]

/-- The only injection of a bus whose load is shed. -/
def OnlyShed (b : LoadBus) : Prop := b.shed = true ∧ b.scat = false ∧ b.comp = false ∧ b.cur = false

theorem shed_inject (b : LoadBus) (hb : OnlyShed b) (V : ℂ) :
    b.inject V = (b.v * b.v * (1 - b.remain) : ℝ) * b.yl / (starRingEnd ℂ) V := by
  obtain ⟨h1, h2, h3, h4⟩ := hb
  unfold LoadBus.inject
  simp only [h1, h2, h3, h4, if_true, Bool.false_eq_true, if_false, add_zero, sub_zero, map_div₀]
  congr 1
  apply Complex.ext
  · simp; ring
  · simp; ring

/-- **C226** (partial).  At the voltage the bus had at the start, the load whose part is shed draws just the share kept of its
current: what the admittance in the matrix takes, less the injection. -/
theorem C226_current_partial (b : LoadBus) (hb : OnlyShed b) (V : ℂ) (hV : V ≠ 0) (h : ‖V‖ = b.v) :
    b.yl * V - b.inject V = b.remain * (b.yl * V) := by
  rw [shed_inject b hb]
  have hc : (starRingEnd ℂ) V ≠ 0 := by simpa using hV
  have hn : V * (starRingEnd ℂ) V = ((b.v * b.v : ℝ) : ℂ) := by
    rw [Complex.mul_conj, Complex.normSq_eq_norm_sq, h, pow_two]
  field_simp
  push_cast at hn ⊢
  linear_combination b.yl * (1 - b.remain) * hn

/-- C226 fails at every other voltage: the injection has the power the part of the load had at the start. -/
theorem C226_current_violated (b : LoadBus) (hb : OnlyShed b) (V : ℂ) (hV : V ≠ 0) (h : ‖V‖ ^ 2 ≠ b.v ^ 2)
    (hy : b.yl ≠ 0) (hr : b.remain ≠ 1) : b.yl * V - b.inject V ≠ b.remain * (b.yl * V) := by
  rw [shed_inject b hb]
  have hc : (starRingEnd ℂ) V ≠ 0 := by simpa using hV
  have hn : V * (starRingEnd ℂ) V = ((‖V‖ ^ 2 : ℝ) : ℂ) := by
    rw [Complex.mul_conj, Complex.normSq_eq_norm_sq]
  intro e
  have e2 : b.yl * (1 - b.remain) * (((‖V‖ ^ 2 : ℝ) : ℂ) - ((b.v ^ 2 : ℝ) : ℂ)) = 0 := by
    rw [← hn]
    have e' : (b.yl * V - (b.v * b.v * (1 - b.remain) : ℝ) * b.yl / (starRingEnd ℂ) V) * (starRingEnd ℂ) V =
        b.remain * (b.yl * V) * (starRingEnd ℂ) V := by rw [e]
    rw [sub_mul, div_mul_cancel₀ _ hc] at e'
    push_cast at e' ⊢
    linear_combination e'
  have h1 : (1 - (b.remain : ℂ)) ≠ 0 := by
    intro h0
    apply hr
    have : ((1 - b.remain : ℝ) : ℂ) = 0 := by push_cast; exact h0
    have := Complex.ofReal_eq_zero.1 this
    linarith
  have h2 : (((‖V‖ ^ 2 : ℝ) : ℂ) - ((b.v ^ 2 : ℝ) : ℂ)) ≠ 0 := by
    rw [← Complex.ofReal_sub]
    intro h0
    have := Complex.ofReal_eq_zero.1 h0
    apply h
    linarith
  exact (mul_ne_zero (mul_ne_zero hy h1) h2) e2

/-! ### C227 -/

/-- **C227** (partial), compensation.  A bus told to draw the power `p + jq` by compensation draws exactly this at every
voltage: what its admittance takes, less the injection. -/
theorem C227_compensate_partial (b : LoadBus) (hb : b.Fresh) (p q : ℝ) (V : ℂ) (hV : V ≠ 0) :
    b.yl * V - (b.scatterComp p q).inject V = powerCurrent ⟨p, q⟩ V := by
  obtain ⟨_, _, _, _, _, h1, _, h2, _, h3⟩ := hb
  have hyl : (b.scatterComp p q).yl = b.yl := rfl
  rw [LoadBus.inject, hyl]
  unfold LoadBus.scatterComp powerCurrent
  simp only [h1, h2, h3, if_true, Bool.false_eq_true, if_false, zero_add, sub_zero, map_div₀]
  have hc : (starRingEnd ℂ) V ≠ 0 := by simpa using hV
  have hn : V * (starRingEnd ℂ) V = ((‖V‖ * ‖V‖ : ℝ) : ℂ) := by
    rw [Complex.mul_conj, Complex.normSq_eq_norm_sq, pow_two]
  rw [eq_div_iff hc, sub_mul, div_mul_cancel₀ _ hc]
  have e : (starRingEnd ℂ) (⟨b.yl.re * (‖V‖ * ‖V‖) - p, -b.yl.im * (‖V‖ * ‖V‖) - q⟩ : ℂ) =
      b.yl * ((‖V‖ * ‖V‖ : ℝ) : ℂ) - (starRingEnd ℂ) (⟨p, q⟩ : ℂ) := by
    apply Complex.ext
    · simp
    · simp; ring
  rw [e]
  linear_combination b.yl * hn

/-- The commands on one bus that replace its static load by an injection (`scatterInjectionLoadNew` for that bus). -/
def Loads.replace (s : Loads) (i : Nat) (f : LoadBus → LoadBus) : Loads := ((s.setZeroP i).setZeroQ i).onBus i f

/-- **C227** (partial), replacement.  A bus, so far without commands, told to draw the power `p + jq` in place of its static
load: after the next step the admittance of the load is out of the matrix, and the injection is this power at every voltage. -/
theorem C227_replace_partial (s : Loads) (hs : s.Idle) (i : Nat) (hb : (s.bus i).Fresh) (p q : ℝ) (V : ℂ) :
    (s.replace i (fun b => b.scatter p q)).step.y i = s.y i - (s.bus i).yl ∧
    -((s.replace i (fun b => b.scatter p q)).bus i).inject V = powerCurrent ⟨p, q⟩ V := by
  obtain ⟨hi, hP, hQ, _, _⟩ := hs
  obtain ⟨g1, g2, g3, g4, g5, h1, g6, h2, h4, h3⟩ := hb
  have ebus : (s.replace i (fun b => b.scatter p q)).bus i =
      { (s.bus i) with chP := true, cr := -(s.bus i).pl, zeroP := true, chQ := true, ci := -(s.bus i).ql, zeroQ := true,
                       scat := true, sp := p, sq := q } := by
    simp [Loads.replace, Loads.onBus, Loads.setZeroQ, Loads.setZeroP, LoadBus.setZeroP, LoadBus.setZeroQ, g3, g4,
      LoadBus.scatter]
  have eP : (s.replace i (fun b => b.scatter p q)).bP = true := by
    simp [Loads.replace, Loads.onBus, Loads.setZeroQ, Loads.setZeroP, LoadBus.setZeroP, g3]
  have eQ : (s.replace i (fun b => b.scatter p q)).bQ = true := by
    simp [Loads.replace, Loads.onBus, Loads.setZeroQ, Loads.setZeroP, LoadBus.setZeroP, LoadBus.setZeroQ, g3, g4]
  constructor
  · rw [step_y, ebus, eP, eQ]
    have ey : (s.replace i (fun b => b.scatter p q)).y = s.y := rfl
    rw [ey]
    unfold LoadBus.incP LoadBus.incQ LoadBus.yl
    simp only [if_true]
    rw [sub_eq_add_neg]
    congr 1
    apply Complex.ext
    · simp; ring
    · simp; ring
  · rw [ebus]
    unfold LoadBus.inject powerCurrent
    simp only [h1, h3, h4, if_true, Bool.false_eq_true, if_false, zero_add, add_zero, sub_zero, map_div₀]
    rw [← neg_div]
    congr 1
    apply Complex.ext
    · simp
    · simp

/-- **C227** (partial), constant current.  The same with a current: after the step the admittance of the load is out of the
matrix, and the bus draws a current of the magnitude given at every voltage. -/
theorem C227_current_partial (s : Loads) (hs : s.Idle) (i : Nat) (hb : (s.bus i).Fresh) (r x : ℝ) (V : ℂ) (hV : V ≠ 0) :
    (s.replace i (fun b => b.scatterCur r x)).step.y i = s.y i - (s.bus i).yl ∧
    ‖((s.replace i (fun b => b.scatterCur r x)).bus i).inject V‖ = ‖(⟨r, x⟩ : ℂ)‖ ∧
    (∀ m : ℝ, 0 < m → -((s.replace i (fun b => b.scatterCur r x)).bus i).inject m = (starRingEnd ℂ) ⟨r, x⟩) := by
  obtain ⟨hi, hP, hQ, _, _⟩ := hs
  obtain ⟨g1, g2, g3, g4, g5, h1, g6, h2, h4, h3⟩ := hb
  have ebus : (s.replace i (fun b => b.scatterCur r x)).bus i =
      { (s.bus i) with chP := true, cr := -(s.bus i).pl, zeroP := true, chQ := true, ci := -(s.bus i).ql, zeroQ := true,
                       cur := true, ir := r, ii := x } := by
    simp [Loads.replace, Loads.onBus, Loads.setZeroQ, Loads.setZeroP, LoadBus.setZeroP, LoadBus.setZeroQ, g3, g4,
      LoadBus.scatterCur]
  have eP : (s.replace i (fun b => b.scatterCur r x)).bP = true := by
    simp [Loads.replace, Loads.onBus, Loads.setZeroQ, Loads.setZeroP, LoadBus.setZeroP, g3]
  have eQ : (s.replace i (fun b => b.scatterCur r x)).bQ = true := by
    simp [Loads.replace, Loads.onBus, Loads.setZeroQ, Loads.setZeroP, LoadBus.setZeroP, LoadBus.setZeroQ, g3, g4]
  have einj : ∀ W : ℂ, ((s.replace i (fun b => b.scatterCur r x)).bus i).inject W =
      -(starRingEnd ℂ) ((⟨r, x⟩ : ℂ) / W * (‖W‖ : ℂ)) := by
    intro W
    rw [ebus]
    unfold LoadBus.inject
    simp only [h1, h2, h4, if_true, Bool.false_eq_true, if_false, zero_add, add_zero, zero_sub]
  refine ⟨?_, ?_, ?_⟩
  · rw [step_y, ebus, eP, eQ]
    have ey : (s.replace i (fun b => b.scatterCur r x)).y = s.y := rfl
    rw [ey]
    unfold LoadBus.incP LoadBus.incQ LoadBus.yl
    simp only [if_true]
    rw [sub_eq_add_neg]
    congr 1
    apply Complex.ext
    · simp; ring
    · simp; ring
  · rw [einj, norm_neg, Complex.norm_conj, norm_mul, norm_div]
    have : ‖V‖ ≠ 0 := by simpa using hV
    simp
    field_simp
  · intro m hm
    rw [einj, neg_neg]
    have hm' : (m : ℂ) ≠ 0 := by exact_mod_cast hm.ne'
    have : ‖(m : ℂ)‖ = m := by simp [abs_of_pos hm]
    rw [this, div_mul_cancel₀ _ hm']

/-- C227 fails for the commands as they are given, with lists of buses and loads: they read one element too many of every list,
whatever the lists. -/
theorem C227_lists_violated {α : Type} (f : Loads → Nat → α → Loads) (buses : List Nat) (vals : List α) (s : Loads) :
    scatterList f buses vals s = none := by
  unfold scatterList
  rw [List.range_succ, List.foldlM_append]
  cases h : (List.range buses.length).foldlM (fun s k =>
    match buses[k]?, vals[k]? with
    | some i, some v => some (f s i v)
    | _, _ => none) s with
  | none => rfl
  | some s' =>
    have : buses[buses.length]? = none := List.getElem?_eq_none (le_refl _)
    simp [this]

/-- C227 fails for the simple form of the command (`scatterInjectionLoad`): the static load stays in the matrix and the given
power comes on top of it. -/
theorem C227_plain_violated (b : LoadBus) (hb : b.Fresh) (p q : ℝ) (V : ℂ) (hV : V ≠ 0) (hy : b.yl ≠ 0) :
    b.yl * V - (b.scatter p q).inject V ≠ powerCurrent ⟨p, q⟩ V := by
  obtain ⟨_, _, _, _, _, h1, _, _, h2, h3⟩ := hb
  unfold LoadBus.inject LoadBus.scatter powerCurrent
  simp only [h1, h2, h3, if_true, Bool.false_eq_true, if_false, zero_add, add_zero, sub_zero]
  intro e
  have e2 : (starRingEnd ℂ) ((⟨0 - p, 0 - q⟩ : ℂ) / V) = -(starRingEnd ℂ) ((⟨p, q⟩ : ℂ) / V) := by
    rw [← map_neg, ← neg_div]
    congr 2
    apply Complex.ext <;> simp
  rw [e2] at e
  have : b.yl * V = 0 := by linear_combination e
  exact (mul_ne_zero hy hV) this

/-- C227 fails when the load of a bus is replaced twice before a step: the second command takes back the removal of the static
load, and later commands do not repeat it. -/
theorem C227_twice_violated (s : Loads) (hs : s.Idle) (i : Nat) (hb : (s.bus i).Fresh) (f g : LoadBus → LoadBus)
    (hf : ∀ b, f b = { b with scat := (f b).scat, sp := (f b).sp, sq := (f b).sq })
    (hg : ∀ b, g b = { b with scat := (g b).scat, sp := (g b).sp, sq := (g b).sq }) :
    ((s.replace i f).replace i g).step.y i = s.y i ∧
    (∀ h : LoadBus → LoadBus, (∀ b, h b = { b with scat := (h b).scat, sp := (h b).sp, sq := (h b).sq }) →
      (((s.replace i f).replace i g).step.replace i h).step.y i = s.y i) := by
  obtain ⟨hi, hP, hQ, _, _⟩ := hs
  obtain ⟨g1, g2, g3, g4, g5, h1, g6, h2, h4, h3⟩ := hb
  have once : ∀ (s : Loads) (f : LoadBus → LoadBus),
      (∀ b, f b = { b with scat := (f b).scat, sp := (f b).sp, sq := (f b).sq }) →
      ((s.replace i f).bus i).zeroP = true ∧ ((s.replace i f).bus i).zeroQ = true ∧ (s.replace i f).y = s.y := by
    intro s f hf
    refine ⟨?_, ?_, rfl⟩
    · simp only [Loads.replace, Loads.onBus, Function.update_self]
      rw [hf]
      simp only [Loads.setZeroQ, Loads.setZeroP, LoadBus.setZeroP, LoadBus.setZeroQ, Function.update_self]
      cases hz : (s.bus i).zeroP <;> cases hz' : (s.bus i).zeroQ <;> simp [hz, hz']
    · simp only [Loads.replace, Loads.onBus, Function.update_self]
      rw [hf]
      simp only [Loads.setZeroQ, Loads.setZeroP, LoadBus.setZeroP, LoadBus.setZeroQ, Function.update_self]
      cases hz : (s.bus i).zeroP <;> cases hz' : (s.bus i).zeroQ <;> simp [hz, hz']
  have again : ∀ (s : Loads) (f : LoadBus → LoadBus),
      (∀ b, f b = { b with scat := (f b).scat, sp := (f b).sp, sq := (f b).sq }) →
      (s.bus i).zeroP = true → (s.bus i).zeroQ = true →
      ((s.replace i f).bus i).chP = false ∧ ((s.replace i f).bus i).chQ = false := by
    intro s f hf z1 z2
    constructor
    · simp only [Loads.replace, Loads.onBus, Function.update_self]
      rw [hf]
      simp [Loads.setZeroQ, Loads.setZeroP, LoadBus.setZeroP, LoadBus.setZeroQ, z1, z2]
    · simp only [Loads.replace, Loads.onBus, Function.update_self]
      rw [hf]
      simp [Loads.setZeroQ, Loads.setZeroP, LoadBus.setZeroP, LoadBus.setZeroQ, z1, z2]
  obtain ⟨o1, o2, o3⟩ := once s f hf
  obtain ⟨t1, t2, t3⟩ := once (s.replace i f) g hg
  obtain ⟨a1, a2⟩ := again (s.replace i f) g hg o1 o2
  have quiet : ∀ s : Loads, (s.bus i).chP = false → (s.bus i).chQ = false → s.step.y i = s.y i := by
    intro s c1 c2
    rw [step_y]
    unfold LoadBus.incP LoadBus.incQ
    simp [c1, c2]
  have keepP : ∀ (is : List Nat) (f : Nat → LoadBus),
      ((is.foldl (fun f i => Function.update f i (f i).clearP) f) i).zeroP = (f i).zeroP ∧
      ((is.foldl (fun f i => Function.update f i (f i).clearP) f) i).zeroQ = (f i).zeroQ := by
    intro is
    induction is with
    | nil => intro f; simp
    | cons a is ih =>
      intro f
      rw [List.foldl_cons]
      obtain ⟨x, y⟩ := ih (Function.update f a (f a).clearP)
      rw [x, y]
      by_cases h : i = a
      · subst h; simp [LoadBus.clearP]
      · simp [Function.update_of_ne h]
  have keepQ : ∀ (is : List Nat) (f : Nat → LoadBus),
      ((is.foldl (fun f i => Function.update f i (f i).clearQ) f) i).zeroP = (f i).zeroP ∧
      ((is.foldl (fun f i => Function.update f i (f i).clearQ) f) i).zeroQ = (f i).zeroQ := by
    intro is
    induction is with
    | nil => intro f; simp
    | cons a is ih =>
      intro f
      rw [List.foldl_cons]
      obtain ⟨x, y⟩ := ih (Function.update f a (f a).clearQ)
      rw [x, y]
      by_cases h : i = a
      · subst h; simp [LoadBus.clearQ]
      · simp [Function.update_of_ne h]
  have kept : ∀ s : Loads, (s.step.bus i).zeroP = (s.bus i).zeroP ∧ (s.step.bus i).zeroQ = (s.bus i).zeroQ := by
    intro s
    unfold Loads.step Loads.stepP Loads.stepQ
    cases hP : s.bP <;> cases hQ : s.bQ <;>
      simp [hQ, Loads.clearP, Loads.clearQ, (keepP _ _).1, (keepP _ _).2, (keepQ _ _).1, (keepQ _ _).2]
  have y1 : ((s.replace i f).replace i g).step.y i = s.y i := by
    rw [quiet _ a1 a2, t3, o3]
  refine ⟨y1, fun h hh => ?_⟩
  obtain ⟨k1, k2⟩ := kept ((s.replace i f).replace i g)
  obtain ⟨b1, b2⟩ := again (((s.replace i f).replace i g).step) h hh (k1.trans t1) (k2.trans t2)
  rw [quiet _ b1 b2]
  exact y1

/-- C227 fails when the simple form and the compensating form are used for one bus one after the other: both stay in force, and
the power given last is drawn twice. -/
theorem C227_switch_violated (b : LoadBus) (hb : b.Fresh) (p₁ q₁ p₂ q₂ : ℝ) (V : ℂ) (hV : V ≠ 0) (h : p₂ ≠ 0 ∨ q₂ ≠ 0) :
    b.yl * V - ((b.scatter p₁ q₁).scatterComp p₂ q₂).inject V = 2 * powerCurrent ⟨p₂, q₂⟩ V ∧
    powerCurrent ⟨p₂, q₂⟩ V ≠ 0 := by
  have hcomp := C227_compensate_partial b hb p₂ q₂ V hV
  obtain ⟨_, _, _, _, _, h1, _, h2, h4, h3⟩ := hb
  constructor
  · have hyl : (b.scatterComp p₂ q₂).yl = b.yl := rfl
    have hyl2 : ((b.scatter p₁ q₁).scatterComp p₂ q₂).yl = b.yl := rfl
    rw [LoadBus.inject, hyl] at hcomp
    rw [LoadBus.inject, hyl2]
    unfold LoadBus.scatterComp at hcomp
    unfold LoadBus.scatterComp LoadBus.scatter
    simp only [h1, h2, h3, if_true, Bool.false_eq_true, if_false, zero_add, sub_zero] at hcomp
    simp only [h1, h3, if_true, Bool.false_eq_true, if_false, zero_add, sub_zero]
    have e2 : (starRingEnd ℂ) ((⟨0 - p₂, 0 - q₂⟩ : ℂ) / V) = -powerCurrent ⟨p₂, q₂⟩ V := by
      unfold powerCurrent
      rw [← map_neg, ← neg_div]
      congr 2
      apply Complex.ext <;> simp
    rw [e2]
    linear_combination hcomp
  · unfold powerCurrent
    intro e
    have e' : (⟨p₂, q₂⟩ : ℂ) / V = 0 := by simpa using e
    rcases div_eq_zero_iff.1 e' with e' | e'
    · have := congrArg Complex.re e'
      have := congrArg Complex.im e'
      simp at *
      tauto
    · exact hV e'

/-! ### C228 -/

theorem setValue_step (s : Loads) (hs : s.Idle) (i : Nat) (hb : (s.bus i).Fresh) (r x : ℝ) (hv : (s.bus i).v ≠ 0) :
    (s.setValue i r x).step.y i = s.y i - (s.bus i).yl + (starRingEnd ℂ) (1 / (⟨r, x⟩ : ℂ)) := by
  obtain ⟨hi, hP, hQ, _, _⟩ := hs
  obtain ⟨g1, g2, g3, g4, g5, _⟩ := hb
  rw [step_y]
  have ebus : (s.setValue i r x).bus i = { (s.bus i) with
      chP := true, chQ := true, cr := -(s.bus i).pl + (1 / (⟨r, x⟩ : ℂ)).re * ((s.bus i).v * (s.bus i).v)
      ci := -(s.bus i).ql + (1 / (⟨r, x⟩ : ℂ)).im * ((s.bus i).v * (s.bus i).v), toVal := true } := by
    simp [Loads.setValue, LoadBus.setValue, g5]
  have eP : (s.setValue i r x).bP = true := by simp [Loads.setValue, LoadBus.setValue, g5]
  have eQ : (s.setValue i r x).bQ = true := by simp [Loads.setValue, LoadBus.setValue, g5]
  have ey : (s.setValue i r x).y = s.y := rfl
  rw [ebus, eP, eQ, ey]
  unfold LoadBus.incP LoadBus.incQ LoadBus.yl
  simp only [if_true]
  have hv2 : (s.bus i).v * (s.bus i).v ≠ 0 := mul_ne_zero hv hv
  generalize (1 / (⟨r, x⟩ : ℂ)) = y
  rw [sub_add_eq_add_sub, add_sub_assoc]
  congr 1
  apply Complex.ext
  · simp
    field_simp
    ring
  · simp
    field_simp
    ring

/-- **C228** (partial).  A bus told to have a purely resistive static load: after the step the matrix has the conductance of this
resistance in place of the admittance of the load. -/
theorem C228_resistive_partial (s : Loads) (hs : s.Idle) (i : Nat) (hb : (s.bus i).Fresh) (r : ℝ) (hv : (s.bus i).v ≠ 0) :
    (s.setValue i r 0).step.y i = s.y i - (s.bus i).yl + 1 / (⟨r, 0⟩ : ℂ) := by
  rw [setValue_step s hs i hb r 0 hv]
  congr 1
  have : (⟨r, 0⟩ : ℂ) = (r : ℂ) := rfl
  rw [this, map_div₀, map_one, Complex.conj_ofReal]

/-- C228 fails for every impedance with a reactive part: the reactance enters the matrix with the opposite sign. -/
theorem C228_reactive_violated (s : Loads) (hs : s.Idle) (i : Nat) (hb : (s.bus i).Fresh) (r x : ℝ)
    (hv : (s.bus i).v ≠ 0) (hx : x ≠ 0) :
    (s.setValue i r x).step.y i ≠ s.y i - (s.bus i).yl + 1 / (⟨r, x⟩ : ℂ) := by
  rw [setValue_step s hs i hb r x hv]
  intro h
  have h := add_left_cancel h
  have him := congrArg Complex.im h
  rw [Complex.conj_im] at him
  have h0 : (1 / (⟨r, x⟩ : ℂ)).im = 0 := by linarith
  rw [one_div, Complex.inv_im] at h0
  have hn : Complex.normSq (⟨r, x⟩ : ℂ) ≠ 0 := by
    rw [Complex.normSq_apply]
    have : 0 < x * x := mul_self_pos.2 hx
    have : 0 ≤ r * r := mul_self_nonneg r
    simp only
    linarith
  rcases div_eq_zero_iff.1 h0 with h0 | h0
  · simp at h0; exact hx h0
  · exact hn h0

/-! ### C229 -/

/-- **C229** (partial).  A command shedding the part `-x` of a dynamic load (at most all of it) that still has a positive share
online leaves the load with what remains of its share, and never less than nothing. -/
theorem C229_share_partial (loads : List (List Char × ℝ)) (id : List Char) (x : ℝ) (hx : -1 ≤ x) (k : Nat)
    (l : List Char × ℝ) (hl : loads[k]? = some l) (hpos : l.2 ≠ 0) :
    (loadShedding loads id x)[k]? = some (l.1, max 0 (l.2 + x)) := by
  unfold loadShedding
  rw [List.getElem?_map, hl]
  simp only [Option.map_some, Option.some.injEq, Prod.mk.injEq, true_and]
  unfold changeLoad
  rw [if_neg (not_lt.2 hx), if_neg hpos]
  by_cases h : l.2 + x < 0
  · rw [if_pos h, max_eq_left h.le]
  · rw [if_neg h, if_neg h, max_eq_right (not_lt.1 h)]

/-- C229 fails for the other loads of the bus: the id given in the command is ignored, every load of the bus that is online is
changed. -/
theorem C229_others_violated (loads : List (List Char × ℝ)) (id : List Char) (x : ℝ) (hx : -1 ≤ x) (hx0 : x < 0) (k : Nat)
    (l : List Char × ℝ) (hl : loads[k]? = some l) (_other : l.1 ≠ id) (hpos : 0 < l.2) :
    (loadShedding loads id x)[k]? ≠ some l := by
  rw [C229_share_partial loads id x hx k l hl hpos.ne']
  intro h
  have := (Prod.ext_iff.1 (Option.some.inj h)).2
  simp only at this
  rcases max_choice 0 (l.2 + x) with e | e
  · rw [e] at this; linarith
  · rw [e] at this; linarith

/-- C229 fails for a load that was shed completely: no command brings any of it back. -/
theorem C229_restore_violated (loads : List (List Char × ℝ)) (xs : List ℝ) (id : List Char) (k : Nat) (i : List Char)
    (hl : loads[k]? = some (i, 0)) : (xs.foldl (fun ls x => loadShedding ls id x) loads)[k]? = some (i, 0) := by
  induction xs generalizing loads with
  | nil => exact hl
  | cons x xs ih =>
    rw [List.foldl_cons]
    apply ih
    unfold loadShedding
    rw [List.getElem?_map, hl]
    simp [changeLoad]

/-! ### C230 -/

/-- **C230** (partial).  If the start and the end of the fault and the simulated time are whole numbers of time steps, and the fault
does not start before the first step: the steps have the size given, their number covers the simulated time, and the faulted
network is used exactly for the steps that begin at or after the start of the fault and before its end. -/
theorem C230_time_partial (dt : ℝ) (hdt : 0 < dt) (a b c : ℕ) (ha : 1 ≤ a) (hab : a ≤ b) (hbc : b ≤ c) :
    stepSize (a * dt) dt = some dt ∧ (stepsMade (a * dt) (b * dt) (c * dt) dt : ℝ) * dt = c * dt ∧
    ∀ k : ℕ, faulted (a * dt) (b * dt) (c * dt) dt k = true ↔ (a * dt ≤ k * dt ∧ (k * dt : ℝ) < b * dt) := by
  have hd : dt ≠ 0 := hdt.ne'
  have t1 : (a * dt) / dt = (a : ℝ) := by field_simp
  have t2 : (b * dt - a * dt) / dt = ((b - a : ℕ) : ℝ) := by
    rw [Nat.cast_sub hab]; field_simp
  have t3 : (c * dt - b * dt) / dt = ((c - b : ℕ) : ℝ) := by
    rw [Nat.cast_sub hbc]; field_simp
  have ht : ∀ x y, tSteps (a * dt) x y dt = ((a : ℤ), (tSteps (a * dt) x y dt).2) := by
    intro x y
    unfold tSteps
    simp only [t1]
    simp
  have hts : tSteps (a * dt) (b * dt) (c * dt) dt = ((a : ℤ), ((b - a : ℕ) : ℤ), ((c - b : ℕ) : ℤ)) := by
    unfold tSteps
    simp only [t1, t2, t3]
    simp
  refine ⟨?_, ?_, ?_⟩
  · unfold stepSize
    rw [ht]
    have h0 : ((a : ℕ) : ℤ) ≠ 0 := by omega
    simp only [h0, if_false]
    congr 1
    have : (a : ℝ) ≠ 0 := by exact_mod_cast (by omega : a ≠ 0)
    push_cast
    field_simp
  · unfold stepsMade
    rw [hts]
    have : max 1 ((a : ℤ) + ((b - a : ℕ) : ℤ) + ((c - b : ℕ) : ℤ) + 1 - 1) = (c : ℤ) := by
      rw [max_eq_right] <;> omega
    simp only [this]
    push_cast
    rfl
  · intro k
    unfold faulted phaseOf
    rw [hts]
    simp only [decide_eq_true_eq]
    rw [mul_le_mul_iff_left₀ hdt, mul_lt_mul_iff_left₀ hdt]
    have hiff : ((a : ℝ) ≤ k ∧ (k : ℝ) < b) ↔ (a ≤ k ∧ k < b) := by
      constructor
      · rintro ⟨h1, h2⟩; exact ⟨by exact_mod_cast h1, by exact_mod_cast h2⟩
      · rintro ⟨h1, h2⟩; exact ⟨by exact_mod_cast h1, by exact_mod_cast h2⟩
    rw [hiff]
    by_cases h1 : (k : ℤ) ≤ (a : ℤ) - 1
    · rw [if_pos h1]
      constructor
      · intro h; cases h
      · intro h; omega
    · rw [if_neg h1]
      by_cases h2 : (k : ℤ) ≤ (a : ℤ) + ((b - a : ℕ) : ℤ) - 1
      · rw [if_pos h2]
        constructor
        · intro _; omega
        · intro _; rfl
      · rw [if_neg h2]
        constructor
        · intro h; cases h
        · intro h; omega

/-- C230 fails when the start of the fault is no multiple of the time step: all steps of the run get another size than the one
given (and the one the output is labelled with). -/
theorem C230_size_violated (start dt : ℝ) (hdt : 0 < dt) (hs : dt ≤ start) (h : ∀ m : ℤ, start ≠ m * dt) :
    ∃ h', stepSize start dt = some h' ∧ h' ≠ dt := by
  have hq : 1 ≤ start / dt := by rw [le_div_iff₀ hdt]; linarith
  have hf : (tSteps start 0 0 dt).1 = ⌊start / dt⌋ := by
    unfold tSteps
    simp only
    rw [if_pos (by linarith)]
  have h1 : (1 : ℤ) ≤ ⌊start / dt⌋ := by rw [Int.le_floor]; exact_mod_cast hq
  have h0 : ⌊start / dt⌋ ≠ 0 := by omega
  refine ⟨start / (⌊start / dt⌋ : ℤ), ?_, ?_⟩
  · unfold stepSize
    rw [hf, if_neg h0]
  · intro e
    have hne : ((⌊start / dt⌋ : ℤ) : ℝ) ≠ 0 := by exact_mod_cast h0
    apply h ⌊start / dt⌋
    rw [div_eq_iff hne] at e
    linarith

/-- C230 fails for a fault that starts within the first time step (for example at time 0): the size of the steps is a division by
zero. -/
theorem C230_early_violated (start dt : ℝ) (hs : 0 ≤ start) (h : start < dt) : stepSize start dt = none := by
  have hdt : 0 < dt := by linarith
  have hf : (tSteps start 0 0 dt).1 = ⌊start / dt⌋ := by
    unfold tSteps
    simp only
    rw [if_pos (div_nonneg hs hdt.le)]
  have h0 : ⌊start / dt⌋ = 0 := by
    rw [Int.floor_eq_zero_iff]
    exact ⟨div_nonneg hs hdt.le, (div_lt_one hdt).2 h⟩
  unfold stepSize
  rw [hf, if_pos h0]

/-! ### Examples -/

noncomputable def bus1 : LoadBus :=
  ⟨1 / 2, 1 / 5, 1, false, 0, false, 0, false, false, false, false, 1, false, false, 0, 0, false, 0, 0⟩

example : bus1.Fresh := by simp [LoadBus.Fresh, bus1]

noncomputable def loads1 : Loads := ⟨fun _ => bus1, false, [], false, [], fun _ => 1⟩

example : loads1.Idle := by simp [Loads.Idle, loads1, bus1]

example : bus1.yl ≠ 0 := by
  intro h
  have := congrArg Complex.re h
  simp [LoadBus.yl, bus1] at this

/-- 20 MW and -10 MVar at bus 1, 5 MW at bus 2. -/
example : (([(1, true, 20), (1, false, -10), (2, true, 5)] : List Change).map (fun c => (c.1, c.2.1))).Nodup := by
  simp

example : OnlyShed (bus1.shedding (-1 / 5)) := by simp [OnlyShed, LoadBus.shedding, bus1]

example : (([-1 / 5, -1 / 2, -1 / 2] : List ℝ).foldl LoadBus.shedding bus1).remain = 0 := by
  rw [C226_share bus1 rfl _ (by intro p hp; simp at hp; rcases hp with rfl | rfl <;> norm_num)]
  norm_num

end GridPACK.Actions
