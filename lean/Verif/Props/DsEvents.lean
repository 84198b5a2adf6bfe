import Verif.Lemmas.DsEvents
import Mathlib.Tactic.NormNum

/-! Theorems about events in the dynamic simulation. -/
namespace GridPACK.DsEvents

/-! ### Faults seen as a state -/

/-- Faults never overlap: between two beginnings there is an end. -/
def Separate : Bool → List Op → Prop
  | _, [] => True
  | on, .faultOn _ _ :: l => on = false ∧ Separate true l
  | _, .faultOff :: l => Separate false l
  | on, _ :: l => Separate on l

/-- The events of a sequence one after the other. -/
def runOps (s : State) (ops : List Op) : Option State := ops.foldlM Op.run s

theorem noFault_increment (mode : Mode) (s : State) (h : NoFault s ∨ mode = .faultOff) :
    NoFault (increment mode s) := by
  intro b hb
  rw [(increment_spec mode s).1] at hb
  obtain ⟨x, hx, rfl⟩ := List.mem_map.mp hb
  rw [(diagValues_bus mode x).2.2.2.2]
  rcases h with h | h
  · cases mode <;> first | rfl | exact h x hx
  · subst h; rfl

theorem setLineStatus_fault (k : Nat) (tag : List Char) (st : Bool) (s : State) (h : NoFault s) :
    NoFault (setLineStatus k tag st s) := by
  unfold setLineStatus
  cases s.branches[k]? with
  | none => exact h
  | some b =>
    simp only
    split
    · intro x hx
      simp only [insertDiag] at hx
      obtain ⟨a, ha, rfl⟩ := List.mem_mapIdx.mp hx
      simp only [List.getElem_mapIdx]
      have : ∀ (h' : a < s.buses.length), (s.buses[a]).fault = false := fun h' => h _ (List.getElem_mem h')
      have := this (by simpa using ha)
      split <;> split <;> exact this
    · exact h

theorem op_kept (s : State) (hs : Settled s) (hp : Proper s) (on : Bool) (hn : on = false → NoFault s) (op : Op)
    (rest : List Op) (hsep : Separate on (op :: rest)) (s' : State) (h : op.run s = some s') :
    Kept s s' ∧ ∃ on', Separate on' rest ∧ (on' = false → NoFault s') := by
  cases op with
  | faultOn bus y =>
    simp only [Op.run, Option.some.injEq] at h
    subst h
    exact ⟨faultOn_kept s hs (hn hsep.1) bus y, true, hsep.2, by intro h; cases h⟩
  | faultOff =>
    simp only [Op.run, Option.some.injEq] at h
    subst h
    exact ⟨faultOff_kept s hs, false, hsep, fun _ => noFault_increment _ _ (Or.inr rfl)⟩
  | line frm too tag st =>
    simp only [Op.run] at h
    cases hk : branchIndices s frm too with
    | nil => rw [hk] at h; cases h
    | cons k ks =>
      rw [hk] at h
      simp only [Option.some.injEq] at h
      subst h
      exact ⟨line_kept s hs hp k tag st, on, hsep,
        fun h => noFault_increment _ _ (Or.inl (setLineStatus_fault k tag st s (hn h)))⟩
  | gen bus tag st =>
    simp only [Op.run] at h
    cases hb : s.buses[bus]? with
    | none =>
      rw [hb] at h
      simp only [Option.some.injEq] at h
      subst h
      exact ⟨gen_idle s hs, on, hsep, fun h => noFault_increment _ _ (Or.inl (hn h))⟩
    | some b =>
      rw [hb] at h
      cases hg : b.setGenStatus tag st with
      | none => simp only [hg] at h; cases h
      | some b' =>
        simp only [hg, Option.some.injEq] at h
        subst h
        refine ⟨gen_kept s hs bus b hb tag st b' hg, on, hsep, fun h => noFault_increment _ _ (Or.inl ?_)⟩
        intro x hx
        rcases List.mem_or_eq_of_mem_set hx with hx | rfl
        · exact hn h x hx
        · have hbf := hn h b (List.mem_of_getElem? hb)
          unfold Bus.setGenStatus at hg
          cases hgf : b.gens.find? (fun g => g.tag = tag) with
          | none => rw [hgf] at hg; cases hg
          | some g =>
            rw [hgf] at hg
            simp only at hg
            split at hg
            · simp only [Option.some.injEq] at hg; subst hg; exact hbf
            · simp only [Option.some.injEq] at hg; subst hg; exact hbf

theorem runOps_kept (ops : List Op) (s : State) (hs : Settled s) (hp : Proper s) (on : Bool)
    (hn : on = false → NoFault s) (hsep : Separate on ops) (s' : State) (h : runOps s ops = some s') : Kept s s' := by
  induction ops generalizing s on with
  | nil =>
    simp only [runOps, List.foldlM_nil, Option.pure_def, Option.some.injEq] at h
    subst h
    exact ⟨fun _ _ => rfl, id, id⟩
  | cons op ops ih =>
    simp only [runOps, List.foldlM_cons, Option.bind_eq_bind, Option.bind_eq_some_iff] at h
    obtain ⟨s1, h1, h2⟩ := h
    obtain ⟨⟨k1, k2, k3⟩, on', hsep', hn'⟩ := op_kept s hs hp on hn op ops hsep s1 h1
    obtain ⟨j1, j2, j3⟩ := ih s1 (k2 hs) (k3 hp) on' hn' hsep' h2
    exact ⟨fun i j => (j1 i j).trans (k1 i j), fun h => j2 (k2 h), fun h => j3 (k3 h)⟩

/-! ### C105: the matrix follows the state of the network -/

/-- **C105** If the matrix is that of the network (a fixed part `base` plus the contributions of the circuits and
generators in service, less the faults), it is so after any sequence of fault, line and generator events.

Partial: faults do not overlap in time (see `C105_overlap_violated`), and every branch had a circuit in service when
it was loaded (see `C105_inactive_violated`). -/
theorem C105_matrix_partial (base : Nat → Nat → ℂ) (s : State) (hs : Settled s) (hp : Proper s) (hn : NoFault s)
    (hm : ∀ i j, s.m i j = base i j + s.network i j) (ops : List Op) (hsep : Separate false ops) (s' : State)
    (h : runOps s ops = some s') (i j : Nat) : s'.m i j = base i j + s'.network i j := by
  have := (runOps_kept ops s hs hp false (fun _ => hn) hsep s' h).1 i j
  rw [hm] at this
  linear_combination this

/-- The events of a simulation in the order in which they are handled. -/
noncomputable def opsUpTo (events : List Event) (dt : ℝ) (n : Nat) : List Op :=
  (List.range n).flatMap (fun (k : Nat) => events.filterMap (fun e => e.op (k * dt)))

theorem handleEvents_eq (events : List Event) (t : ℝ) (s : State) :
    handleEvents events t s = runOps s (events.filterMap (fun e => e.op t)) := by
  unfold handleEvents runOps
  induction events generalizing s with
  | nil => rfl
  | cons e events ih =>
    rw [List.foldlM_cons]
    cases he : e.op t with
    | none =>
      rw [List.filterMap_cons_none he]
      simp only [Option.bind_eq_bind, Option.bind_some]
      exact ih s
    | some op =>
      rw [List.filterMap_cons_some he, List.foldlM_cons]
      simp only [Option.bind_eq_bind]
      congr 1
      funext s1
      exact ih s1

theorem steps_eq (events : List Event) (dt : ℝ) (s : State) (n : Nat) :
    steps events dt s n = runOps s (opsUpTo events dt n) := by
  induction n with
  | zero => rfl
  | succ n ih =>
    simp only [steps, opsUpTo, List.range_succ, List.flatMap_append, List.flatMap_cons, List.flatMap_nil, List.append_nil]
    rw [ih]
    unfold runOps
    rw [List.foldlM_append]
    simp only [Option.bind_eq_bind]
    congr 1
    funext s1
    exact handleEvents_eq events _ s1

/-! ### C107: times of events -/

theorem grid_unique (dt : ℝ) (hdt : 2e-6 < dt) (time : ℝ) (k n : Nat) (hk : |time - k * dt| < 1e-6)
    (hn : |time - n * dt| < 1e-6) : n = k := by
  rw [abs_lt] at hk hn
  by_contra hne
  rcases Nat.lt_or_gt_of_ne hne with h | h
  · have h1 : (n : ℝ) + 1 ≤ k := by exact_mod_cast h
    have h2 : ((n : ℝ) + 1) * dt ≤ k * dt := mul_le_mul_of_nonneg_right h1 (by linarith)
    linarith [hk.1, hk.2, hn.1, hn.2]
  · have h1 : (k : ℝ) + 1 ≤ n := by exact_mod_cast h
    have h2 : ((k : ℝ) + 1) * dt ≤ n * dt := mul_le_mul_of_nonneg_right h1 (by linarith)
    linarith [hk.1, hk.2, hn.1, hn.2]

/-- **C107** A line event takes effect in exactly one step, the one at its time.

Partial: its time must be within 1e-6 of a multiple of the time step (see `C107_off_grid_violated`). -/
theorem C107_line_partial (dt : ℝ) (hdt : 2e-6 < dt) (time : ℝ) (frm too : Nat) (tag : List Char) (st : Bool) (k : Nat)
    (hk : |time - k * dt| < 1e-6) (n : Nat) :
    (Event.line time frm too tag st).op (n * dt) = if n = k then some (.line frm too tag st) else none := by
  simp only [Event.op]
  by_cases h : n = k
  · subst h; rw [if_pos hk, if_pos rfl]
  · rw [if_neg (fun h' => h (grid_unique dt hdt time k n hk h')), if_neg h]

/-- **C107** for generator events. -/
theorem C107_gen_partial (dt : ℝ) (hdt : 2e-6 < dt) (time : ℝ) (bus : Nat) (tag : List Char) (st : Bool) (k : Nat)
    (hk : |time - k * dt| < 1e-6) (n : Nat) :
    (Event.gen time bus tag st).op (n * dt) = if n = k then some (.gen bus tag st) else none := by
  simp only [Event.op]
  by_cases h : n = k
  · subst h; rw [if_pos hk, if_pos rfl]
  · rw [if_neg (fun h' => h (grid_unique dt hdt time k n hk h')), if_neg h]

/-- **C107** A fault begins in exactly one step and ends in exactly one step. -/
theorem C107_fault_partial (dt : ℝ) (hdt : 2e-6 < dt) (start stop : ℝ) (bus : Nat) (y : ℂ) (a b : Nat) (hab : a ≠ b)
    (ha : |start - a * dt| < 1e-6) (hb : |stop - b * dt| < 1e-6) (n : Nat) :
    (Event.fault start stop bus y).op (n * dt) =
      if n = a then some (.faultOn bus y) else if n = b then some .faultOff else none := by
  simp only [Event.op]
  by_cases h1 : n = a
  · subst h1; rw [if_pos ha, if_pos rfl]
  · rw [if_neg (fun h' => h1 (grid_unique dt hdt start a n ha h')), if_neg h1]
    by_cases h2 : n = b
    · subst h2; rw [if_pos hb, if_pos rfl]
    · rw [if_neg (fun h' => h2 (grid_unique dt hdt stop b n hb h')), if_neg h2]

/-- The times at which an event is to take effect. -/
def Event.times : Event → List ℝ
  | .fault start stop _ _ => [start, stop]
  | .line time _ _ _ _ => [time]
  | .gen time _ _ _ => [time]

/-- **C107, violated**: an event whose times lie between the steps is ignored. -/
theorem C107_off_grid_violated (dt : ℝ) (e : Event) (h : ∀ t ∈ e.times, ∀ k : Nat, 1e-6 ≤ |t - k * dt|) (pre post : List Event)
    (s : State) (n : Nat) : steps (pre ++ e :: post) dt s n = steps (pre ++ post) dt s n := by
  have hnone : ∀ k : Nat, e.op (k * dt) = none := by
    intro k
    cases e with
    | fault start stop bus y =>
      simp only [Event.op]
      rw [if_neg (by have := h start (by simp [Event.times]) k; linarith),
        if_neg (by have := h stop (by simp [Event.times]) k; linarith)]
    | line time frm too tag st =>
      simp only [Event.op]
      rw [if_neg (by have := h time (by simp [Event.times]) k; linarith)]
    | gen time bus tag st =>
      simp only [Event.op]
      rw [if_neg (by have := h time (by simp [Event.times]) k; linarith)]
  rw [steps_eq, steps_eq]
  congr 1
  unfold opsUpTo
  congr 1
  funext k
  rw [List.filterMap_append, List.filterMap_append, List.filterMap_cons_none (hnone k)]

/-- A line event at 0.105 seconds is ignored with a time step of 0.01 seconds. -/
example (s : State) (n : Nat) : steps [.line 0.105 0 1 ['1', ' '] false] 0.01 s n = steps [] 0.01 s n := by
  apply C107_off_grid_violated 0.01 (.line 0.105 0 1 ['1', ' '] false) _ [] []
  intro t ht k
  simp only [Event.times, List.mem_singleton] at ht
  subst ht
  rcases Nat.lt_or_ge k 11 with h | h
  · have h1 : (k : ℝ) ≤ 10 := by exact_mod_cast (by omega : k ≤ 10)
    rw [abs_of_nonneg (by norm_num; linarith)]
    linarith
  · have h1 : (11 : ℝ) ≤ k := by exact_mod_cast h
    rw [abs_of_nonpos (by norm_num; linarith)]
    linarith

/-! ### C106: faults in time -/

/-- A fault event with the numbers of the steps at which it begins and ends. -/
structure Timed (dt : ℝ) (start stop : ℝ) (a b : Nat) : Prop where
  begins : |start - a * dt| < 1e-6
  ends : |stop - b * dt| < 1e-6
  later : a < b

/-- Fault and its admittance at every bus. -/
def faults (s : State) : List (Option ℂ) := s.buses.map (fun b => if b.fault then some b.yf else none)

/-- What an event does to the faults. -/
def faultStep (f : List (Option ℂ)) : Op → List (Option ℂ)
  | .faultOn bus y => f.mapIdx (fun i x => if i = bus then some y else x)
  | .faultOff => f.map (fun _ => none)
  | _ => f

theorem faults_increment (mode : Mode) (s : State) :
    faults (increment mode s) = (match mode with | .faultOff => (faults s).map (fun _ => none) | _ => faults s) := by
  unfold faults
  rw [(increment_spec mode s).1, List.map_map]
  have : ∀ b : Bus, (if (b.diagValues mode).1.fault then some (b.diagValues mode).1.yf else none)
      = (match mode with | .faultOff => none | _ => if b.fault then some b.yf else none) := by
    intro b
    obtain ⟨_, _, _, h4, h5⟩ := diagValues_bus mode b
    rw [h4, h5]
    cases mode <;> simp
  cases mode <;> simp only [List.map_map, Function.comp_def, this]

theorem op_faults (s : State) (op : Op) (s' : State) (h : op.run s = some s') : faults s' = faultStep (faults s) op := by
  cases op with
  | faultOn bus y =>
    simp only [Op.run, Option.some.injEq] at h
    subst h
    rw [faults_increment]
    simp only [faults, setFault, faultStep]
    apply List.ext_getElem?
    intro i
    simp only [List.getElem?_map, List.getElem?_mapIdx]
    cases s.buses[i]? with
    | none => rfl
    | some b => simp only [Option.map_some]; split <;> simp
  | faultOff =>
    simp only [Op.run, Option.some.injEq] at h
    subst h
    rw [faults_increment]
    rfl
  | line frm too tag st =>
    simp only [Op.run] at h
    cases hk : branchIndices s frm too with
    | nil => rw [hk] at h; cases h
    | cons k ks =>
      rw [hk] at h
      simp only [Option.some.injEq] at h
      subst h
      rw [faults_increment]
      simp only [faultStep]
      unfold setLineStatus
      cases s.branches[k]? with
      | none => rfl
      | some b =>
        simp only
        split
        · unfold faults
          apply List.ext_getElem?
          intro a
          simp only [List.getElem?_map, insertDiag_get]
          cases s.buses[a]? with
          | none => rfl
          | some x => simp only [Option.map_some]; split <;> split <;> rfl
        · rfl
  | gen bus tag st =>
    simp only [Op.run] at h
    cases hb : s.buses[bus]? with
    | none =>
      rw [hb] at h
      simp only [Option.some.injEq] at h
      subst h
      rw [faults_increment]
      rfl
    | some b =>
      rw [hb] at h
      cases hg : b.setGenStatus tag st with
      | none => simp only [hg] at h; cases h
      | some b' =>
        simp only [hg, Option.some.injEq] at h
        subst h
        rw [faults_increment]
        simp only [faultStep]
        have hb' : b'.fault = b.fault ∧ b'.yf = b.yf := by
          unfold Bus.setGenStatus at hg
          cases hgf : b.gens.find? (fun g => g.tag = tag) with
          | none => rw [hgf] at hg; cases hg
          | some g =>
            rw [hgf] at hg
            simp only at hg
            split at hg
            · simp only [Option.some.injEq] at hg; subst hg; exact ⟨rfl, rfl⟩
            · simp only [Option.some.injEq] at hg; subst hg; exact ⟨rfl, rfl⟩
        unfold faults
        apply List.ext_getElem?
        intro a
        simp only [List.getElem?_map, List.getElem?_set]
        by_cases ha : bus = a
        · subst ha
          have hlt : bus < s.buses.length := by
            by_contra h
            rw [List.getElem?_eq_none_iff.mpr (by omega)] at hb
            cases hb
          rw [if_pos rfl, if_pos hlt, hb]
          simp [hb'.1, hb'.2]
        · rw [if_neg ha]

theorem runOps_faults (ops : List Op) (s s' : State) (h : runOps s ops = some s') :
    faults s' = ops.foldl faultStep (faults s) := by
  induction ops generalizing s with
  | nil =>
    simp only [runOps, List.foldlM_nil, Option.pure_def, Option.some.injEq] at h
    subst h
    rfl
  | cons op ops ih =>
    simp only [runOps, List.foldlM_cons, Option.bind_eq_bind, Option.bind_eq_some_iff] at h
    obtain ⟨s1, h1, h2⟩ := h
    rw [List.foldl_cons, ← op_faults s op s1 h1]
    exact ih s1 h2

/-- A fault that begins in step `a` and ends in step `b`. -/
def Event.during (dt : ℝ) (a b : Nat) : Event → Prop
  | .fault start stop _ _ => Timed dt start stop a b
  | _ => False

/-- Every fault begins and ends at a step of the simulation, and ends after it began. -/
def OnGrid (dt : ℝ) (events : List Event) : Prop :=
  ∀ start stop bus y, Event.fault start stop bus y ∈ events → ∃ a b, Timed dt start stop a b

/-- No two faults overlap or meet. -/
def Disjoint (dt : ℝ) (events : List Event) : Prop :=
  events.Pairwise (fun e e' => ∀ a b a' b', e.during dt a b → e'.during dt a' b' → b < a' ∨ b' < a)

/-- Not a fault event. -/
def Op.quiet : Op → Prop
  | .faultOn _ _ => False
  | .faultOff => False
  | _ => True

theorem disjoint_mid (dt : ℝ) (pre post : List Event) (e : Event) (h : Disjoint dt (pre ++ e :: post)) (e' : Event)
    (he' : e' ∈ pre ∨ e' ∈ post) (a b a' b' : Nat) (h1 : e.during dt a b) (h2 : e'.during dt a' b') : b < a' ∨ b' < a := by
  unfold Disjoint at h
  rw [List.pairwise_append, List.pairwise_cons] at h
  rcases he' with he' | he'
  · exact (h.2.2 e' he' e (by simp) a' b' a b h2 h1).symm
  · exact h.2.1.1 e' he' a b a' b' h1 h2

theorem quiet_filterMap (dt : ℝ) (hdt : 2e-6 < dt) (events : List Event) (hg : OnGrid dt events) (k : Nat)
    (h : ∀ e ∈ events, ∀ a b, e.during dt a b → a ≠ k ∧ b ≠ k) :
    ∀ op ∈ events.filterMap (fun e => e.op (k * dt)), op.quiet := by
  intro op hop
  obtain ⟨e, he, h1⟩ := List.mem_filterMap.mp hop
  cases e with
  | fault start stop bus y =>
    exfalso
    obtain ⟨a, b, ht⟩ := hg start stop bus y he
    obtain ⟨ha, hb⟩ := h _ he a b ht
    rw [C107_fault_partial dt hdt start stop bus y a b (by have := ht.later; omega) ht.begins ht.ends,
      if_neg ha.symm, if_neg hb.symm] at h1
    cases h1
  | line time frm too tag st =>
    simp only [Event.op] at h1
    split at h1
    · simp only [Option.some.injEq] at h1; subst h1; trivial
    · cases h1
  | gen time bus tag st =>
    simp only [Event.op] at h1
    split at h1
    · simp only [Option.some.injEq] at h1; subst h1; trivial
    · cases h1

/-- The fault events of one step. -/
theorem step_cases (dt : ℝ) (hdt : 2e-6 < dt) (events : List Event) (hg : OnGrid dt events) (hd : Disjoint dt events)
    (k : Nat) :
    ((∀ e ∈ events, ∀ a b, e.during dt a b → a ≠ k ∧ b ≠ k) ∧
      ∀ op ∈ events.filterMap (fun e => e.op (k * dt)), op.quiet) ∨
    ∃ start stop bus y a b l1 l2, Event.fault start stop bus y ∈ events ∧ Timed dt start stop a b ∧ (a = k ∨ b = k) ∧
      (∀ e ∈ events, ∀ a' b', e.during dt a' b' → e = .fault start stop bus y ∨ b < a' ∨ b' < a) ∧
      (∀ op ∈ l1, op.quiet) ∧ (∀ op ∈ l2, op.quiet) ∧
      events.filterMap (fun e => e.op (k * dt)) = l1 ++ (if a = k then .faultOn bus y else .faultOff) :: l2 := by
  by_cases h : ∀ e ∈ events, ∀ a b, e.during dt a b → a ≠ k ∧ b ≠ k
  · exact Or.inl ⟨h, quiet_filterMap dt hdt events hg k h⟩
  right
  push Not at h
  obtain ⟨e, he, a, b, hab, hk⟩ := h
  cases e with
  | line time frm too tag st => exact hab.elim
  | gen time bus tag st => exact hab.elim
  | fault start stop bus y =>
    have hk' : a = k ∨ b = k := by by_cases h : a = k; exact Or.inl h; exact Or.inr (hk h)
    have hlt : a < b := Timed.later hab
    obtain ⟨pre, post, rfl⟩ := List.append_of_mem he
    have hq : ∀ e', (e' ∈ pre ∨ e' ∈ post) → ∀ a' b', e'.during dt a' b' → a' ≠ k ∧ b' ≠ k := by
      intro e' he' a' b' h'
      have h1 := disjoint_mid dt pre post _ hd e' he' a b a' b' hab h'
      have h2 : a' < b' := by
        cases e' with
        | fault _ _ _ _ => exact Timed.later h'
        | line _ _ _ _ _ => exact h'.elim
        | gen _ _ _ _ => exact h'.elim
      omega
    refine ⟨start, stop, bus, y, a, b, pre.filterMap (fun e => e.op (k * dt)), post.filterMap (fun e => e.op (k * dt)),
      he, hab, hk', ?_, ?_, ?_, ?_⟩
    · intro e' he' a' b' h'
      rw [List.mem_append, List.mem_cons] at he'
      rcases he' with he' | he' | he'
      · exact Or.inr (disjoint_mid dt pre post _ hd e' (Or.inl he') a b a' b' hab h')
      · exact Or.inl he'
      · exact Or.inr (disjoint_mid dt pre post _ hd e' (Or.inr he') a b a' b' hab h')
    · exact quiet_filterMap dt hdt pre (fun _ _ _ _ h => hg _ _ _ _ (List.mem_append_left _ h)) k
        (fun e he => hq e (Or.inl he))
    · exact quiet_filterMap dt hdt post (fun _ _ _ _ h => hg _ _ _ _ (List.mem_append_right _ (List.mem_cons_of_mem _ h))) k
        (fun e he => hq e (Or.inr he))
    · have hop : (Event.fault start stop bus y).op (k * dt) = some (if a = k then .faultOn bus y else .faultOff) := by
        rw [C107_fault_partial dt hdt start stop bus y a b (by omega) (Timed.begins hab) (Timed.ends hab)]
        by_cases h : a = k
        · rw [if_pos h.symm, if_pos h]
        · rw [if_neg (fun h' => h h'.symm), if_neg h, if_pos (by omega)]
      rw [List.filterMap_append, List.filterMap_cons_some hop]

theorem quiet_fold (ops : List Op) (h : ∀ op ∈ ops, op.quiet) (f : List (Option ℂ)) : ops.foldl faultStep f = f := by
  induction ops generalizing f with
  | nil => rfl
  | cons op ops ih =>
    rw [List.foldl_cons, ih (fun o ho => h o (List.mem_cons_of_mem _ ho))]
    have := h op (by simp)
    cases op <;> first | rfl | exact this.elim

theorem during_unique (dt : ℝ) (hdt : 2e-6 < dt) (start stop : ℝ) (a b a' b' : Nat) (h : Timed dt start stop a b)
    (h' : Timed dt start stop a' b') : a' = a ∧ b' = b :=
  ⟨grid_unique dt hdt start a a' h.begins h'.begins, grid_unique dt hdt stop b b' h.ends h'.ends⟩

/-- A fault with admittance `y` at bus `i` is in force after `n` steps: it began in one of them and did not end. -/
def InForce (dt : ℝ) (events : List Event) (n i : Nat) (y : ℂ) : Prop :=
  ∃ start stop, Event.fault start stop i y ∈ events ∧ ∃ a b, Timed dt start stop a b ∧ a < n ∧ n ≤ b

theorem opsUpTo_succ (events : List Event) (dt : ℝ) (n : Nat) :
    opsUpTo events dt (n + 1) = opsUpTo events dt n ++ events.filterMap (fun e => e.op (n * dt)) := by
  simp only [opsUpTo, List.range_succ, List.flatMap_append, List.flatMap_cons, List.flatMap_nil, List.append_nil]

theorem faultStep_length (ops : List Op) (f : List (Option ℂ)) : (ops.foldl faultStep f).length = f.length := by
  induction ops generalizing f with
  | nil => rfl
  | cons op ops ih => rw [List.foldl_cons, ih]; cases op <;> simp [faultStep]

theorem faults_fold (dt : ℝ) (hdt : 2e-6 < dt) (events : List Event) (hg : OnGrid dt events) (hd : Disjoint dt events)
    (f : List (Option ℂ)) (hf : ∀ x ∈ f, x = none) (n i : Nat) (y : ℂ) :
    ((opsUpTo events dt n).foldl faultStep f)[i]? = some (some y) ↔ i < f.length ∧ InForce dt events n i y := by
  induction n generalizing i y with
  | zero =>
    constructor
    · intro h
      have := hf _ (List.mem_of_getElem? h)
      cases this
    · rintro ⟨_, _, _, _, a, b, _, h, _⟩
      omega
  | succ k ih =>
    rw [opsUpTo_succ, List.foldl_append]
    have hlen : ((opsUpTo events dt k).foldl faultStep f).length = f.length := faultStep_length _ _
    rcases step_cases dt hdt events hg hd k with ⟨hno, hq⟩ | ⟨start, stop, bus, y0, a, b, l1, l2, he, ht, hk, hdis, q1, q2, hl⟩
    · rw [quiet_fold _ hq, ih]
      refine and_congr_right (fun _ => ?_)
      constructor
      · rintro ⟨s1, s2, hm, a, b, h1, h2, h3⟩
        have := hno _ hm a b h1
        exact ⟨s1, s2, hm, a, b, h1, by omega, by omega⟩
      · rintro ⟨s1, s2, hm, a, b, h1, h2, h3⟩
        have := hno _ hm a b h1
        exact ⟨s1, s2, hm, a, b, h1, by omega, by omega⟩
    · have hlt := ht.later
      rw [hl, List.foldl_append, quiet_fold _ q1, List.foldl_cons, quiet_fold _ q2]
      rcases hk with hk | hk
      · subst hk
        rw [if_pos rfl]
        simp only [faultStep, List.getElem?_mapIdx]
        by_cases hi : i = bus
        · subst hi
          constructor
          · intro h
            rw [Option.map_eq_some_iff] at h
            obtain ⟨x, hx, h⟩ := h
            rw [if_pos rfl, Option.some.injEq] at h
            subst h
            refine ⟨?_, start, stop, he, a, b, ht, by omega, by omega⟩
            have : i < ((opsUpTo events dt a).foldl faultStep f).length := by
              by_contra hc
              rw [List.getElem?_eq_none_iff.mpr (by omega)] at hx
              cases hx
            omega
          · rintro ⟨hi, s1, s2, hm, a', b', h1, h2, h3⟩
            rw [List.getElem?_eq_getElem (by omega), Option.map_some, if_pos rfl]
            rcases hdis _ hm a' b' h1 with h | h | h
            · simp only [Event.fault.injEq] at h
              rw [h.2.2.2]
            · omega
            · omega
        · have : ((opsUpTo events dt a).foldl faultStep f)[i]?.map (fun x => if i = bus then some y0 else x)
              = ((opsUpTo events dt a).foldl faultStep f)[i]? := by
            simp only [if_neg hi, Option.map_id']
          rw [this, ih]
          refine and_congr_right (fun _ => ?_)
          constructor
          · rintro ⟨s1, s2, hm, a', b', h1, h2, h3⟩
            rcases hdis _ hm a' b' h1 with h | h | h
            · simp only [Event.fault.injEq] at h
              exact absurd h.2.2.1 hi
            · exact ⟨s1, s2, hm, a', b', h1, by omega, by omega⟩
            · exact ⟨s1, s2, hm, a', b', h1, by omega, by omega⟩
          · rintro ⟨s1, s2, hm, a', b', h1, h2, h3⟩
            rcases hdis _ hm a' b' h1 with h | h | h
            · simp only [Event.fault.injEq] at h
              exact absurd h.2.2.1 hi
            · omega
            · omega
      · subst hk
        rw [if_neg (by omega)]
        simp only [faultStep, List.getElem?_map]
        constructor
        · intro h
          rw [Option.map_eq_some_iff] at h
          obtain ⟨x, hx, h⟩ := h
          cases h
        · rintro ⟨hi, s1, s2, hm, a', b', h1, h2, h3⟩
          rcases hdis _ hm a' b' h1 with h | h | h
          · simp only [Event.fault.injEq] at h
            rw [h.1, h.2.1] at h1
            have := during_unique dt hdt start stop a b a' b' ht h1
            omega
          · omega
          · omega

theorem faults_get (s : State) (i : Nat) (y : ℂ) :
    (faults s)[i]? = some (some y) ↔ ∃ b, s.buses[i]? = some b ∧ b.fault = true ∧ b.yf = y := by
  unfold faults
  rw [List.getElem?_map, Option.map_eq_some_iff]
  refine exists_congr (fun b => and_congr_right (fun _ => ?_))
  by_cases h : b.fault = true <;> simp [h]

/-- **C106** After any number of steps of a simulation a bus is faulted, with a certain admittance, exactly if a fault
event with that admittance at that bus has begun and not yet ended.

Partial: all faults begin and end at steps of the simulation and no two of them overlap or meet. -/
theorem C106_faults_partial (dt : ℝ) (hdt : 2e-6 < dt) (events : List Event) (hg : OnGrid dt events)
    (hd : Disjoint dt events) (s : State) (hn : NoFault s) (n : Nat) (s' : State) (h : steps events dt s n = some s')
    (i : Nat) (y : ℂ) :
    (∃ b, s'.buses[i]? = some b ∧ b.fault = true ∧ b.yf = y) ↔ i < s.buses.length ∧ InForce dt events n i y := by
  rw [← faults_get, runOps_faults _ s s' (by rw [← steps_eq]; exact h), faults_fold dt hdt events hg hd]
  · rw [show (faults s).length = s.buses.length by simp [faults]]
  · intro x hx
    obtain ⟨b, hb, rfl⟩ := List.mem_map.mp hx
    rw [hn b hb]
    rfl

/-! The matrix in the course of a simulation. -/

theorem separate_quiet (on : Bool) (l rest : List Op) (h : ∀ op ∈ l, op.quiet) (hr : Separate on rest) :
    Separate on (l ++ rest) := by
  induction l with
  | nil => exact hr
  | cons op l ih =>
    have h1 := h op (by simp)
    have h2 := ih (fun o ho => h o (List.mem_cons_of_mem _ ho))
    cases op <;> first | exact h1.elim | exact h2

/-- Whether a fault is on after a sequence of events. -/
def phase : Bool → List Op → Bool
  | on, [] => on
  | _, .faultOn _ _ :: l => phase true l
  | _, .faultOff :: l => phase false l
  | on, _ :: l => phase on l

theorem phase_append (on : Bool) (l m : List Op) : phase on (l ++ m) = phase (phase on l) m := by
  induction l generalizing on with
  | nil => rfl
  | cons op l ih => cases op <;> exact ih _

theorem phase_quiet (on : Bool) (l : List Op) (h : ∀ op ∈ l, op.quiet) : phase on l = on := by
  induction l with
  | nil => rfl
  | cons op l ih =>
    have h1 := h op (by simp)
    have h2 := ih (fun o ho => h o (List.mem_cons_of_mem _ ho))
    cases op <;> first | exact h1.elim | exact h2

theorem separate_append (on : Bool) (l m : List Op) (hl : Separate on l) (hm : Separate (phase on l) m) :
    Separate on (l ++ m) := by
  induction l generalizing on with
  | nil => exact hm
  | cons op l ih =>
    cases op with
    | faultOn bus y => exact ⟨hl.1, ih true hl.2 hm⟩
    | faultOff => exact ih false hl hm
    | line _ _ _ _ => exact ih on hl hm
    | gen _ _ _ => exact ih on hl hm

theorem opsUpTo_separate (dt : ℝ) (hdt : 2e-6 < dt) (events : List Event) (hg : OnGrid dt events)
    (hd : Disjoint dt events) (n : Nat) :
    Separate false (opsUpTo events dt n) ∧ (phase false (opsUpTo events dt n) = true → ∃ i y, InForce dt events n i y) := by
  induction n with
  | zero => exact ⟨trivial, fun h => by cases h⟩
  | succ k ih =>
    obtain ⟨h1, h2⟩ := ih
    rw [opsUpTo_succ]
    rcases step_cases dt hdt events hg hd k with ⟨hno, hq⟩ | ⟨start, stop, bus, y0, a, b, l1, l2, he, ht, hk, hdis, q1, q2, hl⟩
    · refine ⟨separate_append _ _ _ h1 (by simpa using separate_quiet _ _ [] hq trivial), ?_⟩
      rw [phase_append, phase_quiet _ _ hq]
      intro h
      obtain ⟨i, y, s1, s2, hm, a, b, g1, g2, g3⟩ := h2 h
      have := hno _ hm a b g1
      exact ⟨i, y, s1, s2, hm, a, b, g1, by omega, by omega⟩
    · have hlt := ht.later
      rw [hl]
      by_cases ha : a = k
      · rw [if_pos ha]
        have hoff : phase false (opsUpTo events dt k) = false := by
          by_contra hc
          obtain ⟨i, y, s1, s2, hm, a', b', g1, g2, g3⟩ := h2 (by simpa using hc)
          rcases hdis _ hm a' b' g1 with h | h | h
          · simp only [Event.fault.injEq] at h
            rw [h.1, h.2.1] at g1
            have := during_unique dt hdt start stop a b a' b' ht g1
            omega
          · omega
          · omega
        refine ⟨separate_append _ _ _ h1 (separate_quiet _ _ _ q1 ?_), fun _ => ?_⟩
        · exact ⟨hoff, by simpa using separate_quiet true l2 [] q2 trivial⟩
        · exact ⟨bus, y0, start, stop, he, a, b, ht, by omega, by omega⟩
      · rw [if_neg ha]
        refine ⟨separate_append _ _ _ h1 (separate_quiet _ _ _ q1 ?_), ?_⟩
        · exact (by simpa using separate_quiet false l2 [] q2 trivial : Separate false l2)
        · rw [phase_append, phase_append, phase_quiet _ _ q1]
          intro h
          have : phase (phase false (opsUpTo events dt k)) (Op.faultOff :: l2) = false := phase_quiet false l2 q2
          rw [this] at h
          cases h

/-- **C105** in the course of a simulation: after every step the matrix is that of the network.

Partial: as for `C105_matrix_partial` and `C106_faults_partial`. -/
theorem C105_simulation_partial (dt : ℝ) (hdt : 2e-6 < dt) (events : List Event) (hg : OnGrid dt events)
    (hd : Disjoint dt events) (base : Nat → Nat → ℂ) (s : State) (hs : Settled s) (hp : Proper s) (hn : NoFault s)
    (hm : ∀ i j, s.m i j = base i j + s.network i j) (n : Nat) (s' : State) (h : steps events dt s n = some s')
    (i j : Nat) : s'.m i j = base i j + s'.network i j :=
  C105_matrix_partial base s hs hp hn hm _ (opsUpTo_separate dt hdt events hg hd n).1 s' (by rw [← steps_eq]; exact h) i j

/-! A network of two buses with two parallel circuits and a generator, and its matrix. -/
section Example

def exCircuit (tag : Char) (status : Bool) : Circuit :=
  ⟨[tag, ' '], status, status, 1, -1, -1, 1, 1⟩

def exState : State :=
  let s : State := ⟨[⟨false, 0, 0, false, 0, false, 0, [⟨['1', ' '], true, 5⟩]⟩, ⟨false, 0, 0, false, 0, false, 0, []⟩],
    [⟨0, 1, true, [exCircuit '1' true, exCircuit '2' false], false, 0, 0⟩], fun _ _ => 0⟩
  { s with m := s.network }

theorem exState_settled : Settled exState := by
  constructor <;> simp [exState]

theorem exState_proper : Proper exState := by
  constructor <;> simp [exState]

theorem exState_noFault : NoFault exState := by
  simp [NoFault, exState]

def exOps : List Op := [.faultOn 1 1000, .line 0 1 ['1', ' '] false, .faultOff, .line 1 0 ['2', ' '] true, .gen 0 ['1', ' '] false]

example : Separate false exOps := ⟨rfl, trivial⟩

example : (runOps exState exOps).isSome = true := by
  simp [runOps, exOps, exState, exCircuit, Op.run, increment, loadBuses, loadBranches, Bus.diagValues, setFault,
    branchIndices, List.range_succ, setLineStatus, lineStatus, elements, insertDiag, setStatus, Branch.forward,
    Branch.reverse, Bus.setGenStatus]

example (s' : State) (h : runOps exState exOps = some s') (i j : Nat) : s'.m i j = s'.network i j := by
  have := C105_matrix_partial (fun _ _ => 0) exState exState_settled exState_proper exState_noFault
    (by intro i j; rw [zero_add]; rfl) exOps ⟨rfl, trivial⟩ s' h i j
  rwa [zero_add] at this

/-- Two faults, one after the other. -/
def exEvents : List Event := [.fault 0.02 0.03 1 1000, .line 0.03 0 1 ['1', ' '] false, .fault 0.05 0.07 0 1000]

theorem exTimed : Timed 0.01 0.02 0.03 2 3 ∧ Timed 0.01 0.05 0.07 5 7 := by
  refine ⟨⟨?_, ?_, by omega⟩, ⟨?_, ?_, by omega⟩⟩ <;> norm_num

example : OnGrid 0.01 exEvents := by
  intro start stop bus y h
  simp only [exEvents, List.mem_cons, Event.fault.injEq, List.not_mem_nil, or_false, false_or, reduceCtorEq] at h
  rcases h with ⟨rfl, rfl, _⟩ | ⟨rfl, rfl, _⟩
  · exact ⟨2, 3, exTimed.1⟩
  · exact ⟨5, 7, exTimed.2⟩

example : Disjoint 0.01 exEvents := by
  unfold Disjoint exEvents
  simp only [List.pairwise_cons, List.mem_cons, List.not_mem_nil, or_false]
  refine ⟨?_, ?_, by simp, List.Pairwise.nil⟩
  · rintro e (rfl | rfl) a b a' b' h h'
    · exact h'.elim
    · have h1 := during_unique 0.01 (by norm_num) _ _ _ _ _ _ exTimed.1 h
      have h2 := during_unique 0.01 (by norm_num) _ _ _ _ _ _ exTimed.2 h'
      omega
  · rintro e rfl a b a' b' h h'
    exact h.elim

end Example

/-! #### Where the matrix does not follow -/

/-- **C105, violated**: if a second fault begins at another bus before the first one has ended, the admittance of the
first fault is subtracted twice; the end of either fault ends both, and afterwards the first fault is still in the
matrix though no bus is faulted. -/
theorem C105_overlap_violated (s : State) (b1 b2 : Nat) (y1 y2 : ℂ) (hb : b1 ≠ b2)
    (h1 : b1 < s.buses.length) :
    (∃ s', runOps s [.faultOn b1 y1, .faultOn b2 y2] = some s' ∧ s'.m b1 b1 = s.m b1 b1 - 2 * y1) ∧
    ∃ s', runOps s [.faultOn b1 y1, .faultOn b2 y2, .faultOff] = some s' ∧ NoFault s' ∧
      s'.m b1 b1 = s.m b1 b1 - y1 := by
  obtain ⟨b, hbb⟩ : ∃ b, s.buses[b1]? = some b := ⟨_, List.getElem?_eq_getElem h1⟩
  have e1 : ∀ (mode : Mode) (s : State), mode ≠ .lineStatus → (increment mode s).m b1 b1 = s.m b1 b1 +
      (((s.buses[b1]?).map (fun b => (b.diagValues mode).2.getD 0)).getD 0) := by
    intro mode s hm
    rw [(increment_spec mode s).2.2]
    rw [sum_zero (fun x : Branch => x.added mode b1 b1) s.branches
      (by intro x _; cases mode <;> first | exact absurd rfl hm | simp [Branch.added, Branch.forward, Branch.reverse])]
    simp
  have hm1 : (Op.faultOn b1 y1).run s = some (increment .faultOn (setFault b1 y1 s)) := rfl
  set s1 := increment .faultOn (setFault b1 y1 s) with hs1
  have hm2 : (Op.faultOn b2 y2).run s1 = some (increment .faultOn (setFault b2 y2 s1)) := rfl
  set s2 := increment .faultOn (setFault b2 y2 s1) with hs2
  have g1 : s1.buses[b1]? = some { b with fault := true, yf := y1 } := by
    rw [hs1, (increment_spec _ _).1]
    simp [setFault, List.getElem?_mapIdx, hbb, Bus.diagValues]
  have g2 : s2.buses[b1]? = some { b with fault := true, yf := y1 } := by
    rw [hs2, (increment_spec _ _).1]
    simp only [setFault, List.getElem?_map, List.getElem?_mapIdx, g1, Option.map_some, if_neg hb]
    simp [Bus.diagValues]
  have v1 : s1.m b1 b1 = s.m b1 b1 - y1 := by
    rw [hs1, e1 _ _ (by simp)]
    simp [setFault, List.getElem?_mapIdx, hbb, Bus.diagValues]
    ring
  have v2 : s2.m b1 b1 = s.m b1 b1 - 2 * y1 := by
    rw [hs2, e1 _ _ (by simp)]
    simp only [setFault, List.getElem?_mapIdx, g1, Option.map_some, if_neg hb]
    simp only [Bus.diagValues, if_true, Option.getD_some]
    rw [v1]
    ring
  refine ⟨⟨s2, rfl, v2⟩, increment .faultOff s2, rfl, noFault_increment _ _ (Or.inr rfl), ?_⟩
  rw [e1 _ _ (by simp), g2, v2]
  simp only [Option.map_some, Bus.diagValues, if_true, Option.getD_some]
  ring

/-- **C106, violated**: a fault whose end is not later than its beginning (both are 0 if they are not given) never
ends: no step in which its event is handled removes a fault. -/
theorem C106_never_ends_violated (start : ℝ) (bus : Nat) (y : ℂ) (t : ℝ) :
    (Event.fault start start bus y).op t ≠ some .faultOff := by
  simp only [Event.op]
  split
  · simp
  · simp

/-- **C105, violated**: closing a circuit of a branch that had no circuit in service when it was loaded changes the
two diagonal elements but not the elements that connect the buses. -/
theorem C105_inactive_violated (s : State) (hs : Settled s) (k : Nat) (b : Branch) (hk : s.branches[k]? = some b)
    (hact : b.active = false) (h12 : b.bus1 ≠ b.bus2) (h1 : b.bus1 < s.buses.length) (c : Circuit) (tag : List Char)
    (hc : b.cks.find? (fun c => c.tag = tag) = some c) (hoff : c.status = false) :
    let s' := increment .lineStatus (setLineStatus k tag true s)
    s'.m b.bus1 b.bus1 = s.m b.bus1 b.bus1 + c.yii ∧ s'.m b.bus1 b.bus2 = s.m b.bus1 b.bus2 := by
  obtain ⟨x, hx⟩ : ∃ x, s.buses[b.bus1]? = some x := ⟨_, List.getElem?_eq_getElem h1⟩
  have hl : lineStatus b.cks tag = false := by simp [lineStatus, hc, hoff]
  have he : elements b.cks tag = (c.yii, c.yij, c.yji, c.yjj) := by simp [elements, hc]
  have hz : ∀ i j, (((setLineStatus k tag true s).branches).map (fun x => x.added .lineStatus i j)).sum = 0 := by
    intro i j
    apply sum_zero
    intro y hy
    simp only [setLineStatus, hk, hl] at hy
    rcases List.mem_or_eq_of_mem_set hy with hy | rfl
    · exact added_zero _ _ (hs.branches y hy) _ _
    · simp [Branch.added, Branch.forward, Branch.reverse, hact]
  simp only
  rw [(increment_spec _ _).2.2, (increment_spec _ _).2.2, hz, hz]
  constructor
  · simp only [setLineStatus, hk, hl, he]
    simp [Bus.diagValues, insertDiag_get, hx, h12]
  · simp [setLineStatus, hk, hl, h12]

/-! ### C106, C107: what an event changes -/

/-- Status of the generators with an id at a bus. -/
def genStatus (gens : List Gen) (tag : List Char) : Option Bool := (gens.find? (fun g => g.tag = tag)).map (·.status)

theorem find_setStatus (tag tag' : List Char) (st : Bool) (cks : List Circuit) :
    (setStatus tag st cks).find? (fun c => c.tag = tag') =
      (cks.find? (fun c => c.tag = tag')).map (fun c => if tag' = tag then { c with status := st } else c) := by
  induction cks with
  | nil => rfl
  | cons c cs ih =>
    simp only [setStatus]
    by_cases h : c.tag = tag
    · rw [if_pos h]
      by_cases h' : c.tag = tag'
      · rw [List.find?_cons_of_pos (by simpa using h'), List.find?_cons_of_pos (by simpa using h')]
        simp [h.symm.trans h']
      · rw [List.find?_cons_of_neg (by simpa using h'), List.find?_cons_of_neg (by simpa using h')]
        have : tag' ≠ tag := fun e => h' (by rw [h, e])
        simp [this]
    · rw [if_neg h]
      by_cases h' : c.tag = tag'
      · rw [List.find?_cons_of_pos (by simpa using h'), List.find?_cons_of_pos (by simpa using h')]
        have : tag' ≠ tag := fun e => h (by rw [h', e])
        simp [this]
      · rw [List.find?_cons_of_neg (by simpa using h'), List.find?_cons_of_neg (by simpa using h')]
        exact ih

theorem find_setGens (tag tag' : List Char) (st : Bool) (gens : List Gen) :
    (setGens tag st gens).find? (fun c => c.tag = tag') =
      (gens.find? (fun c => c.tag = tag')).map (fun c => if tag' = tag then { c with status := st } else c) := by
  induction gens with
  | nil => rfl
  | cons c cs ih =>
    simp only [setGens]
    by_cases h : c.tag = tag
    · rw [if_pos h]
      by_cases h' : c.tag = tag'
      · rw [List.find?_cons_of_pos (by simpa using h'), List.find?_cons_of_pos (by simpa using h')]
        simp [h.symm.trans h']
      · rw [List.find?_cons_of_neg (by simpa using h'), List.find?_cons_of_neg (by simpa using h')]
        have : tag' ≠ tag := fun e => h' (by rw [h, e])
        simp [this]
    · rw [if_neg h]
      by_cases h' : c.tag = tag'
      · rw [List.find?_cons_of_pos (by simpa using h'), List.find?_cons_of_pos (by simpa using h')]
        have : tag' ≠ tag := fun e => h (by rw [h', e])
        simp [this]
      · rw [List.find?_cons_of_neg (by simpa using h'), List.find?_cons_of_neg (by simpa using h')]
        exact ih

/-- Branch `k` has a circuit with the id, in this status. -/
def Circ (s : State) (k : Nat) (tag : List Char) (st : Bool) : Prop :=
  ∃ b c, s.branches[k]? = some b ∧ b.cks.find? (fun c => c.tag = tag) = some c ∧ c.status = st

theorem circ_increment (mode : Mode) (s : State) (k : Nat) (tag : List Char) (st : Bool) :
    Circ (increment mode s) k tag st ↔ Circ s k tag st := by
  unfold Circ
  rw [(increment_spec mode s).2.1, List.getElem?_map]
  constructor
  · rintro ⟨b, c, h1, h2, h3⟩
    rw [Option.map_eq_some_iff] at h1
    obtain ⟨b0, hb0, rfl⟩ := h1
    rw [(reverse_branch mode b0).2.2.2.1] at h2
    exact ⟨b0, c, hb0, h2, h3⟩
  · rintro ⟨b, c, h1, h2, h3⟩
    exact ⟨_, c, by rw [h1]; rfl, by rw [(reverse_branch mode b).2.2.2.1]; exact h2, h3⟩

theorem circ_setLineStatus (s : State) (k : Nat) (tag : List Char) (st : Bool) (k' : Nat) (tag' : List Char) (st' : Bool) :
    Circ (setLineStatus k tag st s) k' tag' st' ↔
      if k' = k ∧ tag' = tag then (∃ x, Circ s k tag x) ∧ st' = st else Circ s k' tag' st' := by
  unfold setLineStatus
  cases hk : s.branches[k]? with
  | none =>
    simp only
    split_ifs with h
    · obtain ⟨rfl, rfl⟩ := h
      constructor
      · rintro ⟨b, _, h, _⟩; rw [hk] at h; cases h
      · rintro ⟨⟨_, b, _, h, _⟩, _⟩; rw [hk] at h; cases h
    · rfl
  | some b =>
    simp only
    by_cases hd : lineStatus b.cks tag != st
    · rw [if_pos hd]
      by_cases hkk : k' = k
      · subst hkk
        have hlt : k' < s.branches.length := by
          by_contra hc
          rw [List.getElem?_eq_none_iff.mpr (by omega)] at hk
          cases hk
        unfold Circ
        simp only [List.getElem?_set, if_true, if_pos hlt, Option.some.injEq, hk]
        constructor
        · rintro ⟨_, c, rfl, h2, h3⟩
          simp only [find_setStatus, Option.map_eq_some_iff] at h2
          obtain ⟨c0, h4, rfl⟩ := h2
          by_cases ht : tag' = tag
          · subst ht
            rw [if_pos ⟨trivial, rfl⟩]
            simp only [if_true] at h3
            exact ⟨⟨_, b, c0, rfl, h4, rfl⟩, h3.symm⟩
          · rw [if_neg (fun h => ht h.2)]
            simp only [if_neg ht] at h3
            exact ⟨b, c0, rfl, h4, h3⟩
        · intro h
          by_cases ht : tag' = tag
          · subst ht
            rw [if_pos ⟨trivial, rfl⟩] at h
            obtain ⟨⟨_, _, c0, rfl, h4, _⟩, rfl⟩ := h
            refine ⟨_, { c0 with status := st' }, rfl, ?_, rfl⟩
            rw [find_setStatus, h4]
            simp
          · rw [if_neg (fun h => ht h.2)] at h
            obtain ⟨_, c0, rfl, h4, h5⟩ := h
            refine ⟨_, c0, rfl, ?_, h5⟩
            rw [find_setStatus, h4]
            simp [ht]
      · rw [if_neg (fun h : k' = k ∧ tag' = tag => hkk h.1)]
        unfold Circ
        simp only [List.getElem?_set, if_neg (fun h : k = k' => hkk h.symm)]
    · rw [if_neg hd]
      split_ifs with h
      · obtain ⟨rfl, rfl⟩ := h
        have hd' : lineStatus b.cks tag' = st := by simpa using hd
        unfold lineStatus at hd'
        constructor
        · rintro ⟨b', c, h1, h2, h3⟩
          rw [hk, Option.some.injEq] at h1
          subst h1
          rw [h2] at hd'
          exact ⟨⟨_, b, c, hk, h2, rfl⟩, by rw [← h3, ← hd']⟩
        · rintro ⟨⟨_, b', c, h1, h2, _⟩, rfl⟩
          have h1' := h1
          rw [hk, Option.some.injEq] at h1
          subst h1
          rw [h2] at hd'
          exact ⟨b, c, hk, h2, hd'⟩
      · rfl

theorem branchIndices_cons (s : State) (frm too k : Nat) (ks : List Nat) (h : branchIndices s frm too = k :: ks) :
    ∃ b, s.branches[k]? = some b ∧ ((b.bus1 = frm ∧ b.bus2 = too) ∨ (b.bus1 = too ∧ b.bus2 = frm)) := by
  have hk : k ∈ branchIndices s frm too := by rw [h]; simp
  unfold branchIndices at hk
  simp only at hk
  split at hk
  · rw [List.mem_filter] at hk
    obtain ⟨b, hb⟩ := (Option.any_eq_true _ _).mp hk.2
    simp only [Bool.and_eq_true, decide_eq_true_eq] at hb
    exact ⟨b, hb.1, Or.inr hb.2⟩
  · rw [List.mem_filter] at hk
    obtain ⟨b, hb⟩ := (Option.any_eq_true _ _).mp hk.2
    simp only [Bool.and_eq_true, decide_eq_true_eq] at hb
    exact ⟨b, hb.1, Or.inl hb.2⟩

/-- **C108** A line event sets the status of the named circuit of a branch between the two named buses, in whichever
order they are given, and of no other circuit of any branch.

Partial: a branch between the buses must exist (`C108_no_branch_violated`). -/
theorem C108_line_partial (s : State) (frm too : Nat) (tag : List Char) (st : Bool) (s' : State)
    (h : (Op.line frm too tag st).run s = some s') :
    ∃ k b, s.branches[k]? = some b ∧ ((b.bus1 = frm ∧ b.bus2 = too) ∨ (b.bus1 = too ∧ b.bus2 = frm)) ∧
      ∀ k' tag' st', Circ s' k' tag' st' ↔
        if k' = k ∧ tag' = tag then (∃ x, Circ s k tag x) ∧ st' = st else Circ s k' tag' st' := by
  simp only [Op.run] at h
  cases hk : branchIndices s frm too with
  | nil => rw [hk] at h; cases h
  | cons k ks =>
    rw [hk] at h
    simp only [Option.some.injEq] at h
    subst h
    obtain ⟨b, h1, h2⟩ := branchIndices_cons s frm too k ks hk
    exact ⟨k, b, h1, h2, fun k' tag' st' => by rw [circ_increment, circ_setLineStatus]⟩

/-- **C108, violated**: if there is no branch between the two buses, or the process does not hold it, the event reads
the first element of an empty list. -/
theorem C108_no_branch_violated (s : State) (frm too : Nat) (tag : List Char) (st : Bool)
    (h : ∀ b ∈ s.branches, ¬ (b.bus1 = frm ∧ b.bus2 = too) ∧ ¬ (b.bus1 = too ∧ b.bus2 = frm)) :
    (Op.line frm too tag st).run s = none := by
  simp only [Op.run]
  cases hk : branchIndices s frm too with
  | nil => rfl
  | cons k ks =>
    obtain ⟨b, h1, h2⟩ := branchIndices_cons s frm too k ks hk
    have := h b (List.mem_of_getElem? h1)
    tauto

/-- Bus `i` has a generator with the id, in this status. -/
def Unit (s : State) (i : Nat) (tag : List Char) (st : Bool) : Prop :=
  ∃ b g, s.buses[i]? = some b ∧ b.gens.find? (fun g => g.tag = tag) = some g ∧ g.status = st

theorem unit_increment (mode : Mode) (s : State) (i : Nat) (tag : List Char) (st : Bool) :
    Unit (increment mode s) i tag st ↔ Unit s i tag st := by
  unfold Unit
  rw [(increment_spec mode s).1, List.getElem?_map]
  constructor
  · rintro ⟨b, c, h1, h2, h3⟩
    rw [Option.map_eq_some_iff] at h1
    obtain ⟨b0, hb0, rfl⟩ := h1
    rw [(diagValues_bus mode b0).2.2.1] at h2
    exact ⟨b0, c, hb0, h2, h3⟩
  · rintro ⟨b, c, h1, h2, h3⟩
    exact ⟨_, c, by rw [h1]; rfl, by show List.find? _ (b.diagValues mode).1.gens = _; rw [(diagValues_bus mode b).2.2.1]; exact h2, h3⟩

/-- **C108** A generator event sets the status of the named generator and of no other.

Partial: the bus must have a generator with the id (`C108_no_generator_violated`). -/
theorem C108_generator_partial (s : State) (bus : Nat) (tag : List Char) (st : Bool) (s' : State)
    (h : (Op.gen bus tag st).run s = some s') (i : Nat) (tag' : List Char) (st' : Bool) :
    Unit s' i tag' st' ↔ if i = bus ∧ tag' = tag then (∃ x, Unit s bus tag x) ∧ st' = st else Unit s i tag' st' := by
  simp only [Op.run] at h
  cases hb : s.buses[bus]? with
  | none =>
    rw [hb] at h
    simp only [Option.some.injEq] at h
    subst h
    rw [unit_increment]
    split_ifs with hi
    · obtain ⟨rfl, rfl⟩ := hi
      constructor
      · rintro ⟨b, _, h, _⟩; rw [hb] at h; cases h
      · rintro ⟨⟨_, b, _, h, _⟩, _⟩; rw [hb] at h; cases h
    · rfl
  | some b =>
    rw [hb] at h
    cases hg : b.setGenStatus tag st with
    | none => simp only [hg] at h; cases h
    | some b' =>
      simp only [hg, Option.some.injEq] at h
      subst h
      rw [unit_increment]
      have hlt : bus < s.buses.length := by
        by_contra hc
        rw [List.getElem?_eq_none_iff.mpr (by omega)] at hb
        cases hb
      have hfind : ∀ tag', b'.gens.find? (fun g => g.tag = tag') =
          (b.gens.find? (fun g => g.tag = tag')).map (fun g => if tag' = tag then { g with status := st } else g) := by
        intro tag'
        unfold Bus.setGenStatus at hg
        cases hgf : b.gens.find? (fun g => g.tag = tag) with
        | none => rw [hgf] at hg; cases hg
        | some g =>
          rw [hgf] at hg
          simp only at hg
          by_cases hst : st != g.status
          · rw [if_pos hst] at hg
            simp only [Option.some.injEq] at hg
            subst hg
            exact find_setGens tag tag' st b.gens
          · rw [if_neg hst] at hg
            simp only [Option.some.injEq] at hg
            subst hg
            have hst' : st = g.status := by simpa using hst
            by_cases ht : tag' = tag
            · subst ht
              rw [hgf]
              simp [hst']
            · simp [ht]
      by_cases hi : i = bus
      · subst hi
        unfold Unit
        simp only [List.getElem?_set, if_true, if_pos hlt, hb, Option.some.injEq]
        constructor
        · rintro ⟨_, g, rfl, h2, h3⟩
          rw [hfind, Option.map_eq_some_iff] at h2
          obtain ⟨g0, h4, rfl⟩ := h2
          by_cases ht : tag' = tag
          · subst ht
            rw [if_pos ⟨trivial, rfl⟩]
            simp only [if_true] at h3
            exact ⟨⟨_, b, g0, rfl, h4, rfl⟩, h3.symm⟩
          · rw [if_neg (fun h => ht h.2)]
            simp only [if_neg ht] at h3
            exact ⟨b, g0, rfl, h4, h3⟩
        · intro h
          by_cases ht : tag' = tag
          · subst ht
            rw [if_pos ⟨trivial, rfl⟩] at h
            obtain ⟨⟨_, _, g0, rfl, h4, _⟩, rfl⟩ := h
            exact ⟨b', { g0 with status := st' }, rfl, by rw [hfind, h4]; simp, rfl⟩
          · rw [if_neg (fun h => ht h.2)] at h
            obtain ⟨_, g0, rfl, h4, h5⟩ := h
            exact ⟨b', g0, rfl, by rw [hfind, h4]; simp [ht], h5⟩
      · rw [if_neg (fun h => hi h.1)]
        unfold Unit
        simp only [List.getElem?_set, if_neg (fun h : bus = i => hi h.symm)]

/-- **C108, violated**: an event for a generator that the bus does not have reads the element before the first. -/
theorem C108_no_generator_violated (s : State) (bus : Nat) (b : Bus) (hb : s.buses[bus]? = some b) (tag : List Char)
    (h : ∀ g ∈ b.gens, g.tag ≠ tag) (st : Bool) : (Op.gen bus tag st).run s = none := by
  have : b.gens.find? (fun g => g.tag = tag) = none := by
    rw [List.find?_eq_none]
    intro g hg
    simpa using h g hg
  simp only [Op.run, hb, Bus.setGenStatus, this]

/-! ### C109: the end of the run -/

theorem runLoop_some (tend dt : ℝ) (fuel n r : Nat) (h : runLoop tend dt fuel n = some r) :
    n ≤ r ∧ |tend - r * dt| ≤ 1e-6 ∧ ∀ k, n ≤ k → k < r → |tend - k * dt| > 1e-6 := by
  induction fuel generalizing n with
  | zero =>
    simp only [runLoop] at h
    split at h
    · cases h
    · rename_i hh
      simp only [Option.some.injEq] at h
      subst h
      exact ⟨le_rfl, not_lt.mp hh, fun k h1 h2 => absurd h1 (by omega)⟩
  | succ fuel ih =>
    simp only [runLoop] at h
    split at h
    · rename_i hh
      obtain ⟨h1, h2, h3⟩ := ih (n + 1) h
      refine ⟨by omega, h2, ?_⟩
      intro k hk1 hk2
      by_cases hkn : k = n
      · subst hkn; exact hh
      · exact h3 k (by omega) hk2
    · rename_i hh
      simp only [Option.some.injEq] at h
      subst h
      exact ⟨le_rfl, not_lt.mp hh, fun k h1 h2 => absurd h1 (by omega)⟩

theorem runLoop_stops (tend dt : ℝ) (fuel n k : Nat) (hk : |tend - (n + k : Nat) * dt| ≤ 1e-6) (hf : k ≤ fuel) :
    ∃ r, runLoop tend dt fuel n = some r := by
  induction fuel generalizing n k with
  | zero =>
    have : k = 0 := by omega
    subst this
    exact ⟨n, by simp only [runLoop]; rw [if_neg (not_lt.mpr (by simpa using hk))]⟩
  | succ fuel ih =>
    simp only [runLoop]
    by_cases h : |tend - n * dt| > 1e-6
    · rw [if_pos h]
      cases k with
      | zero => exact absurd (by simpa using hk) (not_le.mpr h)
      | succ k => exact ih (n + 1) k (by rw [show n + 1 + k = n + (k + 1) by omega]; exact hk) (by omega)
    · exact ⟨n, by rw [if_neg h]⟩

/-- **C109** A run to time `k dt` stops after `k` steps.

Partial: only if the end time is (within 1e-6) a multiple of the time step; otherwise see `C109_endless_violated`. -/
theorem C109_run_partial (tend dt : ℝ) (hdt : 2e-6 < dt) (k : Nat) (hk : |tend - k * dt| ≤ 1e-6) (fuel : Nat)
    (hf : k ≤ fuel) : runLoop tend dt fuel 0 = some k := by
  obtain ⟨r, hr⟩ := runLoop_stops tend dt fuel 0 k (by simpa using hk) hf
  obtain ⟨_, h2, h3⟩ := runLoop_some tend dt fuel 0 r hr
  rw [hr]
  congr 1
  rw [abs_le] at hk h2
  by_contra hne
  rcases Nat.lt_or_gt_of_ne hne with h | h
  · have h1 : (r : ℝ) + 1 ≤ k := by exact_mod_cast h
    have h4 : ((r : ℝ) + 1) * dt ≤ k * dt := mul_le_mul_of_nonneg_right h1 (by linarith)
    linarith [hk.1, hk.2, h2.1, h2.2]
  · have := h3 k (by omega) h
    rw [← abs_le] at hk
    exact absurd hk (not_le.mpr this)

/-- **C109, violated**: if no multiple of the time step lies within 1e-6 of the end time, the run never stops. -/
theorem C109_endless_violated (tend dt : ℝ) (h : ∀ k : Nat, |tend - k * dt| > 1e-6) (fuel : Nat) :
    runLoop tend dt fuel 0 = none := by
  cases hr : runLoop tend dt fuel 0 with
  | none => rfl
  | some r =>
    have := (runLoop_some tend dt fuel 0 r hr).2.1
    exact absurd this (not_le.mpr (h r))

/-- A run to 1 second with steps of 0.3 seconds. -/
example (fuel : Nat) : runLoop 1 0.3 fuel 0 = none := by
  apply C109_endless_violated
  intro k
  rcases Nat.lt_or_ge k 4 with h | h
  · have h1 : (k : ℝ) ≤ 3 := by exact_mod_cast (by omega : k ≤ 3)
    rw [abs_of_nonneg (by norm_num; linarith)]
    norm_num
    linarith
  · have h1 : (4 : ℝ) ≤ k := by exact_mod_cast h
    rw [abs_of_nonpos (by norm_num; linarith)]
    norm_num
    linarith

example : runLoop 1 0.25 10 0 = some 4 := C109_run_partial 1 0.25 (by norm_num) 4 (by norm_num) 10 (by omega)

/-! ### C110: relays and events -/

/-- **C110** When a bus relay trips, the diagonal elements of the tripped buses become their stored admittances and
no other element changes.

Partial: the stored admittance does not follow the events, see `C110_forgets_violated`. -/
theorem C110_relay_partial (s : State) (tripped : Nat → Bool) (i j : Nat) (b : Bus) (hb : s.buses[i]? = some b) :
    (overwriteRelay s tripped).m i j = if i = j ∧ tripped i = true then b.ybus else s.m i j := by
  unfold overwriteRelay
  simp only
  split
  · rw [hb]
  · rfl

/-- **C110, violated**: the stored admittance of a bus is the same after any line or generator event as before, so a
relay that trips after the event puts back the diagonal element from before it. -/
theorem C110_forgets_violated (s : State) (op : Op) (hq : op.quiet) (s' : State) (h : op.run s = some s') (i : Nat) (b : Bus)
    (hb : s.buses[i]? = some b) (hm : b.ybus = s.m i i) (tripped : Nat → Bool) (ht : tripped i = true) :
    (overwriteRelay s' tripped).m i i = s.m i i := by
  have hinc : ∀ (mode : Mode) (s : State) (b : Bus), mode ≠ .faultOff → s.buses[i]? = some b →
      ∃ b', (increment mode s).buses[i]? = some b' ∧ b'.ybus = b.ybus := by
    intro mode s b hmode hb
    rw [(increment_spec mode s).1]
    refine ⟨_, by rw [List.getElem?_map, hb]; rfl, ?_⟩
    cases mode <;> first | exact absurd rfl hmode | (simp only [Bus.diagValues]; split_ifs <;> rfl)
  have key : ∃ b', s'.buses[i]? = some b' ∧ b'.ybus = b.ybus := by
    cases op with
    | faultOn bus y => exact hq.elim
    | faultOff => exact hq.elim
    | line frm too tag st =>
      simp only [Op.run] at h
      cases hk : branchIndices s frm too with
      | nil => rw [hk] at h; cases h
      | cons k ks =>
        rw [hk] at h
        simp only [Option.some.injEq] at h
        subst h
        have : ∃ b', (setLineStatus k tag st s).buses[i]? = some b' ∧ b'.ybus = b.ybus := by
          unfold setLineStatus
          cases s.branches[k]? with
          | none => exact ⟨b, hb, rfl⟩
          | some x =>
            simp only
            split
            · simp only [insertDiag_get, hb, Option.map_some]
              exact ⟨_, rfl, by split_ifs <;> rfl⟩
            · exact ⟨b, hb, rfl⟩
        obtain ⟨b1, h1, h2⟩ := this
        obtain ⟨b2, h3, h4⟩ := hinc .lineStatus _ b1 (by simp) h1
        exact ⟨b2, h3, h4.trans h2⟩
    | gen bus tag st =>
      simp only [Op.run] at h
      cases hbb : s.buses[bus]? with
      | none =>
        rw [hbb] at h
        simp only [Option.some.injEq] at h
        subst h
        exact hinc .genStatus _ b (by simp) hb
      | some x =>
        rw [hbb] at h
        cases hg : x.setGenStatus tag st with
        | none => simp only [hg] at h; cases h
        | some x' =>
          simp only [hg, Option.some.injEq] at h
          subst h
          have hx' : x'.ybus = x.ybus := by
            unfold Bus.setGenStatus at hg
            cases hgf : x.gens.find? (fun g => g.tag = tag) with
            | none => rw [hgf] at hg; cases hg
            | some g =>
              rw [hgf] at hg
              simp only at hg
              split at hg
              · simp only [Option.some.injEq] at hg; subst hg; rfl
              · simp only [Option.some.injEq] at hg; subst hg; rfl
          have : ∃ b', (s.buses.set bus x')[i]? = some b' ∧ b'.ybus = b.ybus := by
            rw [List.getElem?_set]
            by_cases hi : bus = i
            · subst hi
              rw [hbb, Option.some.injEq] at hb
              subst hb
              have hlt : bus < s.buses.length := by
                by_contra hc
                rw [List.getElem?_eq_none_iff.mpr (by omega)] at hbb
                cases hbb
              exact ⟨x', by rw [if_pos rfl, if_pos hlt], hx'⟩
            · exact ⟨b, by rw [if_neg hi]; exact hb, rfl⟩
          obtain ⟨b1, h1, h2⟩ := this
          obtain ⟨b2, h3, h4⟩ := hinc .genStatus { s with buses := s.buses.set bus x' } b1 (by simp) h1
          exact ⟨b2, h3, h4.trans h2⟩
  obtain ⟨b', h1, h2⟩ := key
  rw [C110_relay_partial s' tripped i i b' h1, if_pos ⟨rfl, ht⟩, h2, hm]

/-- **C110, violated**: a circuit that a relay has taken out is taken out again by a line event. -/
theorem C110_twice_violated (s : State) (hs : Settled s) (k : Nat) (b : Branch) (hk : s.branches[k]? = some b)
    (hact : b.active = true) (h12 : b.bus1 ≠ b.bus2) (c : Circuit) (tag : List Char)
    (hc : b.cks.find? (fun c => c.tag = tag) = some c) (hon : c.status = true) :
    (relayTrip k tag s).m b.bus1 b.bus2 = s.m b.bus1 b.bus2 + c.y ∧
    (increment .lineStatus (setLineStatus k tag false (relayTrip k tag s))).m b.bus1 b.bus2 =
      s.m b.bus1 b.bus2 + c.y - c.yij := by
  have hlt : k < s.branches.length := by
    by_contra hcc
    rw [List.getElem?_eq_none_iff.mpr (by omega)] at hk
    cases hk
  have h21 : b.bus2 ≠ b.bus1 := h12.symm
  have hm : (relayTrip k tag s).m b.bus1 b.bus2 = s.m b.bus1 b.bus2 + c.y := by
    simp [relayTrip, hk, hc, add, h12, h21]
  refine ⟨hm, ?_⟩
  set b1 : Branch := { b with cks := b.cks.map (fun c => if c.tag = tag then { c with relayStatus := false } else c) } with hb1
  have hbr : (relayTrip k tag s).branches = s.branches.set k b1 := by
    simp [relayTrip, hk, hc, hb1]
  have hg : (relayTrip k tag s).branches[k]? = some b1 := by
    rw [hbr, List.getElem?_set_self hlt]
  have hc1 : b1.cks.find? (fun c => c.tag = tag) = some { c with relayStatus := false } := by
    rw [hb1]
    simp only
    have hct : c.tag = tag := by simpa using List.find?_some hc
    clear hb1 hbr hg hm hk
    revert hc
    generalize b.cks = l
    intro hc
    induction l with
    | nil => cases hc
    | cons x xs ih =>
      by_cases hx : x.tag = tag
      · rw [List.find?_cons_of_pos (by simpa using hx), Option.some.injEq] at hc
        subst hc
        rw [List.map_cons, List.find?_cons_of_pos (by simp [hx])]
        simp [hx]
      · rw [List.find?_cons_of_neg (by simpa using hx)] at hc
        rw [List.map_cons, List.find?_cons_of_neg (by simp [hx])]
        exact ih hc
  have hl : lineStatus b1.cks tag = true := by simp [lineStatus, hc1, hon]
  have he : elements b1.cks tag = (c.yii, c.yij, c.yji, c.yjj) := by simp [elements, hc1]
  have hset : setLineStatus k tag false (relayTrip k tag s) = { relayTrip k tag s with
      buses := insertDiag b1.bus2 (-1 * c.yjj) (insertDiag b1.bus1 (-1 * c.yii) (relayTrip k tag s).buses)
      branches := (relayTrip k tag s).branches.set k { b1 with
          yft := -1 * c.yij, ytf := -1 * c.yji, change := true, cks := setStatus tag false b1.cks } } := by
    simp [setLineStatus, hg, hl, he]
  rw [hset, (increment_spec _ _).2.2]
  simp only [hm]
  rw [sum_set (fun x : Branch => x.added .lineStatus b.bus1 b.bus2) _ k _ b1 hg]
  rw [sum_zero (fun x : Branch => x.added .lineStatus b.bus1 b.bus2) (relayTrip k tag s).branches]
  · have hb1' : b1.added .lineStatus b.bus1 b.bus2 = 0 := by
      apply added_zero
      exact hs.branches b (List.mem_of_getElem? hk)
    rw [hb1']
    simp [Branch.added, Branch.forward, hb1, hact, h12, h21]
    ring
  · intro x hx
    rw [hbr] at hx
    apply added_zero
    rcases List.mem_or_eq_of_mem_set hx with hx | rfl
    · exact hs.branches x hx
    · exact hs.branches b (List.mem_of_getElem? hk)

/-! ### C111: the diagonal before the simulation -/

/-- **C111** Before the simulation the diagonal element of a bus is the element of the network matrix plus the load
as admittance `(p - iq)/v²`, less the power of every generator that produces negative power, of the negative
generation and of the generators without model, as admittances, plus the Norton admittances of the generators in
service and of the dynamic loads; and the admittance stored in the bus is the same. -/
theorem C111_diagonal (b : Setup) :
    b.assemble.1 = b.assemble.2 ∧
    b.assemble.2 = b.y + (⟨b.pl, -b.ql⟩ : ℂ) / (b.v * b.v : ℝ)
      - (((b.gens.filter (fun g => g.1 && decide (g.2.1 < 0))).map (fun g => (⟨g.2.1, -g.2.2.1⟩ : ℂ) / (b.v * b.v : ℝ))).sum : ℂ)
      - ((b.neg.map (fun g => (⟨g.1, -g.2⟩ : ℂ) / (b.v * b.v : ℝ))).sum : ℂ)
      - ((b.noModel.map (fun g => (⟨g.1, -g.2⟩ : ℂ) / (b.v * b.v : ℝ))).sum : ℂ)
      + (((b.gens.filter (·.1)).map (fun g => g.2.2.2)).sum : ℂ) + (b.dynLoads.sum : ℂ) := by
  have hneg : ∀ p q : ℝ, negative b.v p q = -((⟨p, -q⟩ : ℂ) / (b.v * b.v : ℝ)) := by
    intro p q
    apply Complex.ext
    · rw [Complex.neg_re, Complex.div_ofReal_re]; simp only [negative]; ring
    · rw [Complex.neg_im, Complex.div_ofReal_im]; simp only [negative]; ring
  have hl : ∀ (l : List (ℝ × ℝ)) (a : ℂ), l.foldl (fun y g => y + negative b.v g.1 g.2) a =
      a - ((l.map (fun g => (⟨g.1, -g.2⟩ : ℂ) / (b.v * b.v : ℝ))).sum : ℂ) := by
    intro l
    induction l with
    | nil => intro a; simp
    | cons g l ih => intro a; rw [List.foldl_cons, ih, List.map_cons, List.sum_cons, hneg]; ring
  have hg : ∀ (l : List (Bool × ℝ × ℝ × ℂ)) (a : ℂ),
      l.foldl (fun y g => if !g.1 then y else if g.2.1 < 0 then y + negative b.v g.2.1 g.2.2.1 else y) a =
      a - (((l.filter (fun g => g.1 && decide (g.2.1 < 0))).map (fun g => (⟨g.2.1, -g.2.2.1⟩ : ℂ) / (b.v * b.v : ℝ))).sum : ℂ) := by
    intro l
    induction l with
    | nil => intro a; simp
    | cons g l ih =>
      intro a
      rw [List.foldl_cons, ih]
      obtain ⟨st, p, q, y⟩ := g
      cases st
      · simp
      · by_cases hp : p < 0
        · simp only [Bool.not_true, Bool.false_eq_true, if_false, if_true, decide_true, Bool.and_true, hp,
            List.filter_cons_of_pos, List.map_cons, List.sum_cons, hneg]
          ring
        · simp [hp]
  have hj : ∀ (l : List (Bool × ℝ × ℝ × ℂ)) (a : ℂ), l.foldl (fun y g => if !g.1 then y else y + g.2.2.2) a =
      a + (((l.filter (·.1)).map (fun g => g.2.2.2)).sum : ℂ) := by
    intro l
    induction l with
    | nil => intro a; simp
    | cons g l ih =>
      intro a
      rw [List.foldl_cons, ih]
      obtain ⟨st, p, q, y⟩ := g
      cases st
      · simp
      · simp [add_assoc]
  have hd : ∀ (l : List ℂ) (t : ℂ × ℂ), (l.foldl (fun t y => (t.1 + y, t.1 + y)) t).1 = t.1 + l.sum ∧
      (l ≠ [] → (l.foldl (fun t y => (t.1 + y, t.1 + y)) t).2 = t.1 + l.sum) := by
    intro l
    induction l with
    | nil => intro t; simp
    | cons y l ih =>
      intro t
      obtain ⟨h1, h2⟩ := ih (t.1 + y, t.1 + y)
      refine ⟨by rw [List.foldl_cons, h1, List.sum_cons]; ring, fun _ => ?_⟩
      rw [List.foldl_cons]
      cases l with
      | nil => simp
      | cons z l => rw [h2 (by simp), List.sum_cons (a := y)]; ring
  have hyl : b.yl b.ybus = b.y + (⟨b.pl, -b.ql⟩ : ℂ) / (b.v * b.v : ℝ) := by
    apply Complex.ext
    · rw [Complex.add_re, Complex.div_ofReal_re]; rfl
    · rw [Complex.add_im, Complex.div_ofReal_im]; rfl
  have hdyn : ∀ a : ℂ, b.ydyn a = (a + b.dynLoads.sum, a + b.dynLoads.sum) := by
    intro a
    unfold Setup.ydyn
    cases hb : b.dynLoads with
    | nil => simp
    | cons y l =>
      obtain ⟨h1, h2⟩ := hd (y :: l) (a, 0)
      simp only [List.isEmpty_cons, Bool.false_eq_true, if_false]
      exact Prod.ext h1 (h2 (by simp))
  unfold Setup.assemble
  rw [hdyn, hyl]
  refine ⟨rfl, ?_⟩
  simp only [Setup.jxd, Setup.pg, hj, hl, hg]

/-- A bus with a load, a generator that consumes power and one out of service. -/
example : (Setup.assemble ⟨1, 2, 1, 1, [(true, -3, 0, 10), (false, 5, 0, 10)], [], [], []⟩).2 = 16 - Complex.I := by
  rw [(C111_diagonal _).2]
  apply Complex.ext <;> norm_num

end GridPACK.DsEvents
