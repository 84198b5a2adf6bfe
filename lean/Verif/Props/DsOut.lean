import Verif.Model.DsStep

/-! Property C176: generators out of service in a dynamic simulation. -/
namespace GridPACK.DsStep
open GridPACK.Machines

variable {ι : Type*}

/-! ### Specification -/

/-- Two lists of generators that have the same generators in service. -/
def SameGens (a b : List (Bool × Gen)) : Prop :=
  List.Forall₂ (fun g h => g.1 = h.1 ∧ (g.1 = true → g = h)) a b

/-- Two states that differ in generators out of service only. -/
structure SameState (s t : State ι) : Prop where
  n : s.n = t.n
  last : s.last = t.last
  inj : s.inj = t.inj
  volt : ∀ i, (s.bus i).volt = (t.bus i).volt
  gens : ∀ i, SameGens (s.bus i).gens (t.bus i).gens

/-! ### Proof -/

theorem each_same (a b : Bus) (f : Gen → Gen) (h : SameGens a.gens b.gens) :
    SameGens (a.each f).gens (b.each f).gens := by
  unfold Bus.each SameGens at *
  simp only [List.forall₂_map_left_iff, List.forall₂_map_right_iff]
  refine h.imp ?_
  intro g k hg
  obtain ⟨h1, h2⟩ := hg
  cases hs : g.1 with
  | true =>
    have := h2 hs
    subst this
    simp [hs]
  | false =>
    have hk : k.1 = false := by rw [← h1, hs]
    simp [hs, hk]

theorem current_same (a b : Bus) (h : SameGens a.gens b.gens) : a.current = b.current := by
  unfold Bus.current
  unfold SameGens at h
  generalize (0 : ℂ) = z
  generalize a.gens = x at h
  generalize b.gens = y at h
  induction h generalizing z with
  | nil => rfl
  | cons hg _ ih =>
    obtain ⟨h1, h2⟩ := hg
    simp only [List.foldl_cons, ← h1]
    rename_i g k _ _ _
    cases hs : g.1 with
    | true => rw [h2 hs]; exact ih _
    | false => exact ih _

theorem getCurrent_same {s t : State ι} (h : SameState s t) (c : Bool) :
    SameState (s.getCurrent c) (t.getCurrent c) := by
  have hf : s.flag = t.flag := by unfold State.flag; rw [h.n, h.last]
  have hb : ∀ i, SameGens ((s.bus i).each (fun g => if c then g.corrCur else g.predCur s.flag)).gens
      ((t.bus i).each (fun g => if c then g.corrCur else g.predCur t.flag)).gens := by
    intro i
    rw [hf]
    exact each_same _ _ _ (h.gens i)
  exact ⟨h.n, h.last, funext fun i => current_same _ _ (hb i), h.volt, hb⟩

theorem setVolt_same {s t : State ι} (h : SameState s t) (o : Opts ι) :
    SameState (s.setVolt o) (t.setVolt o) := by
  have hv : o.solve s.inj = o.solve t.inj := by rw [h.inj]
  refine ⟨h.n, h.last, h.inj, fun i => ?_, fun i => ?_⟩
  · simp only [State.setVolt, hv]
    try rfl
  · simp only [State.setVolt, hv]
    exact each_same _ _ _ (h.gens i)

theorem iterate_same [Fintype ι] (o : Opts ι) (c : Bool) (k : ℕ) : ∀ {s t : State ι}, SameState s t →
    SameState (State.iterate o c k s) (State.iterate o c k t) := by
  induction k with
  | zero => intro s t h; exact h
  | succ k ih =>
    intro s t h
    have h1 := getCurrent_same (setVolt_same h o) c
    simp only [State.iterate]
    rw [h.inj, h1.inj]
    split_ifs
    · exact h1
    · exact ih h1

theorem solveNetwork_same [Fintype ι] {s t : State ι} (h : SameState s t) (o : Opts ι) (c : Bool) :
    SameState (s.solveNetwork o c) (t.solveNetwork o c) := by
  unfold State.solveNetwork
  split_ifs
  · exact iterate_same o c _ h
  · exact setVolt_same h o

theorem advance_same {s t : State ι} (h : SameState s t) (f : Gen → Gen) :
    SameState { s with bus := fun i => (s.bus i).each f } { t with bus := fun i => (t.bus i).each f } :=
  ⟨h.n, h.last, h.inj, h.volt, fun i => each_same _ _ _ (h.gens i)⟩

theorem step_same [Fintype ι] (o : Opts ι) (dt : ℝ) {s t : State ι} (h : SameState s t) :
    SameState (s.step o dt) (t.step o dt) := by
  have hf : s.flag = t.flag := by unfold State.flag; rw [h.n, h.last]
  unfold State.step
  rw [hf]
  have h1 := solveNetwork_same (getCurrent_same h false) o false
  have h2 := advance_same h1 (fun g => g.predictor dt t.flag)
  have h3 := solveNetwork_same (getCurrent_same h2 true) o true
  have h4 := advance_same h3 (fun g => g.corrector dt)
  exact ⟨by show _ + 1 = _ + 1; rw [h4.n], h4.n, h4.inj, h4.volt, h4.gens⟩

/-- C176: generators out of service have no influence: two simulations that differ only in the models and
parameters of generators out of service have the same voltages, currents and generators in service after any
time steps. -/
theorem C176_no_influence [Fintype ι] (o : Opts ι) (d e : ι → BusData) (hmag : ∀ i, (d i).mag = (e i).mag)
    (hang : ∀ i, (d i).ang = (e i).ang) (hg : ∀ i, SameGens (d i).gens (e i).gens) (dts : List ℝ) :
    SameState (run o d dts) (run o e dts) := by
  have h0 : SameState (start d) (start e) := by
    refine ⟨rfl, rfl, rfl, fun _ => rfl, ?_⟩
    intro i
    simp only [start]
    rw [hmag, hang]
    exact each_same ⟨(d i).gens, 0⟩ ⟨(e i).gens, 0⟩ _ (hg i)
  unfold run
  generalize start d = s at h0
  generalize start e = t at h0
  induction dts generalizing s t with
  | nil => exact h0
  | cons dt dts ih => exact ih _ _ (step_same o dt h0)

/-- The generators out of service of `b` are those of `a`. -/
def Kept (a b : State ι) : Prop :=
  ∀ (i : ι) (k : ℕ) (g : Gen), (a.bus i).gens[k]? = some (false, g) → (b.bus i).gens[k]? = some (false, g)

theorem each_kept (b : Bus) (f : Gen → Gen) (k : ℕ) (g : Gen) (h : b.gens[k]? = some (false, g)) :
    (b.each f).gens[k]? = some (false, g) := by
  simp [Bus.each, h]

theorem Kept.trans {a b c : State ι} (h : Kept a b) (h' : Kept b c) : Kept a c :=
  fun i k g hg => h' i k g (h i k g hg)

theorem getCurrent_kept (s : State ι) (c : Bool) : Kept s (s.getCurrent c) :=
  fun _ k g h => each_kept _ _ k g h

theorem setVolt_kept (s : State ι) (o : Opts ι) : Kept s (s.setVolt o) := by
  intro i k g h
  exact each_kept (s.bus i) (fun g => g.setVoltage (o.solve s.inj i)) k g h

theorem iterate_kept [Fintype ι] (o : Opts ι) (c : Bool) (n : ℕ) : ∀ s : State ι,
    Kept s (State.iterate o c n s) := by
  induction n with
  | zero => intro s i k g h; exact h
  | succ n ih =>
    intro s
    have h1 := (setVolt_kept s o).trans (getCurrent_kept _ c)
    simp only [State.iterate]
    split_ifs
    · exact h1
    · exact h1.trans (ih _)

theorem solveNetwork_kept [Fintype ι] (s : State ι) (o : Opts ι) (c : Bool) : Kept s (s.solveNetwork o c) := by
  unfold State.solveNetwork
  split_ifs
  · exact iterate_kept o c _ s
  · exact setVolt_kept s o

/-- C176: a generator out of service keeps its state during every time step, and stays out of service. -/
theorem C176_kept [Fintype ι] (o : Opts ι) (s : State ι) (dts : List ℝ) (i : ι) (k : ℕ) (g : Gen)
    (h : (s.bus i).gens[k]? = some (false, g)) :
    ((dts.foldl (fun s dt => s.step o dt) s).bus i).gens[k]? = some (false, g) := by
  have hstep : ∀ (s : State ι) dt, Kept s (s.step o dt) := by
    intro s dt
    unfold State.step
    have h1 := (getCurrent_kept s false).trans (solveNetwork_kept _ o false)
    refine h1.trans ?_
    refine Kept.trans (b := { (s.getCurrent false).solveNetwork o false with
      bus := fun i => (((s.getCurrent false).solveNetwork o false).bus i).each
        (fun g => g.predictor dt s.flag) }) (fun _ k g h => each_kept _ _ k g h) ?_
    refine Kept.trans ((getCurrent_kept _ true).trans (solveNetwork_kept _ o true)) ?_
    exact fun _ k g h => each_kept _ _ k g h
  induction dts generalizing s with
  | nil => exact h
  | cons dt dts ih => exact ih _ (hstep s dt i k g h)

theorem foldl_service {α β : Type*} (st : α → Bool) (f : β → α → β) (hf : ∀ y g, st g = false → f y g = y)
    (a b : List α) (h : List.Forall₂ (fun g k => st g = st k ∧ (st g = true → g = k)) a b) (z : β) :
    a.foldl f z = b.foldl f z := by
  induction h generalizing z with
  | nil => rfl
  | cons hg _ ih =>
    obtain ⟨h1, h2⟩ := hg
    rename_i g k _ _ _
    cases hs : st g with
    | true => rw [h2 hs, List.foldl_cons, List.foldl_cons]; exact ih _
    | false => rw [List.foldl_cons, List.foldl_cons, hf _ g hs, hf _ k (by rw [← h1, hs])]; exact ih _

/-- C176: nor do models and power of generators out of service enter the network matrix. -/
theorem C176_matrix (net : Matrix ι ι ℂ) (d e : ι → BusData)
    (hother : ∀ i, (e i).mag = (d i).mag ∧ (e i).y = (d i).y ∧ (e i).pl = (d i).pl ∧ (e i).ql = (d i).ql ∧
      (e i).neg = (d i).neg ∧ (e i).noModel = (d i).noModel)
    (hg : ∀ i, List.Forall₂ (fun g k : (Bool × Gen) × ℝ × ℝ => g.1.1 = k.1.1 ∧ (g.1.1 = true → g = k))
      ((d i).gens.zip (d i).pq) ((e i).gens.zip (e i).pq)) :
    matrix net d = matrix net e := by
  funext i j
  unfold matrix
  split_ifs
  · obtain ⟨h1, h2, h3, h4, h5, h6⟩ := hother i
    have hg' : List.Forall₂ (fun g k : Bool × ℝ × ℝ × ℂ => g.1 = k.1 ∧ (g.1 = true → g = k))
        (d i).setup.gens (e i).setup.gens := by
      simp only [BusData.setup, List.forall₂_map_left_iff, List.forall₂_map_right_iff]
      refine (hg i).imp ?_
      rintro g k ⟨ha, hb⟩
      exact ⟨ha, fun hs => by rw [hb hs]⟩
    have hneg : (e i).setup.neg = (d i).setup.neg := h5
    have hno : (e i).setup.noModel = (d i).setup.noModel := h6
    have hv : (e i).setup.v = (d i).setup.v := h1
    have hpg : ∀ y, (e i).setup.pg y = (d i).setup.pg y := by
      intro y
      unfold DsEvents.Setup.pg
      rw [hneg, hno, hv]
      simp only
      congr 2
      refine (foldl_service (fun g : Bool × ℝ × ℝ × ℂ => g.1) _ ?_ _ _ hg' y).symm
      intro y g hs
      simp [hs]
    have hj : ∀ y, (e i).setup.jxd y = (d i).setup.jxd y := by
      intro y
      unfold DsEvents.Setup.jxd
      refine (foldl_service (fun g : Bool × ℝ × ℝ × ℂ => g.1) _ ?_ _ _ hg' y).symm
      intro y g hs
      simp [hs]
    have hy : (e i).setup.ybus = (d i).setup.ybus := h2
    have hl : ∀ y, (e i).setup.yl y = (d i).setup.yl y := by
      intro y
      unfold DsEvents.Setup.yl
      rw [hv, show (e i).setup.pl = (d i).setup.pl from h3, show (e i).setup.ql = (d i).setup.ql from h4]
    have hd : ∀ y, (e i).setup.ydyn y = (d i).setup.ydyn y := by
      intro y
      rfl
    unfold DsEvents.Setup.assemble
    rw [hy, hl, hpg, hj, hd]
  · rfl

/-- Two different generators out of service beside the same one in service. -/
example (g a b : Gen) : SameGens [(false, a), (true, g)] [(false, b), (true, g)] := by
  simp [SameGens]

end GridPACK.DsStep
