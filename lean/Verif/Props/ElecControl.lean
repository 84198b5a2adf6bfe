import Verif.Spec.ElecControl
import Verif.Props.Dblock
import Verif.Lemmas.PlantControl

/-! Claims about the electrical controller. -/
namespace GridPACK.ElecControl
open GridPACK.Cblock GridPACK.Dblock
open GridPACK.Wind (Hold Armed hold_pred IsFilter filter_is lt_clamp clamp_1000)
open GridPACK.PlantControl (Lag lag_rises filter_start filter_startU)

/-! ### What a step does to the switch -/

theorem dip_false {r : Record} {v : Real} (h : r.vdip ≤ v ∧ v ≤ r.vup) : dip r v = false := by
  unfold dip
  refine decide_eq_false ?_
  rintro (h1 | h1) <;> linarith [h.1, h.2]

theorem dip_true {r : Record} {v : Real} (h : v < r.vdip) : dip r v = true := decide_eq_true (Or.inl h)

theorem step_switch (dt : Real) (c : Dev) (i : In × In) :
    ((step dt c i).sw, (step dt c i).timer) = switch c.r.thld dt c.sw c.timer (dip c.r i.1.v) c.prev ∧
    (step dt c i).prev = dip c.r i.2.v ∧ (step dt c i).r = c.r := ⟨rfl, rfl, rfl⟩

theorem step_inj (dt : Real) (c : Dev) (i : In × In) :
    ((step dt c i).sw = 0 → (step dt c i).iqinj = 0) ∧ ((step dt c i).sw = 2 → (step dt c i).iqinj = c.r.iqfrz) := by
  constructor
  · intro h
    show (if (step dt c i).sw = 0 then _ else _) = _
    rw [if_pos h]
  · intro h
    show (if (step dt c i).sw = 0 then _ else if (step dt c i).sw = 1 then _ else if (step dt c i).sw = 2 then _ else _) = _
    rw [if_neg (by rw [h]; norm_num), if_neg (by rw [h]; norm_num), if_pos h]
    rfl

/-! ### C325: injection after a dip -/

theorem hold_run {dt : Real} (hdt : 0 < dt) (is : List (In × In)) : ∀ c : Dev, (∀ i ∈ is, calm c.r i) → c.prev = false →
    0 ≤ c.r.thld → (c.sw = 2 ∧ c.timer ≤ c.r.thld ∨ c.sw = 0 ∧ c.r.thld < c.timer) →
    (c.timer + is.length * dt ≤ c.r.thld → (run dt c is).sw = 2) ∧
    (c.r.thld < c.timer + is.length * dt → (run dt c is).sw = 0) := by
  induction is with
  | nil =>
    intro c _ _ _ h
    simp only [List.length_nil, Nat.cast_zero, zero_mul, add_zero]
    rcases h with ⟨h1, h2⟩ | ⟨h1, h2⟩
    · exact ⟨fun _ => h1, fun h => absurd h (not_lt.mpr h2)⟩
    · exact ⟨fun h => absurd h (not_le.mpr h2), fun _ => h1⟩
  | cons i is ih =>
    intro c hc hp ht h
    obtain ⟨e1, e2, e3⟩ := step_switch dt c i
    have hi := hc i (List.mem_cons_self ..)
    rw [dip_false hi.1, hp] at e1
    rw [dip_false hi.2] at e2
    have rest := ih (step dt c i) (fun j hj => by rw [e3]; exact hc j (List.mem_cons_of_mem _ hj)) e2 (by rw [e3]; exact ht)
    have hlen : ((i :: is).length : Real) * dt = dt + is.length * dt := by
      rw [List.length_cons]
      push_cast
      ring
    have hn : 0 ≤ (is.length : Real) * dt := mul_nonneg (Nat.cast_nonneg _) hdt.le
    show (_ → (run dt (step dt c i) is).sw = 2) ∧ (_ → (run dt (step dt c i) is).sw = 0)
    rw [hlen, ← add_assoc]
    rw [e3] at rest
    rcases h with ⟨h1, h2⟩ | ⟨h1, h2⟩
    · unfold switch at e1
      rw [if_pos rfl, if_neg Bool.false_ne_true, h1, if_neg (by norm_num), if_pos rfl] at e1
      have t : (step dt c i).timer = c.timer + dt := (Prod.ext_iff.mp e1).2
      have s : (step dt c i).sw = if c.timer + dt > c.r.thld then 0 else 2 := (Prod.ext_iff.mp e1).1
      rw [t] at rest
      refine rest ?_
      by_cases hg : c.timer + dt > c.r.thld
      · rw [if_pos hg] at s
        exact Or.inr ⟨s, hg⟩
      · rw [if_neg hg] at s
        exact Or.inl ⟨s, not_lt.mp hg⟩
    · unfold switch at e1
      rw [if_pos rfl, if_neg Bool.false_ne_true, h1, if_neg (by norm_num), if_neg (by norm_num)] at e1
      have t : (step dt c i).timer = c.timer := (Prod.ext_iff.mp e1).2
      have s : (step dt c i).sw = 0 := (Prod.ext_iff.mp e1).1
      rw [t] at rest
      have := rest (Or.inr ⟨s, h2⟩)
      exact ⟨fun h => absurd h (by linarith), fun _ => this.2 (by linarith)⟩

theorem last_inj {dt : Real} (is : List (In × In)) : ∀ c : Dev, is ≠ [] →
    ((run dt c is).sw = 0 → (run dt c is).iqinj = 0) ∧ ((run dt c is).sw = 2 → (run dt c is).iqinj = c.r.iqfrz) := by
  induction is with
  | nil => exact fun _ h => absurd rfl h
  | cons i is ih =>
    intro c _
    cases is with
    | nil => exact step_inj dt c i
    | cons j is => exact ih (step dt c i) (List.cons_ne_nil _ _)

/-- **C325**, a positive holding time or none.  Let a dip have lasted to the end of the last step.  With a positive
holding time the additional reactive current is the given constant as long as the time since the first step without dip
does not exceed the holding time, and zero from then on.  With the holding time zero it is zero from the first step.
Missing: negative holding times, and a new dip during the holding time. -/
theorem C325_hold_partial (dt : Real) (c : Dev) (i : In × In) (is : List (In × In)) (hdt : 0 < dt)
    (hc : ∀ j ∈ i :: is, calm c.r j) (hp : c.prev = true) :
    (1 / 10 ^ 6 < c.r.thld → (is.length * dt ≤ c.r.thld → (run dt c (i :: is)).iqinj = c.r.iqfrz) ∧
      (c.r.thld < is.length * dt → (run dt c (i :: is)).iqinj = 0)) ∧
    (c.r.thld = 0 → (step dt c i).iqinj = 0) := by
  obtain ⟨e1, e2, e3⟩ := step_switch dt c i
  have hi := hc i (List.mem_cons_self ..)
  rw [dip_false hi.1, hp] at e1
  rw [dip_false hi.2] at e2
  unfold switch at e1
  rw [if_pos rfl, if_pos rfl] at e1
  constructor
  · intro h
    have h6 : (0 : Real) < 1 / 10 ^ 6 := by norm_num
    rw [abs_of_pos (by linarith), if_neg (by linarith), if_pos h] at e1
    have s : (step dt c i).sw = 2 := (Prod.ext_iff.mp e1).1
    have t : (step dt c i).timer = 0 := (Prod.ext_iff.mp e1).2
    have k := hold_run hdt is (step dt c i) (fun j hj => by rw [e3]; exact hc j (List.mem_cons_of_mem _ hj)) e2
      (by rw [e3]; linarith) (Or.inl ⟨s, by rw [t, e3]; linarith⟩)
    rw [t, zero_add, e3] at k
    have l := last_inj (dt := dt) (i :: is) c (List.cons_ne_nil _ _)
    exact ⟨fun h => l.2 (k.1 h), fun h => l.1 (k.2 h)⟩
  · intro h
    rw [h, abs_zero, if_pos (by norm_num)] at e1
    exact (step_inj dt c i).1 (Prod.ext_iff.mp e1).1

/-- **C325** is violated for negative holding times, which ask for the support during the dip to go on for that time: in
the first step without dip the additional reactive current is the constant for positive holding times, then it is
zero. -/
theorem C325_negative_violated (dt : Real) (c : Dev) (i : In × In) (hdt : 0 < dt) (hp : c.prev = true)
    (ht : c.r.thld < -(1 / 10 ^ 6)) (hi : calm c.r i) :
    (step dt c i).iqinj = c.r.iqfrz ∧ ∀ j, calm c.r j → (run dt c [i, j]).iqinj = 0 := by
  obtain ⟨e1, e2, e3⟩ := step_switch dt c i
  rw [dip_false hi.1, hp] at e1
  rw [dip_false hi.2] at e2
  have h6 : (0 : Real) < 1 / 10 ^ 6 := by norm_num
  unfold switch at e1
  rw [if_pos rfl, if_pos rfl, abs_of_neg (by linarith), if_neg (by linarith), if_pos (by linarith)] at e1
  have s : (step dt c i).sw = 2 := (Prod.ext_iff.mp e1).1
  have t : (step dt c i).timer = 0 := (Prod.ext_iff.mp e1).2
  refine ⟨(step_inj dt c i).2 s, fun j hj => ?_⟩
  obtain ⟨f1, _, _⟩ := step_switch dt (step dt c i) j
  rw [e3, dip_false hj.1, e2, s, t] at f1
  unfold switch at f1
  rw [if_pos rfl, if_neg Bool.false_ne_true, if_neg (by norm_num), if_pos rfl, if_pos (by linarith)] at f1
  exact (step_inj dt (step dt c i) j).1 (Prod.ext_iff.mp f1).1

/-- **C325** is violated by a second dip: when the voltage falls again while the constant is injected, the constant stays
for the whole dip, whatever the voltage. -/
theorem C325_again_violated (dt : Real) (is : List (In × In)) : ∀ c : Dev, c.sw = 2 → (∀ i ∈ is, low c.r i) → is ≠ [] →
    (run dt c is).iqinj = c.r.iqfrz := by
  have h : ∀ (is : List (In × In)) (c : Dev), c.sw = 2 → (∀ i ∈ is, low c.r i) → (run dt c is).sw = 2 := by
    intro is
    induction is with
    | nil => exact fun _ h _ => h
    | cons i is ih =>
      intro c hs hl
      obtain ⟨e1, _, e3⟩ := step_switch dt c i
      rw [dip_true (hl i (List.mem_cons_self ..)).1, hs] at e1
      unfold switch at e1
      rw [if_neg (fun h => Bool.noConfusion h), if_neg (by norm_num)] at e1
      exact ih _ (Prod.ext_iff.mp e1).1 (fun j hj => by rw [e3]; exact hl j (List.mem_cons_of_mem _ hj))
  intro c hs hl hn
  exact (last_inj is c hn).2 (h is c hs hl)

/-! ### C326: control of the reactive power -/

/-- Two devices that differ in the reactive power only. -/
def Twin (c d : Dev) : Prop := d = { c with qgen := d.qgen }

theorem twin_compute {c d : Dev} (now : Bool) (dt : Real) (s : Stage) (h : Twin c d) (hD : c.qPi.D = 0) :
    Twin (compute c now dt s) (compute d now dt s) := by
  have e : ∀ x : Real, getoutput1 c.qPi (clamp c.r.qmin c.r.qmax (1 * c.qref) - x) = getoutput1 c.qPi 0 := by
    intro x
    unfold getoutput1
    rw [hD, zero_mul, zero_mul]
  rw [h]
  unfold Twin compute
  simp only [e]
  rfl

theorem twin_step {c d : Dev} {dt : Real} {i j : In × In} (h : Twin c d) (hD : c.qPi.D = 0) (h1 : sameButQ i.1 j.1)
    (h2 : sameButQ i.2 j.2) : Twin (step dt c i) (step dt d j) := by
  have feedT : ∀ (c d : Dev) (i j : In), Twin c d → sameButQ i j → Twin (feed c i) (feed d j) := by
    intro c d i j h ⟨k1, k2, k3, k4⟩
    rw [h]
    unfold Twin feed
    simp only [k1, k2, k3, k4]
  have a := feedT c d i.1 j.1 h h1
  have b : Twin (predictor (feed c i.1) dt) (predictor (feed d j.1) dt) := by
    rw [a]
    unfold predictor
    exact twin_compute _ _ _ rfl hD
  have a2 := feedT _ _ i.2 j.2 b h2
  have hD2 : (feed (predictor (feed c i.1) dt) i.2).qPi.D = 0 := hD
  have k := twin_compute (dip c.r i.2.v) dt .corrector a2 hD2
  have er : d.r = c.r := by rw [h]
  unfold step corrector
  have ev : j.2.v = i.2.v := h2.2.2.1.symm
  show Twin { compute (feed (predictor (feed c i.1) dt) i.2) (dip c.r i.2.v) dt .corrector with prev := dip c.r i.2.v }
    { compute (feed (predictor (feed d j.1) dt) j.2) (dip d.r j.2.v) dt .corrector with prev := dip d.r j.2.v }
  rw [er, ev, k]
  rfl

theorem loaded_qPi {raw : Raw} {r : Record} {c : Dev} (h : load raw r = some c) : c.qPi.D = r.kqp := by
  unfold load at h
  split at h
  · rename_i f a b l o h1 h2 h3 h4 h5
    cases h
    unfold withLimits piControl setcoeffs at h2
    rw [if_neg one_ne_zero] at h2
    cases h2
    show r.kqp / 1 = r.kqp
    rw [div_one]
  · cases h

theorem start_qPi (c : Dev) (v q ip iq : Real) : (start c v q ip iq).qPi.D = c.qPi.D := by
  have hD : ∀ (b : Block) (y : Real), (initGivenY b y).1.D = b.D := by
    intro b y
    unfold initGivenY
    split_ifs <;> rfl
  unfold start
  dsimp only
  by_cases h : c.r.qFlag = true ∧ c.r.vFlag = true
  · rw [if_pos h]
    exact hD _ _
  · rw [if_neg h]

/-- **C326** is violated for a controller without proportional gain (the default): its integrator never moves, so that the
currents it asks for do not depend on the reactive power of the generator at all. -/
theorem C326_reactive_violated (r : Record) (v q ip iq dt : Real) (c : Dev) (hs : Started r v q ip iq c) (hk : r.kqp = 0)
    (is js : List (In × In)) (h : List.Forall₂ (fun i j => sameButQ i.1 j.1 ∧ sameButQ i.2 j.2) is js) :
    (run dt c is).iqcmd = (run dt c js).iqcmd ∧ (run dt c is).ipcmd = (run dt c js).ipcmd := by
  have key : ∀ (is js : List (In × In)), List.Forall₂ (fun i j => sameButQ i.1 j.1 ∧ sameButQ i.2 j.2) is js →
      ∀ c d : Dev, Twin c d → c.qPi.D = 0 → Twin (run dt c is) (run dt d js) := by
    intro is js h
    induction h with
    | nil => exact fun _ _ h _ => h
    | cons h _ ih => exact fun c d t hD => ih _ _ (twin_step t hD h.1 h.2) hD
  obtain ⟨raw, c0, hl, rfl⟩ := hs
  have t := key is js h (start c0 v q ip iq) (start c0 v q ip iq) rfl (by rw [start_qPi, loaded_qPi hl, hk])
  rw [t]
  exact ⟨rfl, rfl⟩

/-! ### C324, C327: limits of the currents -/

theorem left_le {m i : Real} (hm : 0 ≤ m) : 0 ≤ left m i ∧ left m i ≤ m := by
  unfold left
  split_ifs
  · exact ⟨le_refl _, hm⟩
  · refine ⟨Real.sqrt_nonneg _, ?_⟩
    calc Real.sqrt (m * m - i * i) ≤ Real.sqrt (m * m) := Real.sqrt_le_sqrt (by nlinarith [mul_self_nonneg i])
      _ = m := Real.sqrt_mul_self hm

theorem limits_le {c : Dev} {w : Real} (hm : 0 ≤ c.r.imax) : (limits c w).1 ≤ c.r.imax ∧ (limits c w).2 ≤ c.r.imax := by
  have a := (left_le (i := c.iqcmd) hm).2
  have b := (left_le (i := c.ipcmd) hm).2
  unfold limits
  simp only []
  split_ifs <;> constructor <;> dsimp only <;> linarith

theorem limits_nonneg {c : Dev} {w : Real} (hm : 0 ≤ c.r.imax) (h : 0 ≤ (c.tab1.output w).getD c.junk) :
    0 ≤ (limits c w).2 := by
  have b := (left_le (i := c.ipcmd) hm).1
  unfold limits
  simp only []
  split_ifs <;> dsimp only <;> linarith

theorem clamp_le {lo hi x b : Real} (h1 : lo ≤ b) (h2 : hi ≤ b) : clamp lo hi x ≤ b :=
  max_le h1 ((min_le_right _ _).trans h2)

/-- **C324**, each of the two currents.  After every call the real current asked for is between zero and the largest
current and the reactive current is not larger than the largest current in either direction, in every state, if the
table for its limit has no negative values.  Missing: the total current. -/
theorem C324_each_partial (c : Dev) (dt : Real) (hm : 0 ≤ c.r.imax) (h : ∀ w, 0 ≤ (c.tab1.output w).getD c.junk) :
    (0 ≤ (predictor c dt).ipcmd ∧ (predictor c dt).ipcmd ≤ c.r.imax ∧ |(predictor c dt).iqcmd| ≤ c.r.imax) ∧
    (0 ≤ (corrector c dt).ipcmd ∧ (corrector c dt).ipcmd ≤ c.r.imax ∧ |(corrector c dt).iqcmd| ≤ c.r.imax) := by
  have key : ∀ (d : Dev) (now : Bool) (s : Stage), d.r = c.r → d.tab1 = c.tab1 → d.junk = c.junk →
      0 ≤ (compute d now dt s).ipcmd ∧ (compute d now dt s).ipcmd ≤ c.r.imax ∧ |(compute d now dt s).iqcmd| ≤ c.r.imax := by
    intro d now s h1 h2 h3
    have hm' : 0 ≤ d.r.imax := by rw [h1]; exact hm
    have l := limits_le (c := d) (w := (getoutput d.vF d.vt dt s true).2) hm'
    have n := limits_nonneg (c := d) (w := (getoutput d.vF d.vt dt s true).2) hm' (by rw [h2, h3]; exact h _)
    rw [h1] at l
    refine ⟨le_max_left _ _, clamp_le hm l.1, abs_le.mpr ⟨?_, ?_⟩⟩
    · exact le_trans (by linarith [l.2]) (le_max_left _ _)
    · exact clamp_le (by linarith [l.2]) l.2
  exact ⟨key _ _ _ rfl rfl rfl, key _ _ _ rfl rfl rfl⟩

theorem limits_table {c : Dev} {w : Real} : (limits c w).1 ≤ (c.tab2.output w).getD c.junk ∧
    (limits c w).2 ≤ (c.tab1.output w).getD c.junk := by
  unfold limits
  simp only []
  split_ifs <;> constructor <;> dsimp only <;> linarith

/-- **C327** for equal tables (as in the default values) without negative values: after every call both currents are
within the value of the table at the measured voltage, which is the output of the voltage filter.  Missing: tables that
differ. -/
theorem C327_equal_partial (c : Dev) (dt : Real) (he : c.tab1 = c.tab2) (hm : 0 ≤ c.r.imax)
    (h : ∀ w, 0 ≤ (c.tab1.output w).getD c.junk) :
    (let t := (c.tab1.output (getoutput c.vF c.vt dt .predictor true).2).getD c.junk
     (predictor c dt).ipcmd ≤ t ∧ |(predictor c dt).iqcmd| ≤ t) ∧
    (let t := (c.tab1.output (getoutput c.vF c.vt dt .corrector true).2).getD c.junk
     (corrector c dt).ipcmd ≤ t ∧ |(corrector c dt).iqcmd| ≤ t) := by
  have key : ∀ (d : Dev) (now : Bool) (s : Stage), d.r = c.r → d.tab1 = c.tab1 → d.tab2 = c.tab2 → d.junk = c.junk →
      d.vF = c.vF → d.vt = c.vt →
      (compute d now dt s).ipcmd ≤ (c.tab1.output (getoutput c.vF c.vt dt s true).2).getD c.junk ∧
      |(compute d now dt s).iqcmd| ≤ (c.tab1.output (getoutput c.vF c.vt dt s true).2).getD c.junk := by
    intro d now s h1 h2 h3 h4 h5 h6
    have l := limits_table (c := d) (w := (getoutput d.vF d.vt dt s true).2)
    have n := limits_nonneg (c := d) (w := (getoutput d.vF d.vt dt s true).2) (by rw [h1]; exact hm)
      (by rw [h2, h4]; exact h _)
    have z := h (getoutput d.vF d.vt dt s true).2
    rw [h2, h3, h4, ← he] at l
    rw [← h5, ← h6]
    refine ⟨clamp_le z l.1, abs_le.mpr ⟨?_, ?_⟩⟩
    · exact le_trans (by linarith [l.2]) (le_max_left _ _)
    · exact clamp_le (by linarith [l.2]) l.2
  exact ⟨key _ _ _ rfl rfl rfl rfl rfl rfl, key _ _ _ rfl rfl rfl rfl rfl rfl⟩

/-- The block of the real power after the start. -/
theorem pord_start {raw b : Block} {T lo hi y : Real} (h : withLimits (filter raw 1 T) lo hi (-1000) 1000 = some b)
    (h0 : 0 < T) (h1 : T ≤ 1000) (hlo : lo ≤ y) (hhi : y ≤ hi) (hy : |y| ≤ 1000) :
    (initGivenY b y).2 = y ∧ Hold (initGivenY b y).1 y y y := by
  cases hf : filter raw 1 T with
  | none =>
    rw [hf] at h
    cases h
  | some f =>
    rw [hf] at h
    cases h
    obtain ⟨_, k, d1, d2⟩ := filter_is hf
    obtain ⟨g1, g2⟩ := filter_start k ⟨d1, d2⟩ h0 h1 hy
    have e : initGivenY (setylimits (setxlimits f lo hi) (-1000) 1000) y =
        (setylimits (setxlimits (initGivenY f y).1 lo hi) (-1000) 1000, (initGivenY f y).2) := by
      unfold initGivenY setylimits setxlimits
      dsimp only
      split_ifs <;> rfl
    have c1 : (initGivenY f y).1.C = 1 ∧ (initGivenY f y).1.D = 0 := by
      unfold initGivenY
      split_ifs <;> exact ⟨k.c, k.d⟩
    rw [e]
    refine ⟨g1, ⟨g2.st, g2.rate, hlo, hhi, g2.dlo, g2.dhi, ?_⟩⟩
    show clamp (-1000) 1000 ((initGivenY f y).1.C * y + (initGivenY f y).1.D * y) = y
    rw [c1.1, c1.2, one_mul, zero_mul, add_zero]
    exact clamp_1000 hy

/-- The state after the start, as far as it matters for the first step. -/
structure Begun (r : Record) (v ip : Real) (c : Dev) : Prop where
  data : c.r = r
  vF : Hold c.vF v v v
  pord : Hold c.pord (v * ip) (v * ip) (v * ip)
  iqF : r.qFlag = false → Lag c.iqF r.tiq 0
  lim : c.prefLim = GainLimiter.setparams 1 (-1000) 1000 r.dpmin r.dpmax
  sw : c.sw = 0
  prev : c.prev = false
  iq : c.iqcmd = 0
  tab1 : ∃ t : Piecewise, t.n = 0 ∧ c.tab1 = t.setparams 4 r.vp r.ip
  tab2 : ∃ t : Piecewise, t.n = 0 ∧ c.tab2 = t.setparams 4 r.vq r.iq

theorem begun {r : Record} {v q ip : Real} {c : Dev} (hu : Usable r v ip) (hs : Started r v q ip 0 c) : Begun r v ip c := by
  obtain ⟨raw, c0, hl, rfl⟩ := hs
  obtain ⟨u1, u2, u3, u4, u5, u6, u7, u8, u9, u10, u11, u12, u13, u14, u15⟩ := hu
  unfold load at hl
  split at hl
  · rename_i f a b l o h1 h2 h3 h4 h5
    cases hl
    obtain ⟨_, kf, df⟩ := filter_is h1
    obtain ⟨_, kl, dl⟩ := filter_is h4
    have hv : |v| ≤ 1000 := abs_le.mpr ⟨by linarith, by linarith⟩
    have hvi : |v * ip| ≤ 1000 := by
      rw [abs_of_nonneg (mul_nonneg (by linarith) u12)]
      exact u15
    obtain ⟨w1, w2⟩ := filter_startU kf df u1 u2 hv
    obtain ⟨o1, o2⟩ := pord_start h5 u5 u6 u13 u14 hvi
    refine ⟨rfl, w2, ?_, fun hq => ?_, rfl, rfl, rfl, rfl, ⟨{ raw.table with n := 0 }, rfl, rfl⟩,
      ⟨{ raw.table with n := 0 }, rfl, rfl⟩⟩
    · show Hold (initGivenY o ((initGivenU f v).2 * ip)).1 _ _ _
      rw [w1]
      exact o2
    · show Lag (if r.qFlag = true then l else
        (initGivenY l (0 - if dip r v = true then support r (startRef r v) (initGivenU f v).2 else 0)).1) _ _
      rw [hq, if_neg Bool.false_ne_true, dip_false ⟨u10, u11⟩, if_neg Bool.false_ne_true, sub_zero]
      have st := (filter_start kl dl u3 u4 (y := 0) (by rw [abs_zero]; norm_num)).2.st
      unfold initGivenY at st ⊢
      split_ifs at st ⊢ <;>
        exact ⟨kl.a, kl.bb, kl.c, kl.d, kl.xlo, kl.xhi, dl.1, dl.2, kl.ylo, kl.yhi, st⟩
  · cases hl
/-- The rate limiter at the value `y`. -/
def LimAt (r : Record) (y : Real) (g : GainLimiter) : Prop :=
  g.K = 1 ∧ g.ymin = -1000 ∧ g.ymax = 1000 ∧ g.dymin = |r.dpmin| ∧ g.dymax = r.dpmax ∧ (g.yprev = mark ∨ g.yprev = y)

theorem lim_out {r : Record} {y dt : Real} {g : GainLimiter} (u : Bool) (h : LimAt r y g) (hy : |y| ≤ 1000)
    (hd : 0 ≤ r.dpmax) (hdt : 0 < dt) : (g.outputRate y dt u).2 = y ∧ LimAt r y (g.outputRate y dt u).1 := by
  obtain ⟨h1, h2, h3, h4, h5, h6⟩ := h
  have e1 : clamp g.ymin g.ymax (g.K * y) = y := by
    rw [h1, h2, h3, one_mul]
    exact clamp_1000 hy
  have e2 : (if g.yprev = mark then y else g.yprev) = y := by
    rcases h6 with h | h
    · rw [if_pos h]
    · rw [h, ite_self]
  have e3 : clamp (y - g.dymin * dt) (y + g.dymax * dt) y = y := by
    rw [h4, h5]
    exact clamp_of_mem _ _ _ (by have := mul_nonneg (abs_nonneg r.dpmin) hdt.le; linarith)
      (by have := mul_nonneg hd hdt.le; linarith)
  unfold GainLimiter.outputRate
  simp only [e1, e2, e3, ite_self]
  exact ⟨trivial, h1, h2, h3, h4, h5, Or.inr rfl⟩

theorem compute_iq (e : Dev) (now : Bool) (dt : Real) (s : Stage) (h : e.r.qFlag = false) (hs : e.sw = 0) :
    (compute e now dt s).iqcmd =
      clamp (-(limits e (getoutput e.vF e.vt dt s true).2).2) (limits e (getoutput e.vF e.vt dt s true).2).2
        (getoutput e.iqF (e.qref / clamp (1 / 100) 2 (1 * (getoutput e.vF e.vt dt s true).2)) dt s (!now)).2 := by
  unfold compute
  simp only [h, hs, if_true, if_neg Bool.false_ne_true, add_zero, one_mul]

/-- The first step without dip, at a constant voltage above the tables, with unchanged reference of the real power. -/
theorem first_step {r : Record} {v q ip q1 g dt : Real} {c : Dev} (hu : Usable r v ip) (ht : Tables r)
    (hs : Started r v q ip 0 c) (h1 : r.vp 3 < v) (h2 : r.vq 3 < v) (hpq : r.pqFlag = false) (hqf : r.qFlag = false)
    (hm : 0 < r.imax) (ha : 0 < r.ip 3) (hdt : 0 < dt) :
    (step dt c (⟨v * ip, q1, v, g, 1⟩, ⟨v * ip, q1, v, g, 1⟩)).ipcmd =
      clamp 0 (if r.imax < r.iq 3 then r.imax else r.iq 3) ip ∧
    (0 < q1 → 0 < (step dt c (⟨v * ip, q1, v, g, 1⟩, ⟨v * ip, q1, v, g, 1⟩)).iqcmd) := by
  have B := begun hu hs
  obtain ⟨u1, u2, u3, u4, u5, u6, u7, u8, u9, u10, u11, u12, u13, u14, u15⟩ := hu
  have hv0 : 0 < v := by linarith
  have hvi : |v * ip| ≤ 1000 := by
    rw [abs_of_nonneg (mul_nonneg hv0.le u12)]
    exact u15
  have t1 : c.tab1.output v = some (r.ip 3) := by
    obtain ⟨t, hn, e⟩ := B.tab1
    rw [e]
    exact (C71_ends_partial t r.vp r.ip 2 hn (fun i hi => (ht i hi).1) v).2 h1
  have t2 : c.tab2.output v = some (r.iq 3) := by
    obtain ⟨t, hn, e⟩ := B.tab2
    rw [e]
    exact (C71_ends_partial t r.vq r.iq 2 hn (fun i hi => (ht i hi).2) v).2 h2
  have hd : dip r v = false := dip_false ⟨u10, u11⟩
  have hcap : clamp (1 / 100) 2 (1 * v) = v := by
    rw [one_mul]
    exact clamp_of_mem _ _ _ u8 u9
  have L0 : LimAt r (v * ip) c.prefLim := by
    rw [B.lim]
    exact ⟨rfl, rfl, rfl, rfl, rfl, Or.inl rfl⟩
  obtain ⟨l1, l2⟩ := lim_out (dt := dt) false L0 hvi u7 hdt
  obtain ⟨l3, _⟩ := lim_out (dt := dt) true l2 hvi u7 hdt
  obtain ⟨w1, w2, w3⟩ := Wind.hold_call dt .predictor B.vF (fun h => Stage.noConfusion h)
  obtain ⟨_, _, w4⟩ := Wind.hold_call dt .corrector w1 (fun _ => w2 rfl)
  obtain ⟨o1, o2, o3⟩ := Wind.hold_call dt .predictor B.pord (fun h => Stage.noConfusion h)
  obtain ⟨_, _, o4⟩ := Wind.hold_call dt .corrector o1 (fun _ => o2 rfl)
  have G := B.iqF hqf
  -- the predictor
  have pin : ∀ x : Real, (if c.r.pFlag = true then x * 1 else x) = x := by
    intro x
    rw [mul_one, ite_self]
  have hsw : (switch c.r.thld dt c.sw c.timer (dip c.r v) c.prev).1 = 0 := by
    rw [B.data, hd, B.sw, B.prev]
    unfold switch
    rw [if_pos rfl, if_neg Bool.false_ne_true, if_neg (by norm_num), if_neg (by norm_num)]
  generalize hp : predictor (feed c ⟨v * ip, q1, v, g, 1⟩) dt = d
  have dr : d.r = r := by rw [← hp, ← B.data]; rfl
  have dv : d.vF = (getoutput c.vF v dt .predictor true).1 := by rw [← hp]; rfl
  have dl : d.prefLim = (c.prefLim.outputRate (v * ip) dt false).1 := by rw [← hp]; rfl
  have dt1 : d.tab1 = c.tab1 := by rw [← hp]; rfl
  have dt2 : d.tab2 = c.tab2 := by rw [← hp]; rfl
  have dsw : d.sw = 0 := by rw [← hp]; exact hsw
  have dpo : d.pord = (getoutput c.pord (v * ip) dt .predictor true).1 := by
    have e : d.pord = (getoutput c.pord (if c.r.pFlag = true then (c.prefLim.outputRate (v * ip) dt false).2 * 1
      else (c.prefLim.outputRate (v * ip) dt false).2) dt .predictor (!dip c.r v)).1 := by rw [← hp]; rfl
    rw [e, pin, l1, B.data, hd]
    rfl
  have dif : d.iqF = (getoutput c.iqF (q1 / v) dt .predictor true).1 := by
    have e : d.iqF = if c.r.qFlag = true then c.iqF else
      (getoutput c.iqF (q1 / clamp (1 / 100) 2 (1 * (getoutput c.vF v dt .predictor true).2)) dt .predictor
        (!dip c.r v)).1 := by rw [← hp]; rfl
    rw [e, B.data, hqf, if_neg Bool.false_ne_true, w3, hcap, hd]
    rfl
  have lim2 : ∀ e : Dev, e.r = r → e.tab1 = c.tab1 → e.tab2 = c.tab2 → e.iqcmd = 0 →
      (limits e v).1 = (if r.imax < r.iq 3 then r.imax else r.iq 3) ∧ 0 < (limits e v).2 := by
    intro e h1 h2 h3 h4
    have hl : left r.imax 0 = r.imax := by
      unfold left
      rw [mul_zero, sub_zero, if_neg (not_lt.mpr (mul_self_nonneg _)), Real.sqrt_mul_self hm.le]
    unfold limits
    simp only [h1, h2, h3, h4, t1, t2, hpq, Option.getD_some, if_true, hl]
    refine ⟨trivial, ?_⟩
    split_ifs
    · exact hm
    · exact ha
  have diq : d.iqcmd = 0 := by
    rw [← hp]
    have hr : (feed c ⟨v * ip, q1, v, g, 1⟩).r.qFlag = false := by
      show c.r.qFlag = false
      rw [B.data, hqf]
    have e := compute_iq { feed c ⟨v * ip, q1, v, g, 1⟩ with
        sw := (switch c.r.thld dt c.sw c.timer (dip c.r v) c.prev).1,
        timer := (switch c.r.thld dt c.sw c.timer (dip c.r v) c.prev).2 } (dip c.r v) dt .predictor hr hsw
    have k := (lim2 { feed c ⟨v * ip, q1, v, g, 1⟩ with
        sw := (switch c.r.thld dt c.sw c.timer (dip c.r v) c.prev).1,
        timer := (switch c.r.thld dt c.sw c.timer (dip c.r v) c.prev).2 } B.data rfl rfl B.iq).2
    refine Eq.trans e ?_
    have z : ∀ u : Real, (getoutput c.iqF u dt .predictor (!dip c.r v)).2 = 0 := by
      intro u
      show clamp c.iqF.ymin c.iqF.ymax (c.iqF.C * c.iqF.x + c.iqF.D * u) = 0
      rw [G.c, G.d, G.st, G.ylo, G.yhi, mul_zero, zero_mul, add_zero]
      exact clamp_of_mem _ _ _ (by norm_num) (by norm_num)
    have w3' : (getoutput (feed c ⟨v * ip, q1, v, g, 1⟩).vF (feed c ⟨v * ip, q1, v, g, 1⟩).vt dt .predictor true).2 = v := w3
    dsimp only
    rw [w3']
    refine Eq.trans (congrArg _ (z _)) ?_
    exact clamp_of_mem _ _ _ (by linarith) k.le
  -- the corrector
  have K := lim2 (feed d ⟨v * ip, q1, v, g, 1⟩) dr dt1 dt2 diq
  have hstep : step dt c (⟨v * ip, q1, v, g, 1⟩, ⟨v * ip, q1, v, g, 1⟩) =
      corrector (feed d ⟨v * ip, q1, v, g, 1⟩) dt := by rw [← hp]; rfl
  rw [hstep]
  constructor
  · show clamp 0 (limits (feed d ⟨v * ip, q1, v, g, 1⟩) (getoutput d.vF v dt .corrector true).2).1
      (1 * ((getoutput d.pord (if d.r.pFlag = true then (d.prefLim.outputRate (v * ip) dt true).2 * 1
      else (d.prefLim.outputRate (v * ip) dt true).2) dt .corrector (!dip d.r v)).2 /
      clamp (1 / 100) 2 (1 * (getoutput d.vF v dt .corrector true).2))) = _
    rw [dv, w4, K.1, hcap, dl, mul_one, ite_self, l3, dpo, dr, hd]
    show clamp 0 _ (1 * ((getoutput (getoutput c.pord (v * ip) dt .predictor true).1 (v * ip) dt .corrector true).2 / v)) = _
    rw [o4, one_mul, mul_div_cancel_left₀ _ hv0.ne']
  · intro hq1
    have e := compute_iq (feed d ⟨v * ip, q1, v, g, 1⟩) (dip d.r v) dt .corrector (by
      show d.r.qFlag = false
      rw [dr, hqf]) dsw
    refine lt_of_lt_of_eq ?_ e.symm
    have w4' : (getoutput (feed d ⟨v * ip, q1, v, g, 1⟩).vF (feed d ⟨v * ip, q1, v, g, 1⟩).vt dt .corrector true).2 = v := by
      show (getoutput d.vF v dt .corrector true).2 = v
      rw [dv, w4]
    rw [w4', hcap, dr, hd]
    refine lt_clamp K.2 ?_
    show 0 < (getoutput d.iqF (q1 / v) dt .corrector true).2
    rw [dif]
    exact lag_rises G u3 hdt (by norm_num) (div_pos hq1 hv0)

/-- **C324** is violated: with priority for the reactive current the room for the real current is computed from the
reactive current before the call.  A generator at its largest current and power factor 1 whose reference of the
reactive power rises asks for more than its largest current after the first step. -/
theorem C324_total_violated (r : Record) (v q q1 g dt : Real) (c : Dev) (hu : Usable r v r.imax) (ht : Tables r)
    (hs : Started r v q r.imax 0 c) (h1 : r.vp 3 < v) (h2 : r.vq 3 < v) (hpq : r.pqFlag = false) (hqf : r.qFlag = false)
    (hm : 0 < r.imax) (ha : r.imax ≤ r.ip 3) (hb : r.imax ≤ r.iq 3) (hdt : 0 < dt) (hq : 0 < q1) :
    let d := step dt c (⟨v * r.imax, q1, v, g, 1⟩, ⟨v * r.imax, q1, v, g, 1⟩)
    r.imax ^ 2 < d.ipcmd ^ 2 + d.iqcmd ^ 2 := by
  obtain ⟨a, b⟩ := first_step (q1 := q1) (g := g) (dt := dt) hu ht hs h1 h2 hpq hqf hm (lt_of_lt_of_le hm ha) hdt
  have e : clamp 0 (if r.imax < r.iq 3 then r.imax else r.iq 3) r.imax = r.imax := by
    refine clamp_of_mem _ _ _ hm.le ?_
    split_ifs
    · exact le_refl _
    · exact hb
  rw [e] at a
  intro d
  have := pow_pos (b hq) 2
  show r.imax ^ 2 < d.ipcmd ^ 2 + d.iqcmd ^ 2
  rw [show d.ipcmd = r.imax from a]
  linarith

/-- **C327** is violated: the tables are exchanged.  At a voltage above the tables the table of the real current allows
`ip 3`; a generator with a larger real current that the table of the reactive current would allow keeps it. -/
theorem C327_table_violated (r : Record) (v q ip q1 g dt : Real) (c : Dev) (hu : Usable r v ip) (ht : Tables r)
    (hs : Started r v q ip 0 c) (h1 : r.vp 3 < v) (h2 : r.vq 3 < v) (hpq : r.pqFlag = false) (hqf : r.qFlag = false)
    (hm : 0 < r.imax) (ha : 0 < r.ip 3) (hi : ip ≤ r.imax) (hl : r.ip 3 < ip) (hb : ip ≤ r.iq 3) (hdt : 0 < dt) :
    let d := step dt c (⟨v * ip, q1, v, g, 1⟩, ⟨v * ip, q1, v, g, 1⟩)
    d.ipcmd = ip ∧ r.ip 3 < d.ipcmd := by
  obtain ⟨a, _⟩ := first_step (q1 := q1) (g := g) (dt := dt) hu ht hs h1 h2 hpq hqf hm ha hdt
  have e : clamp 0 (if r.imax < r.iq 3 then r.imax else r.iq 3) ip = ip := by
    refine clamp_of_mem _ _ _ (by linarith) ?_
    split_ifs
    · exact hi
    · exact hb
  rw [e] at a
  intro d
  have a' : d.ipcmd = ip := a
  exact ⟨a', by rw [a']; exact hl⟩

/-! ### Examples -/

/-- A controller of the reactive power with the holding time `thld` and tables with the constant values `a` for the real
and `b` for the reactive current. -/
noncomputable def demo (thld a b : Real) : Record :=
  ⟨false, false, false, false, 1 / 50, -1 / 20, 1 / 20, 17 / 20, 6 / 5, 2, 21 / 20, -21 / 20, 0, 3 / 20, thld, 1 / 2, -1 / 2,
    11 / 10, 9 / 10, 0, 1 / 10, 0, 40, 0, 1, 1 / 50, 999, -999, 2, 0, 1 / 50, fun k => k / 4, fun _ => a, fun k => k / 4,
    fun _ => b⟩

/-- The same with control of the reactive power by the voltage. -/
noncomputable def demoQ : Record := { demo 0 1 1 with qFlag := true, vFlag := true }

noncomputable def demoRaw : Raw :=
  ⟨⟨0, 0, 0, 0, 0, 0, 1000, -1000, 1000, -1000, 1000, -1000, .predictor, 0⟩,
    ⟨fun _ => ⟨0, 0, 0, 0, 0, 0⟩, fun _ => 0, fun _ => 0, 0, true⟩, 0⟩

theorem loads (r : Record) (h1 : r.trv ≠ 0) (h2 : r.tiq ≠ 0) (h3 : r.tpord ≠ 0) : ∃ c, load demoRaw r = some c := by
  have f : ∀ T : Real, T ≠ 0 → ∃ b, filter demoRaw.block 1 T = some b := by
    intro T hT
    unfold filter setcoeffs
    rw [if_neg hT]
    exact ⟨_, rfl⟩
  have p : ∀ kp ki : Real, ∃ b, piControl demoRaw.block kp ki = some b := by
    intro kp ki
    unfold piControl setcoeffs
    rw [if_neg one_ne_zero]
    exact ⟨_, rfl⟩
  obtain ⟨b1, e1⟩ := f _ h1
  obtain ⟨b2, e2⟩ := f _ h2
  obtain ⟨b3, e3⟩ := f _ h3
  obtain ⟨b4, e4⟩ := p r.kqp r.kqi
  obtain ⟨b5, e5⟩ := p r.kvp r.kvi
  unfold load
  rw [e1, e2, e3, e4, e5]
  exact ⟨_, rfl⟩

theorem demo_started (thld a b v q ip iq : Real) : ∃ c, Started (demo thld a b) v q ip iq c := by
  obtain ⟨c, h⟩ := loads (demo thld a b) (by norm_num [demo]) (by norm_num [demo]) (by norm_num [demo])
  exact ⟨_, _, _, h, rfl⟩

theorem demo_tables (thld a b : Real) : Tables (demo thld a b) := by
  intro k _
  have : (k : Real) / 4 < ((k + 1 : Nat) : Real) / 4 := by
    push_cast
    linarith
  exact ⟨this, this⟩

theorem demo_usable (thld a b : Real) : Usable (demo thld a b) 1 1 := by
  unfold Usable demo
  norm_num

theorem started_r {r : Record} {v q ip iq : Real} {c : Dev} (h : Started r v q ip iq c) : c.r = r := by
  obtain ⟨raw, c0, hl, rfl⟩ := h
  unfold load at hl
  split at hl
  · cases hl
    rfl
  · cases hl

/-- A table with one value. -/
theorem const_table (t : Piecewise) (a w : Real) (hn : t.n = 0) :
    (t.setparams 4 (fun k => (k : Real) / 4) (fun _ => a)).output w = some a := by
  have inc : ∀ i, i < 2 + 1 → (fun k : Nat => (k : Real) / 4) i < (fun k : Nat => (k : Real) / 4) (i + 1) := by
    intro i _
    show (i : Real) / 4 < ((i + 1 : Nat) : Real) / 4
    push_cast
    linarith
  have seg : ∀ i : Nat, i < 2 + 1 → (i : Real) / 4 ≤ w → w ≤ ((i + 1 : Nat) : Real) / 4 →
      (t.setparams 4 (fun k => (k : Real) / 4) (fun _ => a)).output w = some a := by
    intro i hi h1 h2
    obtain ⟨y, e, k⟩ := C71_interpolates_partial t (fun k => (k : Real) / 4) (fun _ => a) 2 hn inc i hi w ⟨h1, h2⟩
    rw [e]
    unfold lerp at k
    simp only [sub_self, zero_div, mul_zero, zero_mul, abs_zero, add_zero] at k
    have := abs_nonpos_iff.mp k
    rw [sub_eq_zero.mp this]
  obtain ⟨e1, e2⟩ := C71_ends_partial t (fun k => (k : Real) / 4) (fun _ => a) 2 hn inc w
  by_cases h0 : w < ((0 : Nat) : Real) / 4
  · exact e1 h0
  by_cases h1 : w ≤ ((0 + 1 : Nat) : Real) / 4
  · exact seg 0 (by norm_num) (not_lt.mp h0) h1
  by_cases h2 : w ≤ ((1 + 1 : Nat) : Real) / 4
  · exact seg 1 (by norm_num) (not_le.mp h1).le h2
  by_cases h3 : w ≤ ((2 + 1 : Nat) : Real) / 4
  · exact seg 2 (by norm_num) (not_le.mp h2).le h3
  exact e2 (not_le.mp h3)

/-- `C324_each_partial` at the start. -/
example : ∃ c, Started (demo 0 1 1) 1 0 1 0 c ∧ |(predictor c (1 / 100)).iqcmd| ≤ 1 := by
  obtain ⟨c, h⟩ := demo_started 0 1 1 1 0 1 0
  have B := begun (demo_usable 0 1 1) h
  obtain ⟨t, hn, e⟩ := B.tab1
  have k := (C324_each_partial c (1 / 100) (by rw [B.data]; show (0 : Real) ≤ 1; norm_num) (fun w => by
    rw [e, show t.setparams 4 (demo 0 1 1).vp (demo 0 1 1).ip = t.setparams 4 (fun k => (k : Real) / 4) (fun _ => 1)
      from rfl, const_table t 1 w hn]
    show (0 : Real) ≤ 1
    norm_num)).1.2.2
  rw [B.data] at k
  exact ⟨c, h, k⟩

theorem started_tables {v q ip iq : Real} {c : Dev} (h : Started (demo 0 1 1) v q ip iq c) : c.tab1 = c.tab2 := by
  obtain ⟨raw, c0, hl, rfl⟩ := h
  unfold load at hl
  split at hl
  · cases hl
    rfl
  · cases hl

/-- `C327_equal_partial` at the start. -/
example : ∃ c, Started (demo 0 1 1) 1 0 1 0 c ∧ (predictor c (1 / 100)).ipcmd ≤ 1 := by
  obtain ⟨c, h⟩ := demo_started 0 1 1 1 0 1 0
  have B := begun (demo_usable 0 1 1) h
  obtain ⟨t, hn, e⟩ := B.tab1
  have tw : ∀ w, c.tab1.output w = some 1 := by
    intro w
    rw [e]
    exact const_table t 1 w hn
  have k := (C327_equal_partial c (1 / 100) (started_tables h) (by rw [B.data]; show (0 : Real) ≤ 1; norm_num) (fun w => by
    rw [tw w]
    show (0 : Real) ≤ 1
    norm_num)).1.1
  rw [tw] at k
  exact ⟨c, h, k⟩

/-- The current 1 at the voltage 1; the reference of the reactive power becomes 1/2. -/
example : ∃ c, Started (demo 0 1 1) 1 0 1 0 c ∧
    1 ^ 2 < (step (1 / 100) c (⟨1 * 1, 1 / 2, 1, 0, 1⟩, ⟨1 * 1, 1 / 2, 1, 0, 1⟩)).ipcmd ^ 2 +
      (step (1 / 100) c (⟨1 * 1, 1 / 2, 1, 0, 1⟩, ⟨1 * 1, 1 / 2, 1, 0, 1⟩)).iqcmd ^ 2 := by
  obtain ⟨c, h⟩ := demo_started 0 1 1 1 0 1 0
  refine ⟨c, h, C324_total_violated (demo 0 1 1) 1 0 (1 / 2) 0 (1 / 100) c (demo_usable 0 1 1) (demo_tables 0 1 1) h ?_ ?_
    rfl rfl ?_ (le_refl _) (le_refl _) (by norm_num) (by norm_num)⟩ <;> norm_num [demo]

/-- The table allows 1/2, the real current stays 1. -/
example : ∃ c, Started (demo 0 (1 / 2) 1) 1 0 1 0 c ∧
    (step (1 / 100) c (⟨1 * 1, 0, 1, 0, 1⟩, ⟨1 * 1, 0, 1, 0, 1⟩)).ipcmd = 1 := by
  obtain ⟨c, h⟩ := demo_started 0 (1 / 2) 1 1 0 1 0
  refine ⟨c, h, (C327_table_violated (demo 0 (1 / 2) 1) 1 0 1 0 0 (1 / 100) c (demo_usable 0 (1 / 2) 1)
    (demo_tables 0 (1 / 2) 1) h ?_ ?_ rfl rfl ?_ ?_ (le_refl _) ?_ (le_refl _) (by norm_num)).1⟩ <;> norm_num [demo]

/-- The values at the voltage `v`. -/
def at' (v : Real) : In × In := (⟨1, 0, v, 0, 1⟩, ⟨1, 0, v, 0, 1⟩)

theorem calm_one (thld a b : Real) : calm (demo thld a b) (at' 1) := by
  norm_num [calm, at', demo]

theorem low_half (thld a b : Real) : low (demo thld a b) (at' (1 / 2)) := by
  norm_num [low, at', demo]

/-- A step with a dip. -/
theorem dipped (thld a b v q ip iq : Real) : ∃ c, c.r = demo thld a b ∧ c.prev = true ∧
    ∃ c0, Started (demo thld a b) v q ip iq c0 ∧ c = step (1 / 100) c0 (at' (1 / 2)) := by
  obtain ⟨c0, h⟩ := demo_started thld a b v q ip iq
  have r0 := started_r h
  obtain ⟨_, e2, e3⟩ := step_switch (1 / 100) c0 (at' (1 / 2))
  exact ⟨_, e3.trans r0, by rw [e2, r0]; exact dip_true (low_half thld a b).2, c0, h, rfl⟩

/-- Holding for 0.05: constant after 3 further steps of 0.01, nothing after 6. -/
example : ∃ c, c.r = demo (1 / 20) 1 1 ∧ c.prev = true ∧
    (run (1 / 100) c (at' 1 :: List.replicate 3 (at' 1))).iqinj = 3 / 20 ∧
    (run (1 / 100) c (at' 1 :: List.replicate 6 (at' 1))).iqinj = 0 := by
  obtain ⟨c, hr, hp, _⟩ := dipped (1 / 20) 1 1 1 0 1 0
  have k := fun n => (C325_hold_partial (1 / 100) c (at' 1) (List.replicate n (at' 1)) (by norm_num) (fun j hj => by
    have : j = at' 1 := by
      rcases List.mem_cons.mp hj with h | h
      · exact h
      · exact List.eq_of_mem_replicate h
    rw [this, hr]
    exact calm_one _ _ _) hp).1
  rw [hr] at k
  refine ⟨c, hr, hp, (k 3 ?_).1 ?_, (k 6 ?_).2 ?_⟩ <;> norm_num [demo]

/-- The holding time -1. -/
example : ∃ c, c.r = demo (-1) 1 1 ∧ (run (1 / 100) c [at' 1, at' 1]).iqinj = 0 := by
  obtain ⟨c, hr, hp, _⟩ := dipped (-1) 1 1 1 0 1 0
  exact ⟨c, hr, (C325_negative_violated (1 / 100) c (at' 1) (by norm_num) hp (by rw [hr]; norm_num [demo])
    (by rw [hr]; exact calm_one _ _ _)).2 _ (by rw [hr]; exact calm_one _ _ _)⟩

/-- Dip, one step without dip, dip. -/
example : ∃ c, c.r = demo 1 1 1 ∧ ∀ n, (run (1 / 100) c (List.replicate (n + 1) (at' (1 / 2)))).iqinj = 3 / 20 := by
  obtain ⟨c, hr, hp, _⟩ := dipped 1 1 1 1 0 1 0
  obtain ⟨e1, e2, e3⟩ := step_switch (1 / 100) c (at' 1)
  rw [hp, hr, dip_false (calm_one 1 1 1).1] at e1
  have s : (step (1 / 100) c (at' 1)).sw = 2 := by
    refine (Prod.ext_iff.mp e1).1.trans ?_
    unfold switch
    rw [if_pos rfl, if_pos rfl]
    norm_num [demo]
  refine ⟨step (1 / 100) c (at' 1), e3.trans hr, fun n => ?_⟩
  have k := C325_again_violated (1 / 100) (List.replicate (n + 1) (at' (1 / 2))) _ s (fun i hi => by
    rw [List.eq_of_mem_replicate hi, e3, hr]
    exact low_half 1 1 1) (List.cons_ne_nil _ _)
  rw [k, e3, hr]
  rfl

/-- The reactive power 0 or 1/2 in all steps. -/
example : ∃ c, Started demoQ 1 0 1 0 c ∧ ∀ n,
    (run (1 / 100) c (List.replicate n (⟨1, 1 / 2, 1, 0, 1⟩, ⟨1, 1 / 2, 1, 0, 1⟩))).iqcmd =
    (run (1 / 100) c (List.replicate n (⟨1, 1 / 2, 1, 1 / 2, 1⟩, ⟨1, 1 / 2, 1, 1 / 2, 1⟩))).iqcmd := by
  obtain ⟨c, h⟩ := loads demoQ (by norm_num [demoQ, demo]) (by norm_num [demoQ, demo]) (by norm_num [demoQ, demo])
  refine ⟨_, ⟨_, _, h, rfl⟩, fun n => (C326_reactive_violated demoQ 1 0 1 0 (1 / 100) _ ⟨_, _, h, rfl⟩ rfl _ _ ?_).1⟩
  induction n with
  | zero => exact List.Forall₂.nil
  | succ n ih => exact List.Forall₂.cons ⟨⟨rfl, rfl, rfl, rfl⟩, ⟨rfl, rfl, rfl, rfl⟩⟩ ih

end GridPACK.ElecControl
