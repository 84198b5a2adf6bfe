import Verif.Lemmas.AcMotor
import Mathlib.Tactic.Linarith
import Mathlib.Tactic.Positivity
import Mathlib.Tactic.FieldSimp
import Mathlib.Tactic.Ring
import Mathlib.Tactic.NormNum

/-!
# Air conditioners (C306–C312)
-/

namespace GridPACK.AcMotor

/-! ## C306: parameters of the air conditioners -/

/-- C306, for a record of the motor itself: restarting time and load factor are
those of the record, as is the share of the load (unless below one per cent). -/
theorem C306_record_partial (r : Rec) (p : Par) (t l c : ℝ)
    (ht : r.trestart = some t) (hl : r.complf = some l) (hc : r.perc = some c) (h1 : 1 / 100 ≤ c) :
    (load false r p).trst = t ∧ (load false r p).lf = l ∧ (load false r p).perc = c := by
  refine ⟨by simp [load, secondPass, ht], by simp [load, secondPass, hl], ?_⟩
  simp [load, share, hc]
  intro h
  norm_num at h1
  linarith

/-- C306 is violated: restarting time and load factor that a composite load gives
for its air conditioners are not used. -/
theorem C306_composite_violated (p : Par) (t l : ℝ) (ht : t ≠ 4 / 10) (hl : l ≠ 8 / 10) :
    (load true (ofComposite (some t) (some l)) p).trst ≠ t ∧
      (load true (ofComposite (some t) (some l)) p).lf ≠ l := by
  simp only [load, secondPass, ofComposite, Option.getD_none]
  exact ⟨ht.symm, hl.symm⟩

/-- C306 is violated: of the power that a composite load assigns to its air
conditioners, only 43 per cent are taken by the motors. -/
theorem C306_power_violated (p : Par) (t l : Option ℝ) (pl v : ℝ) (h : pl ≠ 0) :
    (initDev (load true (ofComposite t l) p) pl v).pinit = 43 / 100 * pl ∧
      (initDev (load true (ofComposite t l) p) pl v).pinit ≠ pl := by
  have e : (initDev (load true (ofComposite t l) p) pl v).pinit = 43 / 100 * pl := by
    simp only [initDev, load, share, ofComposite, Option.getD_none]
    norm_num
    ring
  refine ⟨e, ?_⟩
  rw [e]
  intro h2
  apply h
  linarith

/-! ## C307: stalling and restarting -/

/-- C307: the motors stall exactly when the voltage has been below the stalling
voltage for longer than the stalling time without a break. -/
theorem C307_stall (d : Dev) (v : ℝ) (h : List In) (hf : Forward h) (hT : 0 ≤ d.p.tstall) :
    (simulate d v h).runA = false ↔ HeldFor (voltages h) (· < d.p.vstall) d.p.tstall := by
  have key : ((simulate d v h).runA = false ↔ HeldFor (voltages h) (· < d.p.vstall) d.p.tstall) ∧
      ((simulate d v h).runA = true →
        (simulate d v h).stallTimer = clock (· < d.p.vstall) (voltages h)) := by
    induction h using List.reverseRecOn with
    | nil =>
      refine ⟨?_, fun _ => rfl⟩
      constructor
      · intro h
        simp [simulate, runFrom, initState] at h
      · intro h
        exact absurd h (held_nil _ _ hT)
    | append_singleton g i ih =>
      obtain ⟨i1, i2⟩ := ih fun x hx => hf x (by simp [hx])
      have e : voltages (g ++ [i]) = voltages g ++ [(i.dt, i.v)] := by simp [voltages]
      have hn := voltages_forward _ hf
      rw [e] at hn
      have hr : simulate d v (g ++ [i]) = step d (simulate d v g) i := runFrom_snoc _ _ _ _
      rw [hr, e, held_snoc _ _ _ _ hn, step_runA, step_stallTimer]
      cases hA : (simulate d v g).runA
      · simp only [Bool.false_and, true_iff, Bool.false_eq_true, false_imp_iff, and_true]
        exact Or.inl (i1.1 hA)
      · have nh : ¬ HeldFor (voltages g) (· < d.p.vstall) d.p.tstall := by
          intro hh
          rw [i1.2 hh] at hA
          cases hA
        rw [i2 hA, clock_snoc]
        simp [nh]
  exact key.1

/-- C307 for the part that restarts: after the motors have stalled, part B runs
again exactly when there is such a part and the voltage has been above the
restarting voltage for longer than the restarting time. -/
theorem C307_restart_partial (d : Dev) (v : ℝ) (g : List In) (x : In) (h : List In)
    (hf : Forward h) (hT : 0 ≤ d.p.trst)
    (h1 : (simulate d v g).runA = true) (h2 : (simulate d v (g ++ [x])).runA = false) :
    (simulate d v (g ++ [x] ++ h)).runB = true ↔
      0 < d.p.frst ∧ HeldFor (voltages h) (d.p.vrst < ·) d.p.trst := by
  have r1 : ∀ g, (simulate d v g).runA = true →
      (simulate d v g).runB = true ∧ (simulate d v g).restartTimer = 0 := by
    intro g
    induction g using List.reverseRecOn with
    | nil => exact fun _ => ⟨rfl, rfl⟩
    | append_singleton g i ih =>
      have hr : simulate d v (g ++ [i]) = step d (simulate d v g) i := runFrom_snoc _ _ _ _
      rw [hr, step_runA, step_runB, step_restartTimer]
      intro hA
      simp only [Bool.and_eq_true, Bool.not_eq_true', decide_eq_false_iff_not] at hA
      obtain ⟨a, b⟩ := ih hA.1
      simp [a, b, hA.1]
      simp only [not_lt] at hA
      exact Or.inl hA.2
  have hr : simulate d v (g ++ [x]) = step d (simulate d v g) x := runFrom_snoc _ _ _ _
  obtain ⟨b1, b2⟩ := r1 g h1
  have s1 : (simulate d v (g ++ [x])).runB = false ∧ (simulate d v (g ++ [x])).restartTimer = 0 := by
    rw [hr, step_runA, h1] at h2
    simp only [Bool.true_and, Bool.not_eq_false', decide_eq_true_eq] at h2
    rw [hr, step_runB, step_restartTimer, b1, h1, b2]
    simp [h2, hT]
  have key : (simulate d v (g ++ [x] ++ h)).runA = false ∧
      ((simulate d v (g ++ [x] ++ h)).runB = true ↔
        0 < d.p.frst ∧ HeldFor (voltages h) (d.p.vrst < ·) d.p.trst) ∧
      ((simulate d v (g ++ [x] ++ h)).runB = false →
        (simulate d v (g ++ [x] ++ h)).restartTimer = clock (d.p.vrst < ·) (voltages h)) := by
    induction h using List.reverseRecOn with
    | nil =>
      rw [List.append_nil]
      refine ⟨h2, ?_, fun _ => s1.2⟩
      rw [s1.1]
      simp only [Bool.false_eq_true, false_iff, not_and]
      exact fun _ => held_nil _ _ hT
    | append_singleton k i ih =>
      obtain ⟨i0, i1, i2⟩ := ih fun y hy => hf y (by simp [hy])
      have e : voltages (k ++ [i]) = voltages k ++ [(i.dt, i.v)] := by simp [voltages]
      have hn := voltages_forward _ hf
      rw [e] at hn
      have hr : simulate d v (g ++ [x] ++ (k ++ [i])) = step d (simulate d v (g ++ [x] ++ k)) i := by
        rw [← List.append_assoc]
        exact runFrom_snoc _ _ _ _
      rw [hr, e, held_snoc _ _ _ _ hn, step_runA, step_runB, step_restartTimer, i0]
      simp only [Bool.false_and, Bool.not_false, Bool.and_true, true_and]
      cases hB : (simulate d v (g ++ [x] ++ k)).runB
      · rw [i2 hB, clock_snoc]
        have nh : ¬ (0 < d.p.frst ∧ HeldFor (voltages k) (d.p.vrst < ·) d.p.trst) := by
          intro hh
          rw [i1.2 hh] at hB
          cases hB
        have nh2 : 0 < d.p.frst → ¬ HeldFor (voltages k) (d.p.vrst < ·) d.p.trst :=
          fun a b => nh ⟨a, b⟩
        simp
        intro a
        simp [nh2 a]
      · have hh := i1.1 hB
        simp [hh.1, hh.2]
  exact key.2.1

/-- C307 is violated: a part that has restarted never stalls again, however low
the voltage is and for however long. -/
theorem C307_again_violated (d : Dev) (v : ℝ) (g h : List In)
    (h1 : (simulate d v g).runA = false) (h2 : (simulate d v g).runB = true) :
    (simulate d v (g ++ h)).runB = true := by
  have key : (simulate d v (g ++ h)).runA = false ∧ (simulate d v (g ++ h)).runB = true := by
    induction h using List.reverseRecOn with
    | nil =>
      rw [List.append_nil]
      exact ⟨h1, h2⟩
    | append_singleton k i ih =>
      have hr : simulate d v (g ++ (k ++ [i])) = step d (simulate d v (g ++ k)) i := by
        rw [← List.append_assoc]
        exact runFrom_snoc _ _ _ _
      rw [hr, step_runA, step_runB, ih.1, ih.2]
      simp
  exact key.2

/-! ## C308: undervoltage relay -/

/-- C308: the part with undervoltage relays is disconnected, and stays so, exactly
when the measured voltage has been below the first level for longer than the
first time or below the second level for longer than the second time. -/
theorem C308_relay (d : Dev) (v : ℝ) (h : List In) (hf : Forward h)
    (h1 : 0 ≤ d.p.ttr1) (h2 : 0 ≤ d.p.ttr2) (h3 : 0 < d.p.fuvr) :
    (HeldFor (measured d (initState d v) h) (· < d.p.uvtr1) d.p.ttr1 ∨
      HeldFor (measured d (initState d v) h) (· < d.p.uvtr2) d.p.ttr2 →
        (simulate d v h).kuv = 1 - d.p.fuvr) ∧
    (¬ (HeldFor (measured d (initState d v) h) (· < d.p.uvtr1) d.p.ttr1 ∨
      HeldFor (measured d (initState d v) h) (· < d.p.uvtr2) d.p.ttr2) →
        (simulate d v h).kuv = 1) := by
  have key : (simulate d v h).uv1 = clock (· < d.p.uvtr1) (measured d (initState d v) h) ∧
      (simulate d v h).uv2 = clock (· < d.p.uvtr2) (measured d (initState d v) h) ∧
      (HeldFor (measured d (initState d v) h) (· < d.p.uvtr1) d.p.ttr1 ∨
        HeldFor (measured d (initState d v) h) (· < d.p.uvtr2) d.p.ttr2 →
          (simulate d v h).kuv = 1 - d.p.fuvr) ∧
      (¬ (HeldFor (measured d (initState d v) h) (· < d.p.uvtr1) d.p.ttr1 ∨
        HeldFor (measured d (initState d v) h) (· < d.p.uvtr2) d.p.ttr2) →
          (simulate d v h).kuv = 1) := by
    induction h using List.reverseRecOn with
    | nil =>
      refine ⟨rfl, rfl, ?_, fun _ => rfl⟩
      rintro (a | a)
      · exact absurd a (held_nil _ _ h1)
      · exact absurd a (held_nil _ _ h2)
    | append_singleton g i ih =>
      obtain ⟨i1, i2, i3, i4⟩ := ih fun x hx => hf x (by simp [hx])
      have hn := measured_forward d (initState d v) _ hf
      rw [measured_snoc] at hn
      have hr : simulate d v (g ++ [i]) = step d (simulate d v g) i := runFrom_snoc _ _ _ _
      have hvm : (runFrom d (initState d v) g).vm = (simulate d v g).vm := rfl
      obtain ⟨u1, u2, u3⟩ := step_uv d (simulate d v g) i
      rw [hr, measured_snoc, held_snoc _ _ _ _ hn, held_snoc _ _ _ _ hn, clock_snoc, clock_snoc,
        u1, u2, u3, hvm, i1, i2]
      simp only [h3, and_true, true_and]
      generalize (if (simulate d v g).vm < d.p.uvtr1 then
        clock (fun x => x < d.p.uvtr1) (measured d (initState d v) g) + i.dt else 0) = c1
      generalize (if (simulate d v g).vm < d.p.uvtr2 then
        clock (fun x => x < d.p.uvtr2) (measured d (initState d v) g) + i.dt else 0) = c2
      constructor
      · intro a
        by_cases k2 : c2 > d.p.ttr2
        · simp [k2]
        by_cases k1 : c1 > d.p.ttr1
        · simp [k1]
        simp only [k2, k1, if_false]
        apply i3
        rcases a with (a | a) | (a | a)
        · exact Or.inl a
        · exact absurd a k1
        · exact Or.inr a
        · exact absurd a k2
      · intro a
        simp only [not_or] at a
        obtain ⟨⟨a1, a2⟩, a3, a4⟩ := a
        simp only [gt_iff_lt, a2, a4, if_false]
        exact i4 (by simp [a1, a3])
  exact key.2.2

/-! ## C309: contactor -/

/-- The contactor in a step, by cases. -/
theorem con_range (d : Dev) (s : State) (hk : 0 ≤ s.kcon ∧ s.kcon ≤ 1) (ht : 0 ≤ s.trip ∧ s.trip ≤ 1) :
    (0 ≤ (contactorOff d s).kcon ∧ (contactorOff d s).kcon ≤ 1) ∧
    (0 ≤ (contactorOff d s).trip ∧ (contactorOff d s).trip ≤ 1) ∧
    (0 ≤ (contactorOn d s).kcon ∧ (contactorOn d s).kcon ≤ 1) := by
  refine ⟨?_, ?_, ?_⟩
  · unfold contactorOff
    split_ifs with a b
    · norm_num
    · have : 0 < d.p.vc1off - d.p.vc2off := by linarith [b.1, b.2]
      dsimp only
      exact ⟨div_nonneg (by linarith [b.1]) this.le, (div_le_one this).2 (by linarith [b.2])⟩
    · exact hk
  · unfold contactorOff
    split_ifs with a b
    · norm_num
    · have : 0 < d.p.vc1off - d.p.vc2off := by linarith [b.1, b.2]
      dsimp only
      have l1 : 0 ≤ (s.vm - d.p.vc2off) / (d.p.vc1off - d.p.vc2off) :=
        div_nonneg (by linarith [b.1]) this.le
      have l2 : (s.vm - d.p.vc2off) / (d.p.vc1off - d.p.vc2off) ≤ 1 :=
        (div_le_one this).2 (by linarith [b.2])
      constructor <;> linarith
    · exact ht
  · unfold contactorOn
    split_ifs with a b
    · norm_num
    · have : 0 < d.p.vc1on - d.p.vc2on := by linarith [b.1, b.2]
      dsimp only
      have l1 : 0 ≤ (s.vm - d.p.vc2on) / (d.p.vc1on - d.p.vc2on) :=
        div_nonneg (by linarith [b.2]) this.le
      have l2 : (s.vm - d.p.vc2on) / (d.p.vc1on - d.p.vc2on) ≤ 1 :=
        (div_le_one this).2 (by linarith [b.1])
      constructor
      · have := mul_le_one₀ ht.2 (by linarith : 0 ≤ 1 - (s.vm - d.p.vc2on) / (d.p.vc1on - d.p.vc2on))
          (by linarith)
        linarith
      · have := mul_nonneg ht.1 (by linarith : 0 ≤ 1 - (s.vm - d.p.vc2on) / (d.p.vc1on - d.p.vc2on))
        linarith
    · exact hk

/-- C309: whatever happens, the share of motors that the contactors leave
connected is between nothing and all. -/
theorem C309_range (d : Dev) (v : ℝ) (h : List In) :
    0 ≤ (simulate d v h).kcon ∧ (simulate d v h).kcon ≤ 1 := by
  have key : (0 ≤ (simulate d v h).kcon ∧ (simulate d v h).kcon ≤ 1) ∧
      (0 ≤ (simulate d v h).trip ∧ (simulate d v h).trip ≤ 1) := by
    induction h using List.reverseRecOn with
    | nil => simp [simulate, runFrom, initState]
    | append_singleton g i ih =>
      have hr : simulate d v (g ++ [i]) = step d (simulate d v g) i := runFrom_snoc _ _ _ _
      obtain ⟨c1, c2⟩ := step_con d (simulate d v g) i
      obtain ⟨a, b, _⟩ := con_range d (simulate d v g) ih.1 ih.2
      rw [hr, c1, c2]
      exact ⟨(con_range d _ a b).2.2, b⟩
  exact key.1

/-- C309: after a step with a measured voltage below both lower thresholds no motor
is connected, with one above the upper threshold for closing all are; and all are as
long as the measured voltage has not fallen below the upper threshold for opening. -/
theorem C309_limits_partial (d : Dev) (v : ℝ) (g : List In) (i : In) :
    ((simulate d v g).vm < d.p.vc2off → (simulate d v g).vm < d.p.vc2on →
      (simulate d v g).vm < d.p.vc1on → (simulate d v (g ++ [i])).kcon = 0) ∧
    (d.p.vc1on ≤ (simulate d v g).vm → (simulate d v (g ++ [i])).kcon = 1) ∧
    (d.p.vc2off ≤ d.p.vc1off → (∀ x ∈ measured d (initState d v) g, d.p.vc1off ≤ x.2) →
      (simulate d v g).kcon = 1) := by
  have hr : simulate d v (g ++ [i]) = step d (simulate d v g) i := runFrom_snoc _ _ _ _
  obtain ⟨c1, c2⟩ := step_con d (simulate d v g) i
  rw [hr, c1]
  refine ⟨?_, ?_, ?_⟩
  · intro a b c
    simp [contactorOn, contactorOff, a, not_le.2 b, not_le.2 c]
  · intro a
    unfold contactorOn
    rw [contactorOff_vm]
    simp [a]
  · intro ho hm
    clear hr c1 c2
    have key : (simulate d v g).kcon = 1 ∧ (simulate d v g).trip = 0 := by
      induction g using List.reverseRecOn with
      | nil => exact ⟨rfl, rfl⟩
      | append_singleton k j ih =>
        rw [measured_snoc] at hm
        obtain ⟨a, b⟩ := ih fun x hx => hm x (by simp [hx])
        have hv : d.p.vc1off ≤ (simulate d v k).vm := 
          hm (j.dt, (simulate d v k).vm) (List.mem_append_right _ (List.mem_singleton.2 rfl))
        have hr : simulate d v (k ++ [j]) = step d (simulate d v k) j := runFrom_snoc _ _ _ _
        obtain ⟨c1, c2⟩ := step_con d (simulate d v k) j
        have e : contactorOff d (simulate d v k) = simulate d v k := by
          unfold contactorOff
          rw [if_neg (by linarith), if_neg (by intro x; linarith [x.2])]
        rw [hr, c1, c2, e]
        refine ⟨?_, b⟩
        unfold contactorOn
        split_ifs
        · rfl
        · simp [b]
        · exact a
    exact key.1

/-- C309 is violated: motors that have been disconnected are connected again as soon
as the measured voltage is above the lower threshold for opening, though it is below
both thresholds for closing. -/
theorem C309_reconnect_violated (d : Dev) (v : ℝ) (g : List In) (i : In)
    (h0 : (simulate d v g).kcon = 0)
    (h1 : d.p.vc2off < (simulate d v g).vm) (h2 : (simulate d v g).vm < d.p.vc1off)
    (h3 : (simulate d v g).vm < d.p.vc2on) (h4 : (simulate d v g).vm < d.p.vc1on) :
    (simulate d v g).kcon < (simulate d v (g ++ [i])).kcon := by
  have hr : simulate d v (g ++ [i]) = step d (simulate d v g) i := runFrom_snoc _ _ _ _
  obtain ⟨c1, c2⟩ := step_con d (simulate d v g) i
  rw [hr, c1, h0]
  simp only [contactorOn, contactorOff, not_lt.2 h1.le, if_false, ge_iff_le, h1.le, h2, and_self,
    if_true, not_le.2 h4, not_le.2 h3, and_false]
  exact div_pos (by linarith) (by linarith)

/-! ## C310: thermal protection -/

/-- C310: whatever happens, the shares of motors that the thermal protection leaves
connected are between nothing and all. -/
theorem C310_range (p : Par) (pl v v' : ℝ) (h : List In) :
    let s := simulate (initDev p pl v) v' h
    (0 ≤ s.fthA ∧ s.fthA ≤ 1) ∧ (0 ≤ s.fthB ∧ s.fthB ≤ 1) := by
  have one : ∀ t r o, 0 ≤ o ∧ o ≤ 1 →
      0 ≤ thermalShare (initDev p pl v) t r o ∧ thermalShare (initDev p pl v) t r o ≤ 1 := by
    intro t r o ho
    unfold thermalShare
    split_ifs with a b
    · norm_num
    · refine ⟨not_lt.1 b, ?_⟩
      have ht : t > p.th1t := a.2.1
      have hA : (initDev p pl v).thA < 0 := a.1
      simp only [initDev] at hA ⊢
      by_cases c : 0 < p.th1t ∧ p.th1t < p.th2t
      · simp only [c, and_self, if_true] at hA ⊢
        have : 0 < p.th2t - p.th1t := by linarith [c.2]
        have e : t * (-1 / (p.th2t - p.th1t)) + p.th2t / (p.th2t - p.th1t)
            = (p.th2t - t) / (p.th2t - p.th1t) := by
          field_simp
          ring
        rw [e, div_le_one this]
        linarith
      · simp [c] at hA
    · exact ho
  intro s
  induction h using List.reverseRecOn with
  | nil => simp [s, simulate, runFrom, initState]
  | append_singleton g i ih =>
    have hr : s = step (initDev p pl v) (simulate (initDev p pl v) v' g) i := runFrom_snoc _ _ _ _
    obtain ⟨c1, c2⟩ := step_fth (initDev p pl v) (simulate (initDev p pl v) v' g) i
    rw [hr, c1, c2]
    exact ⟨one _ _ _ ih.1, one _ _ _ ih.2⟩

/-- C310: of stalled motors warmer than the upper temperature none is left, between
the temperatures a share that falls linearly from all to none. -/
theorem C310_share_partial (p : Par) (pl v v' : ℝ) (g : List In) (i : In)
    (h1 : 0 < p.th1t) (h2 : p.th1t < p.th2t) :
    let d := initDev p pl v
    (simulate d v' (g ++ [i])).runA = false → p.th1t < (simulate d v' g).tA →
    (p.th2t ≤ (simulate d v' g).tA → (simulate d v' (g ++ [i])).fthA = 0) ∧
    ((simulate d v' g).tA ≤ p.th2t → (simulate d v' (g ++ [i])).fthA =
      (p.th2t - (simulate d v' g).tA) / (p.th2t - p.th1t)) := by
  intro d hs ht
  have hr : simulate d v' (g ++ [i]) = step d (simulate d v' g) i := runFrom_snoc _ _ _ _
  obtain ⟨c1, _⟩ := step_fth d (simulate d v' g) i
  rw [hr] at hs ⊢
  rw [c1, hs]
  have hp : 0 < p.th2t - p.th1t := by linarith
  have hA : d.thA = -1 / (p.th2t - p.th1t) := by simp [d, initDev, h1, h2]
  have hB : d.thB = p.th2t / (p.th2t - p.th1t) := by simp [d, initDev, h1, h2]
  have hneg : d.thA < 0 := by
    rw [hA]
    exact div_neg_of_neg_of_pos (by norm_num) hp
  have hth : d.p.th1t = p.th1t := rfl
  have e : (simulate d v' g).tA * d.thA + d.thB
      = (p.th2t - (simulate d v' g).tA) / (p.th2t - p.th1t) := by
    rw [hA, hB]
    field_simp
    ring
  unfold thermalShare
  rw [if_pos ⟨hneg, by rw [hth]; exact ht, rfl⟩, e]
  constructor
  · intro a
    split_ifs with b
    · rfl
    · have := div_nonpos_of_nonpos_of_nonneg (by linarith : p.th2t - (simulate d v' g).tA ≤ 0) hp.le
      linarith [not_lt.1 b]
  · intro a
    rw [if_neg (not_lt.2 (div_nonneg (by linarith) hp.le))]

/-- C310 is violated: motors that the thermal protection has disconnected are
connected again, still stalled, when the temperature falls. -/
theorem C310_return_violated (p : Par) (pl v v' : ℝ) (g : List In) (i : In)
    (h1 : 0 < p.th1t) (h2 : p.th1t < p.th2t) :
    let d := initDev p pl v
    (simulate d v' (g ++ [i])).runA = false → (simulate d v' g).fthA = 0 →
    p.th1t < (simulate d v' g).tA → (simulate d v' g).tA < p.th2t →
    (simulate d v' g).fthA < (simulate d v' (g ++ [i])).fthA := by
  intro d hs h0 ha hb
  rw [(C310_share_partial p pl v v' g i h1 h2 hs ha).2 hb.le, h0]
  exact div_pos (by linarith) (by linarith)

/-! ## Motors at rest -/

/-- The state between protection and predictor. -/
theorem step_mid (d : Dev) (s : State) (i : In) :
    ∃ t, step d s i = corrector d (predictor d (power d t i.v i.f) i.dt i.v i.f) i.dt i.v2 i.f2 ∧
      t.kuv = (step d s i).kuv ∧ t.kcon = (step d s i).kcon ∧ t.fthA = (step d s i).fthA ∧
      t.fthB = (step d s i).fthB ∧ t.runA = (step d s i).runA ∧ t.runB = (step d s i).runB ∧
      t.fonline = (changeLoad s i.change).fonline ∧ t.pB = s.pB ∧ t.qB = s.qB ∧
      t.tA = s.tA ∧ t.tB = s.tB ∧ t.vm = s.vm ∧ t.fm = s.fm := by
  refine ⟨_, rfl, ?_⟩
  simp only [step, post, corrector_kuv, predictor_kuv, power_kuv, corrector_kcon, predictor_kcon,
    power_kcon, corrector_fthA, predictor_fthA, power_fthA, corrector_fthB, predictor_fthB, power_fthB,
    corrector_runA, predictor_runA, power_runA, corrector_runB, predictor_runB, power_runB,
    thermal_fonline, restarting_fonline, stalling_fonline, timers_fonline, contactorOn_fonline,
    contactorOff_fonline, relay_fonline, thermal_pB, restarting_pB, stalling_pB, timers_pB,
    contactorOn_pB, contactorOff_pB, relay_pB, changeLoad_pB, thermal_qB, restarting_qB, stalling_qB,
    timers_qB, contactorOn_qB, contactorOff_qB, relay_qB, changeLoad_qB, thermal_tA, restarting_tA,
    stalling_tA, timers_tA, contactorOn_tA, contactorOff_tA, relay_tA, changeLoad_tA, thermal_tB,
    restarting_tB, stalling_tB, timers_tB, contactorOn_tB, contactorOff_tB, relay_tB, changeLoad_tB,
    thermal_vm, restarting_vm, stalling_vm, timers_vm, contactorOn_vm, contactorOff_vm, relay_vm,
    changeLoad_vm, thermal_fm, restarting_fm, stalling_fm, timers_fm, contactorOn_fm,
    contactorOff_fm, relay_fm, changeLoad_fm, and_self]

theorem step_fonline (d : Dev) (s : State) (i : In) :
    (step d s i).fonline = (changeLoad s i.change).fonline := by
  obtain ⟨t, e, _, _, _, _, _, _, h, _⟩ := step_mid d s i
  rw [e, corrector_fonline, predictor_fonline, power_fonline, h]

theorem step_vm (d : Dev) (s : State) (i : In) :
    (step d s i).vm = s.vm + 1 / 2 * ((i.v - s.vm) / d.p.tv +
      (i.v2 - (s.vm + (i.v - s.vm) / d.p.tv * i.dt)) / d.p.tv) * i.dt := by
  obtain ⟨t, e, _, _, _, _, _, _, _, _, _, _, _, h, _⟩ := step_mid d s i
  rw [e, ← h]
  rfl

/-- The motors are at rest at the voltage `v`. -/
structure Rest (d : Dev) (v : ℝ) (s : State) : Prop where
  vm : s.vm = v
  fm : s.fm = 1
  runA : s.runA = true
  runB : s.runB = true
  kuv : s.kuv = 1
  kcon : s.kcon = 1
  trip : s.trip = 0
  fthA : s.fthA = 1
  fthB : s.fthB = 1
  fonline : s.fonline = 1
  restart : s.restartTimer = 0
  tA : s.tA = (initState d v).tA

theorem rest_init (d : Dev) (v : ℝ) : Rest d v (initState d v) :=
  ⟨rfl, rfl, rfl, rfl, rfl, rfl, rfl, rfl, rfl, rfl, rfl, rfl⟩

/-- The conditions under which no protection acts at a voltage. -/
structure Quiet (d : Dev) (v : ℝ) : Prop where
  stall : d.p.vstall ≤ v
  tstall : 0 ≤ d.p.tstall
  trst : 0 ≤ d.p.trst
  off : d.p.vc1off ≤ v
  off2 : d.p.vc2off ≤ v
  uv1 : d.p.uvtr1 ≤ v ∨ d.p.fuvr ≤ 0
  uv2 : d.p.uvtr2 ≤ v ∨ d.p.fuvr ≤ 0
  ttr1 : 0 ≤ d.p.ttr1
  ttr2 : 0 ≤ d.p.ttr2

/-- One step of motors at rest whose protection does not act, if the power of part A
is that of the power flow. -/
theorem rest_step (d : Dev) (v : ℝ) (s : State) (i : In) (q : Quiet d v) (r : Rest d v s)
    (hi : i.v = v ∧ i.f = 1 ∧ i.v2 = v ∧ i.f2 = 1 ∧ i.change = 0)
    (hA : above d v 1 = (d.pinitPu, d.qinitPu)) (hb : d.p.vbrk ≤ v) :
    Rest d v (step d s i) ∧
    (step d s i).pm = d.pinitPu * (1 - d.p.frst) + (powerB d s v 1).1 * d.p.frst ∧
    (step d s i).qm = d.qinitPu * (1 - d.p.frst) + (powerB d s v 1).2 * d.p.frst ∧
    (step d s i).y = (⟨(step d s i).pm, -(step d s i).qm⟩ : ℂ) / v / v := by
  obtain ⟨i1, i2, i3, i4, i5⟩ := hi
  have ns : ¬ i.v < d.p.vstall := by rw [i1]; exact not_lt.2 q.stall
  have sA : (step d s i).runA = true := by
    rw [step_runA, r.runA]
    simp [ns, q.tstall]
  have sB : (step d s i).runB = true := by
    rw [step_runB, r.runA, r.runB]
    simp [ns, q.tstall]
  have sR : (step d s i).restartTimer = 0 := by
    rw [step_restartTimer, r.runB]
    simp [r.restart]
  have sK : (step d s i).kuv = 1 := by
    rw [(step_uv d s i).2.2, r.vm, r.kuv]
    have a1 : ¬ (v < d.p.uvtr1 ∧ 0 < d.p.fuvr) := by
      rintro ⟨a, b⟩
      rcases q.uv1 with c | c <;> linarith
    have a2 : ¬ (v < d.p.uvtr2 ∧ 0 < d.p.fuvr) := by
      rintro ⟨a, b⟩
      rcases q.uv2 with c | c <;> linarith
    simp [a1, a2, not_lt.2 q.ttr1, not_lt.2 q.ttr2]
  have e : contactorOff d s = s := by
    unfold contactorOff
    rw [r.vm, if_neg (not_lt.2 q.off2), if_neg (by intro x; linarith [x.2, q.off])]
  have sC : (step d s i).kcon = 1 := by
    rw [(step_con d s i).1, e]
    unfold contactorOn
    split_ifs
    · rfl
    · simp [r.trip]
    · exact r.kcon
  have sT : (step d s i).trip = 0 := by rw [(step_con d s i).2, e, r.trip]
  have sFA : (step d s i).fthA = 1 := by
    rw [(step_fth d s i).1, sA, r.fthA]
    simp [thermalShare]
  have sFB : (step d s i).fthB = 1 := by
    rw [(step_fth d s i).2, sB, r.fthB]
    simp [thermalShare]
  have sO : (changeLoad s i.change).fonline = 1 := by
    unfold changeLoad
    rw [i5, r.fonline]
    norm_num
  obtain ⟨t, et, t1, t2, t3, t4, t5, t6, t7, t8, t9, t10, t11, t12, t13⟩ := step_mid d s i
  rw [sK] at t1
  rw [sC] at t2
  rw [sFA] at t3
  rw [sFB] at t4
  rw [sA] at t5
  rw [sB] at t6
  rw [sO] at t7
  rw [r.tA] at t10
  rw [r.vm] at t12
  rw [r.fm] at t13
  have pA : powerA d t v 1 = (d.pinitPu, d.qinitPu) := by
    unfold powerA
    rw [t5, if_pos rfl, if_pos hb, hA]
  have pB : powerB d t v 1 = powerB d s v 1 := by
    unfold powerB
    rw [t6, r.runB, t8, t9]
  have hp : (step d s i).pm = d.pinitPu * (1 - d.p.frst) + (powerB d s v 1).1 * d.p.frst := by
    rw [et, i1, i2]
    show t.kuv * t.kcon * t.fonline * ((powerA d t v 1).1 * (1 - d.p.frst) * t.fthA +
      (powerB d t v 1).1 * d.p.frst * t.fthB) = _
    rw [t1, t2, t3, t4, t7, pA, pB]
    ring
  have hq : (step d s i).qm = d.qinitPu * (1 - d.p.frst) + (powerB d s v 1).2 * d.p.frst := by
    rw [et, i1, i2]
    show t.kuv * t.kcon * t.fonline * ((powerA d t v 1).2 * (1 - d.p.frst) * t.fthA +
      (powerB d t v 1).2 * d.p.frst * t.fthB) = _
    rw [t1, t2, t3, t4, t7, pA, pB]
    ring
  refine ⟨⟨?_, ?_, sA, sB, sK, sC, sT, sFA, sFB, ?_, sR, ?_⟩, hp, hq, ?_⟩
  · rw [step_vm, r.vm, i1, i3]
    simp
  · rw [et, i1, i2, i3, i4]
    show t.fm + 1 / 2 * ((1 - t.fm) / d.p.tf + (1 - (t.fm + (1 - t.fm) / d.p.tf * i.dt)) / d.p.tf) *
      i.dt = 1
    rw [t13]
    simp
  · rw [step_fonline, sO]
  · rw [et, i1, i2, i3, i4]
    have cA : currentA d (power d t v 1) v = (⟨d.pinitPu, -d.qinitPu⟩ : ℂ) / v := by
      unfold currentA
      rw [power_runA, t5, if_pos rfl]
      show (⟨(powerA d t v 1).1, -(powerA d t v 1).2⟩ : ℂ) / v = _
      rw [pA]
    have cA2 : currentA d (predictor d (power d t v 1) i.dt v 1) v =
        (⟨d.pinitPu, -d.qinitPu⟩ : ℂ) / v := by
      rw [← cA]
      rfl
    have nn : ‖(⟨d.pinitPu, -d.qinitPu⟩ : ℂ) / v‖ * ‖(⟨d.pinitPu, -d.qinitPu⟩ : ℂ) / v‖ *
        d.p.rstall = (initState d v).tA := by
      show _ = ‖(⟨d.pinitPu, -d.qinitPu⟩ : ℂ)‖ / v * (‖(⟨d.pinitPu, -d.qinitPu⟩ : ℂ)‖ / v) * d.p.rstall
      rw [norm_div, Complex.norm_real, Real.norm_eq_abs, div_mul_div_comm, div_mul_div_comm,
        abs_mul_abs_self]
    have d0 : (predictor d (power d t v 1) i.dt v 1).dA0 = 0 := by
      show (‖currentA d (power d t v 1) v‖ * ‖currentA d (power d t v 1) v‖ * d.p.rstall - t.tA) /
        d.p.tth = 0
      rw [cA, nn, t10]
      simp
    have tA1 : (predictor d (power d t v 1) i.dt v 1).tA = (initState d v).tA := by
      show t.tA + (predictor d (power d t v 1) i.dt v 1).dA0 * i.dt = _
      rw [d0, t10]
      simp
    show t.tA + 1 / 2 * ((predictor d (power d t v 1) i.dt v 1).dA0 +
      (‖currentA d (predictor d (power d t v 1) i.dt v 1) v‖ *
        ‖currentA d (predictor d (power d t v 1) i.dt v 1) v‖ * d.p.rstall -
        (predictor d (power d t v 1) i.dt v 1).tA) / d.p.tth) * i.dt = _
    rw [d0, cA2, nn, tA1, t10]
    simp
  · have : (step d s i).y = (⟨(step d s i).pm, -(step d s i).qm⟩ : ℂ) / i.v / i.v := by
      rw [et]
      rfl
    rw [this, i1]

theorem above_init (p : Par) (pl v : ℝ) :
    above (initDev p pl v) v 1 = ((initDev p pl v).pinitPu, (initDev p pl v).qinitPu) := by
  simp [above, initDev]

/-- In an undisturbed simulation the motors stay at rest. -/
theorem rest_all (p : Par) (pl v : ℝ) (h : List In) (hu : Undisturbed v h)
    (q : Quiet (initDev p pl v) v) (hb : (initDev p pl v).p.vbrk ≤ v) :
    Rest (initDev p pl v) v (simulate (initDev p pl v) v h) := by
  induction h using List.reverseRecOn with
  | nil => exact rest_init _ _
  | append_singleton g i ih =>
    have hr : simulate (initDev p pl v) v (g ++ [i]) = step (initDev p pl v) (simulate (initDev p pl v) v g) i :=
      runFrom_snoc _ _ _ _
    rw [hr]
    exact (rest_step _ v _ i q (ih fun x hx => hu x (by simp [hx])) (hu i (by simp))
      (above_init p pl v) hb).1

/-- C310: in an undisturbed simulation the temperature of part A stays. -/
theorem C310_warm_partial (p : Par) (pl v : ℝ) (h : List In) (hu : Undisturbed v h)
    (q : Quiet (initDev p pl v) v) (hb : (initDev p pl v).p.vbrk ≤ v) :
    (simulate (initDev p pl v) v h).tA = (initState (initDev p pl v) v).tA :=
  (rest_all p pl v h hu q hb).tA

/-- C310 is violated: in an undisturbed simulation part B, which starts with the same
temperature and runs under the same conditions, cools down in the first step (if this
is shorter than twice the thermal time constant). -/
theorem C310_cold_violated (p : Par) (pl v : ℝ) (i : In) (hu : Undisturbed v [i])
    (q : Quiet (initDev p pl v) v) (hb : (initDev p pl v).p.vbrk ≤ v)
    (h0 : 0 < (initState (initDev p pl v) v).tA) (h1 : 0 < i.dt) (h2 : i.dt < 2 * p.tth) :
    (simulate (initDev p pl v) v [i]).tB < (simulate (initDev p pl v) v [i]).tA := by
  have hA := C310_warm_partial p pl v [i] hu q hb
  rw [hA]
  have r := rest_all p pl v [i] hu q hb
  have hs : simulate (initDev p pl v) v [i] = step (initDev p pl v) (initState (initDev p pl v) v) i := rfl
  rw [hs] at r ⊢
  generalize hd : initDev p pl v = d at *
  have htth : d.p.tth = p.tth := by rw [← hd]; rfl
  obtain ⟨t, et, _, _, _, _, _, t6, _, _, _, _, t11, _, _⟩ := step_mid d (initState d v) i
  rw [r.runB] at t6
  have cB : ∀ u : State, u.runB = true → ∀ w, currentB d u w = 0 := by
    intro u hu w
    unfold currentB
    rw [hu, if_pos rfl]
  have hp : 0 < p.tth := by linarith
  have e : (step d (initState d v) i).tB = t.tB + 1 / 2 * ((0 - t.tB) / d.p.tth +
      (0 - (t.tB + (0 - t.tB) / d.p.tth * i.dt)) / d.p.tth) * i.dt := by
    rw [et]
    show t.tB + 1 / 2 * ((‖currentB d (power d t i.v i.f) i.v‖ * ‖currentB d (power d t i.v i.f) i.v‖ *
        d.p.rstall - t.tB) / d.p.tth +
      (‖currentB d (predictor d (power d t i.v i.f) i.dt i.v i.f) i.v2‖ *
        ‖currentB d (predictor d (power d t i.v i.f) i.dt i.v i.f) i.v2‖ * d.p.rstall -
        (t.tB + (‖currentB d (power d t i.v i.f) i.v‖ * ‖currentB d (power d t i.v i.f) i.v‖ *
        d.p.rstall - t.tB) / d.p.tth * i.dt)) / d.p.tth) * i.dt = _
    rw [cB (power d t i.v i.f) (by rw [power_runB, t6]),
      cB (predictor d (power d t i.v i.f) i.dt i.v i.f) (by rw [predictor_runB, power_runB, t6])]
    simp
  rw [e, t11, htth]
  have hB : (initState d v).tB = (initState d v).tA := rfl
  rw [hB]
  generalize (initState d v).tA = T at *
  have e2 : T + 1 / 2 * ((0 - T) / p.tth + (0 - (T + (0 - T) / p.tth * i.dt)) / p.tth) * i.dt
      = T - T * (i.dt / p.tth) * (1 - (i.dt / p.tth) / 2) := by
    field_simp
    ring
  rw [e2]
  have l1 : 0 < i.dt / p.tth := div_pos h1 hp
  have l2 : i.dt / p.tth < 2 := by
    rw [div_lt_iff₀ hp]
    exact h2
  have := mul_pos (mul_pos h0 l1) (by linarith : 0 < 1 - (i.dt / p.tth) / 2)
  linarith

/-! ## C311: power at the start -/

/-- C311: at a voltage above the break point, at which no protection acts, the motors of
an undisturbed simulation take the power of the power flow in every step. -/
theorem C311_start_partial (p : Par) (pl v : ℝ) (h : List In) (i : In) (hu : Undisturbed v (h ++ [i]))
    (q : Quiet (initDev p pl v) v) (hb : (initDev p pl v).p.vbrk < v) (hf : 0 ≤ p.frst)
    (hpl : pl * p.perc ≠ 0) :
    let d := initDev p pl v
    let s := simulate d v (h ++ [i])
    s.pm * d.mva = pl * p.perc ∧ s.qm * d.mva = pl * p.perc * Real.tan (Real.arccos p.pf) ∧
      s.y = (initState d v).y := by
  intro d s
  have r := rest_all p pl v h (fun x hx => hu x (by simp [hx])) q hb.le
  have hs : s = step d (simulate d v h) i := runFrom_snoc _ _ _ _
  obtain ⟨_, a, b, c⟩ := rest_step d v _ i q r (hu i (by simp)) (above_init p pl v) hb.le
  have hB : (powerB d (simulate d v h) v 1).1 * d.p.frst = d.pinitPu * d.p.frst ∧
      (powerB d (simulate d v h) v 1).2 * d.p.frst = d.qinitPu * d.p.frst := by
    by_cases f : d.p.frst > 0
    · unfold powerB
      rw [if_pos f, r.runB, if_pos rfl, if_pos hb, above_init p pl v]
      exact ⟨rfl, rfl⟩
    · have hf' : 0 ≤ d.p.frst := hf
      have : d.p.frst = 0 := le_antisymm (not_lt.1 f) hf'
      rw [this]
      simp
  rw [← hs] at a b c
  have a' : s.pm = d.pinitPu := by
    rw [a, hB.1]
    ring
  have b' : s.qm = d.qinitPu := by
    rw [b, hB.2]
    ring
  have hm : d.pinitPu * d.mva = pl * p.perc := by
    have hlf : (if p.lf = 0 then (1 : ℝ) else p.lf) ≠ 0 := by
      split_ifs with hl
      · norm_num
      · exact hl
    show pl * p.perc / (pl * p.perc / (if p.lf = 0 then (1 : ℝ) else p.lf)) *
      (pl * p.perc / (if p.lf = 0 then (1 : ℝ) else p.lf)) = pl * p.perc
    rw [div_mul_cancel₀ _ (div_ne_zero hpl hlf)]
  refine ⟨by rw [a', hm], ?_, ?_⟩
  · rw [b']
    show d.pinitPu * Real.tan (Real.arccos p.pf) * d.mva = _
    rw [← hm]
    ring
  · rw [c, a', b']
    rfl

/-- C311 is violated: at a voltage equal to the break point, part B (which restarts) takes
the power of stalled motors from the first step on. -/
theorem C311_break_violated (p : Par) (pl v : ℝ) (i : In) (hu : Undisturbed v [i])
    (q : Quiet (initDev p pl v) v) (hb : (initDev p pl v).p.vbrk = v) (hf : 0 < p.frst)
    (hg : (initDev p pl v).g * v * v ≠ (initDev p pl v).pinitPu) :
    (simulate (initDev p pl v) v [i]).pm ≠ (initDev p pl v).pinitPu := by
  have hs : simulate (initDev p pl v) v [i] = step (initDev p pl v) (initState (initDev p pl v) v) i := rfl
  obtain ⟨_, a, _, _⟩ := rest_step _ v _ i q (rest_init (initDev p pl v) v) (hu i (by simp))
    (above_init p pl v) hb.le
  rw [hs, a]
  have hf' : (initDev p pl v).p.frst > 0 := hf
  have hB : (powerB (initDev p pl v) (initState (initDev p pl v) v) v 1).1 =
      (initDev p pl v).g * v * v := by
    unfold powerB
    have hrB : (initState (initDev p pl v) v).runB = true := rfl
    rw [if_pos hf', hrB, if_pos rfl, if_neg (by rw [hb]; exact lt_irrefl _),
      if_neg (by rw [hb]; exact fun x => lt_irrefl _ x.1)]
    rfl
  rw [hB]
  intro e
  apply hg
  have : ((initDev p pl v).g * v * v - (initDev p pl v).pinitPu) * (initDev p pl v).p.frst = 0 := by
    linarith
  rcases mul_eq_zero.1 this with h | h
  · linarith
  · linarith

/-! ## C312: what a motor draws from the network -/

/-- C312: with the injected current and the admittance, the motors take the power that
has been computed for them, and of the static load of the bus the part that is shed is
given back. -/
theorem C312_drawn (d : Dev) (s : State) (i : In) (v : ℂ) (hv : ‖v‖ = i.v) (h0 : v ≠ 0) :
    mw v (drawn d (step d s i) v) =
      ⟨(step d s i).pm * d.mva, (step d s i).qm * d.mva⟩
        - ((1 - (step d s i).fonline : ℝ) : ℂ) * mw v (d.ystat * v) := by
  have hy : (step d s i).y = (⟨(step d s i).pm, -(step d s i).qm⟩ : ℂ) / i.v / i.v := by
    obtain ⟨t, et, _⟩ := step_mid d s i
    rw [et]
    rfl
  have hn : (i.v : ℂ) ≠ 0 := by
    rw [← hv]
    exact_mod_cast (norm_pos_iff.2 h0).ne'
  have hvv : v * (starRingEnd ℂ) v = (i.v : ℂ) * i.v := by
    rw [Complex.mul_conj, Complex.normSq_eq_norm_sq, hv]
    push_cast
    ring
  unfold mw drawn inject
  rw [hy]
  generalize (step d s i).fonline = f
  generalize (step d s i).pm = a
  generalize (step d s i).qm = b
  have hc : (starRingEnd ℂ) (⟨a, -b⟩ : ℂ) = a + b * Complex.I := by
    apply Complex.ext <;> simp
  have hr : (⟨a * d.mva, b * d.mva⟩ : ℂ) = (a + b * Complex.I) * d.mva := by
    apply Complex.ext <;> simp
  rw [hr]
  simp only [map_sub, map_add, map_mul, map_div₀, Complex.conj_ofReal, hc]
  have : v * ((starRingEnd ℂ) d.ySys * (starRingEnd ℂ) v -
      ((starRingEnd ℂ) d.ySys * (starRingEnd ℂ) v - (a + b * Complex.I) / i.v / i.v * (starRingEnd ℂ) v *
        ((d.mva / 100 : ℝ) : ℂ) +
      (starRingEnd ℂ) d.ystat * (starRingEnd ℂ) v * ((1 - f : ℝ) : ℂ))) * 100 =
      (v * (starRingEnd ℂ) v) * ((a + b * Complex.I) / i.v / i.v) * (d.mva) -
      ((1 - f : ℝ) : ℂ) * (v * ((starRingEnd ℂ) d.ystat * (starRingEnd ℂ) v) * 100) := by
    push_cast
    ring
  rw [this, hvv]
  congr 1
  field_simp

/-- The share of the load plays no role for the protection. -/
theorem post_fonline (d : Dev) (s : State) (f dt vt w : ℝ) :
    (post d { s with fonline := f } dt vt w).pm = f * (post d { s with fonline := 1 } dt vt w).pm ∧
    (post d { s with fonline := f } dt vt w).qm = f * (post d { s with fonline := 1 } dt vt w).qm := by
  have c1 : ∀ (s : State) (f : ℝ), contactorOff d { s with fonline := f } =
      { contactorOff d s with fonline := f } := by
    intro s f
    unfold contactorOff
    split_ifs <;> rfl
  have c2 : ∀ (s : State) (f : ℝ), contactorOn d { s with fonline := f } =
      { contactorOn d s with fonline := f } := by
    intro s f
    unfold contactorOn
    split_ifs <;> rfl
  have c3 : ∀ (s : State) (f : ℝ), stalling d { s with fonline := f } =
      { stalling d s with fonline := f } := by
    intro s f
    unfold stalling
    split_ifs <;> rfl
  have c4 : ∀ (s : State) (f : ℝ), restarting d { s with fonline := f } =
      { restarting d s with fonline := f } := by
    intro s f
    unfold restarting
    split_ifs <;> rfl
  have all : ∀ f : ℝ, thermal d (restarting d (stalling d (timers d (contactorOn d (contactorOff d
      (relay d { s with fonline := f } dt))) dt vt))) =
      { thermal d (restarting d (stalling d (timers d (contactorOn d (contactorOff d
      (relay d s dt))) dt vt))) with fonline := f } := by
    intro f
    have r : relay d { s with fonline := f } dt = { relay d s dt with fonline := f } := rfl
    have t : ∀ (s : State), timers d { s with fonline := f } dt vt =
      { timers d s dt vt with fonline := f } := fun _ => rfl
    have th : ∀ (s : State), thermal d { s with fonline := f } =
      { thermal d s with fonline := f } := fun _ => rfl
    rw [r, c1, c2, t, c3, c4, th]
  unfold post
  rw [all f, all 1]
  generalize thermal d (restarting d (stalling d (timers d (contactorOn d (contactorOff d
      (relay d s dt))) dt vt))) = u
  have pa : ∀ f : ℝ, powerA d { u with fonline := f } vt w = powerA d u vt w := fun _ => rfl
  have pb : ∀ f : ℝ, powerB d { u with fonline := f } vt w = powerB d u vt w := fun _ => rfl
  constructor
  · show u.kuv * u.kcon * f * _ = f * (u.kuv * u.kcon * 1 * _)
    rw [pa f, pb f, pa 1, pb 1]
    ring
  · show u.kuv * u.kcon * f * _ = f * (u.kuv * u.kcon * 1 * _)
    rw [pa f, pb f, pa 1, pb 1]
    ring

/-- C312: the power of motors of which the share `f` is left is this share of the power
they would have with nothing shed. -/
theorem C312_share (d : Dev) (s : State) (f : ℝ) (i : In) (hi : i.change = 0) (hf : 0 ≤ f) :
    (step d { s with fonline := f } i).pm = f * (step d { s with fonline := 1 } i).pm ∧
    (step d { s with fonline := f } i).qm = f * (step d { s with fonline := 1 } i).qm := by
  have e : ∀ f : ℝ, 0 ≤ f → changeLoad { s with fonline := f } i.change = { s with fonline := f } := by
    intro f hf
    unfold changeLoad
    rw [hi]
    split_ifs with a b c
    · rfl
    · rfl
    · simp only [add_zero] at c
      linarith
    · simp
  have h := post_fonline d s f i.dt i.v i.f
  unfold step
  rw [e f hf, e 1 (by norm_num)]
  exact h

/-! ## Examples -/

section examples

/-- The default parameters, without adjustment; half of the motors restart, a third has
undervoltage relays, stalled motors have the impedance 1. -/
noncomputable def par0 : Par :=
  ⟨33 / 1000, 4 / 10, 2 / 100, 5 / 100, 8 / 10, 1, 6 / 10, 1, 0, 0, 0, 1, 6, 2, 12, 32 / 10, 11,
    25 / 10, 86 / 100, 1 / 2, 9 / 10, 1, -33 / 10, 45 / 100, 35 / 100, 50 / 100, 40 / 100, 10,
    13 / 10, 43 / 10, 1 / 3, 8 / 10, 2 / 10, 9 / 10, 5, 43 / 100⟩

/-- A step of length `dt` with constant voltage. -/
noncomputable def at1 (dt v v2 : ℝ) : In := ⟨dt, v, 1, v2, 1, 0⟩

theorem par0_vbrk (v : ℝ) : (initDev par0 100 v).p.vbrk = 86 / 100 := by
  simp [initDev, par0]

theorem par0_vstall (v : ℝ) : (initDev par0 100 v).p.vstall = 6 / 10 := by
  simp [initDev, par0]

theorem par0_vc2off (v : ℝ) : (initDev par0 100 v).p.vc2off = 35 / 100 := by
  simp only [initDev, par0]
  norm_num

theorem par0_vc2on (v : ℝ) : (initDev par0 100 v).p.vc2on = 40 / 100 := by
  simp only [initDev, par0]
  norm_num

theorem par0_quiet (v : ℝ) (h : 9 / 10 ≤ v) : Quiet (initDev par0 100 v) v := by
  refine ⟨?_, ?_, ?_, ?_, ?_, Or.inl ?_, Or.inl ?_, ?_, ?_⟩
  · rw [par0_vstall]; linarith
  · show (0 : ℝ) ≤ 33 / 1000; norm_num
  · show (0 : ℝ) ≤ 4 / 10; norm_num
  · show (45 / 100 : ℝ) ≤ v; linarith
  · rw [par0_vc2off]; linarith
  · show (8 / 10 : ℝ) ≤ v; linarith
  · show (9 / 10 : ℝ) ≤ v; linarith
  · show (0 : ℝ) ≤ 2 / 10; norm_num
  · show (0 : ℝ) ≤ 5; norm_num

/-- C306: a composite load with another restarting time and load factor. -/
example : (load true (ofComposite (some (3 / 10)) (some (75 / 100))) par0).trst ≠ 3 / 10 :=
  (C306_composite_violated par0 _ _ (by norm_num) (by norm_num)).1

/-- C307: a voltage of zero for a tenth of a second stalls the motors. -/
example : (simulate (initDev par0 100 1) 1 [at1 (1 / 10) 0 0]).runA = false := by
  rw [C307_stall _ _ _ (by intro i hi; simp at hi; rw [hi]; norm_num [at1])
    (by show (0 : ℝ) ≤ 33 / 1000; norm_num)]
  refine ⟨[], [(1 / 10, 0)], [], rfl, ?_, ?_⟩
  · intro x hx
    simp at hx
    rw [hx, par0_vstall]
    norm_num
  · show (33 / 1000 : ℝ) < _
    norm_num

/-- C307: after a second at normal voltage part B runs, and stays so with a voltage of zero
for an hour. -/
theorem restarted : (simulate (initDev par0 100 1) 1 ([at1 (1 / 10) 0 0] ++ [at1 1 1 1])).runA = false ∧
    (simulate (initDev par0 100 1) 1 ([at1 (1 / 10) 0 0] ++ [at1 1 1 1])).runB = true := by
  have hst : ∀ h : List In, Forward h → (simulate (initDev par0 100 1) 1 ([at1 (1 / 10) 0 0] ++ h)).runA = false := by
    intro h hf
    rw [C307_stall _ _ _ (by
        intro i hi
        rcases List.mem_append.1 hi with hi | hi
        · simp at hi; rw [hi]; norm_num [at1]
        · exact hf i hi)
      (by show (0 : ℝ) ≤ 33 / 1000; norm_num)]
    refine ⟨[], [(1 / 10, 0)], voltages h, rfl, ?_, ?_⟩
    · intro x hx
      simp at hx
      rw [hx, par0_vstall]
      norm_num
    · show (33 / 1000 : ℝ) < _
      norm_num
  have hf : Forward [at1 1 1 1] := by intro i hi; simp at hi; rw [hi]; norm_num [at1]
  refine ⟨hst _ hf, ?_⟩
  have := (C307_restart_partial (initDev par0 100 1) 1 [] (at1 (1 / 10) 0 0) [at1 1 1 1] hf
    (by show (0 : ℝ) ≤ 4 / 10; norm_num) rfl (hst [] (by intro i hi; simp at hi))).2
  apply this
  refine ⟨by show (0 : ℝ) < 1 / 2; norm_num, [], [(1, 1)], [], rfl, ?_, ?_⟩
  · intro x hx
    simp at hx
    rw [hx]
    show (9 / 10 : ℝ) < 1
    norm_num
  · show (4 / 10 : ℝ) < _
    norm_num

example : (simulate (initDev par0 100 1) 1
    ([at1 (1 / 10) 0 0] ++ [at1 1 1 1] ++ [at1 3600 0 0])).runB = true ∧
    HeldFor (voltages [at1 3600 0 0]) (· < (initDev par0 100 1).p.vstall)
      (initDev par0 100 1).p.tstall := by
  refine ⟨C307_again_violated _ _ _ _ restarted.1 restarted.2, [], [(3600, 0)], [], rfl, ?_, ?_⟩
  · intro x hx
    simp at hx
    rw [hx, par0_vstall]
    norm_num
  · show (33 / 1000 : ℝ) < _
    norm_num

/-- With steps as long as the time constant of the measurement, the measured voltage is the mean
of the last one and the present voltage. -/
theorem vm_mean (v : ℝ) (s : State) (a b : ℝ) :
    (step (initDev par0 100 v) s (at1 (2 / 100) a b)).vm = (s.vm + b) / 2 := by
  rw [step_vm]
  show s.vm + 1 / 2 * ((a - s.vm) / (2 / 100) + (b - (s.vm + (a - s.vm) / (2 / 100) * (2 / 100))) / (2 / 100)) *
    (2 / 100) = _
  ring

/-- C308: a measured voltage of 0.5 in a step of a second: the third part is disconnected. -/
example : (simulate (initDev par0 100 1) 1 [at1 (2 / 100) 0 0, at1 1 1 1]).kuv = 1 - 1 / 3 := by
  have hf : Forward [at1 (2 / 100) 0 0, at1 1 1 1] := by
    intro i hi
    simp at hi
    rcases hi with hi | hi <;> rw [hi] <;> norm_num [at1]
  refine (C308_relay (initDev par0 100 1) 1 _ hf (by show (0 : ℝ) ≤ 2 / 10; norm_num)
    (by show (0 : ℝ) ≤ 5; norm_num) (by show (0 : ℝ) < 1 / 3; norm_num)).1 (Or.inl ?_)
  refine ⟨[(2 / 100, 1)], [(1, 1 / 2)], [], ?_, ?_, ?_⟩
  · have e := vm_mean 1 (initState (initDev par0 100 1) 1) 0 0
    have e0 : (initState (initDev par0 100 1) 1).vm = 1 := rfl
    rw [e0] at e
    simp only [measured, e, e0]
    norm_num [at1]
  · intro x hx
    simp at hx
    rw [hx]
    show (2 : ℝ)⁻¹ < 8 / 10
    norm_num
  · show (2 / 10 : ℝ) < _
    norm_num

/-- C309: after a voltage of zero, with which all motors are disconnected, a measured voltage
of 0.37 connects some. -/
example : let g := [at1 (2 / 100) 0 0, at1 (2 / 100) 0 0] ++ [at1 (2 / 100) 0 (49 / 100)]
    (simulate (initDev par0 100 1) 1 g).kcon = 0 ∧
    0 < (simulate (initDev par0 100 1) 1 (g ++ [at1 (2 / 100) (4 / 10) (4 / 10)])).kcon := by
  intro g
  have v2 : (simulate (initDev par0 100 1) 1 [at1 (2 / 100) 0 0, at1 (2 / 100) 0 0]).vm = 1 / 4 := by
    show (step _ (step _ _ _) _).vm = _
    rw [vm_mean, vm_mean]
    show (((1 : ℝ) + 0) / 2 + 0) / 2 = _
    norm_num
  have k := (C309_limits_partial (initDev par0 100 1) 1 [at1 (2 / 100) 0 0, at1 (2 / 100) 0 0]
    (at1 (2 / 100) 0 (49 / 100))).1 (by rw [v2, par0_vc2off]; norm_num)
    (by rw [v2, par0_vc2on]; norm_num) (by rw [v2]; show (1 / 4 : ℝ) < 50 / 100; norm_num)
  have v3 : (simulate (initDev par0 100 1) 1 g).vm = 37 / 100 := by
    have hr : simulate (initDev par0 100 1) 1 g = step (initDev par0 100 1)
      (simulate (initDev par0 100 1) 1 [at1 (2 / 100) 0 0, at1 (2 / 100) 0 0])
      (at1 (2 / 100) 0 (49 / 100)) := runFrom_snoc _ _ _ _
    rw [hr, vm_mean, v2]
    norm_num
  refine ⟨k, ?_⟩
  have := C309_reconnect_violated (initDev par0 100 1) 1 g (at1 (2 / 100) (4 / 10) (4 / 10)) k
    (by rw [v3, par0_vc2off]; norm_num) (by rw [v3]; show (37 / 100 : ℝ) < 45 / 100; norm_num)
    (by rw [v3, par0_vc2on]; norm_num) (by rw [v3]; show (37 / 100 : ℝ) < 50 / 100; norm_num)
  rw [k] at this
  exact this

/-- The power of the example in the base of the motors. -/
theorem par0_pinit : (initDev par0 100 1).pinitPu = 8 / 10 ∧ (initDev par0 100 1).qinitPu = 0 := by
  simp only [initDev, par0, Real.arccos_one, Real.tan_zero, mul_zero]
  norm_num

theorem par0_temp : (initState (initDev par0 100 1) 1).tA = 64 / 100 := by
  show ‖(⟨(initDev par0 100 1).pinitPu, -(initDev par0 100 1).qinitPu⟩ : ℂ)‖ / 1 *
    (‖(⟨(initDev par0 100 1).pinitPu, -(initDev par0 100 1).qinitPu⟩ : ℂ)‖ / 1) * 1 = _
  rw [par0_pinit.1, par0_pinit.2]
  have e : (⟨8 / 10, -0⟩ : ℂ) = ((8 / 10 : ℝ) : ℂ) := by
    apply Complex.ext <;> simp
  rw [e, Complex.norm_real]
  norm_num

theorem par0_y : (⟨(initDev par0 100 1).g, (initDev par0 100 1).b⟩ : ℂ) = 1 := by
  simp [initDev, par0]
  rfl

/-- With steps as long as the thermal time constant, the temperature of stalled motors is the
mean of the last one and the square of the present voltage. -/
theorem tA_mean (s : State) (a b : ℝ) (hs : (step (initDev par0 100 1) s (at1 10 a b)).runA = false) :
    (step (initDev par0 100 1) s (at1 10 a b)).tA = (s.tA + b * b) / 2 := by
  obtain ⟨t, et, _, _, _, _, t5, _, _, _, _, t10, _, _, _⟩ := step_mid (initDev par0 100 1) s (at1 10 a b)
  rw [hs] at t5
  have c : ∀ u : State, u.runA = false → ∀ w : ℝ,
      ‖currentA (initDev par0 100 1) u w‖ * ‖currentA (initDev par0 100 1) u w‖ = w * w := by
    intro u hu w
    unfold currentA
    rw [hu, if_neg (by simp), par0_y, mul_one, Complex.norm_real, Real.norm_eq_abs, abs_mul_abs_self]
  rw [et]
  show t.tA + 1 / 2 * ((‖currentA (initDev par0 100 1) (power (initDev par0 100 1) t a 1) a‖ *
      ‖currentA (initDev par0 100 1) (power (initDev par0 100 1) t a 1) a‖ * 1 - t.tA) / 10 +
    (‖currentA (initDev par0 100 1) (predictor (initDev par0 100 1)
        (power (initDev par0 100 1) t a 1) 10 a 1) b‖ *
      ‖currentA (initDev par0 100 1) (predictor (initDev par0 100 1)
        (power (initDev par0 100 1) t a 1) 10 a 1) b‖ * 1 -
      (t.tA + (‖currentA (initDev par0 100 1) (power (initDev par0 100 1) t a 1) a‖ *
      ‖currentA (initDev par0 100 1) (power (initDev par0 100 1) t a 1) a‖ * 1 - t.tA) / 10 * 10)) / 10) * 10 = _
  rw [c (power (initDev par0 100 1) t a 1) (by rw [power_runA, t5]),
    c (predictor (initDev par0 100 1) (power (initDev par0 100 1) t a 1) 10 a 1)
      (by rw [predictor_runA, power_runA, t5]), t10]
  ring

/-- C310: motors stalled and then heated by a high voltage are all disconnected; without
voltage they cool down, and some are connected again. -/
example : let g := [at1 10 0 4] ++ [at1 10 0 0]
    (simulate (initDev par0 100 1) 1 g).fthA = 0 ∧
    0 < (simulate (initDev par0 100 1) 1 (g ++ [at1 10 0 0])).fthA := by
  intro g
  have st : ∀ h : List In, Forward h → (simulate (initDev par0 100 1) 1 ([at1 10 0 4] ++ h)).runA = false := by
    intro h hf
    rw [C307_stall _ _ _ (by
        intro i hi
        rcases List.mem_append.1 hi with hi | hi
        · simp at hi; rw [hi]; norm_num [at1]
        · exact hf i hi)
      (by show (0 : ℝ) ≤ 33 / 1000; norm_num)]
    refine ⟨[], [(10, 0)], voltages h, rfl, ?_, ?_⟩
    · intro x hx
      simp at hx
      rw [hx, par0_vstall]
      norm_num
    · show (33 / 1000 : ℝ) < _
      norm_num
  have f1 : Forward [at1 10 0 0] := by intro i hi; simp at hi; rw [hi]; norm_num [at1]
  have f2 : Forward [at1 10 0 0, at1 10 0 0] := by intro i hi; simp at hi; rw [hi]; norm_num [at1]
  have s1 := st [] (by intro i hi; simp at hi)
  have s2 := st [at1 10 0 0] f1
  have s3 := st [at1 10 0 0, at1 10 0 0] f2
  have t1 : (simulate (initDev par0 100 1) 1 [at1 10 0 4]).tA = 832 / 100 := by
    show (step _ _ _).tA = _
    rw [tA_mean _ _ _ s1, par0_temp]
    norm_num
  have t2 : (simulate (initDev par0 100 1) 1 g).tA = 416 / 100 := by
    show (step _ (simulate (initDev par0 100 1) 1 [at1 10 0 4]) _).tA = _
    rw [tA_mean (simulate (initDev par0 100 1) 1 [at1 10 0 4]) 0 0 s2, t1]
    norm_num
  have z : (simulate (initDev par0 100 1) 1 g).fthA = 0 :=
    (C310_share_partial par0 100 1 1 [at1 10 0 4] (at1 10 0 0) (by norm_num [par0])
      (by norm_num [par0]) s2 (by rw [t1]; norm_num [par0])).1 (by rw [t1]; norm_num [par0])
  refine ⟨z, ?_⟩
  have := C310_return_violated par0 100 1 1 g (at1 10 0 0) (by norm_num [par0])
    (by norm_num [par0]) s3 z (by rw [t2]; norm_num [par0]) (by rw [t2]; norm_num [par0])
  rw [z] at this
  exact this

/-- C310: part B cools down in a step of a second. -/
example : (simulate (initDev par0 100 1) 1 [at1 1 1 1]).tB <
    (simulate (initDev par0 100 1) 1 [at1 1 1 1]).tA :=
  C310_cold_violated par0 100 1 (at1 1 1 1)
    (by intro i hi; simp at hi; rw [hi]; exact ⟨rfl, rfl, rfl, rfl, rfl⟩)
    (par0_quiet 1 (by norm_num)) (by rw [par0_vbrk]; norm_num) (by rw [par0_temp]; norm_num)
    (by show (0 : ℝ) < 1; norm_num) (by show (1 : ℝ) < 2 * 10; norm_num)

/-- C311: 100 MW, of which the motors take 43 MW. -/
example : (simulate (initDev par0 100 1) 1 ([at1 1 1 1] ++ [at1 1 1 1])).pm *
    (initDev par0 100 1).mva = 100 * (43 / 100) :=
  (C311_start_partial par0 100 1 [at1 1 1 1] (at1 1 1 1)
    (by intro i hi; simp at hi; rw [hi]; exact ⟨rfl, rfl, rfl, rfl, rfl⟩)
    (par0_quiet 1 (by norm_num)) (by rw [par0_vbrk]; norm_num) (by norm_num [par0])
    (by norm_num [par0])).1

/-- C311: the same parameters with the break point at the voltage of the power flow. -/
example : let p := { par0 with vbrk := 1 }
    (simulate (initDev p 100 1) 1 [at1 1 1 1]).pm ≠ (initDev p 100 1).pinitPu := by
  intro p
  have q : Quiet (initDev p 100 1) 1 := by
    have q0 := par0_quiet 1 (by norm_num)
    exact ⟨q0.1, q0.2, q0.3, q0.4, q0.5, q0.6, q0.7, q0.8, q0.9⟩
  refine C311_break_violated p 100 1 (at1 1 1 1)
    (by intro i hi; simp at hi; rw [hi]; exact ⟨rfl, rfl, rfl, rfl, rfl⟩) q
    (by simp [initDev, p, par0]) (by norm_num [p, par0]) ?_
  have e : (initDev p 100 1).pinitPu = 8 / 10 := par0_pinit.1
  have g : (initDev p 100 1).g = 1 := by simp [initDev, p, par0]
  rw [e, g]
  norm_num

/-- C312: half of the motors shed. -/
example (s : State) : (step (initDev par0 100 1) { s with fonline := 1 / 2 } (at1 1 1 1)).pm =
    1 / 2 * (step (initDev par0 100 1) { s with fonline := 1 } (at1 1 1 1)).pm :=
  (C312_share _ s (1 / 2) (at1 1 1 1) rfl (by norm_num)).1

end examples

end GridPACK.AcMotor
