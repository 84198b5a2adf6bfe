import Verif.Spec.AcMotor
import Mathlib.Tactic.Linarith

/-!
# Lemmas about air conditioners
-/

namespace GridPACK.AcMotor

/-- A timer that counts while `P` holds. -/
noncomputable def clock (P : ℝ → Prop) [DecidablePred P] (h : List (ℝ × ℝ)) : ℝ :=
  h.foldl (fun t x => if P x.2 then t + x.1 else 0) 0

theorem clock_snoc (P : ℝ → Prop) [DecidablePred P] (h : List (ℝ × ℝ)) (x : ℝ × ℝ) :
    clock P (h ++ [x]) = if P x.2 then clock P h + x.1 else 0 := by
  simp [clock]

/-- The clock shows the length of some last stretch of time. -/
theorem clock_attained (P : ℝ → Prop) [DecidablePred P] (h : List (ℝ × ℝ)) :
    ∃ a b, h = a ++ b ∧ (∀ x ∈ b, P x.2) ∧ clock P h = (b.map Prod.fst).sum := by
  induction h using List.reverseRecOn with
  | nil => exact ⟨[], [], rfl, by simp, by simp [clock]⟩
  | append_singleton h x ih =>
    obtain ⟨a, b, e, hb, hs⟩ := ih
    rw [clock_snoc]
    by_cases hp : P x.2
    · refine ⟨a, b ++ [x], by simp [e], ?_, ?_⟩
      · intro y hy
        rcases List.mem_append.1 hy with hy | hy
        · exact hb y hy
        · simp only [List.mem_singleton] at hy
          exact hy ▸ hp
      · simp [hp, hs]
    · exact ⟨h ++ [x], [], by simp, by simp, by simp [hp]⟩

/-- The clock shows at least the length of any last stretch. -/
theorem clock_ge (P : ℝ → Prop) [DecidablePred P] (h : List (ℝ × ℝ))
    (hn : ∀ x ∈ h, 0 ≤ x.1) :
    0 ≤ clock P h ∧ ∀ a b, h = a ++ b → (∀ x ∈ b, P x.2) → (b.map Prod.fst).sum ≤ clock P h := by
  induction h using List.reverseRecOn with
  | nil =>
    refine ⟨by simp [clock], ?_⟩
    intro a b e _
    have : b = [] := by
      rcases List.append_eq_nil_iff.1 e.symm with ⟨_, hb⟩
      exact hb
    simp [this, clock]
  | append_singleton h x ih =>
    obtain ⟨i0, i1⟩ := ih fun y hy => hn y (by simp [hy])
    have hx : 0 ≤ x.1 := hn x (by simp)
    rw [clock_snoc]
    refine ⟨by split_ifs <;> linarith, ?_⟩
    intro a b e hb
    rcases List.eq_nil_or_concat b with hb0 | ⟨b', y, hb'⟩
    · subst hb0
      simp only [List.map_nil, List.sum_nil]
      split_ifs <;> linarith
    · rw [hb', List.concat_eq_append] at e hb
      rw [← List.append_assoc] at e
      obtain ⟨e1, e2⟩ := List.append_inj' e rfl
      simp only [List.cons.injEq, and_true] at e2
      subst e2
      have hp : P x.2 := hb x (by simp)
      have := i1 a b' e1 fun y hy => hb y (by simp [hy])
      simp [hp, hb']
      exact this

theorem held_nil (P : ℝ → Prop) (T : ℝ) (hT : 0 ≤ T) : ¬ HeldFor [] P T := by
  rintro ⟨a, b, c, e, _, hs⟩
  have := List.append_eq_nil_iff.1 e.symm
  have hb := (List.append_eq_nil_iff.1 this.1).2
  simp [hb] at hs
  linarith

theorem held_snoc (P : ℝ → Prop) [DecidablePred P] (T : ℝ) (h : List (ℝ × ℝ)) (x : ℝ × ℝ)
    (hn : ∀ y ∈ h ++ [x], 0 ≤ y.1) :
    HeldFor (h ++ [x]) P T ↔ HeldFor h P T ∨ T < clock P (h ++ [x]) := by
  constructor
  · rintro ⟨a, b, c, e, hb, hs⟩
    rcases List.eq_nil_or_concat c with hc | ⟨c', y, hc⟩
    · right
      subst hc
      rw [List.append_nil] at e
      exact lt_of_lt_of_le hs ((clock_ge P _ hn).2 a b e hb)
    · left
      rw [hc, List.concat_eq_append, ← List.append_assoc] at e
      obtain ⟨e1, _⟩ := List.append_inj' e rfl
      exact ⟨a, b, c', e1, hb, hs⟩
  · rintro (⟨a, b, c, e, hb, hs⟩ | hs)
    · exact ⟨a, b, c ++ [x], by simp [e], hb, hs⟩
    · obtain ⟨a, b, e, hb, ht⟩ := clock_attained P (h ++ [x])
      exact ⟨a, b, [], by simpa using e, hb, ht ▸ hs⟩

theorem runFrom_append (d : Dev) (s : State) (g h : List In) :
    runFrom d s (g ++ h) = runFrom d (runFrom d s g) h := by
  induction g generalizing s with
  | nil => rfl
  | cons i r ih => exact ih _

theorem runFrom_snoc (d : Dev) (s : State) (h : List In) (i : In) :
    runFrom d s (h ++ [i]) = step d (runFrom d s h) i := by
  rw [runFrom_append]
  rfl

theorem measured_snoc (d : Dev) (s : State) (h : List In) (i : In) :
    measured d s (h ++ [i]) = measured d s h ++ [(i.dt, (runFrom d s h).vm)] := by
  induction h generalizing s with
  | nil => rfl
  | cons j r ih => simp [measured, ih, runFrom]

theorem measured_forward (d : Dev) (s : State) (h : List In) (hf : Forward h) :
    ∀ x ∈ measured d s h, 0 ≤ x.1 := by
  induction h generalizing s with
  | nil => simp [measured]
  | cons j r ih =>
    intro x hx
    rcases List.mem_cons.1 hx with hx | hx
    · rw [hx]
      exact hf j (by simp)
    · exact ih _ (fun i hi => hf i (by simp [hi])) x hx

theorem voltages_forward (h : List In) (hf : Forward h) : ∀ x ∈ voltages h, 0 ≤ x.1 := by
  intro x hx
  obtain ⟨i, hi, e⟩ := List.mem_map.1 hx
  rw [← e]
  exact hf i hi

/-! What the parts of a step leave alone. -/

section keep

variable (d : Dev) (s : State) (x dt vt f : ℝ)

theorem changeLoad_vm : (changeLoad s x).vm = s.vm := by
  unfold changeLoad
  split_ifs <;> rfl

theorem changeLoad_fm : (changeLoad s x).fm = s.fm := by
  unfold changeLoad
  split_ifs <;> rfl

theorem changeLoad_tA : (changeLoad s x).tA = s.tA := by
  unfold changeLoad
  split_ifs <;> rfl

theorem changeLoad_tB : (changeLoad s x).tB = s.tB := by
  unfold changeLoad
  split_ifs <;> rfl

theorem changeLoad_uv1 : (changeLoad s x).uv1 = s.uv1 := by
  unfold changeLoad
  split_ifs <;> rfl

theorem changeLoad_uv2 : (changeLoad s x).uv2 = s.uv2 := by
  unfold changeLoad
  split_ifs <;> rfl

theorem changeLoad_kuv : (changeLoad s x).kuv = s.kuv := by
  unfold changeLoad
  split_ifs <;> rfl

theorem changeLoad_kcon : (changeLoad s x).kcon = s.kcon := by
  unfold changeLoad
  split_ifs <;> rfl

theorem changeLoad_trip : (changeLoad s x).trip = s.trip := by
  unfold changeLoad
  split_ifs <;> rfl

theorem changeLoad_stallTimer : (changeLoad s x).stallTimer = s.stallTimer := by
  unfold changeLoad
  split_ifs <;> rfl

theorem changeLoad_restartTimer : (changeLoad s x).restartTimer = s.restartTimer := by
  unfold changeLoad
  split_ifs <;> rfl

theorem changeLoad_runA : (changeLoad s x).runA = s.runA := by
  unfold changeLoad
  split_ifs <;> rfl

theorem changeLoad_runB : (changeLoad s x).runB = s.runB := by
  unfold changeLoad
  split_ifs <;> rfl

theorem changeLoad_fthA : (changeLoad s x).fthA = s.fthA := by
  unfold changeLoad
  split_ifs <;> rfl

theorem changeLoad_fthB : (changeLoad s x).fthB = s.fthB := by
  unfold changeLoad
  split_ifs <;> rfl

theorem changeLoad_pB : (changeLoad s x).pB = s.pB := by
  unfold changeLoad
  split_ifs <;> rfl

theorem changeLoad_qB : (changeLoad s x).qB = s.qB := by
  unfold changeLoad
  split_ifs <;> rfl

theorem relay_vm : (relay d s dt).vm = s.vm := by
  rfl

theorem relay_fm : (relay d s dt).fm = s.fm := by
  rfl

theorem relay_tA : (relay d s dt).tA = s.tA := by
  rfl

theorem relay_tB : (relay d s dt).tB = s.tB := by
  rfl

theorem relay_kcon : (relay d s dt).kcon = s.kcon := by
  rfl

theorem relay_trip : (relay d s dt).trip = s.trip := by
  rfl

theorem relay_stallTimer : (relay d s dt).stallTimer = s.stallTimer := by
  rfl

theorem relay_restartTimer : (relay d s dt).restartTimer = s.restartTimer := by
  rfl

theorem relay_runA : (relay d s dt).runA = s.runA := by
  rfl

theorem relay_runB : (relay d s dt).runB = s.runB := by
  rfl

theorem relay_fthA : (relay d s dt).fthA = s.fthA := by
  rfl

theorem relay_fthB : (relay d s dt).fthB = s.fthB := by
  rfl

theorem relay_fonline : (relay d s dt).fonline = s.fonline := by
  rfl

theorem relay_pB : (relay d s dt).pB = s.pB := by
  rfl

theorem relay_qB : (relay d s dt).qB = s.qB := by
  rfl

theorem contactorOff_vm : (contactorOff d s).vm = s.vm := by
  unfold contactorOff
  split_ifs <;> rfl

theorem contactorOff_fm : (contactorOff d s).fm = s.fm := by
  unfold contactorOff
  split_ifs <;> rfl

theorem contactorOff_tA : (contactorOff d s).tA = s.tA := by
  unfold contactorOff
  split_ifs <;> rfl

theorem contactorOff_tB : (contactorOff d s).tB = s.tB := by
  unfold contactorOff
  split_ifs <;> rfl

theorem contactorOff_uv1 : (contactorOff d s).uv1 = s.uv1 := by
  unfold contactorOff
  split_ifs <;> rfl

theorem contactorOff_uv2 : (contactorOff d s).uv2 = s.uv2 := by
  unfold contactorOff
  split_ifs <;> rfl

theorem contactorOff_kuv : (contactorOff d s).kuv = s.kuv := by
  unfold contactorOff
  split_ifs <;> rfl

theorem contactorOff_stallTimer : (contactorOff d s).stallTimer = s.stallTimer := by
  unfold contactorOff
  split_ifs <;> rfl

theorem contactorOff_restartTimer : (contactorOff d s).restartTimer = s.restartTimer := by
  unfold contactorOff
  split_ifs <;> rfl

theorem contactorOff_runA : (contactorOff d s).runA = s.runA := by
  unfold contactorOff
  split_ifs <;> rfl

theorem contactorOff_runB : (contactorOff d s).runB = s.runB := by
  unfold contactorOff
  split_ifs <;> rfl

theorem contactorOff_fthA : (contactorOff d s).fthA = s.fthA := by
  unfold contactorOff
  split_ifs <;> rfl

theorem contactorOff_fthB : (contactorOff d s).fthB = s.fthB := by
  unfold contactorOff
  split_ifs <;> rfl

theorem contactorOff_fonline : (contactorOff d s).fonline = s.fonline := by
  unfold contactorOff
  split_ifs <;> rfl

theorem contactorOff_pB : (contactorOff d s).pB = s.pB := by
  unfold contactorOff
  split_ifs <;> rfl

theorem contactorOff_qB : (contactorOff d s).qB = s.qB := by
  unfold contactorOff
  split_ifs <;> rfl

theorem contactorOn_vm : (contactorOn d s).vm = s.vm := by
  unfold contactorOn
  split_ifs <;> rfl

theorem contactorOn_fm : (contactorOn d s).fm = s.fm := by
  unfold contactorOn
  split_ifs <;> rfl

theorem contactorOn_tA : (contactorOn d s).tA = s.tA := by
  unfold contactorOn
  split_ifs <;> rfl

theorem contactorOn_tB : (contactorOn d s).tB = s.tB := by
  unfold contactorOn
  split_ifs <;> rfl

theorem contactorOn_uv1 : (contactorOn d s).uv1 = s.uv1 := by
  unfold contactorOn
  split_ifs <;> rfl

theorem contactorOn_uv2 : (contactorOn d s).uv2 = s.uv2 := by
  unfold contactorOn
  split_ifs <;> rfl

theorem contactorOn_kuv : (contactorOn d s).kuv = s.kuv := by
  unfold contactorOn
  split_ifs <;> rfl

theorem contactorOn_trip : (contactorOn d s).trip = s.trip := by
  unfold contactorOn
  split_ifs <;> rfl

theorem contactorOn_stallTimer : (contactorOn d s).stallTimer = s.stallTimer := by
  unfold contactorOn
  split_ifs <;> rfl

theorem contactorOn_restartTimer : (contactorOn d s).restartTimer = s.restartTimer := by
  unfold contactorOn
  split_ifs <;> rfl

theorem contactorOn_runA : (contactorOn d s).runA = s.runA := by
  unfold contactorOn
  split_ifs <;> rfl

theorem contactorOn_runB : (contactorOn d s).runB = s.runB := by
  unfold contactorOn
  split_ifs <;> rfl

theorem contactorOn_fthA : (contactorOn d s).fthA = s.fthA := by
  unfold contactorOn
  split_ifs <;> rfl

theorem contactorOn_fthB : (contactorOn d s).fthB = s.fthB := by
  unfold contactorOn
  split_ifs <;> rfl

theorem contactorOn_fonline : (contactorOn d s).fonline = s.fonline := by
  unfold contactorOn
  split_ifs <;> rfl

theorem contactorOn_pB : (contactorOn d s).pB = s.pB := by
  unfold contactorOn
  split_ifs <;> rfl

theorem contactorOn_qB : (contactorOn d s).qB = s.qB := by
  unfold contactorOn
  split_ifs <;> rfl

theorem timers_vm : (timers d s dt vt).vm = s.vm := by
  rfl

theorem timers_fm : (timers d s dt vt).fm = s.fm := by
  rfl

theorem timers_tA : (timers d s dt vt).tA = s.tA := by
  rfl

theorem timers_tB : (timers d s dt vt).tB = s.tB := by
  rfl

theorem timers_uv1 : (timers d s dt vt).uv1 = s.uv1 := by
  rfl

theorem timers_uv2 : (timers d s dt vt).uv2 = s.uv2 := by
  rfl

theorem timers_kuv : (timers d s dt vt).kuv = s.kuv := by
  rfl

theorem timers_kcon : (timers d s dt vt).kcon = s.kcon := by
  rfl

theorem timers_trip : (timers d s dt vt).trip = s.trip := by
  rfl

theorem timers_runA : (timers d s dt vt).runA = s.runA := by
  rfl

theorem timers_runB : (timers d s dt vt).runB = s.runB := by
  rfl

theorem timers_fthA : (timers d s dt vt).fthA = s.fthA := by
  rfl

theorem timers_fthB : (timers d s dt vt).fthB = s.fthB := by
  rfl

theorem timers_fonline : (timers d s dt vt).fonline = s.fonline := by
  rfl

theorem timers_pB : (timers d s dt vt).pB = s.pB := by
  rfl

theorem timers_qB : (timers d s dt vt).qB = s.qB := by
  rfl

theorem stalling_vm : (stalling d s).vm = s.vm := by
  unfold stalling
  split_ifs <;> rfl

theorem stalling_fm : (stalling d s).fm = s.fm := by
  unfold stalling
  split_ifs <;> rfl

theorem stalling_tA : (stalling d s).tA = s.tA := by
  unfold stalling
  split_ifs <;> rfl

theorem stalling_tB : (stalling d s).tB = s.tB := by
  unfold stalling
  split_ifs <;> rfl

theorem stalling_uv1 : (stalling d s).uv1 = s.uv1 := by
  unfold stalling
  split_ifs <;> rfl

theorem stalling_uv2 : (stalling d s).uv2 = s.uv2 := by
  unfold stalling
  split_ifs <;> rfl

theorem stalling_kuv : (stalling d s).kuv = s.kuv := by
  unfold stalling
  split_ifs <;> rfl

theorem stalling_kcon : (stalling d s).kcon = s.kcon := by
  unfold stalling
  split_ifs <;> rfl

theorem stalling_trip : (stalling d s).trip = s.trip := by
  unfold stalling
  split_ifs <;> rfl

theorem stalling_stallTimer : (stalling d s).stallTimer = s.stallTimer := by
  unfold stalling
  split_ifs <;> rfl

theorem stalling_restartTimer : (stalling d s).restartTimer = s.restartTimer := by
  unfold stalling
  split_ifs <;> rfl

theorem stalling_fthA : (stalling d s).fthA = s.fthA := by
  unfold stalling
  split_ifs <;> rfl

theorem stalling_fthB : (stalling d s).fthB = s.fthB := by
  unfold stalling
  split_ifs <;> rfl

theorem stalling_fonline : (stalling d s).fonline = s.fonline := by
  unfold stalling
  split_ifs <;> rfl

theorem stalling_pB : (stalling d s).pB = s.pB := by
  unfold stalling
  split_ifs <;> rfl

theorem stalling_qB : (stalling d s).qB = s.qB := by
  unfold stalling
  split_ifs <;> rfl

theorem restarting_vm : (restarting d s).vm = s.vm := by
  unfold restarting
  split_ifs <;> rfl

theorem restarting_fm : (restarting d s).fm = s.fm := by
  unfold restarting
  split_ifs <;> rfl

theorem restarting_tA : (restarting d s).tA = s.tA := by
  unfold restarting
  split_ifs <;> rfl

theorem restarting_tB : (restarting d s).tB = s.tB := by
  unfold restarting
  split_ifs <;> rfl

theorem restarting_uv1 : (restarting d s).uv1 = s.uv1 := by
  unfold restarting
  split_ifs <;> rfl

theorem restarting_uv2 : (restarting d s).uv2 = s.uv2 := by
  unfold restarting
  split_ifs <;> rfl

theorem restarting_kuv : (restarting d s).kuv = s.kuv := by
  unfold restarting
  split_ifs <;> rfl

theorem restarting_kcon : (restarting d s).kcon = s.kcon := by
  unfold restarting
  split_ifs <;> rfl

theorem restarting_trip : (restarting d s).trip = s.trip := by
  unfold restarting
  split_ifs <;> rfl

theorem restarting_stallTimer : (restarting d s).stallTimer = s.stallTimer := by
  unfold restarting
  split_ifs <;> rfl

theorem restarting_restartTimer : (restarting d s).restartTimer = s.restartTimer := by
  unfold restarting
  split_ifs <;> rfl

theorem restarting_runA : (restarting d s).runA = s.runA := by
  unfold restarting
  split_ifs <;> rfl

theorem restarting_fthA : (restarting d s).fthA = s.fthA := by
  unfold restarting
  split_ifs <;> rfl

theorem restarting_fthB : (restarting d s).fthB = s.fthB := by
  unfold restarting
  split_ifs <;> rfl

theorem restarting_fonline : (restarting d s).fonline = s.fonline := by
  unfold restarting
  split_ifs <;> rfl

theorem restarting_pB : (restarting d s).pB = s.pB := by
  unfold restarting
  split_ifs <;> rfl

theorem restarting_qB : (restarting d s).qB = s.qB := by
  unfold restarting
  split_ifs <;> rfl

theorem thermal_vm : (thermal d s).vm = s.vm := by
  rfl

theorem thermal_fm : (thermal d s).fm = s.fm := by
  rfl

theorem thermal_tA : (thermal d s).tA = s.tA := by
  rfl

theorem thermal_tB : (thermal d s).tB = s.tB := by
  rfl

theorem thermal_uv1 : (thermal d s).uv1 = s.uv1 := by
  rfl

theorem thermal_uv2 : (thermal d s).uv2 = s.uv2 := by
  rfl

theorem thermal_kuv : (thermal d s).kuv = s.kuv := by
  rfl

theorem thermal_kcon : (thermal d s).kcon = s.kcon := by
  rfl

theorem thermal_trip : (thermal d s).trip = s.trip := by
  rfl

theorem thermal_stallTimer : (thermal d s).stallTimer = s.stallTimer := by
  rfl

theorem thermal_restartTimer : (thermal d s).restartTimer = s.restartTimer := by
  rfl

theorem thermal_runA : (thermal d s).runA = s.runA := by
  rfl

theorem thermal_runB : (thermal d s).runB = s.runB := by
  rfl

theorem thermal_fonline : (thermal d s).fonline = s.fonline := by
  rfl

theorem thermal_pB : (thermal d s).pB = s.pB := by
  rfl

theorem thermal_qB : (thermal d s).qB = s.qB := by
  rfl

theorem power_vm : (power d s vt f).vm = s.vm := by
  rfl

theorem power_fm : (power d s vt f).fm = s.fm := by
  rfl

theorem power_tA : (power d s vt f).tA = s.tA := by
  rfl

theorem power_tB : (power d s vt f).tB = s.tB := by
  rfl

theorem power_uv1 : (power d s vt f).uv1 = s.uv1 := by
  rfl

theorem power_uv2 : (power d s vt f).uv2 = s.uv2 := by
  rfl

theorem power_kuv : (power d s vt f).kuv = s.kuv := by
  rfl

theorem power_kcon : (power d s vt f).kcon = s.kcon := by
  rfl

theorem power_trip : (power d s vt f).trip = s.trip := by
  rfl

theorem power_stallTimer : (power d s vt f).stallTimer = s.stallTimer := by
  rfl

theorem power_restartTimer : (power d s vt f).restartTimer = s.restartTimer := by
  rfl

theorem power_runA : (power d s vt f).runA = s.runA := by
  rfl

theorem power_runB : (power d s vt f).runB = s.runB := by
  rfl

theorem power_fthA : (power d s vt f).fthA = s.fthA := by
  rfl

theorem power_fthB : (power d s vt f).fthB = s.fthB := by
  rfl

theorem power_fonline : (power d s vt f).fonline = s.fonline := by
  rfl

theorem predictor_uv1 : (predictor d s dt vt f).uv1 = s.uv1 := by
  rfl

theorem predictor_uv2 : (predictor d s dt vt f).uv2 = s.uv2 := by
  rfl

theorem predictor_kuv : (predictor d s dt vt f).kuv = s.kuv := by
  rfl

theorem predictor_kcon : (predictor d s dt vt f).kcon = s.kcon := by
  rfl

theorem predictor_trip : (predictor d s dt vt f).trip = s.trip := by
  rfl

theorem predictor_stallTimer : (predictor d s dt vt f).stallTimer = s.stallTimer := by
  rfl

theorem predictor_restartTimer : (predictor d s dt vt f).restartTimer = s.restartTimer := by
  rfl

theorem predictor_runA : (predictor d s dt vt f).runA = s.runA := by
  rfl

theorem predictor_runB : (predictor d s dt vt f).runB = s.runB := by
  rfl

theorem predictor_fthA : (predictor d s dt vt f).fthA = s.fthA := by
  rfl

theorem predictor_fthB : (predictor d s dt vt f).fthB = s.fthB := by
  rfl

theorem predictor_fonline : (predictor d s dt vt f).fonline = s.fonline := by
  rfl

theorem predictor_pB : (predictor d s dt vt f).pB = s.pB := by
  rfl

theorem predictor_qB : (predictor d s dt vt f).qB = s.qB := by
  rfl

theorem corrector_uv1 : (corrector d s dt vt f).uv1 = s.uv1 := by
  rfl

theorem corrector_uv2 : (corrector d s dt vt f).uv2 = s.uv2 := by
  rfl

theorem corrector_kuv : (corrector d s dt vt f).kuv = s.kuv := by
  rfl

theorem corrector_kcon : (corrector d s dt vt f).kcon = s.kcon := by
  rfl

theorem corrector_trip : (corrector d s dt vt f).trip = s.trip := by
  rfl

theorem corrector_stallTimer : (corrector d s dt vt f).stallTimer = s.stallTimer := by
  rfl

theorem corrector_restartTimer : (corrector d s dt vt f).restartTimer = s.restartTimer := by
  rfl

theorem corrector_runA : (corrector d s dt vt f).runA = s.runA := by
  rfl

theorem corrector_runB : (corrector d s dt vt f).runB = s.runB := by
  rfl

theorem corrector_fthA : (corrector d s dt vt f).fthA = s.fthA := by
  rfl

theorem corrector_fthB : (corrector d s dt vt f).fthB = s.fthB := by
  rfl

theorem corrector_fonline : (corrector d s dt vt f).fonline = s.fonline := by
  rfl

theorem corrector_pB : (corrector d s dt vt f).pB = s.pB := by
  rfl

theorem corrector_qB : (corrector d s dt vt f).qB = s.qB := by
  rfl

end keep

theorem step_runA (d : Dev) (s : State) (i : In) :
    (step d s i).runA =
      (s.runA && !decide (d.p.tstall < (if i.v < d.p.vstall then s.stallTimer + i.dt else 0))) := by
  simp only [step, post, corrector_runA, predictor_runA, power_runA, thermal_runA, restarting_runA]
  unfold stalling
  simp only [timers, contactorOn_runA, contactorOn_stallTimer, contactorOff_runA, contactorOff_stallTimer, relay_runA, relay_stallTimer, changeLoad_runA, changeLoad_stallTimer]
  cases h : s.runA
  · simp [h, contactorOn_runA, contactorOff_runA, relay_runA, changeLoad_runA]
  · by_cases h2 : d.p.tstall < (if i.v < d.p.vstall then s.stallTimer + i.dt else 0) <;>
      simp [h, h2, contactorOn_runA, contactorOff_runA, relay_runA, changeLoad_runA]

theorem step_stallTimer (d : Dev) (s : State) (i : In) :
    (step d s i).stallTimer =
      if s.runA then (if i.v < d.p.vstall then s.stallTimer + i.dt else 0) else s.stallTimer := by
  simp only [step, post, corrector_stallTimer, predictor_stallTimer, power_stallTimer, thermal_stallTimer, restarting_stallTimer, stalling_stallTimer]
  simp only [timers, contactorOn_stallTimer, contactorOn_runA, contactorOff_stallTimer, contactorOff_runA, relay_stallTimer, relay_runA, changeLoad_stallTimer, changeLoad_runA]

theorem step_restartTimer (d : Dev) (s : State) (i : In) :
    (step d s i).restartTimer =
      if s.runB then s.restartTimer else (if i.v > d.p.vrst then s.restartTimer + i.dt else 0) := by
  simp only [step, post, corrector_restartTimer, predictor_restartTimer, power_restartTimer, thermal_restartTimer, restarting_restartTimer, stalling_restartTimer]
  simp only [timers, contactorOn_restartTimer, contactorOn_runB, contactorOff_restartTimer, contactorOff_runB, relay_restartTimer, relay_runB, changeLoad_restartTimer, changeLoad_runB]

theorem step_runB (d : Dev) (s : State) (i : In) :
    (step d s i).runB =
      (let stalls := s.runA && decide (d.p.tstall < (if i.v < d.p.vstall then s.stallTimer + i.dt else 0))
      let b := s.runB && !stalls
      b || (decide (0 < d.p.frst) && decide (d.p.trst <
        (if s.runB then s.restartTimer else (if i.v > d.p.vrst then s.restartTimer + i.dt else 0))))) := by
  simp only [step, post, corrector_runB, predictor_runB, power_runB, thermal_runB]
  unfold restarting
  simp only [stalling_restartTimer]
  unfold stalling
  simp only [timers, contactorOn_stallTimer, contactorOn_restartTimer, contactorOn_runA, contactorOn_runB, contactorOff_stallTimer, contactorOff_restartTimer, contactorOff_runA, contactorOff_runB, relay_stallTimer, relay_restartTimer, relay_runA, relay_runB, changeLoad_stallTimer, changeLoad_restartTimer, changeLoad_runA, changeLoad_runB]
  cases h : s.runA <;> cases hb : s.runB <;>
  by_cases h2 : d.p.tstall < (if i.v < d.p.vstall then s.stallTimer + i.dt else 0) <;>
  by_cases h4 : 0 < d.p.frst <;>
  by_cases h5 : d.p.trst < (if i.v > d.p.vrst then s.restartTimer + i.dt else 0) <;>
  by_cases h6 : d.p.trst < s.restartTimer <;>
      simp [h, hb, h2, h4, h5, h6, contactorOn_runA, contactorOn_runB, contactorOff_runA, contactorOff_runB, relay_runA, relay_runB, changeLoad_runA, changeLoad_runB]

theorem step_uv (d : Dev) (s : State) (i : In) :
    (step d s i).uv1 = (if s.vm < d.p.uvtr1 ∧ 0 < d.p.fuvr then s.uv1 + i.dt else 0) ∧
    (step d s i).uv2 = (if s.vm < d.p.uvtr2 ∧ 0 < d.p.fuvr then s.uv2 + i.dt else 0) ∧
    (step d s i).kuv =
      (if (if s.vm < d.p.uvtr2 ∧ 0 < d.p.fuvr then s.uv2 + i.dt else 0) > d.p.ttr2 then 1 - d.p.fuvr
       else if (if s.vm < d.p.uvtr1 ∧ 0 < d.p.fuvr then s.uv1 + i.dt else 0) > d.p.ttr1 then 1 - d.p.fuvr
       else s.kuv) := by
  simp only [step, post, corrector_uv1, corrector_uv2, corrector_kuv, predictor_uv1, predictor_uv2, predictor_kuv, power_uv1, power_uv2, power_kuv, thermal_uv1, thermal_uv2, thermal_kuv, restarting_uv1, restarting_uv2, restarting_kuv, stalling_uv1, stalling_uv2, stalling_kuv, timers_uv1, timers_uv2, timers_kuv, contactorOn_uv1, contactorOn_uv2, contactorOn_kuv, contactorOff_uv1, contactorOff_uv2, contactorOff_kuv]
  simp only [relay, changeLoad_vm, changeLoad_uv1, changeLoad_uv2, changeLoad_kuv]
  exact ⟨trivial, trivial, trivial⟩

/-- The contactor in a step: only the measured voltage and the part tripped count. -/
theorem step_con (d : Dev) (s : State) (i : In) :
    (step d s i).kcon = (contactorOn d (contactorOff d s)).kcon ∧
    (step d s i).trip = (contactorOff d s).trip := by
  have e1 : ∀ t : State, t.vm = s.vm → t.kcon = s.kcon → t.trip = s.trip →
      (contactorOff d t).kcon = (contactorOff d s).kcon ∧
      (contactorOff d t).trip = (contactorOff d s).trip := by
    intro t h1 h2 h3
    unfold contactorOff
    rw [h1]
    split_ifs <;> simp [h2, h3]
  have e2 : ∀ t u : State, t.vm = u.vm → t.kcon = u.kcon → t.trip = u.trip →
      (contactorOn d t).kcon = (contactorOn d u).kcon := by
    intro t u h1 h2 h3
    unfold contactorOn
    rw [h1, h3]
    split_ifs <;> simp [h2]
  have a := e1 (relay d (changeLoad s i.change) i.dt)
    (by rw [relay_vm, changeLoad_vm]) (by rw [relay_kcon, changeLoad_kcon])
    (by rw [relay_trip, changeLoad_trip])
  have b := e2 (contactorOff d (relay d (changeLoad s i.change) i.dt)) (contactorOff d s)
    (by rw [contactorOff_vm, contactorOff_vm, relay_vm, changeLoad_vm]) a.1 a.2
  simp only [step, post, corrector_kcon, corrector_trip, predictor_kcon, predictor_trip, power_kcon, power_trip, thermal_kcon, thermal_trip, restarting_kcon, restarting_trip, stalling_kcon, stalling_trip, timers_kcon, timers_trip, contactorOn_trip]
  exact ⟨b, a.2⟩

/-- The thermal protection in a step. -/
theorem step_fth (d : Dev) (s : State) (i : In) :
    (step d s i).fthA = thermalShare d s.tA (step d s i).runA s.fthA ∧
    (step d s i).fthB = thermalShare d s.tB (step d s i).runB s.fthB := by
  simp only [step, post, corrector_fthA, corrector_fthB, corrector_runA, corrector_runB, predictor_fthA, predictor_fthB, predictor_runA, predictor_runB, power_fthA, power_fthB, power_runA, power_runB, thermal_runA, thermal_runB]
  simp only [thermal, restarting_tA, restarting_tB, restarting_fthA, restarting_fthB, stalling_tA, stalling_tB, stalling_fthA, stalling_fthB, timers_tA, timers_tB, timers_fthA, timers_fthB, contactorOn_tA, contactorOn_tB, contactorOn_fthA, contactorOn_fthB, contactorOff_tA, contactorOff_tB, contactorOff_fthA, contactorOff_fthB, relay_tA, relay_tB, relay_fthA, relay_fthB, changeLoad_tA, changeLoad_tB, changeLoad_fthA, changeLoad_fthB]
  exact ⟨trivial, trivial⟩

end GridPACK.AcMotor
