import Verif.Spec.Composite
import Verif.Spec.Dyr

/-! Claims C296–C299: load models in the dynamic simulation, the composite load. -/
namespace GridPACK.Composite
open GridPACK.StringUtils (Str trimQuotes)
open Complex

/-- The key under which the name of the model is stored. -/
def nameKey : List DyrSpec.Par → Option (String × Nat)
  | [] => none
  | .name k n :: _ => some (k, n)
  | _ :: ps => nameKey ps

theorem nameKey_mem (ps : List DyrSpec.Par) (k : String) (n : Nat) (h : nameKey ps = some (k, n)) : DyrSpec.Par.name k n ∈ ps := by
  induction ps with
  | nil => simp [nameKey] at h
  | cons p ps ih =>
    cases p with
    | name a b =>
      simp only [nameKey, Option.some.injEq, Prod.mk.injEq] at h
      obtain ⟨rfl, rfl⟩ := h
      exact List.mem_cons_self
    | num a b => exact List.mem_cons_of_mem _ (ih h)
    | int a b => exact List.mem_cons_of_mem _ (ih h)
    | whole a b => exact List.mem_cons_of_mem _ (ih h)
    | tag a b => exact List.mem_cons_of_mem _ (ih h)
    | flag a => exact List.mem_cons_of_mem _ (ih h)

/-- The model is created, or one of the exceptions. -/
def fine (x : String × List DyrSpec.Par) : Bool :=
  ["IEELBL", "CMLDBLU1"].contains x.1 ||
    (match nameKey x.2 with
    | some kn => made kn.1 x.1.toList
    | none => false)

theorem all_fine : (DyrSpec.loads ++ DyrSpec.userLoads ++ DyrSpec.relays ++ DyrSpec.lines).all fine = true := by
  decide +kernel

/-- The models of loads and relays of a .dyr file: all but two are created by the factory that gets the name (the composite load
is expanded instead). -/
theorem C296_models_partial (m : String) (ps : List DyrSpec.Par)
    (hm : (m, ps) ∈ DyrSpec.loads ++ DyrSpec.userLoads ++ DyrSpec.relays ++ DyrSpec.lines)
    (h3 : m ≠ "IEELBL") (h4 : m ≠ "CMLDBLU1") :
    ∃ key n, DyrSpec.Par.name key n ∈ ps ∧ made key m.toList = true := by
  have h := List.all_eq_true.1 all_fine _ hm
  unfold fine at h
  simp only [Bool.or_eq_true] at h
  rcases h with h | h
  · simp at h
    rcases h with h | h
    · exact absurd h h3
    · exact absurd h h4
  · cases hk : nameKey ps with
    | none => rw [hk] at h; simp at h
    | some kn =>
      rw [hk] at h
      exact ⟨kn.1, kn.2, nameKey_mem ps kn.1 kn.2 hk, h⟩

theorem not_made (key : String) : made key "IEELBL".toList = false := by
  have e : ∀ l ∈ [["LVSHBL", "FRQTPAT", "DISTR1"], ["ACMTBLU1", "IEEL", "MOTORW", "CIM6BL"], []],
      (match trimQuotes "IEELBL".toList with
      | .ok t => l.any (fun k => k.toList = upper t)
      | _ => false) = false := by decide +kernel
  refine Eq.trans ?_ (e (known key) ?_)
  · rfl
  · unfold known
    split_ifs <;> simp

/-- The load IEELBL is read from the file and never created. -/
theorem C296_ieelbl_violated :
    ∃ ps n, ("IEELBL", ps) ∈ DyrSpec.loads ∧ DyrSpec.Par.name "LOAD_MODEL" n ∈ ps ∧ ∀ key, made key "IEELBL".toList = false :=
  ⟨DyrSpec.ieelbl, 1, by simp [DyrSpec.loads], by simp [DyrSpec.ieelbl], not_made⟩

example : made "LOAD_MODEL" "'cim6bl'".toList = true := by decide

theorem not_ieelbl : created "IEELBL".toList = false := by decide
theorem created_motorw : created "MOTORW".toList = true := by decide
theorem created_acmtblu1 : created "ACMTBLU1".toList = true := by decide

/-- Sum of the active powers of the load models. -/
theorem loads_sum (d : Data) (react : Str → ℝ → ℝ) (hA : 0 ≤ d.fmA) (hB : 0 ≤ d.fmB) (hC : 0 ≤ d.fmC) (hD : 0 ≤ d.fmD) :
    ((d.loads react).map (·.1)).sum = d.sload.re * d.sbase * min 1 (d.fmA + d.fmB + d.fmC + d.fmD) := by
  have key : ∀ a b c e s r : ℝ, 0 ≤ a → 0 ≤ b → 0 ≤ c → 0 ≤ e →
      (((((if 0 < a then [("MOTORW".toList, s * a)] else []) ++ (if 0 < b then [("MOTORW".toList, s * b)] else []) ++
        (if 0 < c then [("MOTORW".toList, s * c)] else []) ++ (if 0 < e then [("ACMTBLU1".toList, s * e)] else []) ++
        (if 0 < r then [("IEELBL".toList, d.sload.re * r * d.sbase)] else []) : List (Str × ℝ)).filter
          (fun w => created w.1)).map (fun w => (w.2, react w.1 w.2))).map (·.1)).sum = s * (a + b + c + e) := by
    intro a b c e s r ha hb hc he
    have z : ∀ x : ℝ, 0 ≤ x → ¬ 0 < x → x = 0 := fun x h1 h2 => le_antisymm (not_lt.1 h2) h1
    have n := not_ieelbl
    have m1 := created_motorw
    have m2 := created_acmtblu1
    simp only [List.filter_append, List.map_append, List.sum_append]
    have t : ∀ (nm : Str) (x : ℝ), 0 ≤ x → created nm = true →
        (((List.filter (fun w => created w.1) (if 0 < x then [(nm, s * x)] else [])).map
          (fun w : Str × ℝ => (w.2, react w.1 w.2))).map (·.1)).sum = s * x := by
      intro nm x hx hn
      split_ifs with h
      · simp [hn]
      · simp [z x hx h]
    have t5 : (((List.filter (fun w => created w.1) (if 0 < r then [("IEELBL".toList, d.sload.re * r * d.sbase)] else [])).map
          (fun w : Str × ℝ => (w.2, react w.1 w.2))).map (·.1)).sum = 0 := by
      split_ifs with h
      · rw [List.filter_cons_of_neg (p := fun w : Str × ℝ => created w.1) (by rw [n]; simp)]
        simp
      · simp
    rw [t _ a ha m1, t _ b hb m1, t _ c hc m1, t _ e he m2, t5]
    ring
  unfold Data.loads Data.wanted Data.rest
  by_cases h : 1 < d.fmA + d.fmB + d.fmC + d.fmD
  · have hs : 0 < d.fmA + d.fmB + d.fmC + d.fmD := by linarith
    have hf : d.fractions = (d.fmA / (d.fmA + d.fmB + d.fmC + d.fmD), d.fmB / (d.fmA + d.fmB + d.fmC + d.fmD),
      d.fmC / (d.fmA + d.fmB + d.fmC + d.fmD), d.fmD / (d.fmA + d.fmB + d.fmC + d.fmD)) := by
      unfold Data.fractions; rw [if_pos h]
    rw [hf]
    simp only
    rw [key _ _ _ _ _ _ (by positivity) (by positivity) (by positivity) (by positivity), min_eq_left h.le]
    congr 1
    field_simp
  · have hf : d.fractions = (d.fmA, d.fmB, d.fmC, d.fmD) := by
      unfold Data.fractions; rw [if_neg h]
    rw [hf]
    simp only
    rw [key _ _ _ _ _ _ hA hB hC hD, min_eq_right (not_lt.1 h)]

/-- If the fractions of the motors sum up to one or more, the motors take the active power that arrives at the load bus. -/
theorem C297_motors_partial (d : Data) (react : Str → ℝ → ℝ) (hA : 0 ≤ d.fmA) (hB : 0 ≤ d.fmB) (hC : 0 ≤ d.fmC) (hD : 0 ≤ d.fmD)
    (h : 1 ≤ d.fmA + d.fmB + d.fmC + d.fmD) :
    ((d.loads react).map (·.1)).sum = d.sload.re * d.sbase := by
  rw [loads_sum d react hA hB hC hD, min_eq_left h, mul_one]

/-- A composite load of 80 MW with usual values; the parameters are the limits of the tap, the sum of the voltage limits and the
fraction of the first motor. -/
def sample (t v a : ℝ) : Data :=
  ⟨80, 0, 1, 100, 100, 0.04, 0.08, 0.04, 0.04, 1, 1, v, v, t, t, 0.1, a, 0.2, 0.2, 0.1⟩

example : 1 ≤ (sample 1 1 0.5).fmA + (sample 1 1 0.5).fmB + (sample 1 1 0.5).fmC + (sample 1 1 0.5).fmD := by
  norm_num [sample]

/-- Otherwise the rest, which should be a static load, is missing. -/
theorem C297_static_violated (d : Data) (react : Str → ℝ → ℝ) (hA : 0 ≤ d.fmA) (hB : 0 ≤ d.fmB) (hC : 0 ≤ d.fmC) (hD : 0 ≤ d.fmD)
    (h : d.fmA + d.fmB + d.fmC + d.fmD < 1) (hp : d.sload.re * d.sbase ≠ 0) :
    d.sload.re * d.sbase - (((d.loads react).map (·.1)).sum + (d.static react).1 * d.sbase) =
      d.sload.re * d.sbase * (1 - (d.fmA + d.fmB + d.fmC + d.fmD)) ∧
    ((d.loads react).map (·.1)).sum + (d.static react).1 * d.sbase ≠ d.sload.re * d.sbase := by
  rw [loads_sum d react hA hB hC hD, min_eq_right h.le]
  have hs : (d.static react).1 = 0 := rfl
  rw [hs]
  refine ⟨by ring, ?_⟩
  intro e
  have : d.sload.re * d.sbase * (1 - (d.fmA + d.fmB + d.fmC + d.fmD)) = 0 := by linarith
  rcases mul_eq_zero.1 this with h' | h'
  · exact hp h'
  · linarith

example : (sample 1 1 0.1).fmA + (sample 1 1 0.1).fmB + (sample 1 1 0.1).fmC + (sample 1 1 0.1).fmD < 1 := by
  norm_num [sample]

/-- The reactive power that arrives at the load bus is taken by the motors and the compensation. -/
theorem C297_reactive (d : Data) (react : Str → ℝ → ℝ) :
    ((d.loads react).map (·.2)).sum / d.sbase + (d.static react).2 = d.sload.im := by
  unfold Data.static
  simp

theorem cround_near (x : ℝ) : |(cround x : ℝ) - x| ≤ 1 / 2 := by
  unfold cround
  split_ifs with h
  · have h1 := Int.floor_le (x + 1 / 2)
    have h2 := Int.lt_floor_add_one (x + 1 / 2)
    rw [abs_le]
    constructor <;> linarith
  · have h1 := Int.floor_le (-x + 1 / 2)
    have h2 := Int.lt_floor_add_one (-x + 1 / 2)
    push_cast
    rw [abs_le]
    constructor <;> linarith

theorem voltHigh_norm (d : Data) (hv : d.vt ≠ 0) (h1 : d.tfixhs = 1) :
    (‖d.vt‖ * ‖d.voltHigh‖) * (‖d.vt‖ * ‖d.voltHigh‖) =
      (d.q / d.sbase * d.x - ‖d.vt‖ * ‖d.vt‖) * (d.q / d.sbase * d.x - ‖d.vt‖ * ‖d.vt‖)
      + (d.x * (d.p / d.sbase)) * (d.x * (d.p / d.sbase)) := by
  have hc : (starRingEnd ℂ) d.vt ≠ 0 := by simpa using hv
  have e : (starRingEnd ℂ) d.vt * d.voltHigh =
      ⟨‖d.vt‖ * ‖d.vt‖ - d.x * (d.q / d.sbase), -(d.x * (d.p / d.sbase))⟩ := by
    unfold Data.voltHigh Data.ilf
    rw [h1, map_div₀]
    have e1 : (starRingEnd ℂ) d.vt * d.vt = ((‖d.vt‖ * ‖d.vt‖ : ℝ) : ℂ) := by
      rw [mul_comm, Complex.mul_conj, Complex.normSq_eq_norm_sq]
      push_cast
      ring
    rw [mul_sub, e1]
    have e2 : (starRingEnd ℂ) d.vt * (I * (((d.x * 1 * 1 : ℝ) : ℂ) *
        ((starRingEnd ℂ) (⟨d.p / d.sbase, d.q / d.sbase⟩ : ℂ) / (starRingEnd ℂ) d.vt))) =
        I * ((d.x : ℂ) * (starRingEnd ℂ) (⟨d.p / d.sbase, d.q / d.sbase⟩ : ℂ)) := by
      field_simp
      try simp
    rw [e2]
    apply Complex.ext <;> simp
  have n := congrArg Complex.normSq e
  rw [map_mul, Complex.normSq_conj, Complex.normSq_eq_norm_sq d.vt, Complex.normSq_eq_norm_sq d.voltHigh,
    Complex.normSq_mk] at n
  linear_combination n

/-- Without fixed taps and if the tap is not limited, the low side voltage is the middle of the given range, up to half a step of
the tap changer. -/
theorem C298_voltage_partial (d : Data) (hv : d.vt ≠ 0) (h1 : d.tfixhs = 1) (h2 : d.tfixls = 1) (hl : 0 ≤ d.vlow)
    (hh : d.voltHigh ≠ 0) (hs : 0 < d.step) (ht : 0 ≤ d.tap) (ha : d.tmin ≤ d.rawTap) (hb : d.rawTap ≤ d.tmax) :
    |‖d.voltLow‖ - (d.vmin + d.vmax) / 2| ≤ ‖d.voltHigh‖ * (d.step / 2) := by
  have hvn : 0 < ‖d.vt‖ := norm_pos_iff.2 hv
  have hhn : 0 < ‖d.voltHigh‖ := norm_pos_iff.2 hh
  have hraw : d.rawTap = d.vlow / ‖d.voltHigh‖ := by
    unfold Data.rawTap
    rw [← voltHigh_norm d hv h1]
    rw [show ‖d.vt‖ * d.vlow * (‖d.vt‖ * d.vlow) / (‖d.vt‖ * ‖d.voltHigh‖ * (‖d.vt‖ * ‖d.voltHigh‖)) =
      (d.vlow / ‖d.voltHigh‖) ^ 2 by field_simp]
    exact Real.sqrt_sq (by positivity)
  have htap : d.tap = 1 + (cround ((d.rawTap - 1) / d.step) : ℝ) * d.step := by
    unfold Data.tap
    rw [if_neg (not_lt.2 ha), if_neg (not_lt.2 hb)]
  have hlow : ‖d.voltLow‖ = ‖d.voltHigh‖ * d.tap := by
    unfold Data.voltLow
    rw [h1, h2, norm_mul, Complex.norm_real, Real.norm_eq_abs, one_mul, div_one, abs_of_nonneg ht]
  have hvl : (d.vmin + d.vmax) / 2 = ‖d.voltHigh‖ * d.rawTap := by
    rw [hraw]
    unfold Data.vlow
    field_simp
  rw [hlow, hvl, ← mul_sub, abs_mul, abs_of_pos hhn]
  apply mul_le_mul_of_nonneg_left _ hhn.le
  have hn := cround_near ((d.rawTap - 1) / d.step)
  have e : d.tap - d.rawTap = ((cround ((d.rawTap - 1) / d.step) : ℝ) - (d.rawTap - 1) / d.step) * d.step := by
    rw [htap]
    field_simp
    ring
  rw [e, abs_mul, abs_of_pos hs]
  nlinarith

/-- Without fixed taps, if no tap within the limits brings the low side voltage to the middle of the given range, the tap
is the one within the limits that comes nearest to it. -/
theorem C298_ends_partial (d : Data) (hv : d.vt ≠ 0) (h1 : d.tfixhs = 1) (h2 : d.tfixls = 1) (hl : 0 ≤ d.vlow)
    (hh : d.voltHigh ≠ 0) (hm : d.tmin ≤ d.tmax) (h0 : 0 ≤ d.tmin) (h : d.rawTap < d.tmin ∨ d.tmax < d.rawTap) :
    (d.tmin ≤ d.tap ∧ d.tap ≤ d.tmax) ∧ ∀ t, d.tmin ≤ t → t ≤ d.tmax →
      |‖d.voltLow‖ - (d.vmin + d.vmax) / 2| ≤ |‖d.voltHigh‖ * t - (d.vmin + d.vmax) / 2| := by
  have hvn : 0 < ‖d.vt‖ := norm_pos_iff.2 hv
  have hhn : 0 < ‖d.voltHigh‖ := norm_pos_iff.2 hh
  have hraw : d.rawTap = d.vlow / ‖d.voltHigh‖ := by
    unfold Data.rawTap
    rw [← voltHigh_norm d hv h1]
    rw [show ‖d.vt‖ * d.vlow * (‖d.vt‖ * d.vlow) / (‖d.vt‖ * ‖d.voltHigh‖ * (‖d.vt‖ * ‖d.voltHigh‖)) =
      (d.vlow / ‖d.voltHigh‖) ^ 2 by field_simp]
    exact Real.sqrt_sq (by positivity)
  have hvl : (d.vmin + d.vmax) / 2 = ‖d.voltHigh‖ * d.rawTap := by
    rw [hraw]
    unfold Data.vlow
    field_simp
  have key : (d.tmin ≤ d.tap ∧ d.tap ≤ d.tmax) ∧ ∀ t, d.tmin ≤ t → t ≤ d.tmax → |d.tap - d.rawTap| ≤ |t - d.rawTap| := by
    by_cases ha : d.rawTap < d.tmin
    · have e : d.tap = d.tmin := by
        unfold Data.tap
        rw [if_pos ha]
      rw [e]
      refine ⟨⟨le_refl _, hm⟩, fun t t1 _ => ?_⟩
      rw [abs_of_pos (by linarith), abs_of_pos (by linarith)]
      linarith
    · have hb : d.tmax < d.rawTap := h.resolve_left ha
      have e : d.tap = d.tmax := by
        unfold Data.tap
        rw [if_neg ha, if_pos hb]
      rw [e]
      refine ⟨⟨hm, le_refl _⟩, fun t _ t2 => ?_⟩
      rw [abs_of_neg (by linarith), abs_of_neg (by linarith)]
      linarith
  have hlow : ‖d.voltLow‖ = ‖d.voltHigh‖ * d.tap := by
    unfold Data.voltLow
    rw [h1, h2, norm_mul, Complex.norm_real, Real.norm_eq_abs, one_mul, div_one, abs_of_nonneg (h0.trans key.1.1)]
  refine ⟨key.1, fun t t1 t2 => ?_⟩
  rw [hlow, hvl, ← mul_sub, ← mul_sub, abs_mul, abs_mul]
  exact mul_le_mul_of_nonneg_left (key.2 t t1 t2) (abs_nonneg _)

/-- The tap is rounded after the limits are checked: it can be above the maximum. -/
theorem C298_limit_violated (d : Data) (hs : 0 < d.step) (ha : d.tmin ≤ d.rawTap) (hb : d.rawTap ≤ d.tmax)
    (h1 : 1 + d.step / 2 ≤ d.rawTap) (h2 : d.tmax < 1 + d.step) : d.tap = 1 + d.step ∧ d.tmax < d.tap := by
  have hr : cround ((d.rawTap - 1) / d.step) = 1 := by
    unfold cround
    have e1 : 1 / 2 ≤ (d.rawTap - 1) / d.step := by
      rw [le_div_iff₀ hs]; linarith
    have e2 : (d.rawTap - 1) / d.step < 1 := by
      rw [div_lt_iff₀ hs]; linarith
    rw [if_pos (by linarith), Int.floor_eq_iff]
    push_cast
    constructor <;> linarith
  have ht : d.tap = 1 + d.step := by
    unfold Data.tap
    rw [if_neg (not_lt.2 ha), if_neg (not_lt.2 hb), hr]
    push_cast
    ring
  exact ⟨ht, by rw [ht]; exact h2⟩

/-- The same load without reactance of the transformer. -/
def ideal (v lo hi : ℝ) : Data := ⟨80, 0, 1, 100, 100, 0.04, 0, 0.04, 0.04, 1, 1, v, v, lo, hi, 0.1, 0.5, 0.2, 0.2, 0.1⟩

theorem ideal_raw (v lo hi : ℝ) (h : 0 ≤ v) : (ideal v lo hi).rawTap = v := by
  have e : (ideal v lo hi).rawTap = Real.sqrt (v ^ 2) := by
    unfold Data.rawTap Data.vlow Data.x
    congr 1
    simp [ideal]
    ring
  rw [e, Real.sqrt_sq h]

/-- Hypotheses of `C298_voltage_partial` and `C298_limit_violated`. -/
example : (ideal 1.06 0.9 1.08).tap = 1 + 0.1 ∧ (1.08 : ℝ) < (ideal 1.06 0.9 1.08).tap :=
  C298_limit_violated (ideal 1.06 0.9 1.08) (by norm_num [ideal]) (by rw [ideal_raw _ _ _ (by norm_num)]; norm_num [ideal])
    (by rw [ideal_raw _ _ _ (by norm_num)]; norm_num [ideal]) (by rw [ideal_raw _ _ _ (by norm_num)]; norm_num [ideal])
    (by norm_num [ideal])

example : |‖(ideal 1.02 0.9 1.1).voltLow‖ - ((ideal 1.02 0.9 1.1).vmin + (ideal 1.02 0.9 1.1).vmax) / 2| ≤
    ‖(ideal 1.02 0.9 1.1).voltHigh‖ * ((ideal 1.02 0.9 1.1).step / 2) := by
  have hr := ideal_raw 1.02 0.9 1.1 (by norm_num)
  refine C298_voltage_partial _ (by simp [ideal]) rfl rfl (by norm_num [Data.vlow, ideal]) ?_ (by norm_num [ideal]) ?_
    (by rw [hr]; norm_num [ideal]) (by rw [hr]; norm_num [ideal])
  · simp [Data.voltHigh, Data.x, ideal]
  · have c : cround ((1.02 - 1) / (ideal 1.02 0.9 1.1).step) = 0 := by
      unfold cround
      norm_num [ideal]
    unfold Data.tap
    rw [hr, c]
    norm_num [ideal]

/-- The tap 1.2 would be needed, the limit is 1.1. -/
example : (ideal 1.2 0.9 1.1).tap ≤ (ideal 1.2 0.9 1.1).tmax := by
  have hr := ideal_raw 1.2 0.9 1.1 (by norm_num)
  refine (C298_ends_partial _ (by simp [ideal]) rfl rfl (by norm_num [Data.vlow, ideal]) ?_ (by norm_num [ideal])
    (by norm_num [ideal]) (Or.inr (by rw [hr]; norm_num [ideal]))).1.2
  simp [Data.voltHigh, Data.x, ideal]

theorem xfmr_into (e : YMatrix.Elem) (h1 : e.xform = true) (h2 : e.status = true) (h3 : e.switched = false) (h4 : e.phase = 0)
    (h5 : e.charging = 0) (h6 : e.g1 = 0) (h7 : e.b1 = 0) (h8 : e.g2 = 0) (h9 : e.b2 = 0) (v1 v2 : ℂ) :
    into1 e v1 v2 = 1 / e.z / ((e.tap : ℂ) * e.tap) * v1 - 1 / e.z / e.tap * v2 ∧
    into2 e v1 v2 = 1 / e.z * v2 - 1 / e.z / e.tap * v1 := by
  have hr : e.ratio = e.tap := by
    unfold YMatrix.Elem.ratio
    rw [h4]
    apply Complex.ext <;> simp
  have z0 : (⟨0, 0⟩ : ℂ) = 0 := rfl
  unfold into1 into2
  simp [YMatrix.getAdmittance, YMatrix.getTransformer, YMatrix.getShunt, YMatrix.setYBus, YMatrix.Elem.admittance,
    YMatrix.Elem.transformer, YMatrix.Elem.shuntOf, YMatrix.Elem.frwd, YMatrix.Elem.rvrs, YMatrix.Elem.a, h1, h2, h3, h5, h6, h7,
    h8, h9, hr, z0]
  constructor <;> ring

theorem xfmr_z (d : Data) : d.xfmr.z = I * (d.x : ℂ) := by
  unfold YMatrix.Elem.z Data.xfmr
  apply Complex.ext <;> simp

theorem feeder_z (d : Data) : d.feeder.z = d.zfdr := by
  unfold YMatrix.Elem.z Data.feeder
  rfl

theorem ilf_power (d : Data) (hv : d.vt ≠ 0) : d.vt * (starRingEnd ℂ) d.ilf = ⟨d.p / d.sbase, d.q / d.sbase⟩ := by
  unfold Data.ilf
  rw [Complex.conj_conj]
  field_simp

theorem feeder_into (d : Data) (hz : d.zfdr ≠ 0) :
    into1 d.feeder d.voltLow d.voltLoad = d.iFeeder ∧ into2 d.feeder d.voltLow d.voltLoad = -d.iFeeder := by
  obtain ⟨a, b⟩ := xfmr_into d.feeder rfl rfl rfl rfl rfl rfl rfl rfl rfl d.voltLow d.voltLoad
  rw [a, b, feeder_z]
  have ht : d.feeder.tap = 1 := rfl
  rw [ht]
  unfold Data.voltLoad
  constructor <;> (push_cast; field_simp; ring)

/-- The currents into the transformer are off by the square of the tap. -/
theorem xfmr_currents (d : Data) (hx : d.x ≠ 0) (ht : d.tap ≠ 0) (h1 : d.tfixhs = 1) (h2 : d.tfixls = 1) :
    into1 d.xfmr d.vt d.voltLow = (d.tap ^ 2 : ℝ) * d.ilf ∧ into2 d.xfmr d.vt d.voltLow = -((d.tap ^ 2 : ℝ) * d.iLow) := by
  obtain ⟨a, b⟩ := xfmr_into d.xfmr rfl rfl rfl rfl rfl rfl rfl rfl rfl d.vt d.voltLow
  have hxc : (d.x : ℂ) ≠ 0 := by exact_mod_cast hx
  have htc : (d.tap : ℂ) ≠ 0 := by exact_mod_cast ht
  have hI := Complex.I_ne_zero
  have e : d.xfmr.tap = 1 / d.tap := rfl
  rw [a, b, xfmr_z, e]
  unfold Data.voltLow Data.iLow Data.voltHigh
  rw [h1, h2]
  push_cast
  constructor <;> (field_simp; ring)

/-- With neutral taps, a capacitor of the built-in size and motors only, the initial voltages solve the equations of the
network. -/
theorem C299_start_partial (d : Data) (react : Str → ℝ → ℝ) (hv : d.vt ≠ 0) (hx : d.x ≠ 0) (hz : d.zfdr ≠ 0) (hsb : d.sbase ≠ 0)
    (h1 : d.tfixhs = 1) (h2 : d.tfixls = 1) (ht : d.tap = 1) (hb : d.bssPu = 0.04 * 100 / d.sbase)
    (hA : 0 ≤ d.fmA) (hB : 0 ≤ d.fmB) (hC : 0 ≤ d.fmC) (hD : 0 ≤ d.fmD) (hF : 1 ≤ d.fmA + d.fmB + d.fmC + d.fmD) :
    Balanced d react := by
  obtain ⟨x1, x2⟩ := xfmr_currents d hx (by rw [ht]; norm_num) h1 h2
  obtain ⟨f1, f2⟩ := feeder_into d hz
  refine ⟨?_, ?_, ?_⟩
  · unfold taken
    rw [x1, ht, ← ilf_power d hv]
    simp
  · rw [x2, f1, ht]
    unfold Data.iFeeder Data.lowShunt
    rw [hb]
    push_cast
    ring
  · rw [f2, neg_neg, C297_reactive, C297_motors_partial d react hA hB hC hD hF]
    have hs : (d.static react).1 = 0 := rfl
    rw [hs, add_zero]
    have : d.sload.re * d.sbase / d.sbase = d.sload.re := by field_simp
    rw [this]
    rfl

theorem sample_tap (v a : ℝ) : (sample 1 v a).tap = 1 := by
  unfold Data.tap
  split_ifs with h1 h2
  · rfl
  · rfl
  · have e : (sample 1 v a).rawTap = 1 := le_antisymm (not_lt.1 h2) (not_lt.1 h1)
    rw [e, sub_self, zero_div]
    norm_num [cround]

theorem sample_x (t v a : ℝ) : (sample t v a).x = 0.08 := by
  norm_num [Data.x, Data.base, sample]

theorem sample_z (t v a : ℝ) : (sample t v a).zfdr ≠ 0 := by
  intro h
  have := congrArg Complex.re h
  norm_num [Data.zfdr, Data.base, sample] at this

example (react : Str → ℝ → ℝ) : Balanced (sample 1 1 0.5) react :=
  C299_start_partial _ react (by simp [sample]) (by rw [sample_x]; norm_num) (sample_z _ _ _) (by norm_num [sample]) rfl rfl
    (sample_tap _ _) (by norm_num [Data.bssPu, Data.base, sample]) (by norm_num [sample]) (by norm_num [sample])
    (by norm_num [sample]) (by norm_num [sample]) (by norm_num [sample])

theorem sample_tap' (v a : ℝ) : (sample 1.1 v a).tap = 1.1 := by
  unfold Data.tap
  split_ifs with h1 h2
  · rfl
  · rfl
  · have e : (sample 1.1 v a).rawTap = 1.1 := le_antisymm (not_lt.1 h2) (not_lt.1 h1)
    rw [e]
    have c : cround ((1.1 - 1) / (sample 1.1 v a).step) = 1 := by
      unfold cround
      norm_num [sample]
    rw [c]
    norm_num [sample]

/-- With any other tap the power taken from the bus is multiplied by the square of the tap: the reactance is on the other side of
the ideal transformer than assumed by the initialisation. -/
theorem C299_tap_violated (d : Data) (react : Str → ℝ → ℝ) (hv : d.vt ≠ 0) (hx : d.x ≠ 0) (h1 : d.tfixhs = 1) (h2 : d.tfixls = 1)
    (ht : d.tap ≠ 0) (ht1 : d.tap ^ 2 ≠ 1) (hp : d.p / d.sbase ≠ 0) :
    taken d = ((d.tap ^ 2 : ℝ) : ℂ) * ⟨d.p / d.sbase, d.q / d.sbase⟩ ∧ ¬ Balanced d react := by
  obtain ⟨x1, -⟩ := xfmr_currents d hx ht h1 h2
  have e : taken d = ((d.tap ^ 2 : ℝ) : ℂ) * ⟨d.p / d.sbase, d.q / d.sbase⟩ := by
    unfold taken
    rw [x1, map_mul, Complex.conj_ofReal, ← ilf_power d hv]
    ring
  refine ⟨e, fun hb => ?_⟩
  have hp' := hb.power
  rw [e] at hp'
  have := congrArg Complex.re hp'
  rw [Complex.re_ofReal_mul] at this
  simp only at this
  apply ht1
  exact mul_right_cancel₀ hp (by linarith)

/-- The load of 80 MW takes 96.8 MW at tap 1.1. -/
example (react : Str → ℝ → ℝ) : ¬ Balanced (sample 1.1 1 0.5) react :=
  (C299_tap_violated _ react (by simp [sample]) (by rw [sample_x]; norm_num) rfl rfl (by rw [sample_tap']; norm_num)
    (by rw [sample_tap']; norm_num) (by norm_num [sample])).2

/-- The capacitor in the network is not the one of the data. -/
theorem C299_capacitor_violated (d : Data) (react : Str → ℝ → ℝ) (hx : d.x ≠ 0) (hz : d.zfdr ≠ 0) (h1 : d.tfixhs = 1)
    (h2 : d.tfixls = 1) (ht : d.tap = 1) (hl : d.voltLow ≠ 0) (hb : d.bssPu ≠ 0.04 * 100 / d.sbase) : ¬ Balanced d react := by
  intro h
  obtain ⟨-, x2⟩ := xfmr_currents d hx (by rw [ht]; norm_num) h1 h2
  obtain ⟨f1, -⟩ := feeder_into d hz
  have := h.low
  rw [x2, f1, ht] at this
  unfold Data.iFeeder at this
  have e : ((⟨0, d.lowShunt⟩ : ℂ) - ⟨0, d.bssPu⟩) * d.voltLow = 0 := by
    rw [← this]
    push_cast
    ring
  rcases mul_eq_zero.1 e with h' | h'
  · have := congrArg Complex.im h'
    simp only [Complex.sub_im, Complex.zero_im] at this
    unfold Data.lowShunt at this
    exact hb (by linarith)
  · exact hl h'

/-- A capacitor of half the built-in size. -/
example (react : Str → ℝ → ℝ) :
    ¬ Balanced ⟨80, 0, 1, 100, 100, 0.02, 0.08, 0.04, 0.04, 1, 1, 1, 1, 1, 1, 0.1, 0.5, 0.2, 0.2, 0.1⟩ react := by
  have ht : (⟨80, 0, 1, 100, 100, 0.02, 0.08, 0.04, 0.04, 1, 1, 1, 1, 1, 1, 0.1, 0.5, 0.2, 0.2, 0.1⟩ : Data).tap = 1 :=
    (show _ = (sample 1 1 0.5).tap from rfl).trans (sample_tap 1 0.5)
  refine C299_capacitor_violated _ react ?_ ?_ rfl rfl ht ?_ (by norm_num [Data.bssPu, Data.base])
  · exact fun h => by norm_num [Data.x, Data.base] at h
  · intro h
    have := congrArg Complex.re h
    norm_num [Data.zfdr, Data.base] at this
  · intro h
    have := congrArg Complex.re h
    unfold Data.voltLow at this
    rw [ht] at this
    norm_num [Data.voltHigh, Data.ilf, Data.x, Data.base] at this

end GridPACK.Composite
