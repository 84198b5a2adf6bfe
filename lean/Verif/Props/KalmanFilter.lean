import Verif.Spec.KalmanFilter
import Verif.Props.Random
import Mathlib.LinearAlgebra.Matrix.PosDef
import Mathlib.Algebra.BigOperators.Field
import Mathlib.Tactic.FieldSimp
import Mathlib.Tactic.Linarith

/-! The ensemble Kalman filter. -/
namespace GridPACK.KalmanFilter
open Matrix

theorem isUnit_det_one_add {k l : ℕ} (B : Matrix (Fin k) (Fin l) ℝ) (c d : ℝ) (hc : 0 ≤ c) (hd : 0 < d) :
    IsUnit (c • (B * Bᵀ) + d • (1 : Matrix (Fin k) (Fin k) ℝ)).det := by
  rw [isUnit_iff_ne_zero]
  intro h0
  obtain ⟨v, hv, h⟩ := Matrix.exists_mulVec_eq_zero_iff.2 h0
  have h1 : v ⬝ᵥ ((c • (B * Bᵀ) + d • (1 : Matrix (Fin k) (Fin k) ℝ)) *ᵥ v) = 0 := by rw [h, dotProduct_zero]
  have h2 : v ⬝ᵥ ((c • (B * Bᵀ) + d • (1 : Matrix (Fin k) (Fin k) ℝ)) *ᵥ v)
      = c * ((Bᵀ *ᵥ v) ⬝ᵥ (Bᵀ *ᵥ v)) + d * (v ⬝ᵥ v) := by
    rw [Matrix.add_mulVec, Matrix.smul_mulVec, Matrix.smul_mulVec, Matrix.one_mulVec, dotProduct_add, dotProduct_smul,
      dotProduct_smul, ← Matrix.mulVec_mulVec, Matrix.dotProduct_mulVec, ← Matrix.mulVec_transpose]
    rfl
  have h3 : 0 ≤ (Bᵀ *ᵥ v) ⬝ᵥ (Bᵀ *ᵥ v) := by
    apply Finset.sum_nonneg; intro i _; exact mul_self_nonneg _
  have h4 : 0 < v ⬝ᵥ v := by
    obtain ⟨i, hi⟩ := Function.ne_iff.1 hv
    apply Finset.sum_pos' (fun i _ => mul_self_nonneg _)
    exact ⟨i, Finset.mem_univ _, by have := mul_self_pos.2 hi; simpa using this⟩
  have h5 := mul_nonneg hc h3
  have h6 := mul_pos hd h4
  rw [h2] at h1
  linarith

theorem covariance_eq {n m N : ℕ} (X : Matrix (Fin n) (Fin N) ℝ) (Z : Matrix (Fin m) (Fin N) ℝ) (h : 1 < N) :
    covariance X Z = nInv N • (deviations X * (deviations Z)ᵀ) := by
  ext i j
  simp only [covariance, nInv, if_pos h, Matrix.smul_apply, Matrix.mul_apply, Matrix.transpose_apply, deviations, smul_eq_mul,
    sampleMean, mean]
  ring

theorem isUnit_innovation {m N : ℕ} (noise : ℝ) (HX : Matrix (Fin m) (Fin N) ℝ) (h : 1 < N) (hn : noise ≠ 0) :
    IsUnit (innovationCov noise HX).det := by
  unfold innovationCov
  rw [covariance_eq HX HX h]
  apply isUnit_det_one_add
  · unfold nInv; rw [if_pos h]
    have : (1 : ℝ) < N := by exact_mod_cast h
    apply div_nonneg <;> linarith
  · positivity

/-- The update of the ensemble is the one of the Kalman filter: every member moves by the gain times the difference between its
measurements and its forecast of them, where the gain is made of the covariances of the ensemble and of the noise.  The matrix
inverted in the gain and the one given to the solver are invertible. -/
theorem C272_update {n m N : ℕ}
    (solve : Matrix (Fin N) (Fin N) ℝ → Matrix (Fin N) (Fin N) ℝ → Matrix (Fin N) (Fin N) ℝ) (hs : Solves solve)
    (noise : ℝ) (hn : noise ≠ 0) (hN : 1 < N) (X3 : Matrix (Fin n) (Fin N) ℝ) (D HX : Matrix (Fin m) (Fin N) ℝ) :
    IsUnit (innovationCov noise HX).det ∧
      analysis solve noise X3 D HX = X3 + gain noise X3 HX * (D - HX) := by
  refine ⟨isUnit_innovation noise HX hN hn, ?_⟩
  have hN1 : (0 : ℝ) < (N : ℝ) - 1 := by
    have : (1 : ℝ) < N := by exact_mod_cast hN
    linarith
  have hr : (0 : ℝ) < noise ^ 2 := by positivity
  have hrr : rm1 noise = (noise ^ 2)⁻¹ := by unfold rm1; rw [one_div, sq]
  unfold analysis increment
  congr 1
  have hY : D + (-1 : ℝ) • HX = D - HX := by rw [neg_one_smul, sub_eq_add_neg]
  rw [hY]
  generalize hYY : D - HX = Y
  generalize hA : deviations X3 = A
  generalize hB : deviations HX = B
  have hc : rm1n noise N = (noise ^ 2)⁻¹ * nInv N := by
    unfold rm1n nInv
    rw [if_pos hN, if_pos hN, hrr, mul_one_div]
  have hν : 0 ≤ nInv N := by unfold nInv; rw [if_pos hN]; positivity
  have hQ : IsUnit ((rm1n noise N • (Bᵀ * B) + 1).det) := by
    have := isUnit_det_one_add Bᵀ (rm1n noise N) 1 (by rw [hc]; positivity) one_pos
    rwa [Matrix.transpose_transpose, one_smul] at this
  have hW := hs (rm1n noise N • (Bᵀ * B) + 1) (rm1 noise • (Bᵀ * Y)) hQ
  have hS := isUnit_innovation noise HX hN hn
  have hSe : innovationCov noise HX = nInv N • (B * Bᵀ) + noise ^ 2 • (1 : Matrix (Fin m) (Fin m) ℝ) := by
    unfold innovationCov; rw [covariance_eq HX HX hN, hB]
  unfold gain
  rw [covariance_eq X3 HX hN, hA, hB]
  simp only
  generalize hW' : solve (rm1n noise N • (Bᵀ * B) + 1) (rm1 noise • (Bᵀ * Y)) = W at hW ⊢
  have hZ2 : (-1 : ℝ) • (rm1n noise N • (Bᵀ * B) * W) + rm1 noise • (Bᵀ * Y) = W := by
    rw [← hW, Matrix.add_mul, Matrix.one_mul, neg_one_smul]
    abel
  rw [hZ2]
  generalize hSS : innovationCov noise HX = S at hS hSe
  have hSi : S * S⁻¹ = 1 := Matrix.mul_nonsing_inv S hS
  have hWe : W = Bᵀ * (S⁻¹ * Y) := by
    have h1 : (rm1n noise N • (Bᵀ * B) + 1) * (Bᵀ * (S⁻¹ * Y)) = rm1 noise • (Bᵀ * Y) := by
      have h2 : (rm1n noise N • (Bᵀ * B) + 1) * Bᵀ = rm1 noise • (Bᵀ * S) := by
        rw [hSe, hc, hrr, Matrix.add_mul, Matrix.one_mul, Matrix.mul_add, Matrix.mul_smul, Matrix.mul_smul, Matrix.mul_one,
          smul_add, smul_smul, smul_smul, inv_mul_cancel₀ hr.ne', one_smul, Matrix.smul_mul, Matrix.mul_assoc]
      rw [← Matrix.mul_assoc, h2, Matrix.smul_mul, Matrix.mul_assoc, ← Matrix.mul_assoc S, hSi, Matrix.one_mul]
    have h3 := Matrix.nonsing_inv_mul _ hQ
    calc W = (rm1n noise N • (Bᵀ * B) + 1)⁻¹ * ((rm1n noise N • (Bᵀ * B) + 1) * W) := by
            rw [← Matrix.mul_assoc, h3, Matrix.one_mul]
      _ = (rm1n noise N • (Bᵀ * B) + 1)⁻¹ * ((rm1n noise N • (Bᵀ * B) + 1) * (Bᵀ * (S⁻¹ * Y))) := by rw [hW, h1]
      _ = _ := by rw [← Matrix.mul_assoc, h3, Matrix.one_mul]
  rw [hWe, Matrix.smul_mul, Matrix.smul_mul]
  simp only [Matrix.mul_assoc]

/-- A solver exists, two members are enough. -/
example : Solves (N := 2) (fun Q Z => Q⁻¹ * Z) := by
  intro Q Z h
  rw [← Matrix.mul_assoc, Matrix.mul_nonsing_inv Q h, Matrix.one_mul]

theorem mean_add {N : ℕ} (x y : Fin N → ℝ) : sampleMean (fun k => x k + y k) = sampleMean x + sampleMean y := by
  simp only [sampleMean, Finset.sum_add_distrib, add_div]

/-- The reported state, which is the mean of the ensemble, moves by the gain times the difference of the mean measurements and
the mean forecast of them. -/
theorem C273_mean {n m N : ℕ}
    (solve : Matrix (Fin N) (Fin N) ℝ → Matrix (Fin N) (Fin N) ℝ → Matrix (Fin N) (Fin N) ℝ) (hs : Solves solve)
    (noise : ℝ) (hn : noise ≠ 0) (hN : 1 < N) (X3 : Matrix (Fin n) (Fin N) ℝ) (D HX : Matrix (Fin m) (Fin N) ℝ) (i : Fin n) :
    sampleMean (analysis solve noise X3 D HX i)
      = sampleMean (X3 i) + ∑ j, gain noise X3 HX i j * (sampleMean (D j) - sampleMean (HX j)) := by
  rw [(C272_update solve hs noise hn hN X3 D HX).2]
  have h := mean_add (X3 i) (fun k => (gain noise X3 HX * (D - HX)) i k)
  have h' : sampleMean ((X3 + gain noise X3 HX * (D - HX)) i) =
      sampleMean (fun k => X3 i k + (gain noise X3 HX * (D - HX)) i k) := rfl
  rw [h', h]
  congr 1
  simp only [sampleMean, Matrix.mul_apply, Matrix.sub_apply]
  rw [Finset.sum_comm, Finset.sum_div]
  apply Finset.sum_congr rfl
  intro j _
  rw [← Finset.mul_sum, Finset.sum_sub_distrib, mul_div_assoc, sub_div]

/-- Measurements that agree with the forecast of every member leave the ensemble as it is, and so does an ensemble of one. -/
theorem C273_no_change {n m N : ℕ}
    (solve : Matrix (Fin N) (Fin N) ℝ → Matrix (Fin N) (Fin N) ℝ → Matrix (Fin N) (Fin N) ℝ) (hs : Solves solve)
    (noise : ℝ) (X3 : Matrix (Fin n) (Fin N) ℝ) (D HX : Matrix (Fin m) (Fin N) ℝ)
    (h : (1 < N ∧ noise ≠ 0 ∧ D = HX) ∨ N = 1) : analysis solve noise X3 D HX = X3 := by
  rcases h with ⟨hN, hn, hD⟩ | hN
  · rw [(C272_update solve hs noise hn hN X3 D HX).2, hD, sub_self, Matrix.mul_zero, add_zero]
  · have : nInv N = 0 := by unfold nInv; rw [if_neg (by omega)]
    simp only [analysis, increment, this, zero_smul, add_zero]

/-! ### Random numbers -/

/-- The configured seed has no effect on the numbers drawn on a bus. -/
theorem C274_seed_violated {G : Type} (L : Random.Lib G) (fuel count rank rank' : ℕ) (s s' : ℤ) :
    busNumbers L fuel count (initializeRandom L rank s) = busNumbers L fuel count (initializeRandom L rank' s') := rfl

theorem numbers_take {G : Type} (L : Random.Lib G) (fuel : ℕ) (k l : ℕ) (hkl : k ≤ l) (r : Random.Rand G) (z : List ℝ)
    (h : numbers L fuel l r = some z) : numbers L fuel k r = some (z.take k) := by
  induction k generalizing l r z with
  | zero => simp [numbers]
  | succ k ih =>
    obtain ⟨l, rfl⟩ : ∃ l', l = l' + 1 := ⟨l - 1, by omega⟩
    simp only [numbers] at h ⊢
    cases hg : Random.grand L fuel r with
    | none => rw [hg] at h; simp at h
    | some a =>
      rw [hg] at h
      simp only [Option.bind_some, Option.map_eq_some_iff] at h ⊢
      obtain ⟨y, hy, rfl⟩ := h
      exact ⟨y.take k, ih l (by omega) a.2 y hy, rfl⟩

theorem numbers_length {G : Type} (L : Random.Lib G) (fuel : ℕ) (k : ℕ) (r : Random.Rand G) (z : List ℝ)
    (h : numbers L fuel k r = some z) : z.length = k := by
  induction k generalizing r z with
  | zero => simp [numbers] at h; simp [← h]
  | succ k ih =>
    simp only [numbers] at h
    cases hg : Random.grand L fuel r with
    | none => rw [hg] at h; simp at h
    | some a =>
      rw [hg] at h
      simp only [Option.bind_some, Option.map_eq_some_iff] at h
      obtain ⟨y, hy, rfl⟩ := h
      simp [ih a.2 y hy]

/-- The noise added to the measurements of any two buses, in any two steps, is the same for every member of the ensemble. -/
theorem C274_noise_violated {G : Type} (L : Random.Lib G) (fuel N : ℕ) (r r' : Random.Rand G) (z z' : List ℝ)
    (hz : busNumbers L fuel (2 * N) r = some z) (hz' : busNumbers L fuel (2 * N) r' = some z')
    (noise d1 d2 e1 e2 : ℝ) (k : ℕ) (x y : ℝ)
    (hx : (measured noise d1 d2 N z).1[k]? = some x) (hy : (measured noise e1 e2 N z').1[k]? = some y) : x - d1 = y - e1 := by
  have : z = z' := by unfold busNumbers at hz hz'; rw [hz] at hz'; exact Option.some.inj hz'
  subst this
  simp only [measured, List.getElem?_map, Option.map_eq_some_iff] at hx hy
  obtain ⟨a, ha, rfl⟩ := hx
  obtain ⟨b, hb, rfl⟩ := hy
  rw [ha] at hb
  obtain rfl := Option.some.inj hb
  ring

/-- The first generators of any two buses start with angles perturbed by the same factor, member by member, whatever numbers of
generators the buses have. -/
theorem C274_ensemble_violated {G : Type} (L : Random.Lib G) (fuel N g g' : ℕ) (hg : 1 ≤ g) (hg' : 1 ≤ g')
    (r r' : Random.Rand G) (z z' : List ℝ)
    (hz : busNumbers L fuel (2 * N * g) r = some z) (hz' : busNumbers L fuel (2 * N * g') r' = some z')
    (sigma d0 e0 : ℝ) (k : ℕ) (x y : ℝ)
    (hx : (ensemble sigma d0 N z).1[k]? = some x) (hy : (ensemble sigma e0 N z').1[k]? = some y) : x * e0 = y * d0 := by
  unfold busNumbers at hz hz'
  have h1 := numbers_take L fuel N _ (by nlinarith) _ _ hz
  have h2 := numbers_take L fuel N _ (by nlinarith) _ _ hz'
  rw [h1] at h2
  have h3 := Option.some.inj h2
  simp only [ensemble, h3, List.getElem?_map, Option.map_eq_some_iff] at hx hy
  obtain ⟨a, ha, rfl⟩ := hx
  obtain ⟨b, hb, rfl⟩ := hy
  rw [ha] at hb
  obtain rfl := Option.some.inj hb
  ring

/-- C274: two numbers are drawn on a bus. -/
example : ∃ z, busNumbers Random.toy 1 2 (initializeRandom Random.toy 0 11238) = some z ∧ z.length = 2 := by
  have h : ∃ z, numbers Random.toy 1 2 (Random.new Random.toy) = some z := by
    have e : Random.new Random.toy = ⟨false, 0, true⟩ := rfl
    rw [e]
    simp [numbers, Random.grand, Random.toy_draw]
  obtain ⟨z, hz⟩ := h
  exact ⟨z, hz, numbers_length _ _ _ _ _ hz⟩

/-! ### Steps -/

/-- In pass `i` the first evaluation is at index `i - 2` of the integration and the second at index `i - 1`: with a known
fault of steps `s1` to `s2` each uses the network with the fault exactly when its index is from `s1` to before `s2`. -/
theorem C275_switching_partial (s1 s2 i : ℤ) (h : s1 ≠ s2) (known : Bool) :
    (firstFaulted known s1 s2 i = true ↔ known = true ∧ s1 ≤ i - 2 ∧ i - 2 < s2) ∧
    (secondFaulted known s1 s2 i = true ↔ known = true ∧ s1 ≤ i - 1 ∧ i - 1 < s2) := by
  unfold firstFaulted secondFaulted flagF
  cases known with
  | false => simp
  | true =>
    constructor <;> (split_ifs <;> simp <;> omega)

/-- With steps that agree - configured time step, step of the fault and step of the series of measurements are all `dt`, the
fault begins and ends at multiples of it and lasts - the network with the fault is used exactly at the times of the fault. -/
theorem C275_times_partial (dt : ℝ) (hdt : 0 < dt) (a b : ℤ) (hab : a < b) (i : ℤ) :
    let f : Fault := ⟨a * dt, b * dt, dt⟩
    (firstFaulted true (steps1 dt f) (steps2 dt f) i = true ↔ On f ((i - 2 : ℤ) * dt)) ∧
    (secondFaulted true (steps1 dt f) (steps2 dt f) i = true ↔ On f ((i - 1 : ℤ) * dt)) := by
  intro f
  have h1 : steps1 dt f = a := by
    simp only [steps1, f, sub_zero]
    rw [mul_div_assoc, div_self hdt.ne', mul_one, round_intCast]
  have h2 : steps2 dt f = b := by
    simp only [steps2, h1, f]
    rw [← sub_mul, mul_div_assoc, div_self hdt.ne', mul_one, ← Int.cast_sub, round_intCast]
    omega
  have key : ∀ j : ℤ, On f ((j : ℝ) * dt) ↔ a ≤ j ∧ j < b := by
    intro j
    simp only [On, f, mul_le_mul_iff_left₀ hdt, mul_lt_mul_iff_left₀ hdt, Int.cast_le, Int.cast_lt]
  rw [h1, h2, key, key]
  have := C275_switching_partial a b i hab.ne true
  simpa using this

/-- A fault that ends when it begins is nevertheless on for half of a pass. -/
theorem C275_empty_violated (s : ℤ) : secondFaulted true s s (s + 1) = true := by
  unfold secondFaulted flagF
  split_ifs <;> simp <;> omega

/-- When the step of the series is not the configured step the fault acts at the wrong time: with half the step, a fault over
the steps `a` to `b` of the configured length is used at times from `a * dt / 2` to `b * dt / 2`, and so before it begins. -/
theorem C275_other_step_violated (dt : ℝ) (hdt : 0 < dt) (a b : ℤ) (ha : 2 ≤ a) (hab : a < b) :
    let f : Fault := ⟨a * dt, b * dt, dt⟩
    secondFaulted true (steps1 dt f) (steps2 dt f) (a + 1) = true ∧ ¬ On f (((a + 1) - 1 : ℤ) * (dt / 2)) := by
  intro f
  refine ⟨((C275_times_partial dt hdt a b hab (a + 1)).2).2 ?_, ?_⟩
  · simp only [On]
    have : ((a + 1 - 1 : ℤ) : ℝ) = a := by push_cast; ring
    rw [this]
    exact ⟨le_refl _, by have : (a : ℝ) < b := by exact_mod_cast hab
                         exact mul_lt_mul_of_pos_right this hdt⟩
  · rintro ⟨h, -⟩
    have h1 : ((a + 1 - 1 : ℤ) : ℝ) = a := by push_cast; ring
    rw [h1] at h
    have h2 : (0 : ℝ) < a := by exact_mod_cast (by omega : 0 < a)
    have h3 : (0 : ℝ) < a * dt := mul_pos h2 hdt
    simp only [f] at h
    linarith

/-- The step given with the fault is not that of the integration: with half of it the fault begins at the right time and stays
for twice its length. -/
theorem C275_fault_step_violated (dt : ℝ) (hdt : 0 < dt) (a b : ℤ) (hab : a < b) (i : ℤ) :
    let f : Fault := ⟨a * dt, b * dt, dt / 2⟩
    (secondFaulted true (steps1 dt f) (steps2 dt f) i = true ↔ a ≤ i - 1 ∧ i - 1 < b + (b - a)) ∧
      secondFaulted true (steps1 dt f) (steps2 dt f) (b + 1) = true ∧ ¬ On f (((b + 1) - 1 : ℤ) * dt) := by
  intro f
  have h1 : steps1 dt f = a := by
    simp only [steps1, f, sub_zero]
    rw [mul_div_assoc, div_self hdt.ne', mul_one, round_intCast]
  have h2 : steps2 dt f = b + (b - a) := by
    simp only [steps2, h1, f]
    have : ((b : ℝ) * dt - a * dt) / (dt / 2) = (((b - a) * 2 : ℤ) : ℝ) := by
      push_cast
      field_simp
    rw [this, round_intCast]
    omega
  rw [h1, h2]
  have key := fun i => (C275_switching_partial a (b + (b - a)) i (by omega) true).2
  refine ⟨by simpa using key i, (key (b + 1)).2 ⟨rfl, by omega, by omega⟩, ?_⟩
  rintro ⟨-, h⟩
  have e : ((b + 1 - 1 : ℤ) : ℝ) = b := by push_cast; ring
  rw [e] at h
  exact lt_irrefl _ h

/-- A fault from step 10 to 12 of 0.01 s with a step of 0.005 s is still on at step 12. -/
example : secondFaulted true (steps1 0.01 ⟨(10 : ℤ) * 0.01, (12 : ℤ) * 0.01, 0.01 / 2⟩)
    (steps2 0.01 ⟨(10 : ℤ) * 0.01, (12 : ℤ) * 0.01, 0.01 / 2⟩) (12 + 1) = true :=
  (C275_fault_step_violated 0.01 (by norm_num) 10 12 (by norm_num) 0).2.1

/-! ### Index of the measurements -/

theorem passes_used (offset : ℕ) (n s cur : ℕ) (hc : cur + 1 = offset + s) :
    passes offset (List.range' s n) cur = (List.range' s n).map (fun i => (i, offset + i - 1, offset + i)) := by
  induction n generalizing s cur with
  | zero => rfl
  | succ n ih =>
    rw [List.range'_succ]
    simp only [passes, List.map_cons]
    rw [ih (s + 1) (offset + s) (by omega)]
    congr 2
    simp
    omega

/-- The analysis of pass `i`, whose forecast is for step `i - 1` of the integration, uses the measurements with the offset plus
`i - 1` as index. -/
theorem C276_same_time (offset simuk i used read : ℕ) (h : (i, used, read) ∈ runPasses offset simuk) :
    2 ≤ i ∧ i < simuk ∧ used = offset + (i - 1) := by
  unfold runPasses at h
  rw [passes_used offset _ 2 (offset + 1) (by omega)] at h
  simp only [List.mem_map, List.mem_range'_1, Prod.mk.injEq] at h
  obtain ⟨a, ha, rfl, rfl, rfl⟩ := h
  omega

/-- Every pass of the loop takes place. -/
theorem C276_all_passes (offset simuk : ℕ) : (runPasses offset simuk).map (·.1) = List.range' 2 (simuk - 2) := by
  unfold runPasses
  rw [passes_used offset _ 2 (offset + 1) (by omega), List.map_map]
  exact List.map_id _

/-- The series are read at indices up to the offset plus the number of steps less one. -/
theorem reads_iff (offset simuk j : ℕ) :
    j ∈ readsAt offset simuk ↔ j = offset + 1 ∨ (offset + 2 ≤ j ∧ j < offset + simuk) := by
  unfold readsAt runPasses
  rw [passes_used offset _ 2 (offset + 1) (by omega), List.map_map]
  simp only [List.mem_cons, List.mem_map, List.mem_range'_1, Function.comp]
  constructor
  · rintro (h | ⟨a, ha, rfl⟩)
    · exact Or.inl h
    · exact Or.inr (by omega)
  · rintro (h | h)
    · exact Or.inl h
    · exact Or.inr ⟨j - offset, by omega⟩

/-- With no offset, series of at least two steps are read inside. -/
theorem C276_inside_partial (simuk len j : ℕ) (hlen : 2 ≤ len) (hk : simuk ≤ len) (h : j ∈ readsAt 0 simuk) : j < len := by
  rw [reads_iff] at h
  omega

/-- With an offset, a simulation over the whole length of the series reads beyond the end of the series. -/
theorem C276_offset_violated (offset len : ℕ) (ho : 1 ≤ offset) (hlen : 2 ≤ len) : ∃ j ∈ readsAt offset len, len ≤ j := by
  by_cases h : len = 2
  · exact ⟨offset + 1, (reads_iff _ _ _).2 (Or.inl rfl), by omega⟩
  · exact ⟨offset + len - 1, (reads_iff _ _ _).2 (Or.inr (by omega)), by omega⟩

example : readsAt 0 5 = [1, 2, 3, 4] ∧ readsAt 2 5 = [3, 4, 5, 6] := by decide
example : runPasses 0 5 = [(2, 1, 2), (3, 2, 3), (4, 3, 4)] := by decide
example : (List.map (firstFaulted true 3 5) [2, 3, 4, 5, 6, 7, 8], List.map (secondFaulted true 3 5) [2, 3, 4, 5, 6, 7, 8])
    = ([false, false, false, true, true, false, false], [false, false, true, true, false, false, false]) := by decide

end GridPACK.KalmanFilter
