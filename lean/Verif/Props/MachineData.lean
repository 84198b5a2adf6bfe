import Verif.Props.FlatStart

/-! C160, C161, C163: saturation curve, machine base, system base of the machines. -/
namespace GridPACK.DsStep
open GridPACK.Machines

/-! ### C160: saturation -/

/-- The constant `A` of the curve in closed form. -/
theorem sat_const {S10 S12 : ℝ} (h1 : 0 < S10) (h2 : 0 < S12) (hne : S12 ≠ S10) :
    let s := Real.sqrt (S12 / S10)
    s ≠ 1 ∧ 0 < s ∧ s ^ 2 * S10 = S12 ∧
    ∀ x, satCurve S10 S12 x =
      S10 * ((s - 1) / (1 / 5)) ^ 2 * (if x - (s - 6 / 5) / (s - 1) < 0 then 0 else x - (s - 6 / 5) / (s - 1)) ^ 2 := by
  intro s
  have ht : 0 < S12 / S10 := div_pos h2 h1
  have hs : 0 < s := Real.sqrt_pos.mpr ht
  have hs2 : s ^ 2 = S12 / S10 := Real.sq_sqrt ht.le
  have hs1 : s ≠ 1 := by
    intro h
    rw [h, one_pow, eq_div_iff h1.ne', one_mul] at hs2
    exact hne hs2.symm
  have hm : s - 1 ≠ 0 := sub_ne_zero.mpr hs1
  have hp : s + 1 ≠ 0 := by positivity
  refine ⟨hs1, hs, by rw [hs2]; field_simp, fun x => ?_⟩
  have e1 : -2 * S12 / S10 = -2 * s ^ 2 := by rw [hs2]; ring
  have hd : (-2 * s ^ 2 + 2.4) * (-2 * s ^ 2 + 2.4) - 4 * (s ^ 2 - 1) * (s ^ 2 - 1.44) = (0.4 * s) ^ 2 := by ring
  have hA : (-(-2 * s ^ 2 + 2.4) - Real.sqrt ((-2 * s ^ 2 + 2.4) * (-2 * s ^ 2 + 2.4) -
      4 * (s ^ 2 - 1) * (s ^ 2 - 1.44))) / (2 * (s ^ 2 - 1)) = (s - 6 / 5) / (s - 1) := by
    rw [hd, Real.sqrt_sq (by positivity), div_eq_div_iff (by
      have : s ^ 2 - 1 = (s - 1) * (s + 1) := by ring
      rw [this]; positivity) hm]
    ring
  have h1A : 1 - (s - 6 / 5) / (s - 1) = (1 / 5) / (s - 1) := by field_simp; ring
  simp only [satCurve, e1, ← hs2, hA, h1A]
  have hB : S10 / ((1 / 5) / (s - 1) * ((1 / 5) / (s - 1))) = S10 * ((s - 1) / (1 / 5)) ^ 2 := by field_simp
  rw [hB]
  ring

/-- **C160** for the curve: if the saturation at 1.2 is larger than that at 1, the curve passes through both
values, is nowhere negative and nowhere decreasing. -/
theorem C160_curve {S10 S12 : ℝ} (h1 : 0 < S10) (h12 : S10 < S12) :
    satCurve S10 S12 1 = S10 ∧ satCurve S10 S12 1.2 = S12 ∧ (∀ x, 0 ≤ satCurve S10 S12 x) ∧
    Monotone (satCurve S10 S12) := by
  obtain ⟨hs1, hs0, hs2, h⟩ := sat_const h1 (h1.trans h12) h12.ne'
  obtain ⟨s, hs⟩ : ∃ s, s = Real.sqrt (S12 / S10) := ⟨_, rfl⟩
  rw [← hs] at hs1 hs0 hs2 h
  have hgt : 1 < s := by
    rw [hs, Real.lt_sqrt zero_le_one, one_pow, lt_div_iff₀ h1, one_mul]
    exact h12
  have hm : 0 < s - 1 := by linarith
  have p1 : 1 - (s - 6 / 5) / (s - 1) = (1 / 5) / (s - 1) := by field_simp; ring
  have p2 : 1.2 - (s - 6 / 5) / (s - 1) = (s / 5) / (s - 1) := by field_simp; ring
  refine ⟨?_, ?_, fun x => ?_, fun x y hxy => ?_⟩
  · have q : ¬ (1 / 5) / (s - 1) < 0 := not_lt.mpr (by positivity)
    rw [h, p1, if_neg q]
    field_simp
  · have q : ¬ (s / 5) / (s - 1) < 0 := not_lt.mpr (by positivity)
    rw [h, p2, if_neg q, ← hs2]
    field_simp
  · rw [h]; positivity
  · rw [h, h]
    apply mul_le_mul_of_nonneg_left _ (by positivity)
    apply pow_le_pow_left₀
    · split <;> linarith
    · split <;> split <;> linarith

/-- **C160** for GENSAL and GENROU: loaded with the two saturation values, the machine uses a curve through both.
Partial: the second value must be the larger one, and for GENROU the product must be at least `10⁻⁶`. -/
theorem C160_machines_partial (d : Data) {S10 S12 : ℝ} (h1 : 0 < S10) (h12 : S10 < S12) (e1 : d.s1 = some S10)
    (e2 : d.s12 = some S12) :
    ((GensalPar.load d).sat 1 = S10 ∧ (GensalPar.load d).sat 1.2 = S12) ∧
    (1e-6 ≤ S10 * S12 → (GenrouPar.load d).sat 1 = S10 ∧ (GenrouPar.load d).sat 1.2 = S12) ∧
    (S10 * S12 < 1e-6 → ∀ x, (GenrouPar.load d).sat x = 0) := by
  obtain ⟨k1, k2, -⟩ := C160_curve h1 h12
  have pos : |S10 * S12| = S10 * S12 := abs_of_pos (mul_pos h1 (h1.trans h12))
  refine ⟨⟨?_, ?_⟩, fun hp => ⟨?_, ?_⟩, fun hp x => ?_⟩
  · simpa [GensalPar.sat, GensalPar.load, e1, e2] using k1
  · simpa [GensalPar.sat, GensalPar.load, e1, e2] using k2
  · simpa [GenrouPar.sat, GenrouPar.load, e1, e2, pos, not_lt.mpr hp] using k1
  · simpa [GenrouPar.sat, GenrouPar.load, e1, e2, pos, not_lt.mpr hp] using k2
  · simp [GenrouPar.sat, GenrouPar.load, e1, e2, pos, hp]

example : satCurve 0.1 0.4 1 = 0.1 ∧ satCurve 0.1 0.4 1.2 = 0.4 := by
  obtain ⟨h1, h2, -⟩ := C160_curve (S10 := 0.1) (S12 := 0.4) (by norm_num) (by norm_num)
  exact ⟨h1, h2⟩

/-- **C160** fails if the second value is the smaller one: the curve is 0 at both points. -/
theorem C160_reversed_violated {S10 S12 : ℝ} (h2 : 0 < S12) (h12 : S12 < S10) :
    satCurve S10 S12 1 = 0 ∧ satCurve S10 S12 1.2 = 0 := by
  have h1 := h2.trans h12
  obtain ⟨hs1, hs0, hs2, h⟩ := sat_const h1 h2 h12.ne
  obtain ⟨s, hs⟩ : ∃ s, s = Real.sqrt (S12 / S10) := ⟨_, rfl⟩
  rw [← hs] at hs1 hs0 hs2 h
  have hlt : s < 1 := by
    rw [hs, Real.sqrt_lt' one_pos, one_pow, div_lt_one h1]
    exact h12
  have hm : s - 1 < 0 := by linarith
  have p1 : 1 - (s - 6 / 5) / (s - 1) = (1 / 5) / (s - 1) := by field_simp; ring
  have p2 : 1.2 - (s - 6 / 5) / (s - 1) = (s / 5) / (s - 1) := by field_simp; ring
  constructor
  · rw [h, p1, if_pos (div_neg_of_pos_of_neg (by norm_num) hm)]; ring
  · rw [h, p2, if_pos (div_neg_of_pos_of_neg (by positivity) hm)]; ring

/-! ### C161: machine base -/

/-- Admittance on the system base of an impedance given per unit on the base `mbase`. -/
noncomputable def admittanceOn (mbase sbase : ℝ) (z : ℂ) : ℂ := ((mbase / sbase : ℝ) : ℂ) / z

theorem genrou_norton_eq (p : GenrouPar) (hz : p.Ra * p.Ra + p.Xdpp * p.Xdpp ≠ 0) :
    p.norton = admittanceOn p.MBase p.sbase ⟨p.Ra, p.Xdpp⟩ := by
  have hz' : p.Ra ^ 2 + p.Xdpp ^ 2 ≠ 0 := by rwa [sq, sq]
  apply Complex.ext <;>
    simp [GenrouPar.norton, admittanceOn, Complex.div_re, Complex.div_im, Complex.normSq_apply] <;> field_simp

/-- **C161** for GENROU: the network sees the source impedance of the data on the machine base of the data.
Partial: only if the scheduled apparent power does not exceed the machine base. -/
theorem C161_base_partial (d : Data) {S MB Ra X P Q : ℝ} (hS : d.sbase = some S) (hM : d.mbase = some MB)
    (hR : d.ra = some Ra) (hX : d.xdpp = some X) (hP : d.pg = some P) (hQ : d.qg = some Q) (hz : Ra * Ra + X * X ≠ 0)
    (h : Real.sqrt (P * S * (P * S) + Q * S * (Q * S)) ≤ MB) :
    (GenrouPar.load d).norton = admittanceOn MB S ⟨Ra, X⟩ := by
  have := genrou_norton_eq (GenrouPar.load d) (by simpa [GenrouPar.load, hR, hX] using hz)
  rw [this]
  simp [GenrouPar.load, hS, hM, hR, hX, hP, hQ, machineBase, not_lt.mpr h]

example (d : Data) (hS : d.sbase = some 100) (hM : d.mbase = some 100) (hR : d.ra = some 0) (hX : d.xdpp = some 0.2)
    (hP : d.pg = some 0.6) (hQ : d.qg = some 0.8) : (GenrouPar.load d).norton = admittanceOn 100 100 ⟨0, 0.2⟩ := by
  refine C161_base_partial d hS hM hR hX hP hQ (by norm_num) ?_
  rw [Real.sqrt_le_left (by norm_num)]
  norm_num

/-- **C161** fails if the scheduled apparent power exceeds the machine base: the impedance is taken to be on the
base `1.2` times that power. -/
theorem C161_overload_violated (d : Data) {S MB Ra X P Q : ℝ} (hS : d.sbase = some S) (hM : d.mbase = some MB)
    (hR : d.ra = some Ra) (hX : d.xdpp = some X) (hP : d.pg = some P) (hQ : d.qg = some Q) (hz : Ra * Ra + X * X ≠ 0)
    (hS0 : S ≠ 0) (hM0 : 0 < MB) (h : MB < Real.sqrt (P * S * (P * S) + Q * S * (Q * S))) :
    (GenrouPar.load d).norton =
      admittanceOn (Real.sqrt (P * S * (P * S) + Q * S * (Q * S)) * 1.2) S ⟨Ra, X⟩ ∧
    (GenrouPar.load d).norton ≠ admittanceOn MB S ⟨Ra, X⟩ := by
  have e : (GenrouPar.load d).norton =
      admittanceOn (Real.sqrt (P * S * (P * S) + Q * S * (Q * S)) * 1.2) S ⟨Ra, X⟩ := by
    have := genrou_norton_eq (GenrouPar.load d) (by simpa [GenrouPar.load, hR, hX] using hz)
    rw [this]
    simp [GenrouPar.load, hS, hM, hR, hX, hP, hQ, machineBase, h]
  refine ⟨e, ?_⟩
  rw [e]
  obtain ⟨w, hw⟩ : ∃ w, w = Real.sqrt (P * S * (P * S) + Q * S * (Q * S)) := ⟨_, rfl⟩
  rw [← hw] at h ⊢
  intro hc
  have hz' : (⟨Ra, X⟩ : ℂ) ≠ 0 := by
    intro h0
    have a := congrArg Complex.re h0
    have b := congrArg Complex.im h0
    simp only [Complex.zero_re, Complex.zero_im] at a b
    apply hz; rw [a, b]; ring
  rw [admittanceOn, admittanceOn, div_left_inj' hz', Complex.ofReal_inj, div_left_inj' hS0] at hc
  linarith

/-! ### C163: system base -/

/-- **C163** for the classical model without resistance: the network sees the transient reactance of the data,
given on the machine base.  Partial: only if the system base of the case is 100 MVA. -/
theorem C163_classical_partial (c : Classical) (d : Data) (u : ℝ) {MB : ℝ} {z : ℂ} (hM : d.mbase = some MB)
    (hz : d.zsrc = some z) (hr : d.ra = some 0) (hd : d.dstr = some 0) {S : ℝ} (_hS : d.sbase = some S) (h100 : S = 100)
    (hM0 : MB ≠ 0) (hx : z.im ≠ 0) : (c.load d).norton u = admittanceOn MB S (z.im * Complex.I) := by
  subst h100
  have hx' : (z.im : ℂ) ≠ 0 := by exact_mod_cast hx
  apply Complex.ext <;>
    simp [Classical.norton, Classical.load, hM, hz, hr, hd, admittanceOn, Complex.div_re, Complex.div_im,
      Complex.normSq_apply] <;> field_simp

/-- **C163** fails for any other system base. -/
theorem C163_base_violated (c : Classical) (d : Data) (u : ℝ) {MB S : ℝ} {z : ℂ} (hM : d.mbase = some MB)
    (hz : d.zsrc = some z) (hr : d.ra = some 0) (hd : d.dstr = some 0) (hS0 : S ≠ 0) (hS : S ≠ 100)
    (hM0 : MB ≠ 0) (hx : z.im ≠ 0) : (c.load d).norton u ≠ admittanceOn MB S (z.im * Complex.I) := by
  intro h
  have h' := congrArg Complex.im h
  simp [Classical.norton, Classical.load, hM, hz, hr, hd, admittanceOn, Complex.div_im, Complex.normSq_apply] at h'
  field_simp at h'
  first
    | exact hS h'
    | exact hS h'.symm
    | exact hS (by linarith)

/-- A classical machine of 50 MVA in a case with the base 100 MVA. -/
example (c : Classical) (d : Data) (u : ℝ) (hM : d.mbase = some 50) (hz : d.zsrc = some ⟨0, 0.3⟩) (hr : d.ra = some 0)
    (hd : d.dstr = some 0) (hS : d.sbase = some 100) :
    (c.load d).norton u = admittanceOn 50 100 ((0.3 : ℝ) * Complex.I) :=
  C163_classical_partial c d u hM hz hr hd hS rfl (by norm_num) (by norm_num)

end GridPACK.DsStep
