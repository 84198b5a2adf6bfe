import Verif.Lemmas.RawBranch
import Mathlib.Tactic.FieldSimp
import Mathlib.Tactic.NormNum

/-! Properties C166–C171: the network a RAW file describes. -/
namespace GridPACK.RawBranch

open GridPACK.YMatrix

/-! ### Specification: the two-ports of the records of a file

`Link`, `linkEntry` and `linkDiag` (Lemmas/RawBranch): a two-port between two buses and the entries of the
admittance matrix a list of them gives. -/

/-- A line: series admittance, half the charging at each end and the shunts given for its ends.  Values a
short line lacks have their defaults: 0, and in service. -/
noncomputable def LineRec.link (l : LineRec) : Link :=
  let y : ℂ := 1 / ⟨l.r.getD 0, l.x.getD 0⟩
  let h : ℂ := ⟨0, l.b.getD 0 / 2⟩
  ⟨l.i, l.j, if l.status.getD 1 = 0 then ⟨0, 0, 0, 0⟩ else
    ⟨y + h + ⟨l.g1.getD 0, l.b1.getD 0⟩, -y, -y, y + h + ⟨l.g2.getD 0, l.b2.getD 0⟩⟩⟩

/-- Off-nominal turns ratio of a winding in per unit of the base voltage `kv` of its bus, by the code `CW` of
the record: 1 per unit of the bus voltage, 2 kilovolts, 3 per unit of the nominal winding voltage (0: the
bus voltage). -/
noncomputable def perUnit (cw : Int) (windv nomv kv : ℝ) : ℝ :=
  if cw = 1 then windv else if cw = 2 then windv / kv
  else windv * (if nomv = 0 then kv else nomv) / kv

/-- Impedance on the system base, by the code `CZ`: 1 system base, 2 base of the transformer (0: system
base). -/
noncomputable def onBase (cz : Int) (sbase sb : ℝ) (z : ℂ) : ℂ :=
  if cz = 1 ∨ sb = 0 then z else z * sbase / sb

/-- Ideal transformer with complex ratio `t1` at the first bus and real ratio `t2` at the second around a
series admittance `y`, magnetising admittance `m` at the first bus. -/
noncomputable def xfPort (y t1 t2 m : ℂ) : TwoPort :=
  ⟨y / (t1 * (starRingEnd ℂ) t1) + m, -y / ((starRingEnd ℂ) t1 * t2), -y / (t1 * t2), y / (t2 * t2)⟩

/-- A ratio with an angle in degrees. -/
noncomputable def polar (w deg : ℝ) : ℂ :=
  (w : ℂ) * ⟨Real.cos (deg * Real.pi / 180), Real.sin (deg * Real.pi / 180)⟩

/-- A two-winding transformer (codes CW 1-3, CZ 1-2, CM 1). -/
noncomputable def Xf2Rec.link (kv : Int → ℝ) (sbase : ℝ) (t : Xf2Rec) : Link :=
  ⟨t.i, t.j, if t.status = 0 then ⟨0, 0, 0, 0⟩ else
    xfPort (1 / onBase t.cz sbase t.sbase ⟨t.r, t.x⟩)
      (polar (perUnit t.cw t.windv1 t.nomv1 (kv t.i)) t.ang1)
      (perUnit t.cw t.windv2 t.nomv2 (kv t.j) : ℝ) ⟨t.mag1, t.mag2⟩⟩

/-- A three-winding transformer: an impedance per winding between its bus and the star point `star`, such
that two windings in series have the impedance measured between them. -/
noncomputable def Xf3Rec.links (sbase : ℝ) (star : Int) (t : Xf3Rec) : List Link :=
  let z12 := onBase t.cz sbase t.sb12 ⟨t.r12, t.x12⟩
  let z23 := onBase t.cz sbase t.sb23 ⟨t.r23, t.x23⟩
  let z31 := onBase t.cz sbase t.sb31 ⟨t.r31, t.x31⟩
  let wind (out : Int) (bus : Int) (z : ℂ) (w a : ℝ) (m : ℂ) : Link :=
    ⟨bus, star, if t.status = out then ⟨0, 0, 0, 0⟩ else xfPort (1 / z) (polar w a) 1 m⟩
  [wind 4 t.i ((z12 + z31 - z23) / 2) t.windv1 t.ang1 ⟨t.mag1, t.mag2⟩,
   wind 2 t.j ((z12 + z23 - z31) / 2) t.windv2 t.ang2 0,
   wind 3 t.k ((z23 + z31 - z12) / 2) t.windv3 t.ang3 0]

/-- All transformers, the star points being numbered upwards from `star`. -/
noncomputable def xfLinks (kv : Int → ℝ) (sbase : ℝ) : Int → List XfRec → List Link
  | _, [] => []
  | star, .two t :: ts => t.link kv sbase :: xfLinks kv sbase star ts
  | star, .three t :: ts =>
    if t.short || t.status = 0 then xfLinks kv sbase star ts
    else t.links sbase star ++ xfLinks kv sbase (star + 1) ts

/-! ### What the parser gets right -/

/-- A line with all its values. -/
def LineRec.Complete (l : LineRec) : Prop :=
  ∃ r x b g1 b1 g2 b2, l.r = some r ∧ l.x = some x ∧ l.b = some b ∧ l.g1 = some g1 ∧ l.b1 = some b1 ∧
    l.g2 = some g2 ∧ l.b2 = some b2

/-- A line whose ends have the same shunts. -/
def LineRec.Symmetric (l : LineRec) : Prop := l.g1 = l.g2 ∧ l.b1 = l.b2

/-- A two-winding transformer without magnetising admittance, given per unit of the bus voltages (or in
kilovolts with the bus voltages as nominal voltages) and with the impedance on the base `CZ` says. -/
structure Xf2Rec.Plain (kv : Int → ℝ) (sbase : ℝ) (t : Xf2Rec) : Prop where
  mag1 : t.mag1 = 0
  mag2 : t.mag2 = 0
  w1 : t.windv1 ≠ 0
  w2 : t.windv2 ≠ 0
  cw : t.cw = 1 ∨ t.cw = 2 ∧ t.nomv1 = kv t.i ∧ t.nomv2 = kv t.j ∧ kv t.i ≠ 0 ∧ kv t.j ≠ 0
  cz : t.cz = 1 ∧ (t.sbase = sbase ∨ t.sbase = 0) ∨ t.cz = 2
  sbase : sbase ≠ 0

/-- A three-winding transformer on known buses, on the system base, no winding ratio zero. -/
structure Xf3Rec.Plain (sbase : ℝ) (t : Xf3Rec) : Prop where
  w1 : t.windv1 ≠ 0
  w2 : t.windv2 ≠ 0
  w3 : t.windv3 ≠ 0
  s12 : t.sb12 ≠ 0
  s23 : t.sb23 ≠ 0
  s31 : t.sb31 ≠ 0
  base : t.cz = 1 ∨ t.sb12 = sbase ∧ t.sb23 = sbase ∧ t.sb31 = sbase
  status : t.status = 0 ∨ t.status = 1 ∨ t.status = 2 ∨ t.status = 3 ∨ t.status = 4

theorem acts_line (l : LineRec) (h : l.Complete) : Acts (l.el false) l.link.port := by
  obtain ⟨r, x, b, g1, b1, g2, b2, h1, h2, h3, h4, h5, h6, h7⟩ := h
  intro rv
  by_cases hs : l.status.getD 1 = 0
  · simp [loadElem, LineRec.el, LineRec.link, h1, h2, h3, h4, h5, h6, h7, hs, Elem.frwd, Elem.rvrs,
      diagPart, Elem.admittance, Elem.transformer, Elem.shuntOf]
  · simp [loadElem, LineRec.el, LineRec.link, h1, h2, h3, h4, h5, h6, h7, hs, Elem.frwd, Elem.rvrs,
      diagPart, Elem.admittance, Elem.transformer, Elem.shuntOf, Elem.z, neg_div]
    constructor <;> ring

theorem acts_line_flip (l : LineRec) (h : l.Complete) (hsym : l.Symmetric) :
    Acts (l.el true) (flip l.link.port) := by
  obtain ⟨r, x, b, g1, b1, g2, b2, h1, h2, h3, h4, h5, h6, h7⟩ := h
  obtain ⟨s1, s2⟩ := hsym
  rw [h4, h6] at s1
  rw [h5, h7] at s2
  simp only [Option.some.injEq] at s1 s2
  intro rv
  by_cases hs : l.status.getD 1 = 0
  · simp [loadElem, LineRec.el, LineRec.link, h1, h2, h3, h4, h5, h6, h7, hs, Elem.frwd, Elem.rvrs,
      diagPart, Elem.admittance, Elem.transformer, Elem.shuntOf, flip]
  · simp [loadElem, LineRec.el, LineRec.link, h1, h2, h3, h4, h5, h6, h7, hs, Elem.frwd, Elem.rvrs,
      diagPart, Elem.admittance, Elem.transformer, Elem.shuntOf, Elem.z, neg_div, flip, s1, s2]
    ring

theorem unit_ne (a : ℝ) : (⟨Real.cos a, Real.sin a⟩ : ℂ) ≠ 0 := by
  intro h
  have h1 := congrArg Complex.re h
  have h2 := congrArg Complex.im h
  simp only [Complex.zero_re, Complex.zero_im] at h1 h2
  have := Real.sin_sq_add_cos_sq a
  rw [h1, h2] at this
  norm_num at this

theorem polar_ne (w a : ℝ) (h : w ≠ 0) : polar w a ≠ 0 :=
  mul_ne_zero (by exact_mod_cast h) (unit_ne _)

/-- An unswitched element with a ratio and without charging. -/
theorem ratio_parts (e : Elem) (hx : e.xform = true) (hsw : e.switched = false)
    (hc : e.charging = 0) (z t1 t2 m : ℂ) (h1 : e.ratio ≠ 0) (h2 : t2 ≠ 0) (hc2 : (starRingEnd ℂ) t2 = t2)
    (hz : e.z = z * (t2 * t2)) (ht1 : t1 = e.ratio * t2)
    (hm1 : e.status = true → e.shuntOf .bus1 = m) (hm2 : e.shuntOf .bus2 = 0) :
    let P : TwoPort := if e.status then xfPort (1 / z) t1 t2 m else ⟨0, 0, 0, 0⟩
    e.frwd = P.ft ∧ e.rvrs = P.tf ∧ diagPart e .bus1 = P.ff ∧ diagPart e .bus2 = P.tt := by
  have hcr : (starRingEnd ℂ) e.ratio ≠ 0 := by simpa using h1
  have hzz : (⟨0, 0⟩ : ℂ) = 0 := rfl
  cases hst : e.status
  · simp [Elem.frwd, Elem.rvrs, diagPart, Elem.transformer, Elem.admittance, Elem.shuntOf, hst]
  · have hm1 := hm1 hst
    simp only [if_true, xfPort, diagPart, hm1, hm2, ht1, map_mul, hc2]
    simp only [Elem.frwd, Elem.rvrs, Elem.transformer, Elem.admittance, Elem.a, hst, hx, hsw, hz, hc]
    simp only [if_true, Bool.false_eq_true, if_false, zero_div, hzz, sub_zero, Bool.and_true, Bool.not_false,
      Bool.not_true, Bool.false_and, Bool.true_and, decide_true, Bool.or_true, Bool.or_false, neg_zero, zero_sub,
      add_zero, reduceCtorEq, decide_false]
    refine ⟨?_, ?_, ?_, ?_⟩
    all_goals (by_cases hz0 : z = 0)
    all_goals (first | (subst hz0; simp; done) | (field_simp; try ring))

theorem acts_xf2 (kv : Int → ℝ) (sbase : ℝ) (t : Xf2Rec) (h : t.Plain kv sbase) :
    ∃ e, t.el sbase = some e ∧ Acts e (t.link kv sbase).port := by
  obtain ⟨m1, m2, w1, w2, cw, cz, sb⟩ := h
  -- ratios
  obtain ⟨u1, u2, hu, hu1, hu2, p1, p2⟩ : ∃ u1 u2 : ℝ, t.turns = some (u1, u2) ∧ u1 ≠ 0 ∧ u2 ≠ 0 ∧
      perUnit t.cw t.windv1 t.nomv1 (kv t.i) = u1 ∧ perUnit t.cw t.windv2 t.nomv2 (kv t.j) = u2 := by
    rcases cw with h1 | ⟨h1, h2, h3, h4, h5⟩
    · exact ⟨t.windv1, t.windv2, by simp [Xf2Rec.turns, h1], w1, w2, by simp [perUnit, h1],
        by simp [perUnit, h1]⟩
    · refine ⟨t.windv1 / kv t.i, t.windv2 / kv t.j, ?_, div_ne_zero w1 h4, div_ne_zero w2 h5, ?_, ?_⟩
      · simp [Xf2Rec.turns, h1, divide, h2, h3, h4, h5]
      · simp [perUnit, h1]
      · simp [perUnit, h1]
  refine ⟨_, by simp [Xf2Rec.el, hu, divide, hu2]; rfl, ?_⟩
  have hz : (⟨t.scale sbase u2 t.r, t.scale sbase u2 t.x⟩ : ℂ) =
      onBase t.cz sbase t.sbase ⟨t.r, t.x⟩ * ((u2 : ℂ) * u2) := by
    by_cases h0 : t.sbase = 0
    · apply Complex.ext <;> simp [Xf2Rec.scale, onBase, h0] <;> ring
    · have h0' : (t.sbase : ℂ) ≠ 0 := by exact_mod_cast h0
      rcases cz with ⟨c1, c2⟩ | c2
      · have c2 : t.sbase = sbase := by tauto
        apply Complex.ext <;> simp [Xf2Rec.scale, onBase, c1, c2] <;> ring
      · have hcz : ¬ (t.cz = 1 ∨ t.sbase = 0) := by rw [c2]; simp [h0]
        have key : onBase t.cz sbase t.sbase ⟨t.r, t.x⟩ = ((sbase / t.sbase : ℝ) : ℂ) * ⟨t.r, t.x⟩ := by
          unfold onBase; rw [if_neg hcz]; push_cast; field_simp
        rw [key]
        by_cases c3 : t.sbase = sbase
        · have : sbase / t.sbase = 1 := by rw [c3]; exact div_self sb
          rw [this]
          apply Complex.ext <;> simp [Xf2Rec.scale, c3] <;> ring
        · have hne : ¬ (t.sbase = sbase ∨ t.sbase = 0) := by tauto
          unfold Xf2Rec.scale
          simp only [hne, if_false]
          apply Complex.ext <;> simp <;> field_simp
  intro rv
  have htap : u1 / u2 ≠ 0 := div_ne_zero hu1 hu2
  have key := ratio_parts (loadElem rv ⟨t.ckt, some (t.scale sbase u2 t.r), some (t.scale sbase u2 t.x),
      some t.mag2, some (u1 / u2), some t.ang1, none, none, none, none, some t.status, none⟩).1
    (by simp [loadElem, htap]) (by simp [loadElem]) (by simp [loadElem, m2])
    (onBase t.cz sbase t.sbase ⟨t.r, t.x⟩) (polar u1 t.ang1) (u2 : ℝ) 0
    (by simpa [loadElem, Elem.ratio, polar] using polar_ne (u1 / u2) t.ang1 htap)
    (by exact_mod_cast hu2) (by simp) (by simpa [loadElem, Elem.z] using hz)
    (by
      have : (u2 : ℂ) ≠ 0 := by exact_mod_cast hu2
      simp [loadElem, Elem.ratio, polar]; field_simp)
    (by intro _; simp [loadElem, Elem.shuntOf]) (by simp [loadElem, Elem.shuntOf])
  have hst : (loadElem rv ⟨t.ckt, some (t.scale sbase u2 t.r), some (t.scale sbase u2 t.x),
      some t.mag2, some (u1 / u2), some t.ang1, none, none, none, none, some t.status, none⟩).1.status =
      decide (t.status ≠ 0) := by simp [loadElem]
  have hm : (⟨t.mag1, t.mag2⟩ : ℂ) = 0 := by rw [m1, m2]; rfl
  rw [hst] at key
  have hP : (t.link kv sbase).port = (if decide (t.status ≠ 0) = true then
      xfPort (1 / onBase t.cz sbase t.sbase ⟨t.r, t.x⟩) (polar u1 t.ang1) (u2 : ℝ) 0
      else ⟨0, 0, 0, 0⟩) := by
    unfold Xf2Rec.link
    rw [p1, p2, hm]
    by_cases h0 : t.status = 0 <;> simp [h0]
  rw [hP]
  exact key

/-- A transformer with equal ratios and without phase shift. -/
def Xf2Rec.Symmetric (kv : Int → ℝ) (t : Xf2Rec) : Prop :=
  t.ang1 = 0 ∧ perUnit t.cw t.windv1 t.nomv1 (kv t.i) = perUnit t.cw t.windv2 t.nomv2 (kv t.j)

theorem link_flip (kv : Int → ℝ) (sbase : ℝ) (t : Xf2Rec) (h : t.Plain kv sbase) (hs : t.Symmetric kv) :
    flip (t.link kv sbase).port = (t.link kv sbase).port := by
  obtain ⟨s1, s2⟩ := hs
  have hm : (⟨t.mag1, t.mag2⟩ : ℂ) = 0 := by rw [h.mag1, h.mag2]; rfl
  have hp : ∀ w : ℝ, polar w 0 = w := by
    intro w
    unfold polar
    simp only [zero_mul, zero_div, Real.cos_zero, Real.sin_zero]
    apply Complex.ext <;> simp
  unfold Xf2Rec.link flip
  rw [hm, s1, s2, hp]
  by_cases h0 : t.status = 0 <;> simp [h0, xfPort]

/-- The element of a winding of a three-winding transformer. -/
theorem acts_wind (ckt : List Char) (r x tap shift g1 b1 : ℝ) (on : Bool) (htap : tap ≠ 0) :
    Acts (windEl ckt r x tap shift g1 b1 on)
      (if on then xfPort (1 / ⟨r, x⟩) (polar tap shift) 1 ⟨g1, b1⟩ else ⟨0, 0, 0, 0⟩) := by
  intro rv
  have hst : (loadElem rv (windEl ckt r x tap shift g1 b1 on)).1.status = on := by
    cases on <;> simp [loadElem, windEl]
  have key := ratio_parts (loadElem rv (windEl ckt r x tap shift g1 b1 on)).1
    (by simp [loadElem, windEl, htap]) (by simp [loadElem, windEl]) (by simp [loadElem, windEl])
    ⟨r, x⟩ (polar tap shift) 1 ⟨g1, b1⟩
    (by simpa [loadElem, windEl, Elem.ratio, polar] using polar_ne tap shift htap)
    one_ne_zero (by simp) (by simp [loadElem, windEl, Elem.z])
    (by simp [loadElem, windEl, Elem.ratio, polar])
    (by
      intro h
      rw [hst] at h
      simp [loadElem, windEl, Elem.shuntOf, h, htap])
    (by
      have : (⟨0, 0⟩ : ℂ) = 0 := rfl
      cases on <;> simp [loadElem, windEl, Elem.shuntOf, htap, this])
  rw [hst] at key
  exact key

/-! ### Reading the blocks -/

theorem readLine_adds (st : St) (hI : Inv st) (hidx : st.index = st.branches.length) (P : List (Int × Int))
    (hP : ∀ k n, find st.map k = some n → k ∈ P) (l : LineRec) (hc : l.Complete) (hl : (l.i, l.j) ∈ P)
    (hrev : l.Symmetric ∨ (l.j, l.i) ∉ P) :
    ∃ st', readLine st l = some st' ∧ Inv st' ∧ st'.index = st'.branches.length ∧
      (∀ k n, find st'.map k = some n → k ∈ P) ∧ st'.maxBus = st.maxBus ∧
      Adds st.branches st'.branches [l.link] := by
  unfold readLine
  cases h1 : find st.map (l.i, l.j) with
  | some n =>
    obtain ⟨b, hb, hf, ht⟩ := hI.leads _ _ _ h1
    simp only [hb]
    refine ⟨_, rfl, hI.addEl n _, by simpa [addEl] using hidx, hP, rfl, ?_⟩
    have := adds_at st.branches n b hb (l.el false) _ (acts_line l hc)
    rw [hf, ht] at this
    exact this
  | none =>
    cases h2 : find st.map (l.j, l.i) with
    | some n =>
      obtain ⟨b, hb, hf, ht⟩ := hI.leads _ _ _ h2
      simp only [hb]
      refine ⟨_, rfl, hI.addEl n _, by simpa [addEl] using hidx, hP, rfl, ?_⟩
      have hs : l.Symmetric := by
        rcases hrev with h | h
        · exact h
        · exact absurd (hP _ _ h2) h
      have := adds_at st.branches n b hb (l.el true) _ (acts_line_flip l hc hs)
      rw [hf, ht] at this
      exact adds_flip _ _ _ _ _ this
    | none =>
      refine ⟨_, rfl, ?_, by simp [hidx], ?_, rfl, adds_new st.branches l.i l.j st.index _ _ (acts_line l hc)⟩
      · have := hI.new l.i l.j h1 st.index (st.index + 1) [l.el false]
        rw [← hidx] at this
        exact this
      · intro k n hk
        simp only at hk
        rw [find_insert _ _ _ _ h1] at hk
        by_cases hkk : k = (l.i, l.j)
        · rw [hkk]; exact hl
        · simp only [hkk, if_false] at hk
          exact hP k n hk

theorem readXf2_adds (kv : Int → ℝ) (sbase : ℝ) (st : St) (hI : Inv st) (P : List (Int × Int))
    (hP : ∀ k n, find st.map k = some n → k ∈ P) (t : Xf2Rec) (hp : t.Plain kv sbase)
    (hl : (t.i, t.j) ∈ P) (hrev : t.Symmetric kv ∨ (t.j, t.i) ∉ P) :
    ∃ st', readXf2 sbase st t = some st' ∧ Inv st' ∧
      (∀ k n, find st'.map k = some n → k ∈ P) ∧ st'.maxBus = st.maxBus ∧
      Adds st.branches st'.branches [t.link kv sbase] := by
  obtain ⟨e, he, hacts⟩ := acts_xf2 kv sbase t hp
  unfold readXf2
  simp only [he]
  cases h1 : find st.map (t.i, t.j) with
  | some n =>
    obtain ⟨b, hb, hf, ht⟩ := hI.leads _ _ _ h1
    simp only [hb]
    refine ⟨_, rfl, hI.addEl n _, hP, rfl, ?_⟩
    have := adds_at st.branches n b hb e _ hacts
    rw [hf, ht] at this
    exact this
  | none =>
    cases h2 : find st.map (t.j, t.i) with
    | some n =>
      obtain ⟨b, hb, hf, ht⟩ := hI.leads _ _ _ h2
      simp only [hb]
      refine ⟨_, rfl, hI.addEl n _, hP, rfl, ?_⟩
      have hs : t.Symmetric kv := by
        rcases hrev with h | h
        · exact h
        · exact absurd (hP _ _ h2) h
      rw [← link_flip kv sbase t hp hs] at hacts
      have := adds_at st.branches n b hb e _ hacts
      rw [hf, ht] at this
      exact adds_flip _ _ _ _ _ this
    | none =>
      refine ⟨_, rfl, ?_, ?_, rfl, adds_new st.branches t.i t.j st.index _ _ hacts⟩
      · rw [insert_same]
        exact hI.new t.i t.j h1 st.index (st.index + 1) [e]
      · intro k n hk
        simp only [insert_same] at hk
        rw [find_insert _ _ _ _ h1] at hk
        by_cases hkk : k = (t.i, t.j)
        · rw [hkk]; exact hl
        · simp only [hkk, if_false] at hk
          exact hP k n hk

theorem correct_id (sb sbase v : ℝ) (h : sb ≠ 0) : correct sb sbase v = some v := by
  unfold correct
  rw [if_neg]
  tauto

theorem onBase_same (cz : Int) (sbase sb : ℝ) (z : ℂ) (h : sb ≠ 0) (hb : cz = 1 ∨ sb = sbase) :
    onBase cz sbase sb z = z := by
  unfold onBase
  split_ifs with h1
  · rfl
  · have h2 : sb = sbase := by tauto
    have h3 : (sb : ℂ) ≠ 0 := by exact_mod_cast h
    rw [← h2]
    field_simp

theorem readXf3_adds (sbase : ℝ) (known : Int → Bool) (st : St) (hI : Inv st) (t : Xf3Rec)
    (hp : t.Plain sbase) (hs : (t.short || decide (t.status = 0)) = false)
    (hk : known t.i = true ∧ known t.j = true ∧ known t.k = true) :
    ∃ st', readXf3 sbase known st t = some st' ∧ Inv st' ∧ st'.map = st.map ∧
      st'.maxBus = st.maxBus + 1 ∧ st'.newBuses = st.newBuses ++ [st.maxBus + 1] ∧
      Adds st.branches st'.branches (t.links sbase (st.maxBus + 1)) := by
  obtain ⟨w1, w2, w3, s12, s23, s31, base, status⟩ := hp
  have b12 : onBase t.cz sbase t.sb12 ⟨t.r12, t.x12⟩ = ⟨t.r12, t.x12⟩ :=
    onBase_same _ _ _ _ s12 (by tauto)
  have b23 : onBase t.cz sbase t.sb23 ⟨t.r23, t.x23⟩ = ⟨t.r23, t.x23⟩ :=
    onBase_same _ _ _ _ s23 (by tauto)
  have b31 : onBase t.cz sbase t.sb31 ⟨t.r31, t.x31⟩ = ⟨t.r31, t.x31⟩ :=
    onBase_same _ _ _ _ s31 (by tauto)
  unfold readXf3
  simp only [hs, Bool.false_eq_true, if_false, hk, Bool.and_self, if_true, Xf3Rec.els,
    correct_id _ _ _ s12, correct_id _ _ _ s23, correct_id _ _ _ s31]
  refine ⟨_, rfl, ?_, rfl, rfl, rfl, ?_⟩
  · exact hI.append _ _ _ _
  · have hstat : t.status ≠ 0 := by
      intro h
      rw [h] at hs
      simp at hs
    have e1 : ∀ a b c : ℝ, ∀ a' b' c' : ℝ, (⟨0.5 * (a + b - c), 0.5 * (a' + b' - c')⟩ : ℂ) =
        ((⟨a, a'⟩ : ℂ) + ⟨b, b'⟩ - ⟨c, c'⟩) / 2 := by
      intro a b c a' b' c'
      rw [eq_div_iff two_ne_zero]
      apply Complex.ext <;> simp <;> ring
    have a1 := acts_wind t.ckt (0.5 * (t.r12 + t.r31 - t.r23)) (0.5 * (t.x12 + t.x31 - t.x23)) t.windv1 t.ang1
      t.mag1 t.mag2 (t.status = 1 || t.status = 2 || t.status = 3) w1
    have a2 := acts_wind t.ckt (0.5 * (t.r12 + t.r23 - t.r31)) (0.5 * (t.x12 + t.x23 - t.x31)) t.windv2 t.ang2
      0 0 (t.status = 1 || t.status = 3 || t.status = 4) w2
    have a3 := acts_wind t.ckt (0.5 * (t.r23 + t.r31 - t.r12)) (0.5 * (t.x23 + t.x31 - t.x12)) t.windv3 t.ang3
      0 0 (t.status = 1 || t.status = 2 || t.status = 4) w3
    rw [e1] at a1 a2 a3
    have hz : (⟨0, 0⟩ : ℂ) = 0 := rfl
    have c1 : (decide (t.status = 1) || decide (t.status = 2) || decide (t.status = 3)) =
        !decide (t.status = 4) := by
      rcases status with h | h | h | h | h <;> first | (exact absurd h hstat) | simp [h]
    have c2 : (decide (t.status = 1) || decide (t.status = 3) || decide (t.status = 4)) =
        !decide (t.status = 2) := by
      rcases status with h | h | h | h | h <;> first | (exact absurd h hstat) | simp [h]
    have c3 : (decide (t.status = 1) || decide (t.status = 2) || decide (t.status = 4)) =
        !decide (t.status = 3) := by
      rcases status with h | h | h | h | h <;> first | (exact absurd h hstat) | simp [h]
    have hif : ∀ (s : Int) (A B : TwoPort), (if (!decide (t.status = s)) = true then A else B) =
        if t.status = s then B else A := by
      intro s A B
      by_cases h : t.status = s <;> simp [h]
    have k := adds_three st.branches t.i t.j t.k (st.maxBus + 1) st.branches.length (st.branches.length + 1)
      (st.branches.length + 2) _ _ _ _ _ _ a1 a2 a3
    unfold Xf3Rec.links
    rw [b12, b23, b31]
    simp only [c1, c2, c3, hz, hif] at k ⊢
    exact k

theorem readLines_adds (P : List (Int × Int)) (ls : List LineRec) (hc : ∀ l ∈ ls, l.Complete)
    (hl : ∀ l ∈ ls, (l.i, l.j) ∈ P) (hrev : ∀ l ∈ ls, l.Symmetric ∨ (l.j, l.i) ∉ P) :
    ∀ st : St, Inv st → st.index = st.branches.length → (∀ k n, find st.map k = some n → k ∈ P) →
    ∃ st', readLines st ls = some st' ∧ Inv st' ∧ st'.index = st'.branches.length ∧
      (∀ k n, find st'.map k = some n → k ∈ P) ∧ st'.maxBus = st.maxBus ∧
      Adds st.branches st'.branches (ls.map LineRec.link) := by
  induction ls with
  | nil => intro st h1 h2 h3; exact ⟨st, rfl, h1, h2, h3, rfl, Adds.refl _⟩
  | cons l ls ih =>
    intro st h1 h2 h3
    obtain ⟨s1, e1, a1, a2, a3, a4, a5⟩ := readLine_adds st h1 h2 P h3 l (hc l (by simp)) (hl l (by simp))
      (hrev l (by simp))
    obtain ⟨s2, e2, b1, b2, b3, b4, b5⟩ := ih (fun x hx => hc x (by simp [hx])) (fun x hx => hl x (by simp [hx]))
      (fun x hx => hrev x (by simp [hx])) s1 a1 a2 a3
    refine ⟨s2, by simp [readLines, e1, e2], b1, b2, b3, by rw [b4, a4], ?_⟩
    exact a5.trans b5

/-- The pair of buses of a transformer that may share a branch with other records. -/
def XfRec.pair? : XfRec → Option (Int × Int)
  | .two t => some (t.i, t.j)
  | .three _ => none

/-- Exchanging the buses of the record makes no difference. -/
def XfRec.Symmetric (kv : Int → ℝ) : XfRec → Prop
  | .two t => t.Symmetric kv
  | .three _ => False

/-- What is assumed of a transformer record. -/
def XfRec.Plain (kv : Int → ℝ) (sbase : ℝ) (buses : List Int) : XfRec → Prop
  | .two t => t.Plain kv sbase
  | .three t => t.Plain sbase ∧ t.i ∈ buses ∧ t.j ∈ buses ∧ t.k ∈ buses

theorem readXfs_adds (kv : Int → ℝ) (sbase : ℝ) (buses : List Int) (P : List (Int × Int)) (ts : List XfRec)
    (hp : ∀ t ∈ ts, t.Plain kv sbase buses) (hl : ∀ t ∈ ts, ∀ k, t.pair? = some k → k ∈ P ∧ (t.Symmetric kv ∨ (k.2, k.1) ∉ P)) :
    ∀ st : St, Inv st → (∀ k n, find st.map k = some n → k ∈ P) →
    ∃ st', readXfs sbase (fun b => decide (b ∈ buses)) st ts = some st' ∧
      Adds st.branches st'.branches (xfLinks kv sbase (st.maxBus + 1) ts) := by
  induction ts with
  | nil => intro st _ _; exact ⟨st, rfl, Adds.refl _⟩
  | cons t ts ih =>
    intro st h1 h2
    have ih := ih (fun x hx => hp x (by simp [hx])) (fun x hx => hl x (by simp [hx]))
    have hpt := hp t (by simp)
    have hlt := hl t (by simp)
    cases t with
    | two t =>
      obtain ⟨ha, hb⟩ := hlt (t.i, t.j) rfl
      obtain ⟨s1, e1, a1, a2, a3, a4⟩ := readXf2_adds kv sbase st h1 P h2 t hpt ha hb
      obtain ⟨s2, e2, b2⟩ := ih s1 a1 a2
      refine ⟨s2, by simp [readXfs, readXf, e1, e2], ?_⟩
      rw [a3] at b2
      exact a4.trans b2
    | three t =>
      cases hs : (t.short || decide (t.status = 0)) with
      | true =>
        obtain ⟨s2, e2, b2⟩ := ih st h1 h2
        refine ⟨s2, by simp [readXfs, readXf, readXf3, hs, e2], ?_⟩
        simpa [xfLinks, hs] using b2
      | false =>
        obtain ⟨hp1, k1, k2, k3⟩ := hpt
        obtain ⟨s1, e1, a1, a2, a3, _, a4⟩ := readXf3_adds sbase (fun b => decide (b ∈ buses)) st h1 t hp1 hs
          ⟨by simpa using k1, by simpa using k2, by simpa using k3⟩
        obtain ⟨s2, e2, b2⟩ := ih s1 a1 (by rw [a2]; exact h2)
        refine ⟨s2, by simp [readXfs, readXf, e1, e2], ?_⟩
        rw [a3] at b2
        have := a4.trans b2
        simpa [xfLinks, hs] using this

/-- The pairs of buses of the lines and two-winding transformers of a file. -/
def Case.pairs (c : Case) : List (Int × Int) :=
  c.lines.map (fun l => (l.i, l.j)) ++ c.xfs.filterMap XfRec.pair?

/-- C166.  The admittance matrix built from the lines and transformers of a file is that of the two-ports
of its records: every record counts once, at its own buses and in its own direction, whatever the order of
the file and however many elements are parallel.  (What is missing: complete lines and plain transformers
only, and no record that is not symmetric may have a record in the opposite direction beside it; see the
`_violated` theorems.) -/
theorem C166_network_partial (c : Case) (kv : Int → ℝ)
    (hlines : ∀ l ∈ c.lines, l.Complete) (hxfs : ∀ t ∈ c.xfs, t.Plain kv c.sbase c.buses)
    (hlrev : ∀ l ∈ c.lines, l.Symmetric ∨ (l.j, l.i) ∉ c.pairs)
    (hxrev : ∀ t ∈ c.xfs, ∀ k, t.pair? = some k → t.Symmetric kv ∨ (k.2, k.1) ∉ c.pairs) :
    ∃ st, getCase fresh c = some st ∧ ∀ rv,
      let links := c.lines.map LineRec.link ++ xfLinks kv c.sbase (maxIndex (-1) c.buses + 1) c.xfs
      (∀ p q, entry rv st.branches p q = linkEntry links p q) ∧
      ∀ p, diag rv st.branches p = linkDiag links p := by
  have hI : Inv ⟨[], fresh.map, 0, maxIndex fresh.maxBus c.buses, []⟩ := by
    constructor
    intro i j n h
    simp [fresh, find] at h
  obtain ⟨s1, e1, a1, a2, a3, a4, a5⟩ := readLines_adds c.pairs c.lines hlines
    (fun l hl => List.mem_append_left _ (List.mem_map.mpr ⟨l, hl, rfl⟩)) hlrev _ hI rfl
    (fun k n h => by simp [fresh, find] at h)
  have hI1 : Inv { s1 with index := s1.branches.length } := ⟨a1.leads⟩
  obtain ⟨s2, e2, b2⟩ := readXfs_adds kv c.sbase c.buses c.pairs c.xfs hxfs
    (fun t ht k hk => ⟨List.mem_append_right _ (List.mem_filterMap.mpr ⟨t, ht, hk⟩), hxrev t ht k hk⟩)
    { s1 with index := s1.branches.length } hI1 a3
  refine ⟨s2, by simp [getCase, e1, e2], ?_⟩
  simp only [a4] at b2
  intro rv
  obtain ⟨h1, h2⟩ := (a5.trans b2) rv
  constructor
  · intro p q
    rw [h1]
    simp [entry, fresh]
  · intro p
    rw [h2]
    simp [diag, fresh]

/-! ### Single records -/

/-- A file with one line. -/
def oneLine (sbase : ℝ) (l : LineRec) : Case := ⟨[l.i, l.j], sbase, [l], []⟩

/-- A file with one two-winding transformer. -/
def oneXf (sbase : ℝ) (t : Xf2Rec) : Case := ⟨[t.i, t.j], sbase, [], [.two t]⟩

/-- A file with one three-winding transformer. -/
def oneXf3 (sbase : ℝ) (t : Xf3Rec) : Case := ⟨[t.i, t.j, t.k], sbase, [], [.three t]⟩

/-- C166 fails for a line that ends before the shunts of its ends: its charging is dropped, although
absent values stand for 0. -/
theorem C166_short_line_violated (sbase rv : ℝ) (l : LineRec) (hij : l.i ≠ l.j) (hx : l.x.isSome)
    (hr : l.r.isSome) (b : ℝ) (hb : l.b = some b) (hb0 : b ≠ 0) (hg : l.g1 = none) (hb1 : l.b1 = none)
    (hs : l.status.getD 1 ≠ 0) :
    ∃ st, getCase fresh (oneLine sbase l) = some st ∧ diag rv st.branches l.i ≠ linkDiag [l.link] l.i := by
  obtain ⟨x, hx⟩ := Option.isSome_iff_exists.mp hx
  obtain ⟨r, hr⟩ := Option.isSome_iff_exists.mp hr
  refine ⟨_, rfl, ?_⟩
  have hji : ¬ l.j = l.i := fun h => hij h.symm
  intro h
  simp [diag, linkDiag, readXfs, loadElems, diagOf_cons, diagOf_nil, LineRec.el, LineRec.link, loadElem, hx, hr,
    hb, hg, hb1, hs, hji, diagPart, Elem.admittance, Elem.transformer, Elem.shuntOf, Elem.z, neg_div] at h
  have := congrArg Complex.im h
  simp [hb0] at this

/-- The entries a file with one plain transformer gives. -/
theorem oneXf_entries (sbase : ℝ) (t : Xf2Rec) (e : El) (P : TwoPort) (he : t.el sbase = some e)
    (hP : Acts e P) (hij : t.i ≠ t.j) :
    ∃ st, getCase fresh (oneXf sbase t) = some st ∧ ∀ rv, entry rv st.branches t.i t.j = P.ft ∧
      entry rv st.branches t.j t.i = P.tf ∧ diag rv st.branches t.i = P.ff ∧
      diag rv st.branches t.j = P.tt := by
  have hji : ¬ t.j = t.i := fun h => hij h.symm
  refine ⟨_, by simp [getCase, oneXf, readLines, readXfs, readXf, readXf2, he, fresh, find]; rfl, ?_⟩
  intro rv
  obtain ⟨h1, h2, h3, h4⟩ := hP rv
  simp [entry, diag, loadElems, setYBus, diagOf_cons, diagOf_nil, h1, h2, h3, h4, hij, hji]

/-- C167.  A two-winding transformer enters the matrix as an ideal transformer with its two ratios around
its impedance.  (What is missing: the cases of the `_violated` theorems.) -/
theorem C167_transformer_partial (kv : Int → ℝ) (sbase : ℝ) (t : Xf2Rec) (h : t.Plain kv sbase)
    (hij : t.i ≠ t.j) :
    ∃ st, getCase fresh (oneXf sbase t) = some st ∧ ∀ rv,
      entry rv st.branches t.i t.j = (t.link kv sbase).port.ft ∧
      entry rv st.branches t.j t.i = (t.link kv sbase).port.tf ∧
      diag rv st.branches t.i = (t.link kv sbase).port.ff ∧
      diag rv st.branches t.j = (t.link kv sbase).port.tt := by
  obtain ⟨e, he, ha⟩ := acts_xf2 kv sbase t h
  exact oneXf_entries sbase t e _ he ha hij

/-- The stored element as it is loaded. -/
theorem xf_stored (sbase : ℝ) (t : Xf2Rec) (u1 u2 : ℝ) (hu : t.turns = some (u1, u2)) (hu2 : u2 ≠ 0) :
    t.el sbase = some ⟨t.ckt, some (t.scale sbase u2 t.r), some (t.scale sbase u2 t.x),
      some t.mag2, some (u1 / u2), some t.ang1, none, none, none, none, some t.status, none⟩ := by
  simp [Xf2Rec.el, hu, divide, hu2]

/-- What the code makes of a transformer in service: entry of the first bus' row and the diagonal entry of the
second bus. -/
theorem xf_code (sbase : ℝ) (t : Xf2Rec) (u1 u2 : ℝ) (hu : t.turns = some (u1, u2)) (hu1 : u1 ≠ 0)
    (hu2 : u2 ≠ 0) (hs : t.status ≠ 0) (hij : t.i ≠ t.j) :
    ∃ st, getCase fresh (oneXf sbase t) = some st ∧ ∀ rv,
      diag rv st.branches t.j = 1 / (⟨t.scale sbase u2 t.r, t.scale sbase u2 t.x⟩ : ℂ) + ⟨0, t.mag2 / 2⟩ ∧
      diag rv st.branches t.i = (1 / (⟨t.scale sbase u2 t.r, t.scale sbase u2 t.x⟩ : ℂ) + ⟨0, t.mag2 / 2⟩) /
        ((starRingEnd ℂ) (polar (u1 / u2) t.ang1) * polar (u1 / u2) t.ang1) := by
  have hji : ¬ t.j = t.i := fun h => hij h.symm
  have htap : u1 / u2 ≠ 0 := div_ne_zero hu1 hu2
  have he := xf_stored sbase t u1 u2 hu hu2
  refine ⟨_, by simp [getCase, oneXf, readLines, readXfs, readXf, readXf2, he, fresh, find]; rfl, ?_⟩
  intro rv
  have ha : (!decide (u1 / u2 = 0)) = true := by simp [htap]
  constructor
  · simp [diag, loadElems, diagOf_cons, diagOf_nil, hij, hji, loadElem, diagPart, Elem.admittance,
      Elem.transformer, Elem.shuntOf, hs, hu1, hu2, Elem.z, neg_div]
    ring
  · simp [diag, loadElems, diagOf_cons, diagOf_nil, hij, hji, loadElem, diagPart, Elem.admittance,
      Elem.transformer, Elem.shuntOf, hs, hu1, hu2, Elem.z, neg_div, Elem.ratio, polar]
    ring

/-- C167 fails for every transformer whose impedance is given on the system base (CZ = 1) while its own base
differs: the impedance is converted all the same. -/
theorem C167_base_violated (kv : Int → ℝ) (sbase rv : ℝ) (t : Xf2Rec) (hij : t.i ≠ t.j) (hcw : t.cw = 1)
    (hcz : t.cz = 1) (hw1 : t.windv1 ≠ 0) (hw2 : t.windv2 ≠ 0) (hs : t.status ≠ 0) (hm : t.mag2 = 0)
    (hz : (⟨t.r, t.x⟩ : ℂ) ≠ 0) (hb0 : t.sbase ≠ 0) (hb : t.sbase ≠ sbase) (hsb : sbase ≠ 0) :
    ∃ st, getCase fresh (oneXf sbase t) = some st ∧
      diag rv st.branches t.j ≠ (t.link kv sbase).port.tt := by
  obtain ⟨st, h1, h2⟩ := xf_code sbase t t.windv1 t.windv2 (by simp [Xf2Rec.turns, hcw]) hw1 hw2 hs hij
  refine ⟨st, h1, ?_⟩
  obtain ⟨h3, -⟩ := h2 rv
  have hm0 : (⟨0, t.mag2 / 2⟩ : ℂ) = 0 := by rw [hm]; apply Complex.ext <;> simp
  have hne : ¬ (t.sbase = sbase ∨ t.sbase = 0) := by tauto
  have hsc : (⟨t.scale sbase t.windv2 t.r, t.scale sbase t.windv2 t.x⟩ : ℂ) =
      (⟨t.r, t.x⟩ : ℂ) * ((t.windv2 : ℂ) * t.windv2) * ((sbase / t.sbase : ℝ) : ℂ) := by
    unfold Xf2Rec.scale
    simp only [hne, if_false]
    apply Complex.ext <;> simp <;> field_simp
  have hk : ((sbase / t.sbase : ℝ) : ℂ) ≠ 1 := by
    intro h
    have : sbase / t.sbase = 1 := by exact_mod_cast h
    rw [div_eq_one_iff_eq hb0] at this
    exact hb this.symm
  have hk0 : ((sbase / t.sbase : ℝ) : ℂ) ≠ 0 := by
    exact_mod_cast div_ne_zero hsb hb0
  have hw2' : (t.windv2 : ℂ) ≠ 0 := by exact_mod_cast hw2
  rw [h3, hm0, hsc, add_zero]
  simp only [Xf2Rec.link, hs, if_false, xfPort, onBase, hcz, true_or, if_true, perUnit, hcw]
  intro h
  apply hk
  generalize ((sbase / t.sbase : ℝ) : ℂ) = k at h hk0 ⊢
  generalize (⟨t.r, t.x⟩ : ℂ) = z at h hz
  field_simp at h
  exact h.symm

/-- C167 fails for every transformer with a magnetising susceptance: half of it ends up at the second bus,
where it does not belong. -/
theorem C167_magnetising_violated (kv : Int → ℝ) (sbase rv : ℝ) (t : Xf2Rec) (hij : t.i ≠ t.j) (hcw : t.cw = 1)
    (hcz : t.cz = 1) (hw1 : t.windv1 ≠ 0) (hw2 : t.windv2 ≠ 0) (hs : t.status ≠ 0) (hm : t.mag2 ≠ 0)
    (hb : t.sbase = sbase) :
    ∃ st, getCase fresh (oneXf sbase t) = some st ∧
      diag rv st.branches t.j ≠ (t.link kv sbase).port.tt := by
  obtain ⟨st, h1, h2⟩ := xf_code sbase t t.windv1 t.windv2 (by simp [Xf2Rec.turns, hcw]) hw1 hw2 hs hij
  refine ⟨st, h1, ?_⟩
  obtain ⟨h3, -⟩ := h2 rv
  have hsc : (⟨t.scale sbase t.windv2 t.r, t.scale sbase t.windv2 t.x⟩ : ℂ) =
      (⟨t.r, t.x⟩ : ℂ) * ((t.windv2 : ℂ) * t.windv2) := by
    unfold Xf2Rec.scale
    simp only [hb, true_or, if_true]
    apply Complex.ext <;> simp <;> ring
  rw [h3, hsc]
  simp only [Xf2Rec.link, hs, if_false, xfPort, onBase, hcz, true_or, if_true, perUnit, hcw]
  rw [div_div]
  intro h
  have h0 : (⟨0, t.mag2 / 2⟩ : ℂ) = 0 := by linear_combination h
  have := congrArg Complex.im h0
  simp [hm] at this

/-- C167 fails for every transformer with a magnetising conductance (and no susceptance): it is lost. -/
theorem C167_conductance_violated (kv : Int → ℝ) (sbase rv : ℝ) (t : Xf2Rec) (hij : t.i ≠ t.j)
    (hcw : t.cw = 1) (hcz : t.cz = 1) (hw1 : t.windv1 ≠ 0) (hw2 : t.windv2 ≠ 0) (hs : t.status ≠ 0)
    (hm : t.mag2 = 0) (hm1 : t.mag1 ≠ 0) (hb : t.sbase = sbase) :
    ∃ st, getCase fresh (oneXf sbase t) = some st ∧
      diag rv st.branches t.i ≠ (t.link kv sbase).port.ff := by
  obtain ⟨st, h1, h2⟩ := xf_code sbase t t.windv1 t.windv2 (by simp [Xf2Rec.turns, hcw]) hw1 hw2 hs hij
  refine ⟨st, h1, ?_⟩
  obtain ⟨-, h3⟩ := h2 rv
  have hm0 : (⟨0, t.mag2 / 2⟩ : ℂ) = 0 := by rw [hm]; apply Complex.ext <;> simp
  have hsc : (⟨t.scale sbase t.windv2 t.r, t.scale sbase t.windv2 t.x⟩ : ℂ) =
      (⟨t.r, t.x⟩ : ℂ) * ((t.windv2 : ℂ) * t.windv2) := by
    unfold Xf2Rec.scale
    simp only [hb, true_or, if_true]
    apply Complex.ext <;> simp <;> ring
  have hp : polar (t.windv1 / t.windv2) t.ang1 = polar t.windv1 t.ang1 / t.windv2 := by
    unfold polar; push_cast; ring
  have hpc := polar_ne t.windv1 t.ang1 hw1
  have hpc' : (starRingEnd ℂ) (polar t.windv1 t.ang1) ≠ 0 := by simpa using hpc
  have hw2' : (t.windv2 : ℂ) ≠ 0 := by exact_mod_cast hw2
  rw [h3, hsc, hm0, hp, map_div₀, Complex.conj_ofReal]
  simp only [Xf2Rec.link, hs, if_false, xfPort, onBase, hcz, true_or, if_true, perUnit, hcw, add_zero]
  intro h
  have h0 : (⟨t.mag1, t.mag2⟩ : ℂ) = 0 := by
    have e : 1 / ((⟨t.r, t.x⟩ : ℂ) * ((t.windv2 : ℂ) * t.windv2)) /
        ((starRingEnd ℂ) (polar t.windv1 t.ang1) / (t.windv2 : ℂ) * (polar t.windv1 t.ang1 / (t.windv2 : ℂ))) =
        1 / (⟨t.r, t.x⟩ : ℂ) / (polar t.windv1 t.ang1 * (starRingEnd ℂ) (polar t.windv1 t.ang1)) := by
      by_cases hz : (⟨t.r, t.x⟩ : ℂ) = 0
      · rw [hz]; simp
      · field_simp
    rw [e] at h
    linear_combination -h
  have := congrArg Complex.re h0
  simp [hm1] at this

/-- C167 fails for every transformer given in kilovolts (CW = 2) with the nominal winding voltage left at 0,
which stands for the bus voltage: the ratio is divided by 0. -/
theorem C167_kilovolts_violated (sbase : ℝ) (t : Xf2Rec) (hcw : t.cw = 2)
    (hn : t.nomv1 = 0 ∨ t.nomv2 = 0) : getCase fresh (oneXf sbase t) = none := by
  have : t.turns = none := by
    unfold Xf2Rec.turns divide
    simp only [hcw, if_true]
    rcases hn with h | h <;> by_cases h' : t.nomv1 = 0 <;> simp [h, h']
  simp [getCase, oneXf, readLines, readXfs, readXf, readXf2, Xf2Rec.el, this]

/-- C167 fails for every transformer with ratios per unit of its nominal voltages (CW = 3) when the nominal
voltage of the second winding is not that of the bus. -/
theorem C167_nominal_violated (kv : Int → ℝ) (sbase rv : ℝ) (t : Xf2Rec) (hij : t.i ≠ t.j) (hcw : t.cw = 3)
    (hcz : t.cz = 1) (hw1 : t.windv1 ≠ 0) (hw2 : t.windv2 ≠ 0) (hs : t.status ≠ 0) (hm : t.mag2 = 0)
    (hz : (⟨t.r, t.x⟩ : ℂ) ≠ 0) (hb : t.sbase = sbase) (hn : 0 < t.nomv2) (hk : 0 < kv t.j)
    (hnk : t.nomv2 ≠ kv t.j) :
    ∃ st, getCase fresh (oneXf sbase t) = some st ∧
      diag rv st.branches t.j ≠ (t.link kv sbase).port.tt := by
  obtain ⟨st, h1, h2⟩ := xf_code sbase t t.windv1 t.windv2 (by simp [Xf2Rec.turns, hcw]) hw1 hw2 hs hij
  refine ⟨st, h1, ?_⟩
  obtain ⟨h3, -⟩ := h2 rv
  have hm0 : (⟨0, t.mag2 / 2⟩ : ℂ) = 0 := by rw [hm]; apply Complex.ext <;> simp
  have hsc : (⟨t.scale sbase t.windv2 t.r, t.scale sbase t.windv2 t.x⟩ : ℂ) =
      (⟨t.r, t.x⟩ : ℂ) * ((t.windv2 : ℂ) * t.windv2) := by
    unfold Xf2Rec.scale
    simp only [hb, true_or, if_true]
    apply Complex.ext <;> simp <;> ring
  have hpu : perUnit t.cw t.windv2 t.nomv2 (kv t.j) = t.windv2 * (t.nomv2 / kv t.j) := by
    unfold perUnit
    rw [hcw]
    simp [hn.ne']
    ring
  have hw2' : (t.windv2 : ℂ) ≠ 0 := by exact_mod_cast hw2
  rw [h3, hsc, hm0, add_zero]
  simp only [Xf2Rec.link, hs, if_false, xfPort, onBase, hcz, true_or, if_true, hpu]
  have hk0 : 0 < t.nomv2 / kv t.j := div_pos hn hk
  have hk1 : t.nomv2 / kv t.j ≠ 1 := by
    intro h
    rw [div_eq_one_iff_eq hk.ne'] at h
    exact hnk h
  generalize t.nomv2 / kv t.j = k at hk0 hk1
  have hkc : (k : ℂ) ≠ 0 := by exact_mod_cast hk0.ne'
  intro h
  push_cast at h
  generalize (⟨t.r, t.x⟩ : ℂ) = z at h hz
  field_simp at h
  have h4 : k ^ 2 = 1 := by exact_mod_cast h
  have h5 : k = 1 := by nlinarith
  exact hk1 h5

/-! ### Records in opposite directions -/

/-- C166 fails when a line with different shunts at its ends is given in the direction opposite to that of an
earlier line between the same buses: the shunts are exchanged. -/
theorem C166_end_shunt_violated (sbase rv : ℝ) (buses : List Int) (l m : LineRec) (hij : l.i ≠ l.j)
    (hm : m.i = l.j ∧ m.j = l.i) (hl : l.Complete) (hc : m.Complete) (hs : m.status.getD 1 ≠ 0)
    (hg : m.g1 ≠ m.g2) :
    ∃ st, getCase fresh ⟨buses, sbase, [l, m], []⟩ = some st ∧
      diag rv st.branches l.i ≠ linkDiag [l.link, m.link] l.i := by
  obtain ⟨m1, m2⟩ := hm
  have hji : ¬ l.j = l.i := fun h => hij h.symm
  have hst : getCase fresh ⟨buses, sbase, [l, m], []⟩ =
      some ⟨[⟨l.i, l.j, 0, [l.el false, m.el true]⟩], [((l.i, l.j), 0)], 1, maxIndex (-1) buses, []⟩ := by
    simp [getCase, readLines, readLine, fresh, find, insert, readXfs, m1, m2, hij, addEl, List.modify]
  refine ⟨_, hst, ?_⟩
  intro h
  obtain ⟨-, -, k, -⟩ := acts_line l hl rv
  have hlp : linkDiag [l.link, m.link] l.i = l.link.port.ff + m.link.port.tt := by
    simp [linkDiag, LineRec.link, m1, m2, hji]
  have hd : diag rv [⟨l.i, l.j, 0, [l.el false, m.el true]⟩] l.i =
      diagPart (loadElem rv (l.el false)).1 .bus1 +
      diagPart (loadElem (loadElem rv (l.el false)).2 (m.el true)).1 .bus1 := by
    simp [diag, loadElems, diagOf_cons, diagOf_nil, hji]
  rw [hlp, hd, k] at h
  have h2 := add_left_cancel h
  obtain ⟨r, x, b, g1, b1, g2, b2, h1, h3, h4, h5, h6, h7, h8⟩ := hc
  rw [h5, h7] at hg
  simp [loadElem, LineRec.el, LineRec.link, h1, h3, h4, h5, h6, h7, h8, hs, diagPart, Elem.admittance,
    Elem.transformer, Elem.shuntOf, Elem.z, neg_div] at h2
  have h9 : (⟨g1, b1⟩ : ℂ) = ⟨g2, b2⟩ := by linear_combination h2
  have := congrArg Complex.re h9
  simp at this
  exact hg (by rw [this])

/-- C169 fails for every transformer that is given in the direction opposite to that of a line between the
same buses, unless its two ratios are equal: the ratio is put at the wrong bus. -/
theorem C169_reversed_violated (kv : Int → ℝ) (sbase rv : ℝ) (buses : List Int) (l : LineRec) (t : Xf2Rec)
    (hij : l.i ≠ l.j) (ht : t.i = l.j ∧ t.j = l.i) (hl : l.Complete) (hp : t.Plain kv sbase)
    (hs : t.status ≠ 0) (hz : onBase t.cz sbase t.sbase ⟨t.r, t.x⟩ ≠ 0)
    (hw : perUnit t.cw t.windv1 t.nomv1 (kv t.i) ^ 2 ≠ perUnit t.cw t.windv2 t.nomv2 (kv t.j) ^ 2) :
    ∃ st, getCase fresh ⟨buses, sbase, [l], [.two t]⟩ = some st ∧
      diag rv st.branches l.i ≠ linkDiag [l.link, t.link kv sbase] l.i := by
  obtain ⟨t1, t2⟩ := ht
  have hji : ¬ l.j = l.i := fun h => hij h.symm
  obtain ⟨e, he, ha⟩ := acts_xf2 kv sbase t hp
  have hst : getCase fresh ⟨buses, sbase, [l], [.two t]⟩ =
      some ⟨[⟨l.i, l.j, 0, [l.el false, e]⟩], [((l.i, l.j), 0)], 1, maxIndex (-1) buses, []⟩ := by
    simp [getCase, readLines, readLine, fresh, find, insert, readXfs, readXf, readXf2, he, t1, t2, hij, addEl,
      List.modify]
  refine ⟨_, hst, ?_⟩
  intro h
  obtain ⟨-, -, k, -⟩ := acts_line l hl rv
  obtain ⟨-, -, k2, -⟩ := ha (loadElem rv (l.el false)).2
  have hlp : linkDiag [l.link, t.link kv sbase] l.i = l.link.port.ff + (t.link kv sbase).port.tt := by
    simp [linkDiag, LineRec.link, Xf2Rec.link, t1, t2, hji]
  have hd : diag rv [⟨l.i, l.j, 0, [l.el false, e]⟩] l.i =
      diagPart (loadElem rv (l.el false)).1 .bus1 +
      diagPart (loadElem (loadElem rv (l.el false)).2 e).1 .bus1 := by
    simp [diag, loadElems, diagOf_cons, diagOf_nil, hji]
  rw [hlp, hd, k, k2] at h
  have h2 := add_left_cancel h
  have hmag : (⟨t.mag1, t.mag2⟩ : ℂ) = 0 := by rw [hp.mag1, hp.mag2]; rfl
  have hpu1 : perUnit t.cw t.windv1 t.nomv1 (kv t.i) ≠ 0 := by
    rcases hp.cw with h1 | ⟨h1, _, _, h4, _⟩
    · simp [perUnit, h1, hp.w1]
    · simp [perUnit, h1, hp.w1, h4]
  have hpu2 : perUnit t.cw t.windv2 t.nomv2 (kv t.j) ≠ 0 := by
    rcases hp.cw with h1 | ⟨h1, _, _, _, h5⟩
    · simp [perUnit, h1, hp.w2]
    · simp [perUnit, h1, hp.w2, h5]
  simp only [Xf2Rec.link, hs, if_false, xfPort, hmag, add_zero] at h2
  generalize perUnit t.cw t.windv1 t.nomv1 (kv t.i) = u1 at *
  generalize perUnit t.cw t.windv2 t.nomv2 (kv t.j) = u2 at *
  have hpol : polar u1 t.ang1 * (starRingEnd ℂ) (polar u1 t.ang1) = ((u1 ^ 2 : ℝ) : ℂ) := by
    rw [Complex.mul_conj]
    congr 1
    unfold polar
    simp only [Complex.normSq_mul, Complex.normSq_ofReal, Complex.normSq_mk]
    have := Real.sin_sq_add_cos_sq (t.ang1 * Real.pi / 180)
    linear_combination u1 * u1 * this
  rw [hpol] at h2
  generalize onBase t.cz sbase t.sbase ⟨t.r, t.x⟩ = z at h2 hz
  have e1 : (u1 : ℂ) ≠ 0 := by exact_mod_cast hpu1
  have e2 : (u2 : ℂ) ≠ 0 := by exact_mod_cast hpu2
  push_cast at h2
  field_simp at h2
  apply hw
  have h3 : u2 ^ 2 = u1 ^ 2 := by exact_mod_cast h2
  exact h3.symm

/-- C169, the part that holds: a transformer given in the direction opposite to that of the lines between
its buses is entered correctly if its ratios are equal and it has no phase shift (an instance of C166). -/
theorem C169_reversed_partial (kv : Int → ℝ) (sbase : ℝ) (buses : List Int) (l : LineRec) (t : Xf2Rec)
    (hl : l.Complete) (hs : l.Symmetric) (hp : t.Plain kv sbase) (ht : t.Symmetric kv) :
    ∃ st, getCase fresh ⟨buses, sbase, [l], [.two t]⟩ = some st ∧ ∀ rv,
      (∀ p q, entry rv st.branches p q = linkEntry [l.link, t.link kv sbase] p q) ∧
      ∀ p, diag rv st.branches p = linkDiag [l.link, t.link kv sbase] p := by
  have := C166_network_partial ⟨buses, sbase, [l], [.two t]⟩ kv (by simpa using hl)
    (by simpa [XfRec.Plain] using hp) (by intro m hm; simp at hm; subst hm; exact Or.inl hs)
    (by intro m hm k _; simp at hm; subst hm; exact Or.inl ht)
  exact this

/-! ### Three windings -/

/-- The star of the specification has the impedances of the record: if the third winding carries no current
(the current from the star point into the first winding is the one out of the second), the voltage
between the two windings, referred to the star, is the current times the impedance `z12`. -/
theorem C168_measured (z1 z2 t1 t2 v1 v2 vs : ℂ) (h1 : z1 ≠ 0) (h2 : z2 ≠ 0) (k1 : t1 ≠ 0) (k2 : t2 ≠ 0)
    (m1 m2 : ℂ) :
    let P1 := xfPort (1 / z1) t1 1 m1
    let P2 := xfPort (1 / z2) t2 1 m2
    let i1 := P1.tf * v1 + P1.tt * vs
    let i2 := P2.tf * v2 + P2.tt * vs
    i1 + i2 = 0 → v2 / t2 - v1 / t1 = (z1 + z2) * i1 := by
  intro P1 P2 i1 i2 h
  simp only [P1, P2, i1, i2, xfPort] at h ⊢
  field_simp at h ⊢
  linear_combination -h

/-- C168.  A three-winding transformer in service on three known buses becomes a new bus and three branches
to it, whose impedances add up pairwise to the impedances given between the windings; windings that are
out of service by the status code are open.  (What is missing: impedances on a base other than the system
base, a base left at 0, ratios not per unit of the bus voltage.) -/
theorem C168_star_partial (sbase : ℝ) (t : Xf3Rec) (hp : t.Plain sbase) (hs : t.status ≠ 0)
    (hsh : t.short = false) :
    ∃ st, getCase fresh (oneXf3 sbase t) = some st ∧
      st.newBuses = [maxIndex (-1) [t.i, t.j, t.k] + 1] ∧ ∀ rv,
      (∀ p q, entry rv st.branches p q =
        linkEntry (t.links sbase (maxIndex (-1) [t.i, t.j, t.k] + 1)) p q) ∧
      ∀ p, diag rv st.branches p = linkDiag (t.links sbase (maxIndex (-1) [t.i, t.j, t.k] + 1)) p := by
  have hI : Inv ⟨[], [], 0, maxIndex (-1) [t.i, t.j, t.k], []⟩ := by
    constructor
    intro i j n h
    simp [find] at h
  obtain ⟨s1, e1, a1, a2, a3, a4, a5⟩ := readXf3_adds sbase (fun b => decide (b ∈ [t.i, t.j, t.k])) _ hI t hp
    (by simp [hs, hsh]) ⟨by simp, by simp, by simp⟩
  refine ⟨s1, ?_, by simpa using a4, ?_⟩
  · simp only [getCase, oneXf3, readLines, fresh, Option.bind_some, readXfs, readXf, List.length_nil]
    exact congrArg (fun o : Option St => o.bind some) e1
  · intro rv
    obtain ⟨h1, h2⟩ := a5 rv
    constructor
    · intro p q; rw [h1]; simp [entry]
    · intro p; rw [h2]; simp [diag]

/-- The star impedances do add up. -/
theorem C168_sum (z12 z23 z31 : ℂ) :
    (z12 + z31 - z23) / 2 + (z12 + z23 - z31) / 2 = z12 ∧
    (z12 + z23 - z31) / 2 + (z23 + z31 - z12) / 2 = z23 ∧
    (z23 + z31 - z12) / 2 + (z12 + z31 - z23) / 2 = z31 := by
  refine ⟨?_, ?_, ?_⟩ <;> ring

/-- C168 fails for every three-winding transformer whose impedances are given on a base of its own
(CZ = 2): they are not converted. -/
theorem C168_base_violated (sbase sb rv : ℝ) (t : Xf3Rec) (hs : t.status = 1) (hsh : t.short = false)
    (hcz : t.cz = 2) (h12 : t.sb12 = sb) (h23 : t.sb23 = sb) (h31 : t.sb31 = sb) (hb0 : sb ≠ 0)
    (hb : sb ≠ sbase) (hsb : sbase ≠ 0) (hw : t.windv2 ≠ 0) (hij : t.i ≠ t.j) (hkj : t.k ≠ t.j)
    (hz : (⟨t.r12, t.x12⟩ : ℂ) + ⟨t.r23, t.x23⟩ - ⟨t.r31, t.x31⟩ ≠ 0) :
    ∃ st, getCase fresh (oneXf3 sbase t) = some st ∧
      diag rv st.branches t.j ≠ linkDiag (t.links sbase (maxIndex (-1) [t.i, t.j, t.k] + 1)) t.j := by
  have hstar : ¬ maxIndex (-1) [t.i, t.j, t.k] + 1 = t.j := by
    simp only [maxIndex, List.foldl_cons, List.foldl_nil]
    split_ifs <;> omega
  generalize hM : maxIndex (-1) [t.i, t.j, t.k] + 1 = star at hstar
  have a2 := acts_wind t.ckt (0.5 * (t.r12 + t.r23 - t.r31)) (0.5 * (t.x12 + t.x23 - t.x31)) t.windv2 t.ang2
      0 0 true hw
  obtain ⟨-, -, a3, -⟩ := a2 rv
  have hz0 : (⟨0, 0⟩ : ℂ) = 0 := rfl
  have hst : getCase fresh (oneXf3 sbase t) = some ⟨[⟨t.i, star, 0, [windEl t.ckt
      (0.5 * (t.r12 + t.r31 - t.r23)) (0.5 * (t.x12 + t.x31 - t.x23)) t.windv1 t.ang1 t.mag1 t.mag2 true]⟩,
      ⟨t.j, star, 1, [windEl t.ckt (0.5 * (t.r12 + t.r23 - t.r31)) (0.5 * (t.x12 + t.x23 - t.x31)) t.windv2
        t.ang2 0 0 true]⟩,
      ⟨t.k, star, 2, [windEl t.ckt (0.5 * (t.r23 + t.r31 - t.r12)) (0.5 * (t.x23 + t.x31 - t.x12)) t.windv3
        t.ang3 0 0 true]⟩], [], 0, star, [star]⟩ := by
    simp [getCase, oneXf3, readLines, fresh, readXfs, readXf, readXf3, hs, hsh, Xf3Rec.els, h12, h23, h31,
      correct_id _ _ _ hb0, ← hM]
  refine ⟨_, hst, ?_⟩
  have hd : linkDiag (t.links sbase star) t.j = 1 / ((onBase t.cz sbase t.sb12 ⟨t.r12, t.x12⟩ +
      onBase t.cz sbase t.sb23 ⟨t.r23, t.x23⟩ - onBase t.cz sbase t.sb31 ⟨t.r31, t.x31⟩) / 2) /
      (polar t.windv2 t.ang2 * (starRingEnd ℂ) (polar t.windv2 t.ang2)) := by
    simp [linkDiag, Xf3Rec.links, hij, hkj, hstar, hs, xfPort]
  have hc : diag rv [⟨t.i, star, 0, [windEl t.ckt
      (0.5 * (t.r12 + t.r31 - t.r23)) (0.5 * (t.x12 + t.x31 - t.x23)) t.windv1 t.ang1 t.mag1 t.mag2 true]⟩,
      ⟨t.j, star, 1, [windEl t.ckt (0.5 * (t.r12 + t.r23 - t.r31)) (0.5 * (t.x12 + t.x23 - t.x31)) t.windv2
        t.ang2 0 0 true]⟩,
      ⟨t.k, star, 2, [windEl t.ckt (0.5 * (t.r23 + t.r31 - t.r12)) (0.5 * (t.x23 + t.x31 - t.x12)) t.windv3
        t.ang3 0 0 true]⟩] t.j = 1 / (⟨0.5 * (t.r12 + t.r23 - t.r31), 0.5 * (t.x12 + t.x23 - t.x31)⟩ : ℂ) /
        (polar t.windv2 t.ang2 * (starRingEnd ℂ) (polar t.windv2 t.ang2)) := by
    simp [diag, loadElems, diagOf_cons, diagOf_nil, hij, hkj, hstar, a3, xfPort, hz0]
  have e1 : (⟨0.5 * (t.r12 + t.r23 - t.r31), 0.5 * (t.x12 + t.x23 - t.x31)⟩ : ℂ) =
      ((⟨t.r12, t.x12⟩ : ℂ) + ⟨t.r23, t.x23⟩ - ⟨t.r31, t.x31⟩) / 2 := by
    rw [eq_div_iff two_ne_zero]
    apply Complex.ext <;> simp <;> ring
  have hcz1 : ¬ (t.cz = 1 ∨ sb = 0) := by rw [hcz]; simp [hb0]
  rw [hd, hc, e1]
  simp only [onBase, h12, h23, h31, hcz1, if_false]
  have hpol := polar_ne t.windv2 t.ang2 hw
  have hpol' : (starRingEnd ℂ) (polar t.windv2 t.ang2) ≠ 0 := by simpa using hpol
  have hsb' : (sbase : ℂ) ≠ 0 := by exact_mod_cast hsb
  have hb0' : (sb : ℂ) ≠ 0 := by exact_mod_cast hb0
  have e2 : ((⟨t.r12, t.x12⟩ : ℂ) * sbase / sb + ⟨t.r23, t.x23⟩ * sbase / sb - ⟨t.r31, t.x31⟩ * sbase / sb) =
      ((⟨t.r12, t.x12⟩ : ℂ) + ⟨t.r23, t.x23⟩ - ⟨t.r31, t.x31⟩) * (sbase / sb) := by ring
  rw [e2]
  generalize (⟨t.r12, t.x12⟩ : ℂ) + ⟨t.r23, t.x23⟩ - ⟨t.r31, t.x31⟩ = z at hz ⊢
  intro h
  field_simp at h
  apply hb
  have h5 : sbase = sb := by exact_mod_cast h
  exact h5.symm

/-- C168 fails for every three-winding transformer with a base left at 0, which stands for the system base:
the impedance is divided by 0. -/
theorem C168_zero_base_violated (sbase : ℝ) (t : Xf3Rec) (hs : t.status ≠ 0) (hsh : t.short = false)
    (hsb : sbase ≠ 0) (h0 : t.sb12 = 0 ∨ t.sb23 = 0 ∨ t.sb31 = 0) :
    getCase fresh (oneXf3 sbase t) = none := by
  have hc : ∀ v, correct 0 sbase v = none := by
    intro v
    have : (0 : ℝ) ≠ sbase := fun h => hsb h.symm
    simp [correct, divide, this]
  have : t.els sbase = none := by
    unfold Xf3Rec.els
    rcases h0 with h | h | h <;> simp only [h, hc]
    · split <;> simp_all
    · split <;> simp_all
  simp [getCase, oneXf3, readLines, readXfs, readXf, readXf3, hs, hsh, this]

end GridPACK.RawBranch
