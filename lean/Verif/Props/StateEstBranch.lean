import Verif.Props.StateEst

/-! C126: derivatives of branch measurements.  C127: measured quantities are the line flows.  C128 (branches):
residuals. -/
namespace GridPACK.StateEst

/-- What a handled branch measurement on line `l` is compared with. -/
noncomputable def Line.h (l : Line) (v1 v2 th : ℝ) : BrType → ℝ
  | .PIJ => l.hpij v1 v2 th
  | .QIJ => l.hqij v1 v2 th
  | .IIJ => Real.sqrt (l.hpij v1 v2 th * l.hpij v1 v2 th + l.hqij v1 v2 th * l.hqij v1 v2 th) / v1
  | .PJI => l.hpji v1 v2 th
  | .QJI => l.hqji v1 v2 th
  | .IJI => 0

theorem scan_fold (ckt : List Char) (f : Line → ℝ × ℝ → ℝ × ℝ) : ∀ (ls : List Line) (r : ℝ × ℝ),
    ls.foldl (fun r l => if l.tag = ckt then f l r else r) r =
      (ls.filter (fun l => l.tag = ckt)).foldl (fun r l => f l r) r := by
  intro ls
  induction ls with
  | nil => intro r; rfl
  | cons a ls ih =>
    intro r
    rw [List.foldl_cons]
    by_cases h : a.tag = ckt
    · rw [List.filter_cons_of_pos (by simpa using h), List.foldl_cons, if_pos h, ih]
    · rw [List.filter_cons_of_neg (by simpa using h), if_neg h, ih]

theorem scan_one (e : Branch) (ckt : List Char) (l : Line)
    (hl : e.lines.filter (fun l => l.tag = ckt) = [l]) (f : Line → ℝ × ℝ → ℝ × ℝ) (r : ℝ × ℝ) :
    e.scan ckt f r = f l r := by
  unfold Branch.scan
  rw [scan_fold, hl]
  rfl

theorem resStep_append (e : Branch) (v1 v2 th : ℝ) (a : (ℝ × ℝ) × List ℝ) (m : BrMeas) (hm : m.type ≠ .IJI) :
    ∃ x, (e.resStep v1 v2 th a m).2 = a.2 ++ [x] ∧
      ∀ l, e.lines.filter (fun l => l.tag = m.ckt) = [l] → x = m.value - l.h v1 v2 th m.type := by
  unfold Branch.resStep Line.h
  cases h : m.type with
  | IJI => exact absurd h hm
  | PIJ => exact ⟨_, rfl, fun l hl => by rw [scan_one e m.ckt l hl]⟩
  | QIJ => exact ⟨_, rfl, fun l hl => by rw [scan_one e m.ckt l hl]⟩
  | IIJ => exact ⟨_, rfl, fun l hl => by rw [scan_one e m.ckt l hl]⟩
  | PJI => exact ⟨_, rfl, fun l hl => by rw [scan_one e m.ckt l hl]⟩
  | QJI => exact ⟨_, rfl, fun l hl => by rw [scan_one e m.ckt l hl]⟩

theorem resFold (e : Branch) (v1 v2 th : ℝ) : ∀ (ms : List BrMeas), (∀ m ∈ ms, m.type ≠ .IJI) →
    ∀ (a : (ℝ × ℝ) × List ℝ), ∃ out, (ms.foldl (e.resStep v1 v2 th) a).2 = a.2 ++ out ∧
      out.length = ms.length ∧
      ∀ (k : Nat) (m : BrMeas) (l : Line), ms[k]? = some m → e.lines.filter (fun l => l.tag = m.ckt) = [l] →
        out[k]? = some (m.value - l.h v1 v2 th m.type) := by
  intro ms
  induction ms with
  | nil => intro _ a; exact ⟨[], by simp, rfl, by simp⟩
  | cons m ms ih =>
    intro hm a
    obtain ⟨x, hx, hxl⟩ := resStep_append e v1 v2 th a m (hm m (by simp))
    obtain ⟨out, h1, h2, h3⟩ := ih (fun m h => hm m (by simp [h])) (e.resStep v1 v2 th a m)
    refine ⟨x :: out, ?_, by simp [h2], ?_⟩
    · rw [List.foldl_cons, h1, hx]; simp
    · intro k m' l hk hl
      cases k with
      | zero =>
        simp only [List.getElem?_cons_zero, Option.some.injEq] at hk ⊢
        subst hk
        exact hxl l hl
      | succ k =>
        simp only [List.getElem?_cons_succ] at hk ⊢
        exact h3 k m' l hk hl

theorem brResiduals_get (n : Net) (s : State) (e : Branch) (hok : e.ok n = true)
    (ht : ∀ m ∈ e.meas, m.type ≠ .IJI) (k : Nat) (m : BrMeas) (l : Line) (hk : e.meas[k]? = some m)
    (hl : e.lines.filter (fun l => l.tag = m.ckt) = [l]) :
    (n.brResiduals s e)[k]? =
      some (m.value - l.h (s.v e.bus1) (s.v e.bus2) (s.θ e.bus1 - s.θ e.bus2) m.type) := by
  unfold Net.brResiduals
  rw [if_pos hok]
  obtain ⟨out, h1, _, h3⟩ := resFold e (s.v e.bus1) (s.v e.bus2) (s.θ e.bus1 - s.θ e.bus2) e.meas ht ((0, 0), [])
  rw [h1, List.nil_append]
  exact h3 k m l hk hl

/-- Values written for one line. -/
noncomputable def Net.lineEntries (n : Net) (s : State) (e : Branch) (l : Line) : BrType → List Entry
  | .PIJ => n.pij s e l
  | .QIJ => n.qij s e l
  | .IIJ => n.iij s e l
  | .PJI => n.pji s e l
  | .QJI => n.qji s e l
  | .IJI => []

theorem flat_fold (ckt : List Char) (f : Line → List Entry) : ∀ (ls : List Line),
    ls.flatMap (fun l => if l.tag = ckt ∧ True then f l else []) =
      (ls.filter (fun l => l.tag = ckt)).flatMap f := by
  intro ls
  induction ls with
  | nil => rfl
  | cons a ls ih =>
    rw [List.flatMap_cons]
    by_cases h : a.tag = ckt
    · rw [List.filter_cons_of_pos (by simpa using h), List.flatMap_cons, if_pos ⟨h, trivial⟩, ih]
    · rw [List.filter_cons_of_neg (by simpa using h), if_neg (fun q => h q.1), ih, List.nil_append]

theorem brEntries_one (n : Net) (s : State) (e : Branch) (hok : e.ok n = true) (hact : e.active = true)
    (m : BrMeas) (l : Line) (hl : e.lines.filter (fun l => l.tag = m.ckt) = [l]) :
    n.brEntries s e m = n.lineEntries s e l m.type := by
  unfold Net.brEntries Net.lineEntries
  rw [if_pos hok]
  simp only [hact]
  cases m.type <;> simp only [flat_fold, hl, List.flatMap_cons, List.flatMap_nil, List.append_nil]

theorem two_pairs (n : Net) (i j : Nat) (hij : i ≠ j) (a m a' m' : ℝ) :
    ((n.pair i a m ++ n.pair j a' m').map Entry.key).Nodup ∧
    ∀ x ∈ n.pair i a m ++ n.pair j a' m', (x.1 = i ∨ x.1 = j) ∧ x.2.1 < 2 := by
  constructor
  · rw [List.map_append, List.nodup_append]
    refine ⟨pair_nodup _ _ _ _, pair_nodup _ _ _ _, ?_⟩
    intro k hk k' hk' hkk
    subst hkk
    obtain ⟨x, hx, rfl⟩ := List.mem_map.mp hk
    obtain ⟨x', hx', hxx⟩ := List.mem_map.mp hk'
    have h3 := (pair_mem _ _ _ _ _ hx).1
    have h4 := (pair_mem _ _ _ _ _ hx').1
    have h5 : x'.1 = x.1 := (Prod.mk.inj hxx).1
    exact hij (by rw [← h3, ← h5, h4])
  · intro x hx
    rw [List.mem_append] at hx
    rcases hx with hx | hx
    · exact ⟨Or.inl (pair_mem _ _ _ _ _ hx).1, (pair_mem _ _ _ _ _ hx).2⟩
    · exact ⟨Or.inr (pair_mem _ _ _ _ _ hx).1, (pair_mem _ _ _ _ _ hx).2⟩

theorem lineEntries_keys (n : Net) (s : State) (e : Branch) (he : e.bus1 ≠ e.bus2) (l : Line) (ty : BrType) :
    ((n.lineEntries s e l ty).map Entry.key).Nodup ∧
    ∀ x ∈ n.lineEntries s e l ty, (x.1 = e.bus1 ∨ x.1 = e.bus2) ∧ x.2.1 < 2 := by
  cases ty with
  | IJI => simp [Net.lineEntries]
  | _ => exact two_pairs _ _ _ he _ _ _ _

/-- What the derivative of the code leaves out or adds: the bus shunt conductance. -/
noncomputable def Net.shuntError (n : Net) (s : State) (e : Branch) (l : Line) (d : Nat → Nat → ℝ) : BrType → ℝ
  | .PIJ => 2 * (n.bus e.bus1).gs * s.v e.bus1 / (l.t * l.t) * n.dv d e.bus1
  | .PJI => 2 * (n.bus e.bus2).gs * s.v e.bus2 * n.dv d e.bus2
  | _ => 0

theorem line_deriv (n : Net) (s : State) (e : Branch) (hok : e.ok n = true) (l : Line) (ty : BrType)
    (hty : ty = .PIJ ∨ ty = .QIJ ∨ ty = .PJI ∨ ty = .QJI) (d : Nat → Nat → ℝ) :
    HasDerivAt (fun t => l.h ((n.correct s (fun j c => t * d j c)).v e.bus1)
        ((n.correct s (fun j c => t * d j c)).v e.bus2)
        ((n.correct s (fun j c => t * d j c)).θ e.bus1 - (n.correct s (fun j c => t * d j c)).θ e.bus2) ty)
      (dot (n.lineEntries s e l ty) d - n.shuntError s e l d ty) 0 := by
  simp only [correct_v, correct_a]
  have h1 : (n.bus e.bus1).iso = false := by unfold Branch.ok at hok; simp at hok; exact hok.1
  have h2 : (n.bus e.bus2).iso = false := by unfold Branch.ok at hok; simp at hok; exact hok.2
  have hv1 := lin (s.v e.bus1) (n.dv d e.bus1)
  have hv2 := lin (s.v e.bus2) (n.dv d e.bus2)
  have hth := (lin (s.θ e.bus1) (n.da d e.bus1)).sub (lin (s.θ e.bus2) (n.da d e.bus2))
  have hfw := hth.add_const l.sh
  have hbw := hth.neg.sub_const l.sh
  rcases hty with rfl | rfl | rfl | rfl
  · unfold Line.h Line.hpij Line.gc
    refine ((((hv1.mul hv1).mul_const l.g).div_const (l.t * l.t)).sub
      (((hv1.const_mul (1 / l.t)).mul hv2).mul (d_gc l.g l.b hfw))).congr_deriv ?_
    simp only [Net.lineEntries, Net.pij, Net.shuntError, dot_append, pair_dot n d _ _ _ h1, pair_dot n d _ _ _ h2,
      Line.gc, Line.gd, Pi.sub_apply, Pi.mul_apply, zero_mul, add_zero]
    ring
  · unfold Line.h Line.hqij Line.gd
    refine ((((hv1.neg.mul hv1).mul_const (l.b + l.B)).div_const (l.t * l.t)).sub
      (((hv1.const_mul (1 / l.t)).mul hv2).mul (d_gd l.g l.b hfw))).congr_deriv ?_
    simp only [Net.lineEntries, Net.qij, Net.shuntError, dot_append, pair_dot n d _ _ _ h1, pair_dot n d _ _ _ h2,
      Line.gc, Line.gd, Pi.sub_apply, Pi.mul_apply, Pi.neg_apply, zero_mul, add_zero]
    ring
  · unfold Line.h Line.hpji Line.gc
    refine (((hv2.mul hv2).mul_const l.g).sub
      (((hv1.const_mul (1 / l.t)).mul hv2).mul (d_gc l.g l.b hbw))).congr_deriv ?_
    simp only [Net.lineEntries, Net.pji, Net.shuntError, dot_append, pair_dot n d _ _ _ h1, pair_dot n d _ _ _ h2,
      Line.gc, Line.gd, Pi.sub_apply, Pi.mul_apply, Pi.neg_apply, zero_mul, add_zero]
    ring
  · unfold Line.h Line.hqji Line.gd
    refine (((hv2.neg.mul hv2).mul_const (l.b + l.B)).sub
      (((hv1.const_mul (1 / l.t)).mul hv2).mul (d_gd l.g l.b hbw))).congr_deriv ?_
    simp only [Net.lineEntries, Net.qji, Net.shuntError, dot_append, pair_dot n d _ _ _ h1, pair_dot n d _ _ _ h2,
      Line.gc, Line.gd, Pi.sub_apply, Pi.mul_apply, Pi.neg_apply, zero_mul, add_zero]
    ring

theorem br_sum (n : Net) (s : State) (e : Branch) (he : e.bus1 ≠ e.bus2) (hok : e.ok n = true)
    (hact : e.active = true) (m : BrMeas) (l : Line) (hl : e.lines.filter (fun l => l.tag = m.ckt) = [l])
    (B : Finset Nat) (hB : e.bus1 ∈ B ∧ e.bus2 ∈ B) (d : Nat → Nat → ℝ) :
    (∑ j ∈ B, ∑ c ∈ Finset.range 2, entryOf (n.brEntries s e m) j c * d j c) =
      dot (n.lineEntries s e l m.type) d := by
  rw [brEntries_one n s e hok hact m l hl]
  obtain ⟨h1, h2⟩ := lineEntries_keys n s e he l m.type
  refine row_dot _ h1 B (fun x hx => ⟨?_, (h2 x hx).2⟩) d
  rcases (h2 x hx).1 with h | h <;> rw [h]
  · exact hB.1
  · exact hB.2

/-- C126.  Power measurements on a line of a branch in service (the line is the only one with the tag): for every
state, every measurement `k` of type PIJ, QIJ, PJI or QJI and every correction `d`, the residual changes along
`d` by minus the row times `d`, provided the bus at the measured end has no shunt conductance (needed for real
power only). -/
theorem C126_power_jacobian_partial (n : Net) (s : State) (e : Branch) (he : e.bus1 ≠ e.bus2)
    (hok : e.ok n = true) (hact : e.active = true) (ht : ∀ m ∈ e.meas, m.type ≠ .IJI) (k : Nat) (m : BrMeas)
    (hk : e.meas[k]? = some m) (l : Line) (hl : e.lines.filter (fun l => l.tag = m.ckt) = [l])
    (hty : m.type = .QIJ ∨ m.type = .QJI ∨ (m.type = .PIJ ∧ (n.bus e.bus1).gs = 0) ∨
      (m.type = .PJI ∧ (n.bus e.bus2).gs = 0))
    (B : Finset Nat) (hB : e.bus1 ∈ B ∧ e.bus2 ∈ B) (d : Nat → Nat → ℝ) :
    HasDerivAt (fun t => ((n.brResiduals (n.correct s (fun j c => t * d j c)) e)[k]?).getD 0)
      (-∑ j ∈ B, ∑ c ∈ Finset.range 2, entryOf (n.brEntries s e m) j c * d j c) 0 := by
  rw [br_sum n s e he hok hact m l hl B hB d]
  simp only [brResiduals_get n _ e hok ht k m l hk hl, Option.getD_some]
  have hty' : m.type = .PIJ ∨ m.type = .QIJ ∨ m.type = .PJI ∨ m.type = .QJI := by
    rcases hty with h | h | h | h
    · exact Or.inr (Or.inl h)
    · exact Or.inr (Or.inr (Or.inr h))
    · exact Or.inl h.1
    · exact Or.inr (Or.inr (Or.inl h.1))
  refine ((line_deriv n s e hok l m.type hty' d).const_sub m.value).congr_deriv ?_
  have : n.shuntError s e l d m.type = 0 := by
    rcases hty with h | h | ⟨h, h0⟩ | ⟨h, h0⟩ <;> simp [h, Net.shuntError] <;> simp [h0]
  rw [this, sub_zero]

/-- C126 is violated by a bus shunt: for every real-power measurement at the "from" end, if the bus there has a
shunt conductance (and a voltage), the row is not the derivative: the change of the residual with the voltage
magnitude of that bus is off by `2 gs v / t²`. -/
theorem C126_shunt_violated (n : Net) (s : State) (e : Branch) (he : e.bus1 ≠ e.bus2)
    (hok : e.ok n = true) (hact : e.active = true) (ht : ∀ m ∈ e.meas, m.type ≠ .IJI) (k : Nat) (m : BrMeas)
    (hk : e.meas[k]? = some m) (l : Line) (hl : e.lines.filter (fun l => l.tag = m.ckt) = [l])
    (hty : m.type = .PIJ) (href : (n.bus e.bus1).ref = false) (hg : (n.bus e.bus1).gs ≠ 0)
    (hv : s.v e.bus1 ≠ 0) (B : Finset Nat) (hB : e.bus1 ∈ B ∧ e.bus2 ∈ B) :
    ¬ HasDerivAt (fun t => ((n.brResiduals (n.correct s
        (fun j c => t * (if j = e.bus1 ∧ c = 1 then 1 else 0))) e)[k]?).getD 0)
      (-∑ j ∈ B, ∑ c ∈ Finset.range 2,
        entryOf (n.brEntries s e m) j c * (if j = e.bus1 ∧ c = 1 then 1 else 0)) 0 := by
  intro H
  rw [br_sum n s e he hok hact m l hl B hB (fun j c => if j = e.bus1 ∧ c = 1 then 1 else 0)] at H
  simp only [brResiduals_get n _ e hok ht k m l hk hl, Option.getD_some] at H
  have H' := (line_deriv n s e hok l m.type (Or.inl hty)
    (fun j c => if j = e.bus1 ∧ c = 1 then 1 else 0)).const_sub m.value
  have := H.unique H'
  have hs : n.shuntError s e l (fun j c => if j = e.bus1 ∧ c = 1 then 1 else 0) m.type = 0 := by linarith
  have h1 : (n.bus e.bus1).iso = false := by unfold Branch.ok at hok; simp at hok; exact hok.1
  rw [hty] at hs
  simp only [Net.shuntError, Net.dv, h1, href] at hs
  have ht0 : l.t ≠ 0 := by
    unfold Line.t
    split
    · assumption
    · exact one_ne_zero
  simp [hg, hv, ht0] at hs

theorem current_sq (l : Line) (htap : l.tap = 0) (hc : l.charging = 0) (v1 v2 th : ℝ) :
    l.hpij v1 v2 th * l.hpij v1 v2 th + l.hqij v1 v2 th * l.hqij v1 v2 th =
      v1 * v1 * ((l.g * l.g + l.b * l.b) * (v1 * v1 + v2 * v2 - 2 * v1 * v2 * Real.cos th)) := by
  unfold Line.hpij Line.hqij Line.gc Line.gd Line.t Line.sh Line.B
  simp only [htap, hc]
  simp
  have := Real.sin_sq_add_cos_sq th
  have h : Real.sin th ^ 2 = 1 - Real.cos th ^ 2 := by linarith
  ring_nf
  rw [h]
  ring

theorem h_current (l : Line) (htap : l.tap = 0) (hc : l.charging = 0) (v1 v2 th : ℝ) (hv : 0 < v1) :
    l.h v1 v2 th .IIJ =
      Real.sqrt ((l.g * l.g + l.b * l.b) * (v1 * v1 + v2 * v2 - 2 * v1 * v2 * Real.cos th)) := by
  unfold Line.h
  simp only [current_sq l htap hc]
  rw [Real.sqrt_mul (by positivity), Real.sqrt_mul_self hv.le, mul_div_assoc, mul_comm, div_mul_cancel₀]
  exact hv.ne'

/-- C126, current measurements.  The same for a current measurement on a line without charging and without
transformer, when the sending-end voltage is positive and the current is not zero. -/
theorem C126_current_jacobian_partial (n : Net) (s : State) (e : Branch) (he : e.bus1 ≠ e.bus2)
    (hok : e.ok n = true) (hact : e.active = true) (ht : ∀ m ∈ e.meas, m.type ≠ .IJI) (k : Nat) (m : BrMeas)
    (hk : e.meas[k]? = some m) (l : Line) (hl : e.lines.filter (fun l => l.tag = m.ckt) = [l])
    (hty : m.type = .IIJ) (htap : l.tap = 0) (hc : l.charging = 0) (hz : l.r ≠ 0 ∨ l.x ≠ 0)
    (hv : 0 < s.v e.bus1)
    (hI : s.v e.bus1 ^ 2 + s.v e.bus2 ^ 2 -
      2 * s.v e.bus1 * s.v e.bus2 * Real.cos (s.θ e.bus1 - s.θ e.bus2) ≠ 0)
    (B : Finset Nat) (hB : e.bus1 ∈ B ∧ e.bus2 ∈ B) (d : Nat → Nat → ℝ) :
    HasDerivAt (fun t => ((n.brResiduals (n.correct s (fun j c => t * d j c)) e)[k]?).getD 0)
      (-∑ j ∈ B, ∑ c ∈ Finset.range 2, entryOf (n.brEntries s e m) j c * d j c) 0 := by
  rw [br_sum n s e he hok hact m l hl B hB d]
  simp only [brResiduals_get n _ e hok ht k m l hk hl, Option.getD_some]
  refine HasDerivAt.const_sub m.value ?_
  simp only [correct_v, correct_a, hty]
  have h1 : (n.bus e.bus1).iso = false := by unfold Branch.ok at hok; simp at hok; exact hok.1
  have h2 : (n.bus e.bus2).iso = false := by unfold Branch.ok at hok; simp at hok; exact hok.2
  have hv1 := lin (s.v e.bus1) (n.dv d e.bus1)
  have hv2 := lin (s.v e.bus2) (n.dv d e.bus2)
  have hth := (lin (s.θ e.bus1) (n.da d e.bus1)).sub (lin (s.θ e.bus2) (n.da d e.bus2))
  have hy : l.g * l.g + l.b * l.b ≠ 0 := by
    have hne : (⟨l.r, l.x⟩ : ℂ) ≠ 0 := by
      intro q
      rcases hz with h | h
      · exact h (congrArg Complex.re q)
      · exact h (congrArg Complex.im q)
    have : l.g * l.g + l.b * l.b = Complex.normSq (1 / (⟨l.r, l.x⟩ : ℂ)) := by
      rw [Complex.normSq_apply]; rfl
    rw [this, Ne, Complex.normSq_eq_zero]
    exact one_div_ne_zero hne
  have hin := (((hv1.mul hv1).add (hv2.mul hv2)).sub
    (((hv1.const_mul 2).mul hv2).mul hth.cos)).const_mul (l.g * l.g + l.b * l.b)
  have hd := hin.sqrt (by
    simp only [Pi.add_apply, Pi.sub_apply, Pi.mul_apply, zero_mul, add_zero]
    refine mul_ne_zero hy ?_
    simpa [sq] using hI)
  have hpos : ∀ᶠ t in nhds (0 : ℝ), 0 < s.v e.bus1 + t * n.dv d e.bus1 := by
    have hcont : ContinuousAt (fun t : ℝ => s.v e.bus1 + t * n.dv d e.bus1) 0 := hv1.continuousAt
    exact hcont.eventually (lt_mem_nhds (by simpa using hv))
  refine (hd.congr_deriv ?_).congr_of_eventuallyEq ?_
  · simp only [Net.lineEntries, Net.iij, dot_append, pair_dot n d _ _ _ h1, pair_dot n d _ _ _ h2,
      Pi.add_apply, Pi.sub_apply, Pi.mul_apply, zero_mul, add_zero, Line.ret2, htap, ne_eq, not_true, if_false]
    have hg : (1 / (⟨l.r, l.x⟩ : ℂ)).re = l.g := rfl
    have hb : (1 / (⟨l.r, l.x⟩ : ℂ)).im = l.b := rfl
    rw [hg, hb]
    have hs : Real.sqrt ((l.g * l.g + l.b * l.b) * (s.v e.bus1 * s.v e.bus1 + s.v e.bus2 * s.v e.bus2 -
        2 * s.v e.bus1 * s.v e.bus2 * Real.cos (s.θ e.bus1 - s.θ e.bus2))) ≠ 0 := by
      intro q
      have hnn : 0 ≤ (l.g * l.g + l.b * l.b) * (s.v e.bus1 * s.v e.bus1 + s.v e.bus2 * s.v e.bus2 -
          2 * s.v e.bus1 * s.v e.bus2 * Real.cos (s.θ e.bus1 - s.θ e.bus2)) := by
        have := current_sq l htap hc (s.v e.bus1) (s.v e.bus2) (s.θ e.bus1 - s.θ e.bus2)
        have h0 : 0 ≤ s.v e.bus1 * s.v e.bus1 * ((l.g * l.g + l.b * l.b) *
            (s.v e.bus1 * s.v e.bus1 + s.v e.bus2 * s.v e.bus2 -
            2 * s.v e.bus1 * s.v e.bus2 * Real.cos (s.θ e.bus1 - s.θ e.bus2))) := by
          rw [← this]; nlinarith [mul_self_nonneg (l.hpij (s.v e.bus1) (s.v e.bus2) (s.θ e.bus1 - s.θ e.bus2)),
            mul_self_nonneg (l.hqij (s.v e.bus1) (s.v e.bus2) (s.θ e.bus1 - s.θ e.bus2))]
        exact nonneg_of_mul_nonneg_right h0 (mul_pos hv hv)
      rw [Real.sqrt_eq_zero hnn] at q
      exact mul_ne_zero hy (by simpa [sq] using hI) q
    field_simp
    ring
  · filter_upwards [hpos] with t ht'
    rw [h_current l htap hc _ _ _ ht']
    rfl

/-- C126 is violated by line charging: for a line with series reactance 1 and total charging 2 the measured
current is the voltage at the far end whatever the voltage at the near end, but the row contains a nonzero
derivative with respect to the near-end voltage. -/
theorem C126_charging_violated (tag : List Char) :
    let l : Line := ⟨tag, 0, 1, 2, 0, 0⟩
    (∀ v1 v2, 0 < v1 → 0 < v2 → l.h v1 v2 0 .IIJ = v2) ∧
    ∀ (n : Net) (e : Branch) (s : State), (n.bus e.bus1).ref = false → s.v e.bus1 = 2 → s.v e.bus2 = 1 →
      s.θ e.bus1 = s.θ e.bus2 → e.bus1 ≠ e.bus2 → entryOf (n.iij s e l) e.bus1 1 = 1 := by
  have hg : (⟨tag, 0, 1, 2, 0, 0⟩ : Line).g = 0 := by simp [Line.g, Complex.inv_re]
  have hb : (⟨tag, 0, 1, 2, 0, 0⟩ : Line).b = -1 := by simp [Line.b, Complex.inv_im, Complex.normSq_apply]
  refine ⟨?_, ?_⟩
  · intro v1 v2 h1 h2
    simp only [Line.h, Line.hpij, Line.hqij, Line.gc, Line.gd, hg, hb, Line.B, Line.t, Line.sh]
    norm_num
    rw [show v1 * v2 * (v1 * v2) = (v1 * v2) ^ 2 by ring, Real.sqrt_sq (by positivity)]
    field_simp
  · intro n e s hr h1 h2 h3 hne
    unfold Net.iij
    simp only []
    rw [entryOf_eq_sum _ (two_pairs _ _ _ hne _ _ _ _).1]
    simp only [Net.pair, hr, h1, h2, h3, hg, hb, sub_self, Real.cos_zero, Real.sin_zero]
    have hne' : e.bus2 ≠ e.bus1 := fun q => hne q.symm
    cases hr2 : (n.bus e.bus2).ref <;> norm_num [hne']

/-! ### The measured quantities are the line flows -/

/-- Current into the line at bus `i`, from the admittances `y = (Y_ii, Y_ij)` of the line. -/
noncomputable def lineCurrent (y : ℂ × ℂ) (s : State) (i j : Nat) : ℂ := y.1 * s.volt i + y.2 * s.volt j

theorem loadLine_x (d : LineData) (hx : 1 / 100000 ≤ |d.x|) : (loadLine d).x = d.x := by
  unfold loadLine
  simp only []
  rcases le_abs.mp hx with h | h
  · have h1 : ¬ (d.x < 1 / 100000 ∧ d.x ≥ 0) := fun q => absurd q.1 (not_lt.mpr h)
    simp only [if_neg h1]
    rw [if_neg]
    rintro ⟨_, q⟩
    linarith
  · have h1 : ¬ (d.x < 1 / 100000 ∧ d.x ≥ 0) := fun q => by linarith [q.2]
    simp only [if_neg h1]
    rw [if_neg]
    rintro ⟨q, _⟩
    rw [gt_iff_lt, neg_div] at q
    linarith

theorem z_ne (d : LineData) (hx : 1 / 100000 ≤ |d.x|) : (⟨d.r, d.x⟩ : ℂ) ≠ 0 := by
  intro q
  have : d.x = 0 := congrArg Complex.im q
  rw [this] at hx
  norm_num at hx

theorem elem_line (d : LineData) (hx : 1 / 100000 ≤ |d.x|) (hsw : d.switched = false) :
    (loadElem d).line =
      (⟨(loadLine d).g / ((loadLine d).t * (loadLine d).t),
        ((loadLine d).b + (loadLine d).B) / ((loadLine d).t * (loadLine d).t)⟩,
       ⟨-((loadLine d).g * Real.cos (loadLine d).sh + (loadLine d).b * Real.sin (loadLine d).sh) / (loadLine d).t,
        -(-((loadLine d).g * Real.sin (loadLine d).sh) + (loadLine d).b * Real.cos (loadLine d).sh) /
          (loadLine d).t⟩) ∧
    (loadElem d).lineRvrs =
      (⟨(loadLine d).g, (loadLine d).b + (loadLine d).B⟩,
       ⟨-((loadLine d).g * Real.cos (loadLine d).sh - (loadLine d).b * Real.sin (loadLine d).sh) / (loadLine d).t,
        -((loadLine d).g * Real.sin (loadLine d).sh + (loadLine d).b * Real.cos (loadLine d).sh) /
          (loadLine d).t⟩) := by
  have hz := z_ne d hx
  have hlx := loadLine_x d hx
  have hgb : (1 / (⟨d.r, d.x⟩ : ℂ)) = ⟨(loadLine d).g, (loadLine d).b⟩ := by
    unfold Line.g Line.b
    rw [hlx]
    rfl
  have hzz : (loadElem d).z ≠ 0 := hz
  have hyij : -1 / (loadElem d).z = -(⟨(loadLine d).g, (loadLine d).b⟩ : ℂ) := by
    rw [← hgb, neg_div]; rfl
  generalize hG : (loadLine d).g = g at *
  generalize hBB : (loadLine d).b = b at *
  unfold YMatrix.Elem.line YMatrix.Elem.lineRvrs
  simp only [if_pos hzz, hyij]
  by_cases htap : d.tap = 0
  · have h1 : (loadElem d).xform = false := by simp [loadElem, htap]
    have h2 : (loadLine d).t = 1 := by simp [Line.t, loadLine, htap]
    have h3 : (loadLine d).sh = 0 := by simp [Line.sh, loadLine, htap]
    have h4 : (loadLine d).B = 1 / 2 * d.b := rfl
    have h5 : (loadElem d).charging = d.b := rfl
    simp only [h1, h2, h3, h4, h5]
    refine ⟨Prod.ext ?_ ?_, Prod.ext ?_ ?_⟩
    · apply Complex.ext <;> simp <;> ring
    · apply Complex.ext <;> simp
    · apply Complex.ext <;> simp <;> ring
    · apply Complex.ext <;> simp
  · have h1 : (loadElem d).xform = true := by simp [loadElem, htap]
    have h2 : (loadLine d).t = d.tap := by simp [Line.t, loadLine, htap]
    have h3 : (loadLine d).sh = -(d.shift * Real.pi / 180) := by simp [Line.sh, loadLine, htap]; ring
    have h4 : (loadLine d).B = 1 / 2 * d.b := rfl
    have h5 : (loadElem d).charging = d.b := rfl
    have h6 : (loadElem d).switched = false := hsw
    have h7 : (loadElem d).ratio = (d.tap : ℂ) *
        ⟨Real.cos (d.shift * Real.pi / 180), Real.sin (d.shift * Real.pi / 180)⟩ := rfl
    generalize d.shift * Real.pi / 180 = φ at h3 h7
    have hsc := Real.sin_sq_add_cos_sq φ
    have hu : (⟨Real.cos φ, Real.sin φ⟩ : ℂ) * (starRingEnd ℂ) ⟨Real.cos φ, Real.sin φ⟩ = 1 := by
      apply Complex.ext
      · simp; nlinarith
      · simp; ring
    have htc : (d.tap : ℂ) ≠ 0 := by exact_mod_cast htap
    have hune : (⟨Real.cos φ, Real.sin φ⟩ : ℂ) ≠ 0 := left_ne_zero_of_mul_eq_one hu
    have hune' : (starRingEnd ℂ) (⟨Real.cos φ, Real.sin φ⟩ : ℂ) ≠ 0 := right_ne_zero_of_mul_eq_one hu
    have hr : (loadElem d).ratio ≠ 0 := by rw [h7]; exact mul_ne_zero htc hune
    have hrr : (loadElem d).ratio * (starRingEnd ℂ) (loadElem d).ratio = ((d.tap * d.tap : ℝ) : ℂ) := by
      rw [h7, map_mul, Complex.conj_ofReal]
      calc (d.tap : ℂ) * ⟨Real.cos φ, Real.sin φ⟩ * ((d.tap : ℂ) * (starRingEnd ℂ) ⟨Real.cos φ, Real.sin φ⟩)
          = (d.tap : ℂ) * d.tap * ((⟨Real.cos φ, Real.sin φ⟩ : ℂ) * (starRingEnd ℂ) ⟨Real.cos φ, Real.sin φ⟩) := by
            ring
        _ = _ := by rw [hu]; push_cast; ring
    have hinv : ∀ y : ℂ, y / (starRingEnd ℂ) (loadElem d).ratio = y * ⟨Real.cos φ, Real.sin φ⟩ / d.tap := by
      intro y
      rw [h7, map_mul, Complex.conj_ofReal]
      rw [div_eq_div_iff (mul_ne_zero htc hune') htc]
      calc y * d.tap = y * d.tap * 1 := by ring
        _ = y * d.tap * ((⟨Real.cos φ, Real.sin φ⟩ : ℂ) * (starRingEnd ℂ) ⟨Real.cos φ, Real.sin φ⟩) := by rw [hu]
        _ = _ := by ring
    have hinv' : ∀ y : ℂ, y / (loadElem d).ratio = y * ⟨Real.cos φ, -Real.sin φ⟩ / d.tap := by
      intro y
      have hcj : (starRingEnd ℂ) (⟨Real.cos φ, Real.sin φ⟩ : ℂ) = ⟨Real.cos φ, -Real.sin φ⟩ := rfl
      rw [h7, div_eq_div_iff (mul_ne_zero htc hune) htc, ← hcj]
      calc y * d.tap = y * d.tap * 1 := by ring
        _ = y * d.tap * ((⟨Real.cos φ, Real.sin φ⟩ : ℂ) * (starRingEnd ℂ) ⟨Real.cos φ, Real.sin φ⟩) := by rw [hu]
        _ = _ := by ring
    simp only [h1, h2, h3, h4, h5, h6, if_pos hr, hrr, hinv, hinv', if_true, Bool.not_false, Real.cos_neg,
      Real.sin_neg, Bool.false_eq_true, if_false]
    refine ⟨Prod.ext ?_ ?_, Prod.ext ?_ ?_⟩
    · apply Complex.ext
      · simp only [Complex.div_ofReal_re]; simp
      · simp only [Complex.div_ofReal_im]; simp; ring
    · apply Complex.ext
      · simp only [Complex.div_ofReal_re]; simp; ring
      · simp only [Complex.div_ofReal_im]; simp
    · apply Complex.ext <;> simp <;> ring
    · apply Complex.ext
      · simp only [Complex.div_ofReal_re]; simp
      · simp only [Complex.div_ofReal_im]; simp

/-- Data of the line named by a tag. -/
theorem find_of_filter (ds : List LineData) (ckt : List Char) (d : LineData)
    (h : ds.filter (fun d => d.tag = ckt) = [d]) :
    (ds.map loadElem).find? (fun e => e.tag = ckt) = some (loadElem d) ∧
    (ds.map loadLine).filter (fun l => l.tag = ckt) = [loadLine d] := by
  constructor
  · rw [List.find?_map]
    have hf : ds.find? ((fun e : YMatrix.Elem => decide (e.tag = ckt)) ∘ loadElem) = some d := by
      have : ((fun e : YMatrix.Elem => decide (e.tag = ckt)) ∘ loadElem) = (fun d : LineData => decide (d.tag = ckt)) :=
        rfl
      rw [this, ← List.head?_filter, h]
      rfl
    rw [hf]
    rfl
  · rw [List.filter_map]
    have : ((fun l : Line => decide (l.tag = ckt)) ∘ loadLine) = (fun d : LineData => decide (d.tag = ckt)) := rfl
    rw [this, h]
    rfl

theorem volt_self (s : State) (i : Nat) (g b : ℝ) :
    s.volt i * (starRingEnd ℂ) ((⟨g, b⟩ : ℂ) * s.volt i) = ⟨s.v i * s.v i * g, -(s.v i * s.v i * b)⟩ := by
  rw [volt_mul]
  simp

/-- The quantity of a branch measurement in terms of the power flows and the current of the line that the
admittance matrix has: power (per unit) into the line at either end, magnitude of the current into the line. -/
noncomputable def branchQuantity (es : List YMatrix.Elem) (s : State) (i j : Nat) (sbase : ℝ) (tag : List Char) :
    BrType → ℝ
  | .PIJ => (getComplexPower es s i j sbase tag).re / sbase
  | .QIJ => (getComplexPower es s i j sbase tag).im / sbase
  | .IIJ => ‖lineCurrent (YMatrix.getLineElements es tag) s i j‖
  | .PJI => (getRvrsComplexPower es s i j sbase tag).re / sbase
  | .QJI => (getRvrsComplexPower es s i j sbase tag).im / sbase
  | .IJI => ‖lineCurrent (YMatrix.getRvrsLineElements es tag) s j i‖

theorem mul_base (z : ℂ) (sbase : ℝ) (hs : sbase ≠ 0) :
    (z * (sbase : ℂ)).re / sbase = z.re ∧ (z * (sbase : ℂ)).im / sbase = z.im := by
  simp [hs]

theorem cis_add (g b a c : ℝ) :
    g * Real.cos (a + c) + b * Real.sin (a + c) =
      (g * Real.cos c + b * Real.sin c) * Real.cos a + (-(g * Real.sin c) + b * Real.cos c) * Real.sin a := by
  rw [Real.cos_add, Real.sin_add]; ring

theorem sic_add (g b a c : ℝ) :
    g * Real.sin (a + c) - b * Real.cos (a + c) =
      (g * Real.cos c + b * Real.sin c) * Real.sin a - (-(g * Real.sin c) + b * Real.cos c) * Real.cos a := by
  rw [Real.cos_add, Real.sin_add]; ring

theorem flow_from (d : LineData) (hx : 1 / 100000 ≤ |d.x|) (hsw : d.switched = false) (s : State) (i j : Nat) :
    s.volt i * (starRingEnd ℂ) (lineCurrent (loadElem d).line s i j) =
      ⟨(loadLine d).hpij (s.v i) (s.v j) (s.θ i - s.θ j), (loadLine d).hqij (s.v i) (s.v j) (s.θ i - s.θ j)⟩ := by
  unfold lineCurrent
  rw [(elem_line d hx hsw).1, map_add, mul_add, volt_self, volt_mul]
  unfold Line.hpij Line.hqij Line.gc Line.gd
  rw [cis_add, sic_add]
  apply Complex.ext
  · simp only [Complex.add_re]; ring
  · simp only [Complex.add_im]; ring

theorem flow_to (d : LineData) (hx : 1 / 100000 ≤ |d.x|) (hsw : d.switched = false) (s : State) (i j : Nat) :
    s.volt j * (starRingEnd ℂ) (lineCurrent (loadElem d).lineRvrs s j i) =
      ⟨(loadLine d).hpji (s.v i) (s.v j) (s.θ i - s.θ j), (loadLine d).hqji (s.v i) (s.v j) (s.θ i - s.θ j)⟩ := by
  unfold lineCurrent
  rw [(elem_line d hx hsw).2, map_add, mul_add, volt_self, volt_mul]
  unfold Line.hpji Line.hqji Line.gc Line.gd
  have h : -(s.θ i - s.θ j) - (loadLine d).sh = (s.θ j - s.θ i) + -(loadLine d).sh := by ring
  rw [h, cis_add, sic_add, Real.cos_neg, Real.sin_neg]
  apply Complex.ext
  · simp only [Complex.add_re]; ring
  · simp only [Complex.add_im]; ring

theorem norm_volt (s : State) (i : Nat) (hv : 0 < s.v i) : ‖s.volt i‖ = s.v i := by
  rw [Complex.norm_def, Complex.normSq_apply]
  simp only [State.volt]
  have : s.v i * Real.cos (s.θ i) * (s.v i * Real.cos (s.θ i)) + s.v i * Real.sin (s.θ i) * (s.v i * Real.sin (s.θ i))
      = s.v i * s.v i := by
    have := Real.sin_sq_add_cos_sq (s.θ i)
    calc _ = s.v i * s.v i * (Real.sin (s.θ i) ^ 2 + Real.cos (s.θ i) ^ 2) := by ring
      _ = _ := by rw [this, mul_one]
  rw [this, Real.sqrt_mul_self hv.le]

theorem h_eq (d : LineData) (hx : 1 / 100000 ≤ |d.x|) (hsw : d.switched = false) (ds : List LineData)
    (hd : ds.filter (fun d' => d'.tag = d.tag) = [d]) (s : State) (i j : Nat) (hv : 0 < s.v i)
    (sbase : ℝ) (hs : sbase ≠ 0) (ty : BrType) (hty : ty ≠ .IJI) :
    (loadLine d).h (s.v i) (s.v j) (s.θ i - s.θ j) ty =
      branchQuantity (ds.map loadElem) s i j sbase d.tag ty := by
  have hf := (find_of_filter ds d.tag d hd).1
  have hf1 : YMatrix.getLineElements (ds.map loadElem) d.tag = (loadElem d).line := by
    unfold YMatrix.getLineElements; rw [hf]
  have hf2 : YMatrix.getRvrsLineElements (ds.map loadElem) d.tag = (loadElem d).lineRvrs := by
    unfold YMatrix.getRvrsLineElements; rw [hf]
  have h1 := flow_from d hx hsw s i j
  have h2 := flow_to d hx hsw s i j
  have hP1 : getComplexPower (ds.map loadElem) s i j sbase d.tag =
      ⟨(loadLine d).hpij (s.v i) (s.v j) (s.θ i - s.θ j), (loadLine d).hqij (s.v i) (s.v j) (s.θ i - s.θ j)⟩ *
        (sbase : ℂ) := by
    rw [← h1]; unfold getComplexPower; rw [hf1]; rfl
  have hP2 : getRvrsComplexPower (ds.map loadElem) s i j sbase d.tag =
      ⟨(loadLine d).hpji (s.v i) (s.v j) (s.θ i - s.θ j), (loadLine d).hqji (s.v i) (s.v j) (s.θ i - s.θ j)⟩ *
        (sbase : ℂ) := by
    rw [← h2]; unfold getRvrsComplexPower; rw [hf2]; rfl
  cases ty with
  | IJI => exact absurd rfl hty
  | PIJ => simp only [Line.h, branchQuantity, hP1, (mul_base _ _ hs).1]
  | QIJ => simp only [Line.h, branchQuantity, hP1, (mul_base _ _ hs).2]
  | PJI => simp only [Line.h, branchQuantity, hP2, (mul_base _ _ hs).1]
  | QJI => simp only [Line.h, branchQuantity, hP2, (mul_base _ _ hs).2]
  | IIJ =>
    have hn := congrArg norm h1
    rw [norm_mul, norm_volt s i hv, RCLike.norm_conj] at hn
    rw [Complex.norm_def (Complex.mk _ _), Complex.normSq_apply] at hn
    simp only [Line.h, branchQuantity, hf1]
    rw [eq_comm, eq_div_iff hv.ne', mul_comm]
    exact hn

/-- C127, C128 for branches.  A branch whose lines were loaded from the data `ds`, no end isolated, all
measurements of handled types: if measurement `k` names a line that occurs once, is not a switched transformer
and has a reactance of at least 1e-5, then residual `k` is the measured value minus the quantity computed from
the line's part of the admittance matrix, for every state. -/
theorem C127_branch_residuals_partial (n : Net) (s : State) (e : Branch) (hok : e.ok n = true)
    (ds : List LineData) (hlines : e.lines = ds.map loadLine) (ht : ∀ m ∈ e.meas, m.type ≠ .IJI) (k : Nat)
    (m : BrMeas) (hk : e.meas[k]? = some m) (d : LineData) (hd : ds.filter (fun d' => d'.tag = m.ckt) = [d])
    (hx : 1 / 100000 ≤ |d.x|) (hsw : d.switched = false) (hv : 0 < s.v e.bus1) (sbase : ℝ) (hs : sbase ≠ 0) :
    (n.brResiduals s e)[k]? =
      some (m.value - branchQuantity (ds.map loadElem) s e.bus1 e.bus2 sbase m.ckt m.type) := by
  have hl : e.lines.filter (fun l => l.tag = m.ckt) = [loadLine d] := by
    rw [hlines]; exact (find_of_filter ds m.ckt d hd).2
  rw [brResiduals_get n s e hok ht k m (loadLine d) hk hl]
  have htag : d.tag = m.ckt := by
    have : d ∈ ds.filter (fun d' => d'.tag = m.ckt) := by rw [hd]; simp
    simpa using (List.mem_filter.mp this).2
  rw [← htag] at hd ⊢
  rw [h_eq d hx hsw ds hd s e.bus1 e.bus2 hv sbase hs m.type (ht m (List.mem_of_getElem? hk))]

/-- C127 is violated by a line out of service: the residuals do not depend on the status of any line, so a
measurement on an open line is compared with the flow the line would have in service. -/
theorem C127_out_of_service_violated (n : Net) (s : State) (e e' : Branch) (ds : List LineData) (st : LineData → Int)
    (h1 : e.lines = ds.map loadLine) (h2 : e' = { e with
      lines := (ds.map (fun d => { d with status := st d })).map loadLine }) :
    n.brResiduals s e' = n.brResiduals s e := by
  have : (ds.map (fun d => { d with status := st d })).map loadLine = ds.map loadLine := by
    rw [List.map_map]
    rfl
  rw [h2, this, ← h1]

/-- C127 is violated by a switched transformer (ratio on the "to" side): with ratio 2 and impedance j, the
residual of a reactive measurement at the "from" end is taken with a quarter of the self-admittance. -/
theorem C127_switched_violated (tag : List Char) :
    let d : LineData := ⟨tag, 0, 1, 0, 2, 0, 0, 0, 0, 0, 1, true⟩
    let s : State := ⟨fun _ => 1, fun _ => 0⟩
    (loadLine d).h 1 1 0 .QIJ = -1 / 4 ∧ branchQuantity [loadElem d] s 0 1 1 tag .QIJ = 1 / 2 := by
  have hg : (loadLine ⟨tag, 0, 1, 0, 2, 0, 0, 0, 0, 0, 1, true⟩).g = 0 := by
    norm_num [Line.g, loadLine, Complex.inv_re]
  have hb : (loadLine ⟨tag, 0, 1, 0, 2, 0, 0, 0, 0, 0, 1, true⟩).b = -1 := by
    norm_num [Line.b, loadLine, Complex.inv_im, Complex.normSq_apply]
  constructor
  · unfold Line.h Line.hqij Line.gd
    rw [hg, hb]
    norm_num [Line.B, Line.t, Line.sh, loadLine]
  · have hi : (⟨1, 0⟩ : ℂ) = 1 := rfl
    have hI : (⟨0, 1⟩ : ℂ) = Complex.I := rfl
    simp [branchQuantity, getComplexPower, YMatrix.getLineElements, YMatrix.Elem.line, loadElem, YMatrix.Elem.z,
      YMatrix.Elem.ratio, State.volt, hi, hI]
    have h2 : (starRingEnd ℂ) (2 : ℂ) = ((2 : ℝ) : ℂ) := by
      rw [show (2 : ℂ) = ((2 : ℝ) : ℂ) by norm_num, Complex.conj_ofReal]
    rw [h2, Complex.div_ofReal_im]
    norm_num

/-- C128 is violated by a current measurement at the "to" end: for every branch and state, the residual of the
measurement after it is stored in its place. -/
theorem C128_current_to_end_violated (n : Net) (s : State) (e : Branch) (hok : e.ok n = true) (m m' : BrMeas)
    (hm : m.type = .IJI) (hms : e.meas = [m, m']) (l : Line)
    (hl : e.lines.filter (fun l => l.tag = m'.ckt) = [l]) (hm' : m'.type ≠ .IJI) :
    n.brResiduals s e = [m'.value - l.h (s.v e.bus1) (s.v e.bus2) (s.θ e.bus1 - s.θ e.bus2) m'.type] := by
  unfold Net.brResiduals
  rw [if_pos hok, hms]
  have h1 : e.resStep (s.v e.bus1) (s.v e.bus2) (s.θ e.bus1 - s.θ e.bus2) ((0, 0), []) m = ((0, 0), []) := by
    unfold Branch.resStep; rw [hm]
  rw [List.foldl_cons, h1]
  obtain ⟨x, hx, hxl⟩ := resStep_append e (s.v e.bus1) (s.v e.bus2) (s.θ e.bus1 - s.θ e.bus2) ((0, 0), []) m' hm'
  rw [List.foldl_cons, List.foldl_nil, hx, hxl l hl, List.nil_append]

/-- C128 is violated by a measurement naming no line of the branch: it is compared with the flow of the
measurement before it. -/
theorem C128_unknown_line_violated (n : Net) (s : State) (e : Branch) (hok : e.ok n = true) (m m' : BrMeas)
    (hm : m.type = .PIJ) (hm' : m'.type = .PIJ) (hms : e.meas = [m, m']) (l : Line)
    (hl : e.lines.filter (fun l => l.tag = m.ckt) = [l]) (hl' : e.lines.filter (fun l => l.tag = m'.ckt) = []) :
    (n.brResiduals s e)[1]? =
      some (m'.value - l.hpij (s.v e.bus1) (s.v e.bus2) (s.θ e.bus1 - s.θ e.bus2)) := by
  unfold Net.brResiduals
  rw [if_pos hok, hms]
  simp only [List.foldl_cons, List.foldl_nil, Branch.resStep, hm, hm']
  rw [scan_one e m.ckt l hl]
  unfold Branch.scan
  rw [scan_fold, hl']
  simp

/-- A branch meeting the hypotheses: a line with impedance 0.1+j, charging 0.2 and a transformer with ratio 0.9
and shift 30 degrees, real power measured on both. -/
noncomputable def exData : List LineData :=
  [⟨['1'], 1 / 10, 1, 0, 0, 1 / 5, 0, 0, 0, 0, 1, false⟩, ⟨['2'], 0, 1 / 2, 30, 9 / 10, 0, 0, 0, 0, 0, 1, false⟩]

example :
    let e : Branch := ⟨0, 1, 0, 0, 0, 0, true, exData.map loadLine,
      [⟨.PIJ, ['1'], 1, 1⟩, ⟨.IIJ, ['2'], 1, 1⟩]⟩
    e.ok (exNet false) = true ∧ (∀ m ∈ e.meas, m.type ≠ .IJI) ∧
    (∀ m ∈ e.meas, ∃ d, exData.filter (fun d' => d'.tag = m.ckt) = [d] ∧ 1 / 100000 ≤ |d.x| ∧
      d.switched = false) := by
  refine ⟨by simp [Branch.ok, exNet], by simp, ?_⟩
  intro m hm
  simp only [List.mem_cons, List.not_mem_nil, or_false] at hm
  rcases hm with rfl | rfl
  · exact ⟨_, by simp [exData]; rfl, by norm_num, rfl⟩
  · exact ⟨_, by simp [exData]; rfl, by norm_num [abs_of_pos], rfl⟩

end GridPACK.StateEst
