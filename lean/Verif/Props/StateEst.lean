import Verif.Lemmas.StateEst
import Mathlib.Tactic.NormNum

/-! C125: derivatives of bus measurements.  C128 (buses): residuals. -/
namespace GridPACK.StateEst

theorem sum_add_map (l : List Branch) (f g : Branch → ℝ) :
    (l.map (fun e => f e + g e)).sum = (l.map f).sum + (l.map g).sum := by
  induction l with
  | nil => simp
  | cons a l ih => simp only [List.map_cons, List.sum_cons, ih]; ring

theorem sum_mul_map (l : List Branch) (f : Branch → ℝ) (c : ℝ) :
    (l.map (fun e => f e * c)).sum = (l.map f).sum * c := by
  induction l with
  | nil => simp
  | cons a l ih => simp only [List.map_cons, List.sum_cons, ih]; ring

theorem dot_flatMap (l : List Branch) (f : Branch → List Entry) (d : Nat → Nat → ℝ) :
    dot (l.flatMap f) d = (l.map (fun e => dot (f e) d)).sum := by
  induction l with
  | nil => simp [dot]
  | cons a l ih => rw [List.flatMap_cons, dot_append, ih, List.map_cons, List.sum_cons]

theorem comb (l : List Branch) (f' f off r1 r2 : Branch → ℝ) (v dv da c1 c2 c3 : ℝ)
    (h : ∀ e, f' e * v + f e * dv = off e + (r1 e * da + r2 e * dv)) (hc : c1 * v + c2 * dv = c3 * dv) :
    ((l.map f').sum + c1) * v + ((l.map f).sum + c2) * dv =
      (l.map off).sum + ((l.map r1).sum * da + ((l.map r2).sum + c3) * dv) := by
  induction l with
  | nil => simp only [List.map_nil, List.sum_nil]; linarith
  | cons a l ih => simp only [List.map_cons, List.sum_cons]; linarith [h a]

/-- Values written for a bus measurement, when no neighbour is isolated. -/
theorem busEntries_dot (n : Net) (s : State) (i : Nat) (hi : (n.bus i).iso = false)
    (hn : ∀ e ∈ n.neighbors i, e.ok n = true) (m : BusMeas) (hm : m.type ≠ .other) (d : Nat → Nat → ℝ) :
    HasDerivAt (fun t => n.hBus (n.correct s (fun j c => t * d j c)) i m.type)
      (dot (n.busEntries s i m) d) 0 := by
  have hv := fun j => (lin (s.v j) (n.dv d j))
  have ha := fun j => (lin (s.θ j) (n.da d j))
  unfold Net.busEntries Net.hBus
  simp only [correct_v, correct_a]
  rw [hi, if_pos (by simp)]
  cases h : m.type with
  | other => exact absurd h hm
  | VM =>
    refine (hv i).congr_deriv ?_
    simp only [pair_dot n d i _ _ hi]; ring
  | VA =>
    refine (ha i).congr_deriv ?_
    simp only [pair_dot n d i _ _ hi]; ring
  | PI =>
    have hterm := fun e (_ : e ∈ n.neighbors i) =>
      ((hv (e.far i)).mul (d_gc (e.y i).1 (e.y i).2 ((ha i).sub (ha (e.far i)))))
    have hsum := d_list (n.neighbors i) _ _ 0 hterm
    have := (hsum.add ((hv i).mul_const (n.bus i).g)).mul (hv i)
    refine this.congr_deriv ?_
    obtain ⟨h1, h2, h3⟩ := busLoop_eq n s i hn (0, 0) (fun e => e.piOff n s i) (fun e => e.piRet s i)
    simp only [h1, h2, h3, dot_append, dot_flatMap, pair_dot n d i _ _ hi]
    have hoff : (n.neighbors i).map (fun e => dot (e.piOff n s i (e.seen s i)) d) =
        (n.neighbors i).map (fun e =>
          s.v i * s.v (e.far i) * ((e.y i).1 * Real.sin (s.θ i - s.θ (e.far i)) -
            (e.y i).2 * Real.cos (s.θ i - s.θ (e.far i))) * n.da d (e.far i) +
          s.v i * ((e.y i).1 * Real.cos (s.θ i - s.θ (e.far i)) +
            (e.y i).2 * Real.sin (s.θ i - s.θ (e.far i))) * n.dv d (e.far i)) := by
      apply List.map_congr_left
      intro e he
      unfold Branch.piOff
      simp only [pair_dot n d _ _ _ (far_iso (hn e he)), Branch.seen]
    rw [hoff]
    simp only [Pi.sub_apply, Pi.mul_apply, Pi.add_apply, zero_mul, add_zero, Branch.piRet, Branch.seen]
    refine comb _ _ _ _ _ _ _ _ _ _ _ _ (fun e => ?_) ?_
    · ring
    · ring
  | QI =>
    have hterm := fun e (_ : e ∈ n.neighbors i) =>
      ((hv (e.far i)).mul (d_gd (e.y i).1 (e.y i).2 ((ha i).sub (ha (e.far i)))))
    have hsum := d_list (n.neighbors i) _ _ 0 hterm
    have := (hsum.sub ((hv i).mul_const (n.bus i).b)).mul (hv i)
    refine this.congr_deriv ?_
    obtain ⟨h1, h2, h3⟩ := busLoop_eq n s i hn (0, 0) (fun e => e.qiOff n s i) (fun e => e.qiRet s i)
    simp only [h1, h2, h3, dot_append, dot_flatMap, pair_dot n d i _ _ hi]
    have hoff : (n.neighbors i).map (fun e => dot (e.qiOff n s i (e.seen s i)) d) =
        (n.neighbors i).map (fun e =>
          s.v i * s.v (e.far i) * (-(e.y i).1 * Real.cos (s.θ i - s.θ (e.far i)) -
            (e.y i).2 * Real.sin (s.θ i - s.θ (e.far i))) * n.da d (e.far i) +
          s.v i * ((e.y i).1 * Real.sin (s.θ i - s.θ (e.far i)) -
            (e.y i).2 * Real.cos (s.θ i - s.θ (e.far i))) * n.dv d (e.far i)) := by
      apply List.map_congr_left
      intro e he
      unfold Branch.qiOff
      simp only [pair_dot n d _ _ _ (far_iso (hn e he)), Branch.seen]
    rw [hoff]
    simp only [Pi.sub_apply, Pi.mul_apply, zero_mul, add_zero, Branch.qiRet, Branch.seen, sub_eq_add_neg _ (n.dv d i * _),
      sub_eq_add_neg _ (s.v i * (n.bus i).b), sub_eq_add_neg _ (2 * s.v i * (n.bus i).b)]
    refine comb _ _ _ _ _ _ _ _ _ _ _ _ (fun e => ?_) ?_
    · ring
    · ring

theorem offs_keys (n : Net) (i : Nat) (l : List Branch) (hl : (l.map (fun e => e.far i)).Nodup)
    (a m : Branch → ℝ) :
    ((l.flatMap (fun e => n.pair (e.far i) (a e) (m e))).map Entry.key).Nodup ∧
    (∀ x ∈ l.flatMap (fun e => n.pair (e.far i) (a e) (m e)), ∃ e ∈ l, x.1 = e.far i ∧ x.2.1 < 2) := by
  induction l with
  | nil => simp
  | cons e l ih =>
    rw [List.map_cons, List.nodup_cons] at hl
    obtain ⟨h1, h2⟩ := ih hl.2
    constructor
    · rw [List.flatMap_cons, List.map_append, List.nodup_append]
      refine ⟨pair_nodup _ _ _ _, h1, ?_⟩
      intro k hk k' hk' hkk
      subst hkk
      obtain ⟨x, hx, rfl⟩ := List.mem_map.mp hk
      obtain ⟨x', hx', hxx⟩ := List.mem_map.mp hk'
      obtain ⟨e', he', hf, _⟩ := h2 x' hx'
      have h3 := (pair_mem _ _ _ _ _ hx).1
      have h4 : x'.1 = x.1 := (Prod.mk.inj hxx).1
      exact hl.1 (List.mem_map.mpr ⟨e', he', by rw [← hf, h4, h3]⟩)
    · intro x hx
      rw [List.flatMap_cons, List.mem_append] at hx
      rcases hx with hx | hx
      · exact ⟨e, by simp, pair_mem _ _ _ _ _ hx⟩
      · obtain ⟨e', he', h⟩ := h2 x hx
        exact ⟨e', by simp [he'], h⟩

theorem busEntries_keys (n : Net) (hl : n.NoLoops) (hs : n.Simple) (s : State) (i : Nat)
    (hi : (n.bus i).iso = false) (hn : ∀ e ∈ n.neighbors i, e.ok n = true) (m : BusMeas) :
    ((n.busEntries s i m).map Entry.key).Nodup ∧
    (∀ x ∈ n.busEntries s i m, (x.1 = i ∨ ∃ e ∈ n.neighbors i, x.1 = e.far i) ∧ x.2.1 < 2) := by
  have main : ∀ (a m : Branch → ℝ) (a' m' : ℝ),
      ((((n.neighbors i).flatMap (fun e => n.pair (e.far i) (a e) (m e))) ++ n.pair i a' m').map
        Entry.key).Nodup ∧
      (∀ x ∈ ((n.neighbors i).flatMap (fun e => n.pair (e.far i) (a e) (m e))) ++ n.pair i a' m',
        (x.1 = i ∨ ∃ e ∈ n.neighbors i, x.1 = e.far i) ∧ x.2.1 < 2) := by
    intro a m a' m'
    obtain ⟨h1, h2⟩ := offs_keys n i (n.neighbors i) (hs i) a m
    constructor
    · rw [List.map_append, List.nodup_append]
      refine ⟨h1, pair_nodup _ _ _ _, ?_⟩
      intro k hk k' hk' hkk
      subst hkk
      obtain ⟨x, hx, rfl⟩ := List.mem_map.mp hk
      obtain ⟨x', hx', hxx⟩ := List.mem_map.mp hk'
      obtain ⟨e, he, hf, _⟩ := h2 x hx
      have h3 := (pair_mem _ _ _ _ _ hx').1
      have h4 : x'.1 = x.1 := (Prod.mk.inj hxx).1
      exact far_ne hl he (by rw [← hf, ← h4, h3])
    · intro x hx
      rw [List.mem_append] at hx
      rcases hx with hx | hx
      · obtain ⟨e, he, hf, h⟩ := h2 x hx
        exact ⟨Or.inr ⟨e, he, hf⟩, h⟩
      · have := pair_mem _ _ _ _ _ hx
        exact ⟨Or.inl this.1, this.2⟩
  have own : ∀ a' m' : ℝ, ((n.pair i a' m').map Entry.key).Nodup ∧
      (∀ x ∈ n.pair i a' m', (x.1 = i ∨ ∃ e ∈ n.neighbors i, x.1 = e.far i) ∧ x.2.1 < 2) := fun a' m' =>
    ⟨pair_nodup _ _ _ _, fun x hx => ⟨Or.inl (pair_mem _ _ _ _ _ hx).1, (pair_mem _ _ _ _ _ hx).2⟩⟩
  unfold Net.busEntries
  rw [hi, if_pos (by simp)]
  cases h : m.type with
  | other => simp
  | VM => exact own _ _
  | VA => exact own _ _
  | PI =>
    obtain ⟨_, _, h3⟩ := busLoop_eq n s i hn (0, 0) (fun e => e.piOff n s i) (fun e => e.piRet s i)
    simp only [h3]
    exact main _ _ _ _
  | QI =>
    obtain ⟨_, _, h3⟩ := busLoop_eq n s i hn (0, 0) (fun e => e.qiOff n s i) (fun e => e.qiRet s i)
    simp only [h3]
    exact main _ _ _ _

/-- C125.  Bus measurements (voltage magnitude, angle, real and reactive injection) on a network without
self-loops and doubled branches, at a bus that is not isolated and has no isolated neighbour: for every state,
every measurement `k` of the bus and every correction `d` of the unknowns, the residual changes along `d` by
minus row times `d`, where the row is the one the Jacobian matrix gets.  `B` is any set of buses containing the
bus and its neighbours. -/
theorem C125_bus_jacobian_partial (n : Net) (hl : n.NoLoops) (hs : n.Simple) (s : State) (i : Nat)
    (hi : (n.bus i).iso = false) (hn : ∀ e ∈ n.neighbors i, e.ok n = true)
    (ht : ∀ m ∈ (n.bus i).meas, m.type ≠ .other) (k : Nat) (m : BusMeas) (hk : (n.bus i).meas[k]? = some m)
    (w : ℝ × ℝ) (B : Finset Nat) (hB : i ∈ B ∧ ∀ e ∈ n.neighbors i, e.far i ∈ B) (d : Nat → Nat → ℝ) :
    HasDerivAt (fun t => ((n.busResiduals (n.correct s (fun j c => t * d j c)) i w)[k]?).getD 0)
      (-∑ j ∈ B, ∑ c ∈ Finset.range 2, entryOf (n.busEntries s i m) j c * d j c) 0 := by
  have hm : m ∈ (n.bus i).meas := List.mem_of_getElem? hk
  obtain ⟨h1, h2⟩ := busEntries_keys n hl hs s i hi hn m
  rw [row_dot _ h1 B (fun e he => ⟨?_, (h2 e he).2⟩) d]
  · simp only [busResiduals_eq n _ i hi hn ht w, List.getElem?_map, hk, Option.map_some, Option.getD_some]
    exact (busEntries_dot n s i hi hn m (ht m hm) d).const_sub m.value
  · rcases (h2 e he).1 with h | ⟨e', he', h⟩
    · rw [h]; exact hB.1
    · rw [h]; exact hB.2 e' he'

/-! ### Residuals of a bus -/

/-- Complex power injected at bus `i`: `V_i · conj(Y_ii V_i + Σ Y_ij V_j)`, with the forward admittance of the branches
that start at `i` and the reverse admittance of those that end there. -/
noncomputable def Net.injection (n : Net) (s : State) (i : Nat) : ℂ :=
  s.volt i * (starRingEnd ℂ) ((⟨(n.bus i).g, (n.bus i).b⟩ : ℂ) * s.volt i +
    ((n.neighbors i).map (fun e => if e.bus1 = i then (⟨e.gf, e.bf⟩ : ℂ) * s.volt e.bus2
      else (⟨e.gr, e.br⟩ : ℂ) * s.volt e.bus1)).sum)

/-- The measured quantity. -/
noncomputable def Net.busQuantity (n : Net) (s : State) (i : Nat) : BusType → ℝ
  | .VM => s.v i
  | .VA => s.θ i
  | .PI => (n.injection s i).re
  | .QI => (n.injection s i).im
  | .other => 0

theorem volt_mul (s : State) (i j : Nat) (g b : ℝ) :
    s.volt i * (starRingEnd ℂ) ((⟨g, b⟩ : ℂ) * s.volt j) =
      ⟨s.v i * s.v j * (g * Real.cos (s.θ i - s.θ j) + b * Real.sin (s.θ i - s.θ j)),
       s.v i * s.v j * (g * Real.sin (s.θ i - s.θ j) - b * Real.cos (s.θ i - s.θ j))⟩ := by
  apply Complex.ext
  · simp [State.volt, Complex.mul_re, Complex.mul_im, Real.cos_sub, Real.sin_sub]; ring
  · simp [State.volt, Complex.mul_re, Complex.mul_im, Real.cos_sub, Real.sin_sub]; ring

theorem volt_sum (s : State) (i : Nat) (l : List Branch) :
    s.volt i * (starRingEnd ℂ) ((l.map (fun e => (⟨(e.y i).1, (e.y i).2⟩ : ℂ) * s.volt (e.far i))).sum) =
      ⟨(l.map (fun e => s.v (e.far i) * ((e.y i).1 * Real.cos (s.θ i - s.θ (e.far i)) +
        (e.y i).2 * Real.sin (s.θ i - s.θ (e.far i))))).sum * s.v i,
       (l.map (fun e => s.v (e.far i) * ((e.y i).1 * Real.sin (s.θ i - s.θ (e.far i)) -
        (e.y i).2 * Real.cos (s.θ i - s.θ (e.far i))))).sum * s.v i⟩ := by
  induction l with
  | nil => apply Complex.ext <;> simp
  | cons e l ih =>
    rw [List.map_cons, List.sum_cons, map_add, mul_add, ih, volt_mul]
    apply Complex.ext
    · simp only [Complex.add_re, List.map_cons, List.sum_cons]; ring
    · simp only [Complex.add_im, List.map_cons, List.sum_cons]; ring

theorem hBus_eq (n : Net) (s : State) (i : Nat) (ty : BusType) :
    n.hBus s i ty = n.busQuantity s i ty := by
  have e : (fun e : Branch => if e.bus1 = i then (⟨e.gf, e.bf⟩ : ℂ) * s.volt e.bus2
      else (⟨e.gr, e.br⟩ : ℂ) * s.volt e.bus1) = fun e => (⟨(e.y i).1, (e.y i).2⟩ : ℂ) * s.volt (e.far i) := by
    funext e
    by_cases h : e.bus1 = i <;> simp [Branch.y, Branch.far, h]
  unfold Net.hBus Net.busQuantity Net.injection
  rw [e, map_add, mul_add, volt_mul, volt_sum]
  cases ty <;> simp <;> ring

/-- C128, buses.  When no neighbour is isolated and all types are handled, residual `k` of a bus is measurement
`k` minus the measured quantity: the voltage, its angle, or the power `V·conj(Y V)` injected at the bus; nothing
else and nothing uninitialised enters. -/
theorem C128_bus_residuals_partial (n : Net) (s : State) (i : Nat) (hi : (n.bus i).iso = false)
    (hn : ∀ e ∈ n.neighbors i, e.ok n = true) (ht : ∀ m ∈ (n.bus i).meas, m.type ≠ .other) (w : ℝ × ℝ) :
    n.busResiduals s i w = (n.bus i).meas.map (fun m => m.value - n.busQuantity s i m.type) := by
  rw [busResiduals_eq n s i hi hn ht w]
  simp only [hBus_eq]

/-- C128 is violated by a measurement of an accepted but unhandled type: for every bus and state, the residual
of the measurement after it is stored in its place, and nothing is stored for the last one. -/
theorem C128_unhandled_type_violated (n : Net) (s : State) (i : Nat) (hi : (n.bus i).iso = false) (w : ℝ × ℝ)
    (z z' : ℝ) (σ σ' : ℝ) (hm : (n.bus i).meas = [⟨.other, z, σ⟩, ⟨.VM, z', σ'⟩]) :
    n.busResiduals s i w = [z' - s.v i] := by
  unfold Net.busResiduals
  rw [hm, hi]
  rfl

/-- C128 is violated next to an isolated bus: the residual of an injection measurement then depends on what the
uninitialised local variables contain. -/
theorem C128_isolated_neighbour_violated (n : Net) (s : State) (i : Nat) (hi : (n.bus i).iso = false)
    (e : Branch) (hn : n.neighbors i = [e]) (he : (n.bus (e.far i)).iso = true) (hy : (e.y i).1 ≠ 0)
    (hv : s.v i ≠ 0) (z σ : ℝ) (hm : (n.bus i).meas = [⟨.PI, z, σ⟩]) :
    n.busResiduals s i (0, 0) ≠ n.busResiduals s i (1, 0) := by
  have hok : e.ok n = false := by
    unfold Branch.far at he
    unfold Branch.ok
    split at he <;> simp [he]
  unfold Net.busResiduals
  rw [hm, hi]
  simp [Net.busResStep, Net.sumLoop, hn, Branch.getVTheta, hok]
  exact ⟨hy, hv⟩

/-- Two buses, a line between them, an injection and a voltage measurement at bus 1. -/
noncomputable def exNet (iso0 : Bool) : Net :=
  ⟨fun j => ⟨2, -3, 0, j == 0, j == 0 && iso0, if j = 1 then [⟨.PI, 1, 1⟩, ⟨.VM, 1, 2⟩] else []⟩,
    [⟨0, 1, -2, 3, -2, 3, true, [], []⟩]⟩

example : (exNet false).NoLoops ∧ (exNet false).Simple ∧ ((exNet false).bus 1).iso = false ∧
    (∀ e ∈ (exNet false).neighbors 1, e.ok (exNet false) = true) ∧
    (exNet false).neighbors 1 ≠ [] ∧ (∀ m ∈ ((exNet false).bus 1).meas, m.type ≠ .other) := by
  refine ⟨by simp [Net.NoLoops, exNet], ?_, rfl, by simp [Net.neighbors, exNet, Branch.ok],
    by simp [Net.neighbors, exNet], by simp [exNet]⟩
  intro i
  unfold Net.neighbors exNet
  by_cases h : (0 = i ∨ 1 = i)
  · simp [h]
  · simp [h]

/-- The row of the injection measurement at flat voltages: reactive coupling, real coupling. -/
example : entryOf ((exNet false).busEntries ⟨fun _ => 1, fun _ => 0⟩ 1 ⟨.PI, 1, 1⟩) 0 0 = -2 ∧
    entryOf ((exNet false).busEntries ⟨fun _ => 1, fun _ => 0⟩ 1 ⟨.PI, 1, 1⟩) 1 0 = 3 := by
  constructor <;>
    norm_num [entryOf, Net.busEntries, exNet, Net.busLoop, Net.neighbors, Branch.ok, Branch.piOff, Branch.piRet,
      Net.pair, Branch.getVTheta, Branch.far, Branch.y]

end GridPACK.StateEst
