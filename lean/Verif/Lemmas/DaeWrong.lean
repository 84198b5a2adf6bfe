import Verif.Lemmas.DaeNet

/-! Rows of the network matrix that are not derivatives. -/
namespace GridPACK.Dae

variable {ι : Type} [DecidableEq ι] (N : Net ι)

/-- The generators in service and their positions, by the specification. -/
theorem mem_place_start {b : Bus} {g : Gen} {k : ℕ} (hk : b.gens[k]? = some g) (hon : g.on = true) :
    (g, b.start k) ∈ (place b.gens 2).1 := (place_iff b.gens 2 g _).mpr ⟨k, hk, hon, rfl⟩

theorem Bus.start_ge (b : Bus) (k : ℕ) : 2 ≤ b.start k := by unfold Bus.start; omega

/-- The blocks follow each other. -/
theorem place_pairwise (gens : List Gen) (p : ℕ) :
    (place gens p).1.Pairwise (fun a b => a.2 + a.1.size ≤ b.2) := by
  induction gens generalizing p with
  | nil => exact List.Pairwise.nil
  | cons g gs ih =>
    simp only [place]
    split
    · refine List.pairwise_cons.mpr ⟨?_, ih _⟩
      intro b hb
      exact (place_mem hb).1
    · exact ih _

/-- Two generators have the same block or disjoint blocks. -/
theorem place_disjoint {gens : List Gen} {p : ℕ} {a b : Gen × ℕ} (ha : a ∈ (place gens p).1) (hb : b ∈ (place gens p).1)
    (hab : a ≠ b) : a.2 + a.1.size ≤ b.2 ∨ b.2 + b.1.size ≤ a.2 := by
  have h := (place_pairwise gens p).imp (S := fun a b : Gen × ℕ => a.2 + a.1.size ≤ b.2 ∨ b.2 + b.1.size ≤ a.2) (fun h => Or.inl h)
  haveI : Std.Symm (fun a b : Gen × ℕ => a.2 + a.1.size ≤ b.2 ∨ b.2 + b.1.size ≤ a.2) := ⟨fun _ _ h => h.symm⟩
  exact List.Pairwise.forall h ha hb hab

/-- A direction that leaves the valid variables alone. -/
theorem Gen.lin_zero (g : Gen) (m : Mode) (s : ℝ) (X δ : Ix → ℝ) (h : ∀ k, g.Valid k → δ k = 0) (r : Ix) :
    lin (g.jac m s X) δ r = 0 := by
  unfold lin
  apply sum_eq_zero_of_forall
  intro y hy
  obtain ⟨w, hw, rfl⟩ := List.mem_map.mp hy
  rw [h _ ((g.tidy m s X).col w hw)]
  split <;> simp

namespace Net

/-- The row of a device. -/
theorem row_sum [Fintype ι] (m : Mode) (s : ℝ) (x d : ι → ℕ → ℝ) (i : ι) (hi : (N.bus i).isolated = false)
    (gn : Gen × ℕ) (hgn : gn ∈ (place (N.bus i).gens 2).1) (ix : Ix) (hv : gn.1.Valid ix) (hn : ix.isNet = false) :
    ∑ j, ∑ c ∈ Finset.range (N.bus j).nvar, N.J m s x i j c (gn.1.pos gn.2 ix) * d j c
      = lin (gn.1.jac m s (gn.1.pushed (N.volt x i) (x i) gn.2)) (gn.1.pushed (d i 0, d i 1) (d i) gn.2) ix := by
  have hp := gn.1.pos_range (n := gn.2) hv hn
  have h5 := (place_mem hgn).1
  have hr2 : 2 ≤ gn.1.pos gn.2 ix := by omega
  have hsum : ∑ j, ∑ c ∈ Finset.range (N.bus j).nvar, N.J m s x i j c (gn.1.pos gn.2 ix) * d j c
      = ∑ c ∈ Finset.range (N.bus i).nvar, N.J m s x i i c (gn.1.pos gn.2 ix) * d i c := by
    apply Finset.sum_eq_single
    · intro j _ hij
      exact (N.off_block m s x d i j hi (Ne.symm hij)).2.2 _ hr2
    · simp
  rw [hsum, N.diag_block m s x d i hi, (linN_plusGB _ _ _).2.2 _ hr2, (linN_plusGB _ _ _).2.2 _ hr2,
    sum_eq_zero_of_forall]
  · rw [linN_place (N.bus i).gens 2 le_rfl
        (fun gp => gp.1.placedJac m s (gp.1.pushed (N.volt x i) (x i) gp.2) gp.2)
        (fun g hg w hw => (g.1.placedJac_mem m _ hw).2.1) (d i) gn hgn _ hp.1 hp.2,
        gn.1.placedJac_lin m _ (place_mem hgn).1 (d i) ix hv]
    ring
  · intro y hy
    obtain ⟨br, _, rfl⟩ := List.mem_map.mp hy
    split <;> exact (linN_plusGB _ _ _).2.2 _ hr2

/-- A row that has the wrong entry in one column of its own generator. -/
theorem wrong_row [Fintype ι] (m : Mode) (s : ℝ) (x xd xp : ι → ℕ → ℝ) (buf : ℕ → ℝ) (i : ι)
    (hi : (N.bus i).isolated = false) (gn : Gen × ℕ) (hgn : gn ∈ (place (N.bus i).gens 2).1) (ix ix0 : Ix)
    (hv : gn.1.Valid ix) (hn : ix.isNet = false) (hv0 : gn.1.Valid ix0) (a b : ℝ)
    (hF : ∀ᶠ t in nhds (0:ℝ), ∀ Y Z P : Ix → ℝ,
      (∀ k, gn.1.Valid k → Y k = gn.1.pushed (N.volt x i) (x i) gn.2 k + if k = ix0 then t else 0) →
      (∀ k, gn.1.Valid k → k.isNet = false → Z k = gn.1.pushed (N.volt x i) (xd i) gn.2 k + if k = ix0 then t * s else 0) →
      (∀ k, gn.1.Valid k → k.isNet = false → P k = gn.1.pushed (N.volt x i) (xp i) gn.2 k) →
      gn.1.resid m Y Z P ix = a + t * b)
    (hJ : ∀ δ : Ix → ℝ, (∀ k, gn.1.Valid k → δ k = if k = ix0 then 1 else 0) →
      lin (gn.1.jac m s (gn.1.pushed (N.volt x i) (x i) gn.2)) δ ix ≠ b) :
    ¬ RowIsDerivative N m s x xd xp buf i (gn.1.pos gn.2 ix) := by
  intro h
  have h2 := (place_mem hgn).1
  let d : ι → ℕ → ℝ := fun j c => if j = i ∧ c = gn.1.pos gn.2 ix0 then 1 else 0
  have hd := h d
  rw [N.row_sum m s x d i hi gn hgn ix hv hn] at hd
  have hδ : ∀ k, gn.1.Valid k → gn.1.pushed (d i 0, d i 1) (d i) gn.2 k = if k = ix0 then 1 else 0 := by
    intro k hk
    have e : gn.1.pushed (d i 0, d i 1) (d i) gn.2 k = d i (gn.1.pos gn.2 k) := by
      cases k with
      | net q =>
        have hq : q < 2 := hk
        interval_cases q <;> rfl
      | gen q => exact gn.1.pushed_pos _ _ _ _ rfl
      | exc q => exact gn.1.pushed_pos _ _ _ _ rfl
      | gov q => exact gn.1.pushed_pos _ _ _ _ rfl
    rw [e]
    simp only [d, true_and]
    by_cases hkk : k = ix0
    · simp [hkk]
    · rw [if_neg hkk, if_neg]
      exact fun e => hkk (gn.1.pos_inj h2 hk hv0 e)
  have hval : ∀ (z : ℕ → ℝ) (v v' : ℝ × ℝ) (c t : ℝ) (k : Ix), gn.1.Valid k → k.isNet = false →
      gn.1.pushed v (fun q => z q + t * (c * d i q)) gn.2 k
        = gn.1.pushed v' z gn.2 k + if k = ix0 then t * c else 0 := by
    intro z v v' c t k hk hkn
    have h3 := hδ k hk
    cases k with
    | net q => cases hkn
    | gen q =>
      have e1 : gn.1.pushed v (fun q => z q + t * (c * d i q)) gn.2 (.gen q) = gn.1.pushed v' z gn.2 (.gen q)
          + t * (c * gn.1.pushed (d i 0, d i 1) (d i) gn.2 (.gen q)) := rfl
      rw [e1, h3]
      split <;> simp
    | exc q =>
      have e1 : gn.1.pushed v (fun q => z q + t * (c * d i q)) gn.2 (.exc q) = gn.1.pushed v' z gn.2 (.exc q)
          + t * (c * gn.1.pushed (d i 0, d i 1) (d i) gn.2 (.exc q)) := rfl
      rw [e1, h3]
      split <;> simp
    | gov q =>
      have e1 : gn.1.pushed v (fun q => z q + t * (c * d i q)) gn.2 (.gov q) = gn.1.pushed v' z gn.2 (.gov q)
          + t * (c * gn.1.pushed (d i 0, d i 1) (d i) gn.2 (.gov q)) := rfl
      rw [e1, h3]
      split <;> simp
  have hev : (fun t : ℝ => N.F m (fun j c => x j c + t * d j c) (fun j c => xd j c + t * (s * d j c)) xp buf i
      (gn.1.pos gn.2 ix)) =ᶠ[nhds 0] fun t => a + t * b := by
    filter_upwards [hF] with t ht
    rw [(N.F_eq m (fun j c => x j c + t * d j c) (fun j c => xd j c + t * (s * d j c)) xp buf i hi).1 gn hgn ix hv hn]
    apply ht
    · intro k hk
      by_cases hkn : k.isNet = false
      · have := hval (x i) (N.volt (fun j c => x j c + t * d j c) i) (N.volt x i) 1 t k hk hkn
        simpa using this
      · cases k with
        | net q =>
          have h3 := hδ (.net q) hk
          have e1 : gn.1.pushed (N.volt (fun j c => x j c + t * d j c) i) (fun c => x i c + t * d i c) gn.2 (.net q)
              = gn.1.pushed (N.volt x i) (x i) gn.2 (.net q)
                + t * gn.1.pushed (d i 0, d i 1) (d i) gn.2 (.net q) := by
            rw [N.volt_line]
            have hdv : N.dvolt d i = (d i 0, d i 1) := by simp [dvolt, hi]
            rw [hdv]
            cases q <;> rfl
          rw [e1, h3]
          split <;> simp
        | gen q => simp [Ix.isNet] at hkn
        | exc q => simp [Ix.isNet] at hkn
        | gov q => simp [Ix.isNet] at hkn
    · intro k hk hkn
      exact hval (xd i) _ _ s t k hk hkn
    · intro k hk hkn
      cases k with
      | net q => cases hkn
      | gen q => rfl
      | exc q => rfl
      | gov q => rfl
  have hb : HasDerivAt (fun t : ℝ => a + t * b) b 0 := line_deriv a b
  exact hJ _ hδ (hd.unique (hb.congr_of_eventuallyEq hev))

/-- The rows of the currents, for a direction in which one variable of one generator changes. -/
theorem current_rows [Fintype ι] (m : Mode) (s : ℝ) (x xd xp : ι → ℕ → ℝ) (buf : ℕ → ℝ) (i : ι)
    (hi : (N.bus i).isolated = false) (gn : Gen × ℕ) (hgn : gn ∈ (place (N.bus i).gens 2).1) (q : ℕ) (hq : q < gn.1.mach.size) :
    ∃ c : ℝ, c ≠ 0 ∧ ∀ δ : Ix → ℝ, (∀ k, gn.1.Valid k → δ k = if k = .gen q then 1 else 0) →
      (RowIsDerivative N m s x xd xp buf i 0 → c * lin (gn.1.jac m s (gn.1.pushed (N.volt x i) (x i) gn.2)) δ (.net 0)
        = c * lin (gn.1.jac .resid s (gn.1.pushed (N.volt x i) (x i) gn.2)) δ (.net 0)) ∧
      (RowIsDerivative N m s x xd xp buf i 1 → c * lin (gn.1.jac m s (gn.1.pushed (N.volt x i) (x i) gn.2)) δ (.net 1)
        = c * lin (gn.1.jac .resid s (gn.1.pushed (N.volt x i) (x i) gn.2)) δ (.net 1)) := by
  have h2 := (place_mem hgn).1
  let d : ι → ℕ → ℝ := fun j c => if j = i ∧ c = gn.2 + q then 1 else 0
  have hd0 : d i 0 = 0 := by simp only [d]; rw [if_neg]; omega
  have hd1 : d i 1 = 0 := by simp only [d]; rw [if_neg]; omega
  have hdv : N.dvolt d i = (0, 0) := by simp [dvolt, hi, hd0, hd1]
  have hvq : gn.1.Valid (.gen q) := hq
  have hpq := gn.1.pos_range (n := gn.2) hvq rfl
  classical
  refine ⟨((place (N.bus i).gens 2).1.map (fun b => if b = gn then (1:ℝ) else 0)).sum, ?_, ?_⟩
  · have h1 : (1:ℝ) ≤ ((place (N.bus i).gens 2).1.map (fun b => if b = gn then (1:ℝ) else 0)).sum := by
      have := List.single_le_sum (l := (place (N.bus i).gens 2).1.map (fun b => if b = gn then (1:ℝ) else 0)) (by
        intro y hy
        obtain ⟨b, _, rfl⟩ := List.mem_map.mp hy
        split <;> norm_num) 1 (List.mem_map.mpr ⟨gn, hgn, by simp⟩)
      exact this
    linarith
  · intro δ hδ
    -- directions of the generators
    have hdir : ∀ b ∈ (place (N.bus i).gens 2).1, ∀ (m : Mode) (r : Ix), lin (b.1.jac m s (b.1.pushed (N.volt x i) (x i) b.2))
        (b.1.pushed (d i 0, d i 1) (d i) b.2) r
        = (if b = gn then (1:ℝ) else 0) * lin (gn.1.jac m s (gn.1.pushed (N.volt x i) (x i) gn.2)) δ r := by
      intro b hb m r
      by_cases hbg : b = gn
      · subst hbg
        rw [if_pos rfl, one_mul]
        unfold lin
        congr 1
        apply List.map_congr_left
        intro w hw
        have hcv := (b.1.tidy m s (b.1.pushed (N.volt x i) (x i) b.2)).col w hw
        have : b.1.pushed (d i 0, d i 1) (d i) b.2 w.c = δ w.c := by
          rw [hδ _ hcv]
          have hposn : w.c.isNet = false → b.1.pushed (d i 0, d i 1) (d i) b.2 w.c = if w.c = .gen q then 1 else 0 := by
            intro hn
            rw [b.1.pushed_pos _ _ _ _ hn]
            simp only [d, true_and]
            by_cases hwq : w.c = .gen q
            · rw [if_pos hwq, if_pos]; rw [hwq]; rfl
            · rw [if_neg hwq, if_neg]
              intro e
              exact hwq (b.1.pos_inj h2 hcv hvq e)
          cases hwc : w.c with
          | net k =>
            rw [hd0, hd1]
            cases k <;> simp [Gen.pushed]
          | gen k => rw [hwc] at hposn; exact hposn rfl
          | exc k => rw [hwc] at hposn; exact hposn rfl
          | gov k => rw [hwc] at hposn; exact hposn rfl
        rw [this]
      · rw [if_neg hbg, zero_mul]
        apply Gen.lin_zero
        intro k hk
        have hdis := place_disjoint hb hgn hbg
        cases k with
        | net k =>
          rw [hd0, hd1]
          cases k <;> rfl
        | gen k =>
          rw [b.1.pushed_pos _ _ _ _ rfl]
          have := b.1.pos_range (n := b.2) hk rfl
          simp only [d, true_and]
          rw [if_neg]
          have e : gn.1.pos gn.2 (.gen q) = gn.2 + q := rfl
          omega
        | exc k =>
          rw [b.1.pushed_pos _ _ _ _ rfl]
          have := b.1.pos_range (n := b.2) hk rfl
          simp only [d, true_and]
          rw [if_neg]
          have e : gn.1.pos gn.2 (.gen q) = gn.2 + q := rfl
          omega
        | gov k =>
          rw [b.1.pushed_pos _ _ _ _ rfl]
          have := b.1.pos_range (n := b.2) hk rfl
          simp only [d, true_and]
          rw [if_neg]
          have e : gn.1.pos gn.2 (.gen q) = gn.2 + q := rfl
          omega
    -- the row of the matrix
    have hrow : ∀ r, r < 2 → ∑ j, ∑ c ∈ Finset.range (N.bus j).nvar, N.J m s x i j c r * d j c
        = ((place (N.bus i).gens 2).1.map (fun b => if b = gn then (1:ℝ) else 0)).sum
          * lin (gn.1.jac m s (gn.1.pushed (N.volt x i) (x i) gn.2)) δ (.net r) := by
      intro r hr
      have hsum : ∑ j, ∑ c ∈ Finset.range (N.bus j).nvar, N.J m s x i j c r * d j c
          = ∑ c ∈ Finset.range (N.bus i).nvar, N.J m s x i i c r * d i c := by
        apply Finset.sum_eq_single
        · intro j _ hij
          apply Finset.sum_eq_zero
          intro c _
          simp [d, hij]
        · simp
      have hpl : ∀ G B : ℝ, linN (plusGB G B) (d i) r = 0 := by
        intro G B
        obtain ⟨a1, a2, a3⟩ := linN_plusGB G B (d i)
        interval_cases r
        · rw [a1, hd0, hd1]; ring
        · rw [a2, hd0, hd1]; ring
      rw [hsum, N.diag_block m s x d i hi, hpl, hpl, sum_eq_zero_of_forall, linN_flatMap]
      · have hmap : (place (N.bus i).gens 2).1.map (fun gp => linN (gp.1.placedJac m s
            (gp.1.pushed (N.volt x i) (x i) gp.2) gp.2) (d i) r)
            = (place (N.bus i).gens 2).1.map (fun b => (if b = gn then (1:ℝ) else 0)
              * lin (gn.1.jac m s (gn.1.pushed (N.volt x i) (x i) gn.2)) δ (.net r)) := by
          apply List.map_congr_left
          intro b hb
          rw [← hdir b hb]
          exact b.1.placedJac_lin m _ (place_mem hb).1 (d i) (.net r) (by simpa [Gen.Valid, Ix.Valid] using hr)
        rw [hmap, List.sum_map_mul_right]
        ring
      · intro y hy
        obtain ⟨br, _, rfl⟩ := List.mem_map.mp hy
        split <;> exact hpl _ _
    -- the state of a generator moves along a line
    have hY : ∀ (gn : Gen × ℕ) (ix : Ix), HasDerivAt (fun t : ℝ => gn.1.pushed (N.volt (fun j c => x j c + t * d j c) i)
        (fun c => x i c + t * d i c) gn.2 ix) (gn.1.pushed (d i 0, d i 1) (d i) gn.2 ix) 0 := by
      intro gn ix
      have hv := N.volt_deriv x d i
      rw [hdv] at hv
      rw [hd0, hd1]
      cases ix with
      | net k =>
        cases k with
        | zero => exact hv.1
        | succ k => exact hv.2
      | gen k => exact line_deriv _ _
      | exc k => exact line_deriv _ _
      | gov k => exact line_deriv _ _
    have h0 : ∀ gn : Gen × ℕ, gn.1.pushed (N.volt (fun j c => x j c + (0:ℝ) * d j c) i) (fun c => x i c + (0:ℝ) * d i c) gn.2
        = gn.1.pushed (N.volt x i) (x i) gn.2 := by
      intro gn
      simp
    have hbr : ∀ (t : ℝ), ∀ br ∈ N.nbrs i, N.branchCurrent (fun j c => x j c + t * d j c) i br = N.branchCurrent x i br := by
      intro t br _
      have hv : ∀ j, N.volt (fun j c => x j c + t * d j c) j = N.volt x j := by
        intro j
        rw [N.volt_line]
        have : N.dvolt d j = (0, 0) := by
          by_cases hj : j = i
          · rw [hj]; exact hdv
          · simp [dvolt, d, hj]
        rw [this]
        simp
      unfold branchCurrent
      simp only [hv]
    have hvi : ∀ t : ℝ, N.volt (fun j c => x j c + t * d j c) i = N.volt x i := by
      intro t
      rw [N.volt_line, hdv]
      simp
    constructor
    · intro h
      have hd := h d
      rw [hrow 0 (by norm_num)] at hd
      have hG := list_sum_deriv (place (N.bus i).gens 2).1
        (fun gn t => gn.1.igq (gn.1.pushed (N.volt (fun j c => x j c + t * d j c) i) (fun c => x i c + t * d i c) gn.2))
        (fun b => (if b = gn then (1:ℝ) else 0) * lin (gn.1.jac .resid s (gn.1.pushed (N.volt x i) (x i) gn.2)) δ (.net 0))
        (by
          intro b hb
          have h := b.1.igq_deriv (s := s) (hY b) .resid (by intro h; cases h)
          rw [h0 b] at h
          refine HasDerivAt.congr_deriv h ?_
          exact hdir b hb .resid _)
      rw [List.sum_map_mul_right] at hG
      refine hd.unique ((hG.sub_const (((N.bus i).bl * (N.volt x i).1 + (N.bus i).gl * (N.volt x i).2)
      + ((N.nbrs i).map (fun br => (N.branchCurrent x i br).2)).sum
      + (-((N.bus i).ql / ((N.bus i).Vm0 * (N.bus i).Vm0)) * (N.volt x i).1
        + (N.bus i).pl / ((N.bus i).Vm0 * (N.bus i).Vm0) * (N.volt x i).2))).congr_of_eventuallyEq
        (Filter.Eventually.of_forall fun t => ?_))
      have e2 : ((N.nbrs i).map (fun br => (N.branchCurrent (fun j c => x j c + t * d j c) i br).2)).sum
          = ((N.nbrs i).map (fun br => (N.branchCurrent x i br).2)).sum := by
        congr 1
        apply List.map_congr_left
        intro br hbr'
        rw [hbr t br hbr']
      have e := (N.F_eq m (fun j c => x j c + t * d j c) (fun j c => xd j c + t * (s * d j c)) xp buf i hi).2.1
      simp only [e2, hvi] at e ⊢
      rw [e]
      ring
    · intro h
      have hd := h d
      rw [hrow 1 (by norm_num)] at hd
      have hG := list_sum_deriv (place (N.bus i).gens 2).1
        (fun gn t => gn.1.igd (gn.1.pushed (N.volt (fun j c => x j c + t * d j c) i) (fun c => x i c + t * d i c) gn.2))
        (fun b => (if b = gn then (1:ℝ) else 0) * lin (gn.1.jac .resid s (gn.1.pushed (N.volt x i) (x i) gn.2)) δ (.net 1))
        (by
          intro b hb
          have h := b.1.igd_deriv (s := s) (hY b) .resid (by intro h; cases h)
          rw [h0 b] at h
          refine HasDerivAt.congr_deriv h ?_
          exact hdir b hb .resid _)
      rw [List.sum_map_mul_right] at hG
      refine hd.unique ((hG.sub_const (((N.bus i).gl * (N.volt x i).1 - (N.bus i).bl * (N.volt x i).2)
      + ((N.nbrs i).map (fun br => (N.branchCurrent x i br).1)).sum
      + ((N.bus i).pl / ((N.bus i).Vm0 * (N.bus i).Vm0) * (N.volt x i).1
        + (N.bus i).ql / ((N.bus i).Vm0 * (N.bus i).Vm0) * (N.volt x i).2))).congr_of_eventuallyEq
        (Filter.Eventually.of_forall fun t => ?_))
      have e2 : ((N.nbrs i).map (fun br => (N.branchCurrent (fun j c => x j c + t * d j c) i br).1)).sum
          = ((N.nbrs i).map (fun br => (N.branchCurrent x i br).1)).sum := by
        congr 1
        apply List.map_congr_left
        intro br hbr'
        rw [hbr t br hbr']
      have e := (N.F_eq m (fun j c => x j c + t * d j c) (fun j c => xd j c + t * (s * d j c)) xp buf i hi).2.2
      simp only [e2, hvi] at e ⊢
      rw [e]
      ring

end Net
end GridPACK.Dae
