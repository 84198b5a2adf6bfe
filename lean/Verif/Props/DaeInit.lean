import Verif.Lemmas.DaeInit
import Verif.Lemmas.DaeWrong

/-! C189: the initial state of the DAE form of the dynamic simulation. -/
namespace GridPACK.Dae
open Complex ComplexConjugate

variable {ι : Type} [DecidableEq ι]

theorem Bus.V_eq (b : Bus) : b.V = ⟨b.v0.1, b.v0.2⟩ := by
  apply Complex.ext
  · simp [Bus.V, Bus.v0, Complex.exp_ofReal_mul_I_re, Complex.exp_ofReal_mul_I_im]
  · simp [Bus.V, Bus.v0, Complex.exp_ofReal_mul_I_re, Complex.exp_ofReal_mul_I_im]

/-- The sum over the lines in service. -/
private theorem lines_sum (ls : List Line) (a b c d : Line → ℝ) (V W : ℂ) :
    ((ls.filter (·.status)).map (fun l => (⟨a l, b l⟩ : ℂ) * V + (⟨c l, d l⟩ : ℂ) * W)).sum
      = ⟨(ls.map (fun l => if l.status then a l else 0)).sum * V.re - (ls.map (fun l => if l.status then b l else 0)).sum * V.im
          + (ls.map (fun l => if l.status then c l else 0)).sum * W.re - (ls.map (fun l => if l.status then d l else 0)).sum * W.im,
         (ls.map (fun l => if l.status then b l else 0)).sum * V.re + (ls.map (fun l => if l.status then a l else 0)).sum * V.im
          + (ls.map (fun l => if l.status then d l else 0)).sum * W.re
          + (ls.map (fun l => if l.status then c l else 0)).sum * W.im⟩ := by
  induction ls with
  | nil => apply Complex.ext <;> simp
  | cons l ls ih =>
    by_cases hl : l.status = true
    · simp only [List.filter_cons, hl, if_true, List.map_cons, List.sum_cons, ih]
      apply Complex.ext
      · simp; ring
      · simp; ring
    · simp only [List.filter_cons, hl, if_false, List.map_cons, List.sum_cons, ih, Bool.false_eq_true, zero_add]

private theorem total_zero (br : Branch ι) (h : ∀ l ∈ br.lines, l.status = false) (f : Line → ℝ) : br.total f = 0 := by
  rw [total_eq]
  apply sum_eq_zero_of_forall
  intro y hy
  obtain ⟨l, hl, rfl⟩ := List.mem_map.mp hy
  simp [h l hl]

/-- The current into the branches. -/
private theorem branches_current (N M : Net ι) (hS : ∀ br ∈ N.branches, br.fr ≠ br.to') (hO : N.IsolatedOff)
    (hbr : M.branches = N.branches) (x : ι → ℕ → ℝ)
    (hv : ∀ j, (N.bus j).isolated = false → M.volt x j = (N.bus j).v0) (i : ι) :
    (⟨((M.nbrs i).map (fun br => (M.branchCurrent x i br).1)).sum,
      ((M.nbrs i).map (fun br => (M.branchCurrent x i br).2)).sum⟩ : ℂ)
    = (N.branches.map (fun br =>
      (if br.fr = i then ((br.lines.filter (·.status)).map (fun l =>
        (⟨l.Gff, l.Bff⟩ : ℂ) * (N.bus br.fr).V + (⟨l.Gft, l.Bft⟩ : ℂ) * (N.bus br.to').V)).sum else 0)
      + (if br.to' = i then ((br.lines.filter (·.status)).map (fun l =>
        (⟨l.Gtt, l.Btt⟩ : ℂ) * (N.bus br.to').V + (⟨l.Gtf, l.Btf⟩ : ℂ) * (N.bus br.fr).V)).sum else 0))).sum := by
  unfold Net.nbrs
  rw [hbr]
  have hall : ∀ br ∈ N.branches, br ∈ N.branches := fun _ h => h
  revert hall
  generalize hL : N.branches = L at *
  intro hall
  clear hbr
  suffices h : ∀ l : List (Branch ι), (∀ br ∈ l, br ∈ N.branches) →
      (⟨((l.filter (fun br => br.fr = i ∨ br.to' = i)).map (fun br => (M.branchCurrent x i br).1)).sum,
      ((l.filter (fun br => br.fr = i ∨ br.to' = i)).map (fun br => (M.branchCurrent x i br).2)).sum⟩ : ℂ)
    = (l.map (fun br =>
      (if br.fr = i then ((br.lines.filter (·.status)).map (fun l =>
        (⟨l.Gff, l.Bff⟩ : ℂ) * (N.bus br.fr).V + (⟨l.Gft, l.Bft⟩ : ℂ) * (N.bus br.to').V)).sum else 0)
      + (if br.to' = i then ((br.lines.filter (·.status)).map (fun l =>
        (⟨l.Gtt, l.Btt⟩ : ℂ) * (N.bus br.to').V + (⟨l.Gtf, l.Btf⟩ : ℂ) * (N.bus br.fr).V)).sum else 0))).sum by
    exact h L (fun br h => hL ▸ h)
  intro l hl
  induction l with
  | nil => rfl
  | cons br bs ih =>
    have ih := ih (fun b hb => hl b (List.mem_cons_of_mem _ hb))
    have hmem := hl br (List.mem_cons_self ..)
    have hne : br.fr ≠ br.to' := hS br (hL ▸ hmem)
    rw [List.map_cons, List.sum_cons, ← ih]
    have hoff := hO br hmem
    by_cases h1 : br.fr = i
    · have h2 : br.to' ≠ i := fun h => hne (h1.trans h.symm)
      have hf : List.filter (fun br => decide (br.fr = i ∨ br.to' = i)) (br :: bs)
          = br :: List.filter (fun br => decide (br.fr = i ∨ br.to' = i)) bs := by simp [h1]
      rw [hf]
      simp only [List.map_cons, List.sum_cons, if_pos h1, if_neg h2, add_zero, lines_sum, ← total_eq]
      have key : (⟨(M.branchCurrent x i br).1, (M.branchCurrent x i br).2⟩ : ℂ)
          = ⟨br.total Line.Gff * (N.bus br.fr).V.re - br.total Line.Bff * (N.bus br.fr).V.im
              + br.total Line.Gft * (N.bus br.to').V.re - br.total Line.Bft * (N.bus br.to').V.im,
             br.total Line.Bff * (N.bus br.fr).V.re + br.total Line.Gff * (N.bus br.fr).V.im
              + br.total Line.Bft * (N.bus br.to').V.re + br.total Line.Gft * (N.bus br.to').V.im⟩ := by
        simp only [Net.branchCurrent, if_pos h1]
        by_cases ho : (N.bus br.fr).isolated ∨ (N.bus br.to').isolated
        · simp [total_zero br (hoff ho)]
        · push_neg at ho
          have v1 := hv br.fr (by simpa using ho.1)
          have v2 := hv br.to' (by simpa using ho.2)
          rw [← h1, v1, v2, Bus.V_eq, Bus.V_eq]
      rw [← key]
      rfl
    · by_cases h2 : br.to' = i
      · have hf : List.filter (fun br => decide (br.fr = i ∨ br.to' = i)) (br :: bs)
            = br :: List.filter (fun br => decide (br.fr = i ∨ br.to' = i)) bs := by simp [h2]
        rw [hf]
        simp only [List.map_cons, List.sum_cons, if_pos h2, if_neg h1, zero_add, lines_sum, ← total_eq]
        have key : (⟨(M.branchCurrent x i br).1, (M.branchCurrent x i br).2⟩ : ℂ)
            = ⟨br.total Line.Gtt * (N.bus br.to').V.re - br.total Line.Btt * (N.bus br.to').V.im
                + br.total Line.Gtf * (N.bus br.fr).V.re - br.total Line.Btf * (N.bus br.fr).V.im,
               br.total Line.Btt * (N.bus br.to').V.re + br.total Line.Gtt * (N.bus br.to').V.im
                + br.total Line.Btf * (N.bus br.fr).V.re + br.total Line.Gtf * (N.bus br.fr).V.im⟩ := by
          simp only [Net.branchCurrent, if_neg h1]
          by_cases ho : (N.bus br.fr).isolated ∨ (N.bus br.to').isolated
          · simp [total_zero br (hoff ho)]
          · push_neg at ho
            have v1 := hv br.fr (by simpa using ho.1)
            have v2 := hv br.to' (by simpa using ho.2)
            rw [← h2, v1, v2, Bus.V_eq, Bus.V_eq]
        rw [← key]
        rfl
      · have hf : List.filter (fun br => decide (br.fr = i ∨ br.to' = i)) (br :: bs)
            = List.filter (fun br => decide (br.fr = i ∨ br.to' = i)) bs := by simp [h1, h2]
        rw [hf, if_neg h1, if_neg h2]
        simp

/-- The current of a power. -/
private theorem cur_eq (P Q a b : ℝ) (h : a * a + b * b ≠ 0) :
    (⟨curD P Q a b, curQ P Q a b⟩ : ℂ) * conj (⟨a, b⟩ : ℂ) = conj (⟨P, Q⟩ : ℂ) := by
  have h' : a ^ 2 + b ^ 2 ≠ 0 := by simpa [sq] using h
  apply Complex.ext
  · simp [curD, curQ]
    field_simp
    ring
  · simp [curD, curQ]
    field_simp
    ring

private theorem place_fst (gens : List Gen) (p : ℕ) : (place gens p).1.map (·.1) = gens.filter (·.on) := by
  induction gens generalizing p with
  | nil => rfl
  | cons g gs ih =>
    by_cases hg : g.on = true
    · simp [place, hg, ih]
    · simp [place, hg, ih]

/-- C189: if every bus has at most one generator in service, then the state filled in from a solved power flow is an
equilibrium at every bus that is not isolated: with time derivative 0 all entries of the residual vanish there. -/
theorem C189_initial_equilibrium_partial (N : Net ι) (hS : ∀ br ∈ N.branches, br.fr ≠ br.to') (hO : N.IsolatedOff)
    (j : Junk) (buf : ι → ℕ → ℝ) (xp : ι → ℕ → ℝ) (old : ℕ → ℝ)
    (h1 : ∀ i, ((N.bus i).gens.filter (·.on)).length ≤ 1) (i : ι) (hi : (N.bus i).isolated = false)
    (hsol : N.SolvedAt i) (hg : ∀ g ∈ (N.bus i).gens, g.on = true → g.Startable (N.bus i).v0)
    (r : ℕ) (hr : r < (N.bus i).nvar) :
    (N.initX j buf).1.F .resid (N.initX j buf).2 (fun _ _ => 0) xp old i r = 0 := by
  -- voltages
  have hvolt : ∀ k, (N.bus k).isolated = false → (N.initX j buf).2 k 0 = (N.bus k).v0.1 ∧ (N.initX j buf).2 k 1 = (N.bus k).v0.2 := by
    intro k hk
    have hx : (N.initX j buf).2 k = (initLoop j (N.bus k).v0 (N.bus k).gens
        (wrBlock (buf k) 0 2 (fun q => match q with
          | 0 => (N.bus k).v0.1
          | _ => (N.bus k).v0.2)) 2).2 := by
      simp only [Net.initX, Bus.initX, hk, Bool.false_eq_true, if_false]
      rfl
    rw [hx]
    rcases hl : (N.bus k).gens.filter (·.on) with _ | ⟨g, gs⟩
    · rw [(initLoop_none j _ _ hl _ _).1]
      exact ⟨rfl, rfl⟩
    · have hgs : gs = [] := by
        have := h1 k
        rw [hl] at this
        simpa using this
      rw [hgs] at hl
      rw [(initLoop_one j _ _ g hl _ _).1, genBlock_out _ _ _ _ _ (by omega), genBlock_out _ _ _ _ _ (by omega)]
      exact ⟨rfl, rfl⟩
  have hiso : ∀ k, ((N.initX j buf).1.bus k).isolated = (N.bus k).isolated := by
    intro k
    simp only [Net.initX, Bus.initX]
    split <;> rfl
  have hv : ∀ k, (N.bus k).isolated = false → (N.initX j buf).1.volt (N.initX j buf).2 k = (N.bus k).v0 := by
    intro k hk
    unfold Net.volt
    rw [hiso, hk, (hvolt k hk).1, (hvolt k hk).2]
    rfl
  have hb : ((N.initX j buf).1.bus i) = { N.bus i with gens := (N.bus i).gens.map (started j (N.bus i).v0) } := by
    simp only [Net.initX, Bus.initX, hi, Bool.false_eq_true, if_false, initLoop_gens]
    rfl
  have hx : (N.initX j buf).2 i = (initLoop j (N.bus i).v0 (N.bus i).gens
      (wrBlock (buf i) 0 2 (fun q => match q with
        | 0 => (N.bus i).v0.1
        | _ => (N.bus i).v0.2)) 2).2 := by
    simp only [Net.initX, Bus.initX, hi, Bool.false_eq_true, if_false]
    rfl
  obtain ⟨hVm, hpf⟩ := hsol
  have hV : (N.bus i).v0.1 * (N.bus i).v0.1 + (N.bus i).v0.2 * (N.bus i).v0.2 = (N.bus i).Vm0 * (N.bus i).Vm0 := by
    simp only [Bus.v0]
    linear_combination ((N.bus i).Vm0 * (N.bus i).Vm0) * Real.sin_sq_add_cos_sq (N.bus i).Va0
  have hV0 : (N.bus i).v0.1 * (N.bus i).v0.1 + (N.bus i).v0.2 * (N.bus i).v0.2 ≠ 0 := by
    rw [hV]
    exact mul_self_ne_zero.mpr hVm
  obtain ⟨f1, f2, f3⟩ := (N.initX j buf).1.F_eq .resid (N.initX j buf).2 (fun _ _ => 0) xp old i (by rw [hiso, hi])
  have hgens : ((N.initX j buf).1.bus i).gens = (N.bus i).gens.map (started j (N.bus i).v0) := by rw [hb]
  rw [hgens, place_started] at f1 f2 f3
  rw [hv i hi] at f1 f2 f3
  -- the generator
  have hgen : ∀ gn ∈ (place (N.bus i).gens 2).1, (∀ ix, gn.1.Valid ix → ix.isNet = false →
      (N.initX j buf).2 i (gn.1.pos gn.2 ix) = gn.1.start j (N.bus i).v0 ix) := by
    intro gn hgn ix hvd hn
    rcases hl : (N.bus i).gens.filter (·.on) with _ | ⟨g, gs⟩
    · rw [(initLoop_none j (N.bus i).v0 _ hl (fun _ => 0) 2).2] at hgn
      cases hgn
    · have hgs : gs = [] := by
        have := h1 i
        rw [hl] at this
        simpa using this
      rw [hgs] at hl
      rw [(initLoop_one j (N.bus i).v0 _ g hl (fun _ => 0) 2).2] at hgn
      have : gn = (g, 2) := by simpa using hgn
      subst this
      rw [hx, (initLoop_one j _ _ g hl _ _).1]
      exact genBlock_in _ _ _ _ _ hvd hn
  have hpos : ∀ (g : Gen) (n : ℕ) ix, (g.init j (N.bus i).v0).1.pos n ix = g.pos n ix := by
    intro g n ix
    obtain ⟨_, s1, s2, _, _, _⟩ := g.init_shape j (N.bus i).v0
    cases ix <;> simp [Gen.pos, s1, s2]
  have hval : ∀ (g : Gen) ix, (g.init j (N.bus i).v0).1.Valid ix ↔ g.Valid ix := by
    intro g ix
    obtain ⟨_, s1, s2, s3, _, _⟩ := g.init_shape j (N.bus i).v0
    unfold Gen.Valid
    rw [s1, s2, s3]
  have hsteady : ∀ gn ∈ (place (N.bus i).gens 2).1, ∀ R : Ix → ℝ,
      (∀ ix, gn.1.Valid ix → ix.isNet = false → (gn.1.init j (N.bus i).v0).1.resid .resid
        ((gn.1.init j (N.bus i).v0).1.pushed (N.bus i).v0 ((N.initX j buf).2 i) gn.2)
        ((gn.1.init j (N.bus i).v0).1.pushed (N.bus i).v0 (fun _ => 0) gn.2) R ix = 0) ∧
      (gn.1.init j (N.bus i).v0).1.igd ((gn.1.init j (N.bus i).v0).1.pushed (N.bus i).v0 ((N.initX j buf).2 i) gn.2)
        = curD gn.1.pg gn.1.qg (N.bus i).v0.1 (N.bus i).v0.2 ∧
      (gn.1.init j (N.bus i).v0).1.igq ((gn.1.init j (N.bus i).v0).1.pushed (N.bus i).v0 ((N.initX j buf).2 i) gn.2)
        = curQ gn.1.pg gn.1.qg (N.bus i).v0.1 (N.bus i).v0.2 := by
    intro gn hgn R
    obtain ⟨k, hk, hon, _⟩ := (place_iff (N.bus i).gens 2 gn.1 gn.2).mp hgn
    refine gn.1.init_steady j (N.bus i).v0 hV0 (hg gn.1 (List.mem_of_getElem? hk) hon) _ _ R rfl rfl ?_ ?_
    · intro ix hvd hn
      rw [Gen.pushed_pos _ _ _ _ _ hn, hpos]
      exact hgen gn hgn ix hvd hn
    · intro ix hvd hn
      rw [Gen.pushed_pos _ _ _ _ _ hn]
  by_cases hr2 : 2 ≤ r
  · -- a device
    have hr' : r < (place (N.bus i).gens 2).2 := by simpa [Bus.nvar, hi] using hr
    obtain ⟨gn, hgn, a1, a2⟩ := place_cover hr2 hr'
    obtain ⟨ix, hvd, hn, rfl⟩ := gn.1.pos_surj a1 a2
    have := f1 ((gn.1.init j (N.bus i).v0).1, gn.2) (List.mem_map.mpr ⟨gn, hgn, rfl⟩) ix ((hval _ _).mpr hvd) hn
    rw [hpos] at this
    rw [this]
    exact (hsteady gn hgn _).1 ix hvd hn
  · -- the currents
    have hbc := branches_current N (N.initX j buf).1 hS hO rfl (N.initX j buf).2 hv i
    have hfil : (place (N.bus i).gens 2).1.map (·.1) = (N.bus i).gens.filter (·.on) := place_fst _ _
    have hG : ∀ l : List Gen, (⟨(l.map (fun g => curD g.pg g.qg (N.bus i).v0.1 (N.bus i).v0.2)).sum,
        (l.map (fun g => curQ g.pg g.qg (N.bus i).v0.1 (N.bus i).v0.2)).sum⟩ : ℂ) * conj (N.bus i).V
        = conj ((l.map Gen.power).sum) := by
      intro l
      induction l with
      | nil => simp [Complex.ext_iff]
      | cons g l ih =>
        simp only [List.map_cons, List.sum_cons, map_add]
        rw [← ih]
        have h := cur_eq g.pg g.qg (N.bus i).v0.1 (N.bus i).v0.2 hV0
        rw [← Bus.V_eq] at h
        have hp : conj g.power = conj (⟨g.pg, g.qg⟩ : ℂ) := rfl
        rw [hp, ← h, ← add_mul]
        rfl
    have hG := hG ((N.bus i).gens.filter (·.on))
    rw [← hfil, List.map_map, List.map_map] at hG
    rw [hfil] at hG
    have hVV : (N.bus i).V * conj (N.bus i).V = ((N.bus i).Vm0 * (N.bus i).Vm0 : ℝ) := by
      rw [Complex.mul_conj, Bus.V_eq]
      simp only [Complex.normSq_mk]
      rw [hV]
    have hVne : (N.bus i).V ≠ 0 := by
      intro h
      rw [h, zero_mul] at hVV
      exact mul_self_ne_zero.mpr hVm (by exact_mod_cast hVV.symm)
    have hconj := congrArg conj hpf
    rw [map_sub, ← hG, map_mul, Complex.conj_conj] at hconj
    have e2 : (List.map (fun gn => gn.1.igq (gn.1.pushed (N.bus i).v0 ((N.initX j buf).2 i) gn.2))
        (List.map (fun gn => ((gn.1.init j (N.bus i).v0).1, gn.2)) (place (N.bus i).gens 2).1)).sum
        = (List.map ((fun g => curQ g.pg g.qg (N.bus i).v0.1 (N.bus i).v0.2) ∘ (·.1)) (place (N.bus i).gens 2).1).sum := by
      rw [List.map_map]
      congr 1
      apply List.map_congr_left
      intro gn hgn
      exact (hsteady gn hgn (fun _ => 0)).2.2
    have e3 : (List.map (fun gn => gn.1.igd (gn.1.pushed (N.bus i).v0 ((N.initX j buf).2 i) gn.2))
        (List.map (fun gn => ((gn.1.init j (N.bus i).v0).1, gn.2)) (place (N.bus i).gens 2).1)).sum
        = (List.map ((fun g => curD g.pg g.qg (N.bus i).v0.1 (N.bus i).v0.2) ∘ (·.1)) (place (N.bus i).gens 2).1).sum := by
      rw [List.map_map]
      congr 1
      apply List.map_congr_left
      intro gn hgn
      exact (hsteady gn hgn (fun _ => 0)).2.1
    simp only [] at f2 f3
    rw [e2] at f2
    rw [e3] at f3
    rw [hb] at f2 f3
    simp only [] at f2 f3
    generalize hA : (List.map ((fun g => curD g.pg g.qg (N.bus i).v0.1 (N.bus i).v0.2) ∘ (·.1)) (place (N.bus i).gens 2).1).sum = A at *
    generalize hB : (List.map ((fun g => curQ g.pg g.qg (N.bus i).v0.1 (N.bus i).v0.2) ∘ (·.1)) (place (N.bus i).gens 2).1).sum = B at *
    unfold Net.drawn at hconj
    rw [← hbc] at hconj
    generalize (((N.initX j buf).1.nbrs i).map (fun br => ((N.initX j buf).1.branchCurrent (N.initX j buf).2 i br).1)).sum = C at *
    generalize (((N.initX j buf).1.nbrs i).map (fun br => ((N.initX j buf).1.branchCurrent (N.initX j buf).2 i br).2)).sum = D at *
    have hres : (⟨(N.initX j buf).1.F .resid (N.initX j buf).2 (fun _ _ => 0) xp old i 1,
        (N.initX j buf).1.F .resid (N.initX j buf).2 (fun _ _ => 0) xp old i 0⟩ : ℂ)
        = ⟨A, B⟩ - (⟨(N.bus i).gl, (N.bus i).bl⟩ : ℂ) * (N.bus i).V - ⟨C, D⟩
          - conj (⟨(N.bus i).pl, (N.bus i).ql⟩ : ℂ) * (N.bus i).V * (((N.bus i).Vm0 * (N.bus i).Vm0)⁻¹ : ℝ) := by
      rw [f2, f3, Bus.V_eq]
      apply Complex.ext
      · simp; ring
      · simp; ring
    have hz : (⟨(N.initX j buf).1.F .resid (N.initX j buf).2 (fun _ _ => 0) xp old i 1,
        (N.initX j buf).1.F .resid (N.initX j buf).2 (fun _ _ => 0) xp old i 0⟩ : ℂ) = 0 := by
      have hcne : conj (N.bus i).V ≠ 0 := by simpa using hVne
      apply (mul_eq_zero.mp ?_).resolve_right hcne
      rw [hres]
      have hinv : (((N.bus i).Vm0 * (N.bus i).Vm0 : ℝ) : ℂ) * (((N.bus i).Vm0 * (N.bus i).Vm0)⁻¹ : ℝ) = 1 := by
        rw [← Complex.ofReal_mul, mul_inv_cancel₀ (mul_self_ne_zero.mpr hVm)]
        simp
      linear_combination hconj - conj (⟨(N.bus i).pl, (N.bus i).ql⟩ : ℂ) * (((N.bus i).Vm0 * (N.bus i).Vm0)⁻¹ : ℝ) * hVV
        - conj (⟨(N.bus i).pl, (N.bus i).ql⟩ : ℂ) * hinv
    have hz1 := congrArg Complex.re hz
    have hz0 := congrArg Complex.im hz
    have : r = 0 ∨ r = 1 := by omega
    rcases this with rfl | rfl
    · exact hz0
    · exact hz1

/-- C189: GENROU with an armature resistance starts with a torque that does not cover its losses: the equation of its
speed is not satisfied. -/
theorem C189_genrou_resistance_violated (N : Net ι) (j : Junk) (buf : ι → ℕ → ℝ) (xp : ι → ℕ → ℝ) (old : ℕ → ℝ)
    (i : ι) (hi : (N.bus i).isolated = false) (hVm : (N.bus i).Vm0 ≠ 0)
    (g : Gen) (hone : (N.bus i).gens.filter (·.on) = [g]) (p : Rou) (hp : g.mach = .rou p) (hRa : p.Ra ≠ 0) (hH : p.H ≠ 0)
    (hd : p.Xdp ≠ p.Xl) (hq : p.Xqp ≠ p.Xl) (hB : p.B = -p.Xdpp / (p.Ra * p.Ra + p.Xdpp * p.Xdpp))
    (hG : p.G = p.Ra / (p.Ra * p.Ra + p.Xdpp * p.Xdpp)) (hgov : ∀ w, g.gov = some w → w.Startable)
    (hS : g.pg ≠ 0 ∨ g.qg ≠ 0) :
    (N.initX j buf).1.F .resid (N.initX j buf).2 (fun _ _ => 0) xp old i 3 ≠ 0 := by
  have hx : (N.initX j buf).2 i = (initLoop j (N.bus i).v0 (N.bus i).gens
      (wrBlock (buf i) 0 2 (fun q => match q with
        | 0 => (N.bus i).v0.1
        | _ => (N.bus i).v0.2)) 2).2 := by
    simp only [Net.initX, Bus.initX, hi, Bool.false_eq_true, if_false]
    rfl
  have hb : ((N.initX j buf).1.bus i) = { N.bus i with gens := (N.bus i).gens.map (started j (N.bus i).v0) } := by
    simp only [Net.initX, Bus.initX, hi, Bool.false_eq_true, if_false, initLoop_gens]
    rfl
  obtain ⟨o1, o2⟩ := initLoop_one j (N.bus i).v0 _ g hone (wrBlock (buf i) 0 2 (fun q => match q with
        | 0 => (N.bus i).v0.1
        | _ => (N.bus i).v0.2)) 2
  rw [o1] at hx
  have hv : (N.initX j buf).1.volt (N.initX j buf).2 i = (N.bus i).v0 := by
    unfold Net.volt
    rw [hb]
    simp only [hi, Bool.false_eq_true, if_false]
    rw [hx, genBlock_out _ _ _ _ _ (by omega), genBlock_out _ _ _ _ _ (by omega)]
    rfl
  have hV : (N.bus i).v0.1 * (N.bus i).v0.1 + (N.bus i).v0.2 * (N.bus i).v0.2 = (N.bus i).Vm0 * (N.bus i).Vm0 := by
    simp only [Bus.v0]
    linear_combination ((N.bus i).Vm0 * (N.bus i).Vm0) * Real.sin_sq_add_cos_sq (N.bus i).Va0
  have hV0 : (N.bus i).v0.1 * (N.bus i).v0.1 + (N.bus i).v0.2 * (N.bus i).v0.2 ≠ 0 := by
    rw [hV]
    exact mul_self_ne_zero.mpr hVm
  obtain ⟨f1, _, _⟩ := (N.initX j buf).1.F_eq .resid (N.initX j buf).2 (fun _ _ => 0) xp old i (by rw [hb]; exact hi)
  have hgens : ((N.initX j buf).1.bus i).gens = (N.bus i).gens.map (started j (N.bus i).v0) := by rw [hb]
  rw [hgens, place_started, o2, hv] at f1
  obtain ⟨s0, s1, s2, s3, s4, s5⟩ := g.init_shape j (N.bus i).v0
  have hmi : (g.init j (N.bus i).v0).1.mach = .rou p := by simp only [Gen.init, hp]
  have h6 : ∀ k, k < 6 → g.Valid (.gen k) := by
    intro k hk
    show k < g.mach.size
    rw [hp]
    exact hk
  have h6' : ∀ k, k < 6 → (g.init j (N.bus i).v0).1.Valid (.gen k) := by
    intro k hk
    show k < (g.init j (N.bus i).v0).1.mach.size
    rw [s1, hp]
    exact hk
  have hF := f1 ((g.init j (N.bus i).v0).1, 2) (by simp) (.gen 1) (h6' 1 (by norm_num)) rfl
  have hpos : (g.init j (N.bus i).v0).1.pos 2 (.gen 1) = 3 := rfl
  simp only [hpos] at hF
  rw [hF]
  clear hF
  generalize hR : (g.init j (N.bus i).v0).1.pushed (N.bus i).v0 (xp i) 2 = R
  have hX : ∀ ix, g.Valid ix → ix.isNet = false →
      (g.init j (N.bus i).v0).1.pushed (N.bus i).v0 ((N.initX j buf).2 i) 2 ix = g.start j (N.bus i).v0 ix := by
    intro ix hvd hn
    rw [Gen.pushed_pos _ _ _ _ _ hn, hx]
    have : (g.init j (N.bus i).v0).1.pos 2 ix = g.pos 2 ix := by
      cases ix <;> simp [Gen.pos, s1, s2]
    rw [this]
    exact genBlock_in _ _ _ _ _ hvd hn
  have hZ : ∀ k, (g.init j (N.bus i).v0).1.pushed (N.bus i).v0 (fun _ => 0) 2 (.gen k) = 0 := fun k => rfl
  generalize hXX : (g.init j (N.bus i).v0).1.pushed (N.bus i).v0 ((N.initX j buf).2 i) 2 = X at *
  have hx0 : X (.net 0) = (N.bus i).v0.1 := by rw [← hXX]; rfl
  have hx1 : X (.net 1) = (N.bus i).v0.2 := by rw [← hXX]; rfl
  have hz : p.Ra * p.Ra + p.Xdpp * p.Xdpp ≠ 0 := by
    nlinarith [mul_self_pos.mpr hRa, mul_self_nonneg p.Xdpp]
  have hP : ((g.init j (N.bus i).v0).1.drive X).Pmech = g.pg := by
    cases hW : g.gov with
    | none => simp [Gen.drive, Gen.init, hW, hp, Rou.init]
    | some w =>
      obtain ⟨t1, t2, t3, t4, t5⟩ := hgov _ hW
      have hPm : (g.init j (N.bus i).v0).1.Pmech = g.pg := by simp only [Gen.init, hp, Rou.init]
      have hgv : (g.init j (N.bus i).v0).1.gov = some (w.init g.pg 0).1 := by
        rw [← hPm]
        simp only [Gen.init, hW]
      simp only [Gen.drive, hgv]
      apply (Wsieg1.init_steady w g.pg t1 t2 t3 t4 X (fun _ => 0) R _ (fun k hk => rfl)).2 t5
      intro k hk
      rw [hX (.gov k) (by show k < g.ngov; simpa [Gen.ngov, hW] using hk) rfl]
      show (g.init j (N.bus i).v0).2.2.2 k = _
      simp only [Gen.init, hW, hp, Rou.init]
  have key := (Rou.init_steady p g.pg g.qg (N.bus i).v0.1 (N.bus i).v0.2 hz hB hG hV0 hd hq X _ R hx0 hx1 (by
    intro k hk
    rw [hX (.gen k) (h6 k hk) rfl]
    show (g.init j (N.bus i).v0).2.1 k = _
    simp only [Gen.init, hp]) (fun k _ => hZ k) ⟨(p.init g.pg g.qg (N.bus i).v0.1 (N.bus i).v0.2).2.1,
      g.pg, false, [], []⟩ rfl rfl).2.1
  have hrow : (g.init j (N.bus i).v0).1.resid .resid X ((g.init j (N.bus i).v0).1.pushed (N.bus i).v0 (fun _ => 0) 2) R (.gen 1)
      = 1 / (2 * p.H) * (-(p.Ra * (curD g.pg g.qg (N.bus i).v0.1 (N.bus i).v0.2 ^ 2
        + curQ g.pg g.qg (N.bus i).v0.1 (N.bus i).v0.2 ^ 2))) := by
    rw [← key]
    simp only [Gen.resid, hmi, Rou.resid, hP]
  rw [hrow]
  have hcur : curD g.pg g.qg (N.bus i).v0.1 (N.bus i).v0.2 ^ 2 + curQ g.pg g.qg (N.bus i).v0.1 (N.bus i).v0.2 ^ 2 ≠ 0 := by
    intro h0
    have c1 : curD g.pg g.qg (N.bus i).v0.1 (N.bus i).v0.2 = 0 := by
      nlinarith [sq_nonneg (curD g.pg g.qg (N.bus i).v0.1 (N.bus i).v0.2), sq_nonneg (curQ g.pg g.qg (N.bus i).v0.1 (N.bus i).v0.2)]
    have c2 : curQ g.pg g.qg (N.bus i).v0.1 (N.bus i).v0.2 = 0 := by
      nlinarith [sq_nonneg (curD g.pg g.qg (N.bus i).v0.1 (N.bus i).v0.2), sq_nonneg (curQ g.pg g.qg (N.bus i).v0.1 (N.bus i).v0.2)]
    have := cur_eq g.pg g.qg (N.bus i).v0.1 (N.bus i).v0.2 hV0
    rw [c1, c2] at this
    have hre := congrArg Complex.re this
    have him := congrArg Complex.im this
    simp at hre him
    rcases hS with h | h
    · exact h hre.symm
    · exact h him
  have : p.Ra * (curD g.pg g.qg (N.bus i).v0.1 (N.bus i).v0.2 ^ 2 + curQ g.pg g.qg (N.bus i).v0.1 (N.bus i).v0.2 ^ 2) ≠ 0 :=
    mul_ne_zero hRa hcur
  exact mul_ne_zero (one_div_ne_zero (mul_ne_zero two_ne_zero hH)) (neg_ne_zero.mpr this)

private theorem Mach.size_ge (m : Mach) : 2 ≤ m.size := by cases m <;> simp [Mach.size]

private theorem place_shift (gens : List Gen) (p : ℕ) : (place gens p).2 = p + (place gens 0).2 := by
  induction gens generalizing p with
  | nil => rfl
  | cons g gs ih =>
    simp only [place]
    split
    · simp only [ih (p + g.size), ih (0 + g.size)]
      omega
    · exact ih p

/-- What the loop leaves alone. -/
private theorem initLoop_keeps (j : Junk) (v : ℝ × ℝ) (gens : List Gen) (buf : ℕ → ℝ) (p q : ℕ)
    (hq : p + (place gens 0).2 ≤ q) : (initLoop j v gens buf p).2 q = buf q := by
  induction gens generalizing buf p with
  | nil => rfl
  | cons g gs ih =>
    by_cases hg : g.on = true
    · simp only [place, hg, if_true] at hq
      rw [place_shift] at hq
      simp only [initLoop, hg, if_true]
      unfold Gen.size Gen.nexc Gen.ngov at hq
      cases he : g.exc <;> cases hw : g.gov <;> simp only [he, hw, Option.isSome, if_true, if_false, Bool.false_eq_true] at hq ⊢
      · rw [ih _ _ (by omega), wrBlock_out (by omega)]
      · rw [ih _ _ (by omega), wrBlock_out (by simp [Gen.ngov, hw]; omega), wrBlock_out (by omega)]
      · rw [ih _ _ (by omega), wrBlock_out (by simp [Gen.nexc, he]; omega), wrBlock_out (by omega)]
      · rw [ih _ _ (by simp [Gen.nexc, he]; omega), wrBlock_out (by simp [Gen.ngov, Gen.nexc, he, hw]; omega),
          wrBlock_out (by simp [Gen.nexc, he]; omega), wrBlock_out (by omega)]
    · simp only [place, hg, if_false, Bool.false_eq_true] at hq
      simp only [initLoop, hg, if_false, Bool.false_eq_true]
      exact ih _ _ hq

private theorem place_pos (gens : List Gen) (h : 1 ≤ (gens.filter (·.on)).length) : 2 ≤ (place gens 0).2 := by
  induction gens with
  | nil => simp at h
  | cons g gs ih =>
    by_cases hg : g.on = true
    · simp only [place, hg, if_true]
      rw [place_shift]
      have := g.mach.size_ge
      unfold Gen.size
      omega
    · simp only [place, hg, if_false, Bool.false_eq_true]
      exact ih (by simpa [hg] using h)

private theorem initLoop_short (j : Junk) (v : ℝ × ℝ) (gens : List Gen) (buf : ℕ → ℝ) (p q : ℕ)
    (h : 2 ≤ (gens.filter (·.on)).length) (hq : p + (place gens 0).2 ≤ q + 2) : (initLoop j v gens buf p).2 q = buf q := by
  induction gens generalizing buf p with
  | nil => simp at h
  | cons g gs ih =>
    by_cases hg : g.on = true
    · have hgs : 1 ≤ (gs.filter (·.on)).length := by simpa [hg] using h
      have h2 := place_pos gs hgs
      have h3 := g.mach.size_ge
      simp only [place, hg, if_true] at hq
      rw [place_shift] at hq
      simp only [initLoop, hg, if_true]
      unfold Gen.size Gen.nexc Gen.ngov at hq
      cases he : g.exc <;> cases hw : g.gov <;> simp only [he, hw, Option.isSome, if_true, if_false, Bool.false_eq_true] at hq ⊢
      · rw [initLoop_keeps _ _ _ _ _ _ (by omega), wrBlock_out (by omega)]
      · rw [initLoop_keeps _ _ _ _ _ _ (by omega), wrBlock_out (by simp [Gen.ngov, hw]; omega), wrBlock_out (by omega)]
      · rw [initLoop_keeps _ _ _ _ _ _ (by omega), wrBlock_out (by simp [Gen.nexc, he]; omega), wrBlock_out (by omega)]
      · rw [initLoop_keeps _ _ _ _ _ _ (by simp [Gen.nexc, he]; omega),
          wrBlock_out (by simp [Gen.ngov, Gen.nexc, he, hw]; omega),
          wrBlock_out (by simp [Gen.nexc, he]; omega), wrBlock_out (by omega)]
    · simp only [place, hg, if_false, Bool.false_eq_true] at hq
      simp only [initLoop, hg, if_false, Bool.false_eq_true]
      exact ih _ _ (by simpa [hg] using h) hq

/-- C189: with two or more generators in service at a bus the initial state is not filled in: the last two variables of
the bus, which belong to its last generator, keep the content the vector had before. -/
theorem C189_several_generators_violated (N : Net ι) (j : Junk) (buf : ι → ℕ → ℝ) (i : ι)
    (hi : (N.bus i).isolated = false) (h : 2 ≤ ((N.bus i).gens.filter (·.on)).length) (r : ℕ)
    (hr : (N.bus i).nvar ≤ r + 2) : (N.initX j buf).2 i r = buf i r := by
  have hx : (N.initX j buf).2 i = (initLoop j (N.bus i).v0 (N.bus i).gens
      (wrBlock (buf i) 0 2 (fun q => match q with
        | 0 => (N.bus i).v0.1
        | _ => (N.bus i).v0.2)) 2).2 := by
    simp only [Net.initX, Bus.initX, hi, Bool.false_eq_true, if_false]
    rfl
  have hn : (N.bus i).nvar = 2 + (place (N.bus i).gens 0).2 := by
    simp only [Bus.nvar, hi, Bool.false_eq_true, if_false]
    exact place_shift _ _
  have h2 := place_pos _ (by omega : 1 ≤ ((N.bus i).gens.filter (·.on)).length)
  rw [hx, initLoop_short _ _ _ _ _ _ h (by omega), wrBlock_out (by omega)]

/-- C189: the voltage buffer of an isolated bus is never filled in: unless it holds the voltage of the power flow by
chance, the equations of the bus are not satisfied. -/
theorem C189_isolated_violated (N : Net ι) (j : Junk) (buf : ι → ℕ → ℝ) (xp : ι → ℕ → ℝ) (old : ℕ → ℝ) (i : ι)
    (hi : (N.bus i).isolated = true) (hJ : N.junk i ≠ (N.bus i).v0) :
    ∃ r, r < (N.bus i).nvar ∧ (N.initX j buf).1.F .resid (N.initX j buf).2 (fun _ _ => 0) xp old i r ≠ 0 := by
  have hb : (N.initX j buf).1.bus i = N.bus i := by
    simp only [Net.initX, Bus.initX, hi, if_true]
  have hF : ∀ r, r < 2 → (N.initX j buf).1.F .resid (N.initX j buf).2 (fun _ _ => 0) xp old i r
      = if r = 0 then (N.junk i).1 - (N.bus i).v0.1 else (N.junk i).2 - (N.bus i).v0.2 := by
    intro r hr
    unfold Net.F Net.volt
    rw [hb]
    simp only [hi, if_true]
    interval_cases r
    · rfl
    · rfl
  have hn : (N.bus i).nvar = 2 := by simp [Bus.nvar, hi]
  by_cases h0 : (N.junk i).1 = (N.bus i).v0.1
  · refine ⟨1, by omega, ?_⟩
    rw [hF 1 (by norm_num)]
    simp only [one_ne_zero, if_false]
    intro h
    exact hJ (Prod.ext h0 (sub_eq_zero.mp h))
  · refine ⟨0, by omega, ?_⟩
    rw [hF 0 (by norm_num)]
    simp only [if_true]
    exact sub_ne_zero.mpr h0

/-! ### Examples -/

/-- GENROU with armature resistance `Ra`. -/
private noncomputable def exRou (Ra : ℝ) : Rou :=
  ⟨5, 1, Ra, 2, 1.5, 0.3, 0.2, 0.1, 0.4, 0.2, 6, 0.05, 0.1, 0.5, -0.2 / (Ra * Ra + 0.2 * 0.2), Ra / (Ra * Ra + 0.2 * 0.2)⟩
/-- EXDC1. -/
private noncomputable def exExc : Exdc1 := ⟨0.02, 40, 0.1, 1, 0.5, 5, -5, 1, 0.5, 0.1, 1, 3, 0.1, 3, 0, false, false⟩
/-- WSIEG1. -/
private noncomputable def exGov : Wsieg1 :=
  ⟨20, 0.5, 0.2, 0.1, 0.5, -0.5, 3, 0, 0.1, 0.2, 0.3, 0.4, 0.5, 0, 0.5, 0, 0, 0, 0, 0, 0, 0, false, false, false, false⟩
/-- A generator with exciter and governor, delivering the power 2. -/
private noncomputable def exGen (Ra : ℝ) : Gen := ⟨true, .rou (exRou Ra), some (.exdc1 exExc), some exGov, 0, 0, 2, 0⟩
/-- Two buses joined by a line; a generator at the first with voltage 2, a load at the second with voltage 1. -/
private noncomputable def exNet (Ra : ℝ) : Net Bool where
  bus b := if b then ⟨false, 0, 0, 1, 0, 1, 0, []⟩ else ⟨false, 0, 0, 0, 0, 2, 0, [exGen Ra]⟩
  branches := [⟨false, true, [⟨true, 1, 0, -1, 0, -1, 0, 1, 0⟩]⟩]
  junk _ := (0, 0)

/-- The hypotheses of `C189_initial_equilibrium_partial` hold for the first bus of the example. -/
example : (∀ br ∈ (exNet 0).branches, br.fr ≠ br.to') ∧ (exNet 0).IsolatedOff ∧
    (∀ i, (((exNet 0).bus i).gens.filter (·.on)).length ≤ 1) ∧ ((exNet 0).bus false).isolated = false ∧
    (exNet 0).SolvedAt false ∧ (exNet 0).SolvedAt true ∧
    (∀ g ∈ ((exNet 0).bus false).gens, g.on = true → g.Startable ((exNet 0).bus false).v0) ∧
    ((exNet 0).bus false).nvar = 19 := by
  refine ⟨?_, ?_, ?_, rfl, ⟨?_, ?_⟩, ⟨?_, ?_⟩, ?_, rfl⟩
  · intro br hbr
    simp [exNet] at hbr
    simp [hbr]
  · intro br hbr h
    simp [exNet] at hbr
    simp [exNet, hbr] at h
  · intro i
    cases i <;> simp [exNet, exGen]
  · norm_num [exNet]
  · simp [exNet, exGen, Net.drawn, Bus.V, Gen.power, Complex.ext_iff]
    norm_num
  · norm_num [exNet]
  · simp [exNet, exGen, Net.drawn, Bus.V, Gen.power, Complex.ext_iff]
    norm_num
  · intro g hg _
    simp [exNet] at hg
    subst hg
    refine ⟨?_, ?_, ?_, trivial⟩
    · norm_num [exGen, exRou, Mach.Startable]
    · intro e he
      simp [exGen] at he
      subst he
      norm_num [Exc.Startable, exExc]
    · intro w hw
      simp [exGen] at hw
      subst hw
      norm_num [Wsieg1.Startable, exGov]

/-- With an armature resistance the start is not an equilibrium. -/
example (j : Junk) (buf xp : Bool → ℕ → ℝ) (old : ℕ → ℝ) :
    ((exNet 0.01).initX j buf).1.F .resid ((exNet 0.01).initX j buf).2 (fun _ _ => 0) xp old false 3 ≠ 0 := by
  refine C189_genrou_resistance_violated (exNet 0.01) j buf xp old false rfl (by norm_num [exNet]) (exGen 0.01)
    (by simp [exNet, exGen]) (exRou 0.01) rfl (by norm_num [exRou]) (by norm_num [exRou]) (by norm_num [exRou])
    (by norm_num [exRou]) rfl rfl ?_ (Or.inl (by norm_num [exGen]))
  intro w hw
  simp [exGen] at hw
  subst hw
  norm_num [Wsieg1.Startable, exGov]

/-- A bus with two classical machines: the variables of the second are left as they were. -/
example (j : Junk) (buf : Unit → ℕ → ℝ) :
    let c : Gen := ⟨true, .cls ⟨0.3, 4, 0, 0, 0⟩, none, none, 0, 0, 1, 0⟩
    let N : Net Unit := ⟨fun _ => ⟨false, 0, 0, 2, 0, 1, 0, [c, c]⟩, [], fun _ => (0, 0)⟩
    (N.bus ()).nvar = 6 ∧ (N.initX j buf).2 () 4 = buf () 4 ∧ (N.initX j buf).2 () 5 = buf () 5 := by
  intro c N
  have h : (N.bus ()).nvar = 6 := rfl
  exact ⟨h, C189_several_generators_violated N j buf () rfl (by simp [N, c]) 4 (by rw [h]),
    C189_several_generators_violated N j buf () rfl (by simp [N, c]) 5 (by rw [h]; norm_num)⟩

/-- An isolated bus whose buffer holds zeros. -/
example (j : Junk) (buf xp : Unit → ℕ → ℝ) (old : ℕ → ℝ) :
    let N : Net Unit := ⟨fun _ => ⟨true, 0, 0, 0, 0, 1, 0, []⟩, [], fun _ => (0, 0)⟩
    ∃ r, r < (N.bus ()).nvar ∧ (N.initX j buf).1.F .resid (N.initX j buf).2 (fun _ _ => 0) xp old () r ≠ 0 :=
  C189_isolated_violated _ j buf xp old () rfl (by simp [Bus.v0])

end GridPACK.Dae
