import Verif.Lemmas.DaePlace
import Mathlib.Analysis.Calculus.Deriv.Add
import Mathlib.Algebra.BigOperators.Fin

/-! The rows of the network matrix are derivatives of the residual. -/
namespace GridPACK.Dae

/-- The sum of parts of the lines in service. -/
theorem total_eq {ι : Type} (br : Branch ι) (f : Line → ℝ) :
    br.total f = (br.lines.map (fun l => if l.status then f l else 0)).sum := by
  unfold Branch.total
  have h : ∀ (ls : List Line) (s : ℝ), ls.foldl (fun s l => if l.status then s + f l else s) s
      = s + (ls.map (fun l => if l.status then f l else 0)).sum := by
    intro ls
    induction ls with
    | nil => intro s; simp
    | cons l ls ih =>
      intro s
      simp only [List.foldl_cons, List.map_cons, List.sum_cons]
      rw [ih]
      split <;> ring
  rw [h, zero_add]

theorem foldl_pair {β : Type} (l : List β) (f : β → ℝ × ℝ) (a b : ℝ) :
    l.foldl (fun s x => (s.1 + (f x).1, s.2 + (f x).2)) (a, b)
      = (a + (l.map (fun x => (f x).1)).sum, b + (l.map (fun x => (f x).2)).sum) := by
  induction l generalizing a b with
  | nil => simp
  | cons x l ih => simp only [List.foldl_cons, List.map_cons, List.sum_cons]; rw [ih]; simp [add_assoc]

theorem linN_plusGB (G B : ℝ) (d : ℕ → ℝ) : linN (Net.plusGB G B) d 0 = -(B * d 0 + G * d 1) ∧
    linN (Net.plusGB G B) d 1 = -(G * d 0 - B * d 1) ∧ ∀ r, 2 ≤ r → linN (Net.plusGB G B) d r = 0 := by
  refine ⟨?_, ?_, ?_⟩
  · simp [linN, Net.plusGB, plus]; ring
  · simp [linN, Net.plusGB, plus]; ring
  · intro r hr
    have h0 : ¬ (0 = r) := by omega
    have h1 : ¬ (1 = r) := by omega
    simp [linN, Net.plusGB, plus, h0, h1]

theorem linN_offWrites {ι : Type} (br : Branch ι) (g b : Line → ℝ) (d : ℕ → ℝ) :
    linN (Net.offWrites br g b) d 0 = -(br.total b * d 0 + br.total g * d 1) ∧
    linN (Net.offWrites br g b) d 1 = -(br.total g * d 0 - br.total b * d 1) := by
  unfold Net.offWrites
  rw [linN_flatMap, linN_flatMap, total_eq, total_eq]
  generalize br.lines = ls
  induction ls with
  | nil => simp
  | cons l ls ih =>
    simp only [List.map_cons, List.sum_cons]
    rw [ih.1, ih.2]
    cases l.status
    · simp [linN]
    · constructor
      · simp [linN, plus]; ring
      · simp [linN, plus]; ring

theorem offWrites_mem {ι : Type} (br : Branch ι) (g b : Line → ℝ) :
    ∀ w ∈ Net.offWrites br g b, w.add = true ∧ w.c < 2 ∧ w.r < 2 := by
  intro w hw
  obtain ⟨l, _, hl⟩ := List.mem_flatMap.mp hw
  split at hl
  · simp only [List.mem_cons, List.not_mem_nil, or_false] at hl
    rcases hl with rfl | rfl | rfl | rfl <;> simp [plus]
  · simp at hl

theorem Bus.nvar_ge (b : Bus) : 2 ≤ b.nvar := by
  unfold Bus.nvar
  split
  · exact le_rfl
  · exact place_le _ _

namespace Net
variable {ι : Type} [DecidableEq ι] (N : Net ι)

/-- The change of the voltage of a bus. -/
def dvolt (d : ι → ℕ → ℝ) (i : ι) : ℝ × ℝ := if (N.bus i).isolated then (0, 0) else (d i 0, d i 1)

theorem volt_line (x d : ι → ℕ → ℝ) (t : ℝ) (i : ι) : N.volt (fun j c => x j c + t * d j c) i
    = ((N.volt x i).1 + t * (N.dvolt d i).1, (N.volt x i).2 + t * (N.dvolt d i).2) := by
  unfold volt dvolt
  split <;> simp

theorem line_deriv (a b : ℝ) : HasDerivAt (fun t : ℝ => a + t * b) b 0 := by
  simpa using ((hasDerivAt_id (0:ℝ)).mul_const b).const_add a

theorem volt_deriv (x d : ι → ℕ → ℝ) (i : ι) :
    HasDerivAt (fun t => (N.volt (fun j c => x j c + t * d j c) i).1) (N.dvolt d i).1 0 ∧
    HasDerivAt (fun t => (N.volt (fun j c => x j c + t * d j c) i).2) (N.dvolt d i).2 0 := by
  simp only [volt_line]
  exact ⟨line_deriv _ _, line_deriv _ _⟩

/-- The part of the change of a branch current due to the bus itself. -/
def ownCurrent (d : ι → ℕ → ℝ) (i : ι) (br : Branch ι) : ℝ × ℝ :=
  let dv := N.dvolt d i
  if br.fr = i then
    (br.total Line.Gff * dv.1 - br.total Line.Bff * dv.2, br.total Line.Bff * dv.1 + br.total Line.Gff * dv.2)
  else (br.total Line.Gtt * dv.1 - br.total Line.Btt * dv.2, br.total Line.Btt * dv.1 + br.total Line.Gtt * dv.2)

/-- The bus at the other end. -/
def _root_.GridPACK.Dae.Branch.other (br : Branch ι) (i : ι) : ι := if br.fr = i then br.to' else br.fr

/-- The part due to the bus at the other end. -/
def otherCurrent (d : ι → ℕ → ℝ) (i j : ι) (br : Branch ι) : ℝ × ℝ :=
  let dv := N.dvolt d j
  if br.fr = i then
    (br.total Line.Gft * dv.1 - br.total Line.Bft * dv.2, br.total Line.Bft * dv.1 + br.total Line.Gft * dv.2)
  else (br.total Line.Gtf * dv.1 - br.total Line.Btf * dv.2, br.total Line.Btf * dv.1 + br.total Line.Gtf * dv.2)

theorem branchCurrent_deriv (x d : ι → ℕ → ℝ) (i : ι) (br : Branch ι) :
    HasDerivAt (fun t => (N.branchCurrent (fun j c => x j c + t * d j c) i br).1)
      ((N.ownCurrent d i br).1 + (N.otherCurrent d i (br.other i) br).1) 0 ∧
    HasDerivAt (fun t => (N.branchCurrent (fun j c => x j c + t * d j c) i br).2)
      ((N.ownCurrent d i br).2 + (N.otherCurrent d i (br.other i) br).2) 0 := by
  obtain ⟨hi1, hi2⟩ := N.volt_deriv x d i
  obtain ⟨ho1, ho2⟩ := N.volt_deriv x d (br.other i)
  unfold branchCurrent ownCurrent otherCurrent
  unfold Branch.other at ho1 ho2 ⊢
  by_cases h : br.fr = i
  · simp only [h, if_true] at ho1 ho2 ⊢
    constructor
    · refine HasDerivAt.congr_deriv ((((hi1.const_mul _).sub (hi2.const_mul _)).add (ho1.const_mul _)).sub
        (ho2.const_mul _)) ?_
      ring
    · refine HasDerivAt.congr_deriv ((((hi1.const_mul _).add (hi2.const_mul _)).add (ho1.const_mul _)).add
        (ho2.const_mul _)) ?_
      ring
  · simp only [h, if_false] at ho1 ho2 ⊢
    constructor
    · refine HasDerivAt.congr_deriv ((((hi1.const_mul _).sub (hi2.const_mul _)).add (ho1.const_mul _)).sub
        (ho2.const_mul _)) ?_
      ring
    · refine HasDerivAt.congr_deriv ((((hi1.const_mul _).add (hi2.const_mul _)).add (ho1.const_mul _)).add
        (ho2.const_mul _)) ?_
      ring

theorem list_sum_deriv {β : Type} (l : List β) (f : β → ℝ → ℝ) (f' : β → ℝ) (h : ∀ b ∈ l, HasDerivAt (f b) (f' b) 0) :
    HasDerivAt (fun t => (l.map (fun b => f b t)).sum) ((l.map f').sum) 0 := by
  induction l with
  | nil => simpa using hasDerivAt_const (0:ℝ) (0:ℝ)
  | cons b l ih =>
    simp only [List.map_cons, List.sum_cons]
    exact (h b (by simp)).add (ih (fun a ha => h a (by simp [ha])))

/-! ### Sums over the other ends of branches -/

/-- The branch object found for a pair of buses. -/
def pairB (i j : ι) (br : Branch ι) : Bool := (br.fr = i ∧ br.to' = j) ∨ (br.fr = j ∧ br.to' = i)

theorem sum_find [Fintype ι] (i : ι) (L : List (Branch ι)) (h1 : ∀ br ∈ L, br.fr ≠ br.to')
    (h2 : L.Pairwise (fun a b => ¬(a.fr = b.fr ∧ a.to' = b.to') ∧ ¬(a.fr = b.to' ∧ a.to' = b.fr)))
    (H : ι → Branch ι → ℝ) :
    ∑ j, (if i = j then 0 else match L.find? (pairB i j) with
        | none => 0
        | some br => H j br)
      = ((L.filter (fun br => br.fr = i ∨ br.to' = i)).map (fun br => H (br.other i) br)).sum := by
  induction L with
  | nil => simp
  | cons b L ih =>
    have ih' := ih (fun br hbr => h1 br (by simp [hbr])) (List.pairwise_cons.mp h2).2
    have hb := h1 b (by simp)
    have hL := (List.pairwise_cons.mp h2).1
    by_cases ht : b.fr = i ∨ b.to' = i
    · have ek : ∀ j, (if i = j then 0 else match (b :: L).find? (pairB i j) with
          | none => 0
          | some br => H j br) = (if i = j then 0 else match L.find? (pairB i j) with
          | none => 0
          | some br => H j br) + (if j = b.other i then H (b.other i) b else 0) := by
        intro j
        by_cases hij : i = j
        · subst hij
          have : ¬ i = b.other i := by
            unfold Branch.other
            split
            · next h => rw [← h]; exact hb
            · next h => exact fun e => h e.symm
          simp [this]
        · rw [if_neg hij, if_neg hij]
          by_cases hj : j = b.other i
          · have hp : pairB i j b = true := by
              unfold pairB
              unfold Branch.other at hj
              split at hj
              · next h => simp [h, hj]
              · next h =>
                have h' := ht.resolve_left h
                simp [h', hj]
            have hn : L.find? (pairB i j) = none := by
              rw [List.find?_eq_none]
              intro c hc hpc
              have hbc := hL c hc
              simp only [pairB, decide_eq_true_eq] at hp hpc
              rcases hp with ⟨a1, a2⟩ | ⟨a1, a2⟩ <;> rcases hpc with ⟨c1, c2⟩ | ⟨c1, c2⟩
              · exact hbc.1 ⟨a1.trans c1.symm, a2.trans c2.symm⟩
              · exact hbc.2 ⟨a1.trans c2.symm, a2.trans c1.symm⟩
              · exact hbc.2 ⟨a1.trans c2.symm, a2.trans c1.symm⟩
              · exact hbc.1 ⟨a1.trans c1.symm, a2.trans c2.symm⟩
            rw [List.find?_cons_of_pos hp, hn, if_pos hj, zero_add, hj]
          · have hp : ¬ pairB i j b = true := by
              intro hp
              simp only [pairB, decide_eq_true_eq] at hp
              apply hj
              unfold Branch.other
              rcases hp with ⟨a1, a2⟩ | ⟨a1, a2⟩
              · simp [a1, a2]
              · have : ¬ b.fr = i := fun e => hij (e.symm.trans a1)
                rw [if_neg this, a1]
            rw [List.find?_cons_of_neg hp, if_neg hj, add_zero]
      rw [Finset.sum_congr rfl (fun j _ => ek j), Finset.sum_add_distrib, ih', Finset.sum_ite_eq' Finset.univ]
      simp only [Finset.mem_univ, if_true]
      rw [List.filter_cons_of_pos (by simpa using ht), List.map_cons, List.sum_cons, add_comm]
    · have ek : ∀ j, (b :: L).find? (pairB i j) = L.find? (pairB i j) := by
        intro j
        apply List.find?_cons_of_neg
        intro hp
        simp only [pairB, decide_eq_true_eq] at hp
        rcases hp with ⟨a1, _⟩ | ⟨_, a2⟩
        · exact ht (Or.inl a1)
        · exact ht (Or.inr a2)
      simp only [ek]
      rw [ih', List.filter_cons_of_neg (by simpa using ht)]

/-! ### Blocks -/

/-- The contribution of one other bus to the rows of the bus. -/
theorem off_block (m : Mode) (s : ℝ) (x d : ι → ℕ → ℝ) (i j : ι) (hi : (N.bus i).isolated = false) (hij : ¬ i = j) :
    (∑ c ∈ Finset.range (N.bus j).nvar, N.J m s x i j c 0 * d j c = match N.branches.find? (pairB i j) with
      | none => 0
      | some br => -(N.otherCurrent d i j br).2) ∧
    (∑ c ∈ Finset.range (N.bus j).nvar, N.J m s x i j c 1 * d j c = match N.branches.find? (pairB i j) with
      | none => 0
      | some br => -(N.otherCurrent d i j br).1) ∧
    ∀ r, 2 ≤ r → ∑ c ∈ Finset.range (N.bus j).nvar, N.J m s x i j c r * d j c = 0 := by
  have hnv := (N.bus j).nvar_ge
  have hrun : ∀ (br : Branch ι) (g b : Line → ℝ) r, ∑ c ∈ Finset.range (N.bus j).nvar, run (offWrites br g b) c r * d j c
      = linN (offWrites br g b) (d j) r := by
    intro br g b r
    exact run_mul _ (.of_add (fun w hw => (offWrites_mem br g b w hw).1)) _
      (fun w hw => lt_of_lt_of_le (offWrites_mem br g b w hw).2.1 hnv) _ _
  have hrun2 : ∀ (br : Branch ι) (g b : Line → ℝ) c r, 2 ≤ r → run (offWrites br g b) c r = 0 := by
    intro br g b c r hr
    exact run_row_zero _ (.of_add (fun w hw => (offWrites_mem br g b w hw).1)) _
      (fun w hw => by have := (offWrites_mem br g b w hw).2.2; omega) _
  have hJ : ∀ c r, N.J m s x i j c r = if (N.bus j).isolated then 0 else match N.branches.find? (pairB i j) with
      | none => 0
      | some br => if br.fr = i then run (offWrites br Line.Gft Line.Bft) c r
        else run (offWrites br Line.Gtf Line.Btf) c r := by
    intro c r
    unfold J
    rw [if_neg hij]
    simp only [hi, Bool.false_eq_true, false_or]
    rfl
  simp only [hJ]
  cases hj : (N.bus j).isolated
  · simp only [Bool.false_eq_true, if_false]
    cases hf : N.branches.find? (pairB i j) with
    | none => simp
    | some br =>
      have hdv : N.dvolt d j = (d j 0, d j 1) := by simp [dvolt, hj]
      by_cases hfr : br.fr = i
      · simp only [hfr, if_true, otherCurrent, hdv]
        refine ⟨?_, ?_, ?_⟩
        · rw [hrun, (linN_offWrites br _ _ _).1]
        · rw [hrun, (linN_offWrites br _ _ _).2]
        · intro r hr
          apply Finset.sum_eq_zero
          intro c _
          rw [hrun2 _ _ _ _ _ hr, zero_mul]
      · simp only [hfr, if_false, otherCurrent, hdv]
        refine ⟨?_, ?_, ?_⟩
        · rw [hrun, (linN_offWrites br _ _ _).1]
        · rw [hrun, (linN_offWrites br _ _ _).2]
        · intro r hr
          apply Finset.sum_eq_zero
          intro c _
          rw [hrun2 _ _ _ _ _ hr, zero_mul]
  · have hdv : N.dvolt d j = (0, 0) := by simp [dvolt, hj]
    simp only [if_true, zero_mul, Finset.sum_const_zero, otherCurrent, hdv]
    refine ⟨?_, ?_, fun _ _ => trivial⟩
    · cases N.branches.find? (pairB i j) with
      | none => rfl
      | some br => simp
    · cases N.branches.find? (pairB i j) with
      | none => rfl
      | some br => simp

theorem diagWrites_eq (m : Mode) (s : ℝ) (x : ι → ℕ → ℝ) (i : ι) (hi : (N.bus i).isolated = false) :
    N.diagWrites m s x i = (N.nbrs i).flatMap (fun br =>
      if br.fr = i then plusGB (br.total Line.Gff) (br.total Line.Bff)
      else plusGB (br.total Line.Gtt) (br.total Line.Btt))
    ++ plusGB (N.bus i).gl (N.bus i).bl
    ++ plusGB ((N.bus i).pl / ((N.bus i).Vm0 * (N.bus i).Vm0)) (-((N.bus i).ql / ((N.bus i).Vm0 * (N.bus i).Vm0)))
    ++ (place (N.bus i).gens 2).1.flatMap (fun gp => gp.1.placedJac m s (gp.1.pushed (N.volt x i) (x i) gp.2) gp.2) := by
  unfold diagWrites Bus.placed
  simp only [hi]
  simp only [plusGB, neg_neg]
  rfl

/-- The block of the bus itself. -/
theorem diag_block (m : Mode) (s : ℝ) (x d : ι → ℕ → ℝ) (i : ι) (hi : (N.bus i).isolated = false) (r : ℕ) :
    ∑ c ∈ Finset.range (N.bus i).nvar, N.J m s x i i c r * d i c
      = ((N.nbrs i).map (fun br => linN (if br.fr = i then plusGB (br.total Line.Gff) (br.total Line.Bff)
          else plusGB (br.total Line.Gtt) (br.total Line.Btt)) (d i) r)).sum
        + linN (plusGB (N.bus i).gl (N.bus i).bl) (d i) r
        + linN (plusGB ((N.bus i).pl / ((N.bus i).Vm0 * (N.bus i).Vm0))
            (-((N.bus i).ql / ((N.bus i).Vm0 * (N.bus i).Vm0)))) (d i) r
        + linN ((place (N.bus i).gens 2).1.flatMap
            (fun gp => gp.1.placedJac m s (gp.1.pushed (N.volt x i) (x i) gp.2) gp.2)) (d i) r := by
  have hJ : ∀ c, N.J m s x i i c r = run (N.diagWrites m s x i) c r := by
    intro c
    simp [J]
  simp only [hJ]
  have hnv : (N.bus i).nvar = (place (N.bus i).gens 2).2 := by simp [Bus.nvar, hi]
  have hPG : ∀ G B, ∀ w ∈ plusGB G B, w.add = true ∧ w.c < 2 ∧ w.r < 2 := by
    intro G B w hw
    simp only [plusGB, List.mem_cons, List.not_mem_nil, or_false] at hw
    rcases hw with rfl | rfl | rfl | rfl <;> simp [plus]
  have hA : ∀ w ∈ (N.nbrs i).flatMap (fun br =>
      if br.fr = i then plusGB (br.total Line.Gff) (br.total Line.Bff)
      else plusGB (br.total Line.Gtt) (br.total Line.Btt))
    ++ plusGB (N.bus i).gl (N.bus i).bl
    ++ plusGB ((N.bus i).pl / ((N.bus i).Vm0 * (N.bus i).Vm0)) (-((N.bus i).ql / ((N.bus i).Vm0 * (N.bus i).Vm0))),
      w.add = true ∧ w.c < 2 ∧ w.r < 2 := by
    intro w hw
    rcases List.mem_append.mp hw with hw | hw
    · rcases List.mem_append.mp hw with hw | hw
      · obtain ⟨br, _, hw⟩ := List.mem_flatMap.mp hw
        split at hw
        · exact hPG _ _ w hw
        · exact hPG _ _ w hw
      · exact hPG _ _ w hw
    · exact hPG _ _ w hw
  have hB : ∀ gn ∈ (place (N.bus i).gens 2).1, ∀ w ∈ gn.1.placedJac m s (gn.1.pushed (N.volt x i) (x i) gn.2) gn.2,
      (w.c < 2 ∨ gn.2 ≤ w.c ∧ w.c < gn.2 + gn.1.size) ∧ (w.r < 2 ∨ gn.2 ≤ w.r ∧ w.r < gn.2 + gn.1.size) ∧
      (w.add = false → (gn.2 ≤ w.c ∧ w.c < gn.2 + gn.1.size) ∨ (gn.2 ≤ w.r ∧ w.r < gn.2 + gn.1.size)) := by
    intro gn _ w hw
    exact gn.1.placedJac_mem m _ hw
  rw [diagWrites_eq N m s x i hi]
  rw [run_mul]
  · simp only [linN_append, linN_flatMap]
  · refine List.pairwise_append.mpr ⟨Fresh.of_add (fun w hw => (hA w hw).1), fresh_place _ 2 le_rfl _ ?_ hB, ?_⟩
    · intro gn hgn
      exact gn.1.placedJac_fresh m _ (place_mem hgn).1
    · intro w hw v hv
      have h1 := hA w hw
      obtain ⟨gn, hgn, hv⟩ := List.mem_flatMap.mp hv
      have h2 := hB gn hgn v hv
      have h3 := (place_mem hgn).1
      cases had : v.add
      · right
        rintro ⟨e1, e2⟩
        have := h2.2.2 had
        omega
      · exact Or.inl rfl
  · intro w hw
    rw [hnv]
    rcases List.mem_append.mp hw with hw | hw
    · exact lt_of_lt_of_le (hA w hw).2.1 (place_le _ _)
    · obtain ⟨gn, hgn, hw⟩ := List.mem_flatMap.mp hw
      have h2 := (hB gn hgn w hw).1
      have h3 := place_mem hgn
      omega

/-! ### The residual -/

theorem _root_.GridPACK.Dae.Gen.resid_pushed (g : Gen) (m : Mode) (X Xd : Ix → ℝ) (v v' : ℝ × ℝ) (xp : ℕ → ℝ) (n : ℕ) (ix : Ix) :
    g.resid m X Xd (g.pushed v xp n) ix = g.resid m X Xd (g.pushed v' xp n) ix := by
  cases ix with
  | net k => rfl
  | gen k =>
    unfold Gen.resid
    cases g.mach <;> rfl
  | exc k =>
    unfold Gen.resid
    rcases g.exc with _ | (_ | _) <;> rfl
  | gov k =>
    unfold Gen.resid
    cases g.gov <;> rfl

theorem F_eq (m : Mode) (x xd xp : ι → ℕ → ℝ) (buf : ℕ → ℝ) (i : ι) (hi : (N.bus i).isolated = false) :
    (∀ gn ∈ (place (N.bus i).gens 2).1, ∀ ix : Ix, gn.1.Valid ix → ix.isNet = false →
      N.F m x xd xp buf i (gn.1.pos gn.2 ix) = gn.1.resid m (gn.1.pushed (N.volt x i) (x i) gn.2)
        (gn.1.pushed (N.volt x i) (xd i) gn.2) (gn.1.pushed (N.volt x i) (xp i) gn.2) ix) ∧
    N.F m x xd xp buf i 0 = ((place (N.bus i).gens 2).1.map (fun gn => gn.1.igq (gn.1.pushed (N.volt x i) (x i) gn.2))).sum
      - ((N.bus i).bl * (N.volt x i).1 + (N.bus i).gl * (N.volt x i).2)
      - ((N.nbrs i).map (fun br => (N.branchCurrent x i br).2)).sum
      - (-((N.bus i).ql / ((N.bus i).Vm0 * (N.bus i).Vm0)) * (N.volt x i).1
        + (N.bus i).pl / ((N.bus i).Vm0 * (N.bus i).Vm0) * (N.volt x i).2) ∧
    N.F m x xd xp buf i 1 = ((place (N.bus i).gens 2).1.map (fun gn => gn.1.igd (gn.1.pushed (N.volt x i) (x i) gn.2))).sum
      - ((N.bus i).gl * (N.volt x i).1 - (N.bus i).bl * (N.volt x i).2)
      - ((N.nbrs i).map (fun br => (N.branchCurrent x i br).1)).sum
      - ((N.bus i).pl / ((N.bus i).Vm0 * (N.bus i).Vm0) * (N.volt x i).1
        + (N.bus i).ql / ((N.bus i).Vm0 * (N.bus i).Vm0) * (N.volt x i).2) := by
  obtain ⟨h1, h2, h3, h4⟩ := residLoop_spec m (N.volt x i) (x i) (xd i) (xp i) (N.bus i).gens buf 2 0 0
  unfold F
  simp only [hi, Bool.false_eq_true, if_false]
  refine ⟨?_, ?_, ?_⟩
  · intro gn hgn ix hv hn
    have := gn.1.pos_range (n := gn.2) hv hn
    have h5 := place_mem hgn
    rw [wrBlock_out (by omega)]
    exact h1 gn hgn ix hv hn
  · refine (wrBlock_in (p := 0) (n := 2) (k := 0) (by norm_num)).trans ?_
    simp only [h4, foldl_pair, zero_add]
  · refine (wrBlock_in (p := 0) (n := 2) (k := 1) (by norm_num)).trans ?_
    simp only [h3, foldl_pair, zero_add]

/-! ### The result -/

theorem row_is_derivative [Fintype ι] (hN : N.Simple) (m : Mode) (s : ℝ) (x xd xp : ι → ℕ → ℝ) (buf : ℕ → ℝ) (i : ι)
    (hi : (N.bus i).isolated = false)
    (hok : ∀ gn ∈ (place (N.bus i).gens 2).1, gn.1.Okay m (gn.1.pushed (N.volt x i) (x i) gn.2))
    (r : ℕ) (hr : r < (N.bus i).nvar) : RowIsDerivative N m s x xd xp buf i r := by
  intro d
  have hdv : N.dvolt d i = (d i 0, d i 1) := by simp [dvolt, hi]
  -- the state of a generator moves along a line
  have hY : ∀ (gn : Gen × ℕ) (ix : Ix), HasDerivAt (fun t : ℝ => gn.1.pushed (N.volt (fun j c => x j c + t * d j c) i)
      (fun c => x i c + t * d i c) gn.2 ix) (gn.1.pushed (d i 0, d i 1) (d i) gn.2 ix) 0 := by
    intro gn ix
    have hv := N.volt_deriv x d i
    rw [hdv] at hv
    cases ix with
    | net k =>
      cases k with
      | zero => exact hv.1
      | succ k => exact hv.2
    | gen k => exact line_deriv _ _
    | exc k => exact line_deriv _ _
    | gov k => exact line_deriv _ _
  have hZ : ∀ (gn : Gen × ℕ) (ix : Ix), ix.isNet = false →
      HasDerivAt (fun t : ℝ => gn.1.pushed (N.volt (fun j c => x j c + t * d j c) i)
      (fun c => xd i c + t * (s * d i c)) gn.2 ix) (s * gn.1.pushed (d i 0, d i 1) (d i) gn.2 ix) 0 := by
    intro gn ix hn
    cases ix with
    | net k => cases hn
    | gen k => exact line_deriv _ _
    | exc k => exact line_deriv _ _
    | gov k => exact line_deriv _ _
  have h0 : ∀ gn : Gen × ℕ, gn.1.pushed (N.volt (fun j c => x j c + (0:ℝ) * d j c) i) (fun c => x i c + (0:ℝ) * d i c) gn.2
      = gn.1.pushed (N.volt x i) (x i) gn.2 := by
    intro gn
    simp
  -- sums over the buses
  have hsum : ∀ q, ∑ j, ∑ c ∈ Finset.range (N.bus j).nvar, N.J m s x i j c q * d j c
      = ∑ c ∈ Finset.range (N.bus i).nvar, N.J m s x i i c q * d i c
        + ∑ j, if i = j then 0 else ∑ c ∈ Finset.range (N.bus j).nvar, N.J m s x i j c q * d j c := by
    intro q
    have h := Finset.sum_ite_eq Finset.univ i (fun j => ∑ c ∈ Finset.range (N.bus j).nvar, N.J m s x i j c q * d j c)
    rw [if_pos (Finset.mem_univ i)] at h
    rw [← h, ← Finset.sum_add_distrib]
    apply Finset.sum_congr rfl
    intro j _
    split <;> simp
  rw [hsum, N.diag_block m s x d i hi]
  rcases Nat.lt_or_ge r 2 with hr2 | hr2
  · -- the rows of the currents
    interval_cases r
    · have hoff : (∑ j, if i = j then (0:ℝ) else ∑ c ∈ Finset.range (N.bus j).nvar, N.J m s x i j c 0 * d j c)
          = ((N.nbrs i).map (fun br => -(N.otherCurrent d i (br.other i) br).2)).sum := by
        unfold nbrs
        rw [← sum_find i N.branches hN.1 hN.2 (fun j br => -(N.otherCurrent d i j br).2)]
        apply Finset.sum_congr rfl
        intro j _
        by_cases hij : i = j
        · simp [hij]
        · rw [if_neg hij, if_neg hij, (N.off_block m s x d i j hi hij).1]
      rw [hoff]
      have e : ∀ t : ℝ, N.F m (fun j c => x j c + t * d j c) (fun j c => xd j c + t * (s * d j c)) xp buf i 0 = _ :=
        fun t => (N.F_eq m (fun j c => x j c + t * d j c) (fun j c => xd j c + t * (s * d j c)) xp buf i hi).2.1
      simp only [e]
      have hv := N.volt_deriv x d i
      have hG := list_sum_deriv (place (N.bus i).gens 2).1
        (fun gn t => gn.1.igq (gn.1.pushed (N.volt (fun j c => x j c + t * d j c) i) (fun c => x i c + t * d i c) gn.2))
        (fun gn => linN (gn.1.placedJac m s (gn.1.pushed (N.volt x i) (x i) gn.2) gn.2) (d i) 0)
        (by
          intro gn hgn
          have h := gn.1.igq_deriv (s := s) (hY gn) m (by
            have := gn.1.okay_ep (hok gn hgn)
            exact this)
          rw [h0 gn] at h
          refine HasDerivAt.congr_deriv h ?_
          exact (gn.1.placedJac_lin m _ (place_mem hgn).1 (d i) (.net 0) (by simp [Gen.Valid, Ix.Valid])).symm)
      have hB := list_sum_deriv (N.nbrs i) (fun br t => (N.branchCurrent (fun j c => x j c + t * d j c) i br).2)
        (fun br => (N.ownCurrent d i br).2 + (N.otherCurrent d i (br.other i) br).2)
        (fun br _ => (N.branchCurrent_deriv x d i br).2)
      have h := ((hG.sub ((hv.1.const_mul (N.bus i).bl).add (hv.2.const_mul (N.bus i).gl))).sub hB).sub
        ((hv.1.const_mul (-((N.bus i).ql / ((N.bus i).Vm0 * (N.bus i).Vm0)))).add
          (hv.2.const_mul ((N.bus i).pl / ((N.bus i).Vm0 * (N.bus i).Vm0))))
      refine HasDerivAt.congr_deriv h ?_
      rw [(linN_plusGB _ _ _).1, (linN_plusGB _ _ _).1, linN_flatMap, hdv]
      have hown : ∀ br : Branch ι, linN (if br.fr = i then plusGB (br.total Line.Gff) (br.total Line.Bff)
          else plusGB (br.total Line.Gtt) (br.total Line.Btt)) (d i) 0 = -(N.ownCurrent d i br).2 := by
        intro br
        unfold ownCurrent
        rw [hdv]
        split <;> simp [(linN_plusGB _ _ _).1]
      simp only [hown]
      have hs : ((N.nbrs i).map (fun br => (N.ownCurrent d i br).2 + (N.otherCurrent d i (br.other i) br).2)).sum
          = -((N.nbrs i).map (fun br => -(N.ownCurrent d i br).2)).sum
            - ((N.nbrs i).map (fun br => -(N.otherCurrent d i (br.other i) br).2)).sum := by
        generalize N.nbrs i = l
        induction l with
        | nil => simp
        | cons b l ih => simp only [List.map_cons, List.sum_cons]; rw [ih]; ring
      rw [hs]
      ring
    · have hoff : (∑ j, if i = j then (0:ℝ) else ∑ c ∈ Finset.range (N.bus j).nvar, N.J m s x i j c 1 * d j c)
          = ((N.nbrs i).map (fun br => -(N.otherCurrent d i (br.other i) br).1)).sum := by
        unfold nbrs
        rw [← sum_find i N.branches hN.1 hN.2 (fun j br => -(N.otherCurrent d i j br).1)]
        apply Finset.sum_congr rfl
        intro j _
        by_cases hij : i = j
        · simp [hij]
        · rw [if_neg hij, if_neg hij, (N.off_block m s x d i j hi hij).2.1]
      rw [hoff]
      have e : ∀ t : ℝ, N.F m (fun j c => x j c + t * d j c) (fun j c => xd j c + t * (s * d j c)) xp buf i 1 = _ :=
        fun t => (N.F_eq m (fun j c => x j c + t * d j c) (fun j c => xd j c + t * (s * d j c)) xp buf i hi).2.2
      simp only [e]
      have hv := N.volt_deriv x d i
      have hG := list_sum_deriv (place (N.bus i).gens 2).1
        (fun gn t => gn.1.igd (gn.1.pushed (N.volt (fun j c => x j c + t * d j c) i) (fun c => x i c + t * d i c) gn.2))
        (fun gn => linN (gn.1.placedJac m s (gn.1.pushed (N.volt x i) (x i) gn.2) gn.2) (d i) 1)
        (by
          intro gn hgn
          have h := gn.1.igd_deriv (s := s) (hY gn) m (by
            have := gn.1.okay_ep (hok gn hgn)
            exact this)
          rw [h0 gn] at h
          refine HasDerivAt.congr_deriv h ?_
          exact (gn.1.placedJac_lin m _ (place_mem hgn).1 (d i) (.net 1) (by simp [Gen.Valid, Ix.Valid])).symm)
      have hB := list_sum_deriv (N.nbrs i) (fun br t => (N.branchCurrent (fun j c => x j c + t * d j c) i br).1)
        (fun br => (N.ownCurrent d i br).1 + (N.otherCurrent d i (br.other i) br).1)
        (fun br _ => (N.branchCurrent_deriv x d i br).1)
      have h := ((hG.sub ((hv.1.const_mul (N.bus i).gl).sub (hv.2.const_mul (N.bus i).bl))).sub hB).sub
        ((hv.1.const_mul ((N.bus i).pl / ((N.bus i).Vm0 * (N.bus i).Vm0))).add
          (hv.2.const_mul ((N.bus i).ql / ((N.bus i).Vm0 * (N.bus i).Vm0))))
      refine HasDerivAt.congr_deriv h ?_
      rw [(linN_plusGB _ _ _).2.1, (linN_plusGB _ _ _).2.1, linN_flatMap, hdv]
      have hown : ∀ br : Branch ι, linN (if br.fr = i then plusGB (br.total Line.Gff) (br.total Line.Bff)
          else plusGB (br.total Line.Gtt) (br.total Line.Btt)) (d i) 1 = -(N.ownCurrent d i br).1 := by
        intro br
        unfold ownCurrent
        rw [hdv]
        split <;> simp [(linN_plusGB _ _ _).2.1]
      simp only [hown]
      have hs : ((N.nbrs i).map (fun br => (N.ownCurrent d i br).1 + (N.otherCurrent d i (br.other i) br).1)).sum
          = -((N.nbrs i).map (fun br => -(N.ownCurrent d i br).1)).sum
            - ((N.nbrs i).map (fun br => -(N.otherCurrent d i (br.other i) br).1)).sum := by
        generalize N.nbrs i = l
        induction l with
        | nil => simp
        | cons b l ih => simp only [List.map_cons, List.sum_cons]; rw [ih]; ring
      rw [hs]
      ring
  · -- the rows of the devices
    have hnv : (N.bus i).nvar = (place (N.bus i).gens 2).2 := by simp [Bus.nvar, hi]
    rw [hnv] at hr
    obtain ⟨gn, hgn, hq1, hq2⟩ := place_cover hr2 hr
    obtain ⟨ix, hv, hn, rfl⟩ := gn.1.pos_surj hq1 hq2
    have hoff : (∑ j, if i = j then (0:ℝ) else ∑ c ∈ Finset.range (N.bus j).nvar,
        N.J m s x i j c (gn.1.pos gn.2 ix) * d j c) = 0 := by
      apply Finset.sum_eq_zero
      intro j _
      by_cases hij : i = j
      · simp [hij]
      · rw [if_neg hij, (N.off_block m s x d i j hi hij).2.2 _ hr2]
    rw [hoff, (linN_plusGB _ _ _).2.2 _ hr2, (linN_plusGB _ _ _).2.2 _ hr2, sum_eq_zero_of_forall]
    · rw [linN_place (N.bus i).gens 2 le_rfl
        (fun gp => gp.1.placedJac m s (gp.1.pushed (N.volt x i) (x i) gp.2) gp.2)
        (fun g hg w hw => (g.1.placedJac_mem m _ hw).2.1) (d i) gn hgn _ hq1 hq2,
        gn.1.placedJac_lin m _ (place_mem hgn).1 (d i) ix hv]
      have e : ∀ t : ℝ, N.F m (fun j c => x j c + t * d j c) (fun j c => xd j c + t * (s * d j c)) xp buf i
          (gn.1.pos gn.2 ix) = _ :=
        fun t => (N.F_eq m (fun j c => x j c + t * d j c) (fun j c => xd j c + t * (s * d j c)) xp buf i hi).1 gn hgn ix hv hn
      have h := gn.1.resid_deriv (s := s) (hY gn) (hZ gn) m (by
        rw [h0 gn]
        exact hok gn hgn) (gn.1.pushed (N.volt x i) (xp i) gn.2) ix hv hn
      rw [h0 gn] at h
      simp only [e]
      refine HasDerivAt.congr_of_eventuallyEq ?_ ?_ (f := fun t => gn.1.resid m
        (gn.1.pushed (N.volt (fun j c => x j c + t * d j c) i) (fun c => x i c + t * d i c) gn.2)
        (gn.1.pushed (N.volt (fun j c => x j c + t * d j c) i) (fun c => xd i c + t * (s * d i c)) gn.2)
        (gn.1.pushed (N.volt x i) (xp i) gn.2) ix)
      · refine HasDerivAt.congr_deriv h ?_
        ring
      · refine Filter.Eventually.of_forall fun t => ?_
        exact gn.1.resid_pushed m _ _ _ _ _ _ _
    · intro y hy
      obtain ⟨br, _, rfl⟩ := List.mem_map.mp hy
      split <;> exact (linN_plusGB _ _ _).2.2 _ hr2

end Net
end GridPACK.Dae
