import Verif.Lemmas.DaeGen

/-! Places of the variables at a bus: what is pushed, evaluated and differentiated agree. -/
namespace GridPACK.Dae

theorem place_le (gens : List Gen) (p : ℕ) : p ≤ (place gens p).2 := by
  induction gens generalizing p with
  | nil => exact le_rfl
  | cons g gs ih =>
    simp only [place]
    split
    · exact le_trans (by omega) (ih (p + g.size))
    · exact ih p

theorem place_mem {gens : List Gen} {p : ℕ} {gn : Gen × ℕ} (h : gn ∈ (place gens p).1) :
    p ≤ gn.2 ∧ gn.2 + gn.1.size ≤ (place gens p).2 ∧ gn.1.on = true := by
  induction gens generalizing p with
  | nil => simp [place] at h
  | cons g gs ih =>
    simp only [place] at h ⊢
    split at h
    · next hon =>
      simp only [hon, if_true]
      rcases List.mem_cons.mp h with rfl | h
      · exact ⟨le_rfl, place_le gs _, hon⟩
      · have := ih h
        exact ⟨by omega, this.2.1, this.2.2⟩
    · next hon =>
      simp only [hon]
      exact ih h

/-- A placed generator is one of the list in service, after the variables of those in service before it. -/
theorem place_iff (gens : List Gen) (p : ℕ) (g : Gen) (n : ℕ) :
    (g, n) ∈ (place gens p).1 ↔
      ∃ k, gens[k]? = some g ∧ g.on = true ∧ n = p + ((gens.take k).map (fun g => if g.on then g.size else 0)).sum := by
  induction gens generalizing p with
  | nil => simp [place]
  | cons a gs ih =>
    simp only [place]
    constructor
    · intro h
      split at h
      · next hon =>
        rcases List.mem_cons.mp h with h | h
        · cases h
          exact ⟨0, rfl, hon, by simp⟩
        · obtain ⟨k, h1, h2, h3⟩ := (ih _).mp h
          exact ⟨k + 1, by simpa using h1, h2, by simp [hon, h3]; omega⟩
      · next hon =>
        obtain ⟨k, h1, h2, h3⟩ := (ih _).mp h
        exact ⟨k + 1, by simpa using h1, h2, by simp [hon, h3]⟩
    · rintro ⟨k, h1, h2, h3⟩
      cases k with
      | zero =>
        simp only [List.getElem?_cons_zero, Option.some.injEq] at h1
        subst h1
        simp only [List.take_zero, List.map_nil, List.sum_nil, add_zero] at h3
        simp [h2, h3]
      | succ k =>
        simp only [List.getElem?_cons_succ] at h1
        simp only [List.take_succ_cons, List.map_cons, List.sum_cons] at h3
        split
        · next hon =>
          apply List.mem_cons_of_mem
          refine (ih _).mpr ⟨k, h1, h2, ?_⟩
          simp only [hon, if_true] at h3
          omega
        · next hon =>
          refine (ih _).mpr ⟨k, h1, h2, ?_⟩
          simp only [hon] at h3
          simpa using h3

/-- Every place after the first two belongs to a generator. -/
theorem place_cover {gens : List Gen} {p q : ℕ} (h1 : p ≤ q) (h2 : q < (place gens p).2) :
    ∃ gn ∈ (place gens p).1, gn.2 ≤ q ∧ q < gn.2 + gn.1.size := by
  induction gens generalizing p with
  | nil => simp [place] at h2; omega
  | cons g gs ih =>
    simp only [place] at h2 ⊢
    split at h2
    · next hon =>
      simp only [hon, if_true]
      by_cases h : q < p + g.size
      · exact ⟨(g, p), by simp, h1, h⟩
      · obtain ⟨gn, hm, hh⟩ := ih (by omega) h2
        exact ⟨gn, List.mem_cons_of_mem _ hm, hh⟩
    · next hon =>
      simp only [hon]
      exact ih h1 h2

theorem wrBlock_in {buf : ℕ → ℝ} {p n : ℕ} {f : ℕ → ℝ} {k : ℕ} (hk : k < n) : wrBlock buf p n f (p + k) = f k := by
  simp [wrBlock, hk]

theorem wrBlock_out {buf : ℕ → ℝ} {p n : ℕ} {f : ℕ → ℝ} {q : ℕ} (h : q < p ∨ p + n ≤ q) : wrBlock buf p n f q = buf q := by
  simp only [wrBlock]
  rw [if_neg]
  omega

/-- One generator's part of the residual. -/
noncomputable def genBlock (g : Gen) (f : Ix → ℝ) (buf : ℕ → ℝ) (p : ℕ) : ℕ → ℝ :=
  let buf1 := wrBlock buf p g.mach.size (fun k => f (.gen k))
  let buf2 := if g.exc.isSome then wrBlock buf1 (p + g.mach.size) g.nexc (fun k => f (.exc k)) else buf1
  if g.gov.isSome then wrBlock buf2 (p + g.mach.size + g.nexc) g.ngov (fun k => f (.gov k)) else buf2

theorem genBlock_eq (g : Gen) (f : Ix → ℝ) (buf : ℕ → ℝ) (p : ℕ) : genBlock g f buf p =
    wrBlock (wrBlock (wrBlock buf p g.mach.size (fun k => f (.gen k))) (p + g.mach.size) g.nexc (fun k => f (.exc k)))
      (p + g.mach.size + g.nexc) g.ngov (fun k => f (.gov k)) := by
  have z : ∀ (b : ℕ → ℝ) q h, wrBlock b q 0 h = b := by
    intro b q h
    funext i
    exact wrBlock_out (by omega)
  unfold genBlock Gen.nexc Gen.ngov
  cases g.exc <;> cases g.gov <;> simp [z]

theorem genBlock_in (g : Gen) (f : Ix → ℝ) (buf : ℕ → ℝ) (p : ℕ) (ix : Ix) (hv : g.Valid ix) (hn : ix.isNet = false) :
    genBlock g f buf p (g.pos p ix) = f ix := by
  rw [genBlock_eq]
  cases ix with
  | net k => cases hn
  | gen k =>
    have hk : k < g.mach.size := hv
    simp only [Gen.pos]
    rw [wrBlock_out (by omega), wrBlock_out (by omega), wrBlock_in hk]
  | exc k =>
    have hk : k < g.nexc := hv
    simp only [Gen.pos]
    rw [wrBlock_out (by omega), wrBlock_in hk]
  | gov k =>
    have hk : k < g.ngov := hv
    simp only [Gen.pos]
    rw [wrBlock_in hk]

theorem genBlock_out (g : Gen) (f : Ix → ℝ) (buf : ℕ → ℝ) (p q : ℕ) (h : q < p ∨ p + g.size ≤ q) :
    genBlock g f buf p q = buf q := by
  unfold Gen.size at h
  rw [genBlock_eq, wrBlock_out (by omega), wrBlock_out (by omega), wrBlock_out (by omega)]

/-- The loop over the generators. -/
theorem residLoop_spec (m : Mode) (v : ℝ × ℝ) (xs xds xps : ℕ → ℝ) (gens : List Gen) (buf : ℕ → ℝ) (p : ℕ) (iD iQ : ℝ) :
    let r := residLoop m gens (pushAll v xs gens p) (pushAll v xds gens p) (pushAll v xps gens p) buf p iD iQ
    (∀ gn ∈ (place gens p).1, ∀ ix : Ix, gn.1.Valid ix → ix.isNet = false →
      r.1 (gn.1.pos gn.2 ix)
        = gn.1.resid m (gn.1.pushed v xs gn.2) (gn.1.pushed v xds gn.2) (gn.1.pushed v xps gn.2) ix) ∧
    (∀ q, q < p ∨ (place gens p).2 ≤ q → r.1 q = buf q) ∧
    r.2.1 = iD + ((place gens p).1.map (fun gn => gn.1.igd (gn.1.pushed v xs gn.2))).sum ∧
    r.2.2 = iQ + ((place gens p).1.map (fun gn => gn.1.igq (gn.1.pushed v xs gn.2))).sum := by
  induction gens generalizing buf p iD iQ with
  | nil => simp [residLoop, place]
  | cons g gs ih =>
    by_cases hon : g.on = true
    · have e : residLoop m (g :: gs) (pushAll v xs (g :: gs) p) (pushAll v xds (g :: gs) p) (pushAll v xps (g :: gs) p)
          buf p iD iQ = residLoop m gs (pushAll v xs gs (p + g.size)) (pushAll v xds gs (p + g.size))
            (pushAll v xps gs (p + g.size))
            (genBlock g (g.resid m (g.pushed v xs p) (g.pushed v xds p) (g.pushed v xps p)) buf p) (p + g.size)
            (iD + g.igd (g.pushed v xs p)) (iQ + g.igq (g.pushed v xs p)) := by
        simp only [pushAll, hon, if_true, residLoop, Gen.after_exc, Gen.after_gov]
        simp only [Gen.size, genBlock, ← add_assoc]
      have ep : place (g :: gs) p = ((g, p) :: (place gs (p + g.size)).1, (place gs (p + g.size)).2) := by
        simp [place, hon]
      intro r
      have hr : r = _ := e
      rw [hr]
      obtain ⟨i1, i2, i3, i4⟩ := ih (genBlock g (g.resid m (g.pushed v xs p) (g.pushed v xds p) (g.pushed v xps p)) buf p)
        (p + g.size) (iD + g.igd (g.pushed v xs p)) (iQ + g.igq (g.pushed v xs p))
      rw [ep]
      refine ⟨?_, ?_, ?_, ?_⟩
      · intro gn hgn ix hv hn
        rcases List.mem_cons.mp hgn with rfl | h
        · have hp := g.pos_range (n := p) hv hn
          rw [i2 _ (Or.inl hp.2)]
          exact genBlock_in g _ buf p ix hv hn
        · exact i1 gn h ix hv hn
      · intro q hq
        have hle := place_le gs (p + g.size)
        simp only at hq
        rw [i2 q (by omega)]
        exact genBlock_out g _ buf p q (by omega)
      · rw [i3]; simp [add_assoc]
      · rw [i4]; simp [add_assoc]
    · have e : residLoop m (g :: gs) (pushAll v xs (g :: gs) p) (pushAll v xds (g :: gs) p) (pushAll v xps (g :: gs) p)
          buf p iD iQ = residLoop m gs (pushAll v xs gs p) (pushAll v xds gs p) (pushAll v xps gs p) buf p iD iQ := by
        simp [pushAll, hon, residLoop]
      have ep : place (g :: gs) p = place gs p := by
        simp [place, hon]
      intro r
      have hr : r = _ := e
      rw [hr, ep]
      exact ih buf p iD iQ

/-- Rows of the placed generators do not meet. -/
theorem linN_place (gens : List Gen) (p : ℕ) (h2 : 2 ≤ p) (A : Gen × ℕ → List (Wr ℕ))
    (hA : ∀ gn ∈ (place gens p).1, ∀ w ∈ A gn, w.r < 2 ∨ gn.2 ≤ w.r ∧ w.r < gn.2 + gn.1.size) (d : ℕ → ℝ)
    (gn : Gen × ℕ) (hgn : gn ∈ (place gens p).1) (r : ℕ) (h3 : gn.2 ≤ r) (h4 : r < gn.2 + gn.1.size) :
    linN ((place gens p).1.flatMap A) d r = linN (A gn) d r := by
  have zero : ∀ (ws : List (Wr ℕ)), (∀ w ∈ ws, w.r ≠ r) → linN ws d r = 0 := by
    intro ws h
    unfold linN
    apply sum_eq_zero_of_forall
    intro x hx
    obtain ⟨w, hw, rfl⟩ := List.mem_map.mp hx
    simp [h w hw]
  induction gens generalizing p with
  | nil => simp [place] at hgn
  | cons g gs ih =>
    by_cases hon : g.on = true
    · have ep : place (g :: gs) p = ((g, p) :: (place gs (p + g.size)).1, (place gs (p + g.size)).2) := by
        simp [place, hon]
      rw [ep] at hgn hA ⊢
      simp only [List.flatMap_cons]
      rw [linN_append]
      rcases List.mem_cons.mp hgn with rfl | h
      · rw [zero ((place gs (p + g.size)).1.flatMap A), add_zero]
        intro w hw
        obtain ⟨b, hb, hwb⟩ := List.mem_flatMap.mp hw
        have h5 := hA b (List.mem_cons_of_mem _ hb) w hwb
        have h6 := place_mem hb
        simp only at h3 h4
        omega
      · rw [ih (p + g.size) (by omega) (fun b hb => hA b (List.mem_cons_of_mem _ hb)) h, zero (A (g, p)), zero_add]
        intro w hw
        have h5 := hA (g, p) (by simp) w hw
        have h6 := place_mem h
        simp only at h5
        omega
    · have ep : place (g :: gs) p = place gs p := by
        simp [place, hon]
      rw [ep] at hgn hA ⊢
      exact ih p h2 hA hgn

/-- The assignments of all generators are fresh. -/
theorem fresh_place (gens : List Gen) (p : ℕ) (h2 : 2 ≤ p) (A : Gen × ℕ → List (Wr ℕ))
    (hF : ∀ gn ∈ (place gens p).1, Fresh (A gn))
    (hA : ∀ gn ∈ (place gens p).1, ∀ w ∈ A gn, (w.c < 2 ∨ gn.2 ≤ w.c ∧ w.c < gn.2 + gn.1.size) ∧
      (w.r < 2 ∨ gn.2 ≤ w.r ∧ w.r < gn.2 + gn.1.size) ∧
      (w.add = false → (gn.2 ≤ w.c ∧ w.c < gn.2 + gn.1.size) ∨ (gn.2 ≤ w.r ∧ w.r < gn.2 + gn.1.size))) :
    Fresh ((place gens p).1.flatMap A) := by
  induction gens generalizing p with
  | nil => exact List.Pairwise.nil
  | cons g gs ih =>
    by_cases hon : g.on = true
    · have ep : place (g :: gs) p = ((g, p) :: (place gs (p + g.size)).1, (place gs (p + g.size)).2) := by
        simp [place, hon]
      rw [ep] at hF hA ⊢
      simp only [List.flatMap_cons]
      refine List.pairwise_append.mpr ⟨hF _ (by simp), ih _ (by omega) (fun b hb => hF b (List.mem_cons_of_mem _ hb))
        (fun b hb => hA b (List.mem_cons_of_mem _ hb)), ?_⟩
      intro w hw v hv
      obtain ⟨b, hb, hvb⟩ := List.mem_flatMap.mp hv
      have h5 := hA (g, p) (by simp) w hw
      have h6 := hA b (List.mem_cons_of_mem _ hb) v hvb
      have h7 := place_mem hb
      cases hadd : v.add
      · right
        rintro ⟨e1, e2⟩
        have h8 := h6.2.2 hadd
        simp only at h5
        omega
      · exact Or.inl rfl
    · have ep : place (g :: gs) p = place gs p := by
        simp [place, hon]
      rw [ep] at hF hA ⊢
      exact ih p h2 hF hA

end GridPACK.Dae
