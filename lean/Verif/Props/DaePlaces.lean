import Verif.Lemmas.DaeWrong
import Verif.Spec.DaeJacobian

/-! C190, C196: where the variables of the devices are in the vectors of the DAE form of the dynamic simulation, and
dependence of the residual on earlier evaluations. -/
namespace GridPACK.Dae

/-! ### C190 -/

private theorem pushAll_get (v : ℝ × ℝ) (vals : ℕ → ℝ) (gens : List Gen) (p k : ℕ) (g : Gen) (hk : gens[k]? = some g)
    (hon : g.on = true) :
    (pushAll v vals gens p)[k]?
      = some (g.pushed v vals (p + ((gens.take k).map (fun g => if g.on then g.size else 0)).sum)) := by
  induction gens generalizing p k with
  | nil => simp at hk
  | cons a gs ih =>
    cases k with
    | zero =>
      simp at hk
      subst hk
      simp [pushAll, hon]
    | succ k =>
      simp at hk
      by_cases ha : a.on = true
      · have e1 : (if a.gov.isSome then (if a.exc.isSome then p + a.mach.size + a.nexc else p + a.mach.size) + a.ngov
            else (if a.exc.isSome then p + a.mach.size + a.nexc else p + a.mach.size)) = p + a.size := by
          unfold Gen.size Gen.nexc Gen.ngov
          split <;> split <;> omega
        simp only [pushAll, ha, if_true, List.getElem?_cons_succ, e1]
        rw [ih _ _ hk]
        simp [ha, Nat.add_assoc]
      · simp only [pushAll, ha, if_false, List.getElem?_cons_succ, Bool.false_eq_true]
        rw [ih _ _ hk]
        simp [ha]

/-- C190 (reading): after a vector was pushed onto a bus, machine, exciter and governor of each generator in service hold
the entries beginning where the numbers of variables of the generators in service before it end: first those of the
machine, then of the exciter, then of the governor. -/
theorem C190_pushed (v : ℝ × ℝ) (vals : ℕ → ℝ) (b : Bus) (k : ℕ) (g : Gen) (hk : b.gens[k]? = some g) (hon : g.on = true) :
    ∃ X, (pushAll v vals b.gens 2)[k]? = some X ∧
      (∀ q, X (.gen q) = vals (b.start k + q)) ∧
      (∀ q, g.exc ≠ none → X (.exc q) = vals (b.start k + g.mach.size + q)) ∧
      (∀ q, g.gov ≠ none → X (.gov q) = vals (b.start k + g.mach.size + (if g.exc = none then 0 else 5) + q)) := by
  refine ⟨_, pushAll_get v vals b.gens 2 k g hk hon, fun q => rfl, fun q _ => rfl, fun q _ => ?_⟩
  simp only [Gen.pushed, Gen.nexc, Bus.start]
  cases g.exc <;> simp

variable {ι : Type} [DecidableEq ι]

/-- C190 (writing): the residual has the equations of each device at the places from which its variables are read. -/
theorem C190_written (N : Net ι) (m : Mode) (x xd xp : ι → ℕ → ℝ) (buf : ℕ → ℝ) (i : ι) (hi : (N.bus i).isolated = false)
    (k : ℕ) (g : Gen) (hk : (N.bus i).gens[k]? = some g) (hon : g.on = true) :
    let v := N.volt x i
    let s := (N.bus i).start k
    let R := g.resid m (g.pushed v (x i) s) (g.pushed v (xd i) s) (g.pushed v (xp i) s)
    (∀ q, q < g.mach.size → N.F m x xd xp buf i (s + q) = R (.gen q)) ∧
    (∀ q, g.exc ≠ none → q < 5 → N.F m x xd xp buf i (s + g.mach.size + q) = R (.exc q)) ∧
    (∀ q, g.gov ≠ none → q < 6 →
      N.F m x xd xp buf i (s + g.mach.size + (if g.exc = none then 0 else 5) + q) = R (.gov q)) := by
  intro v s R
  have h := (N.F_eq m x xd xp buf i hi).1 _ (mem_place_start hk hon)
  refine ⟨fun q hq => ?_, fun q he hq => ?_, fun q hg hq => ?_⟩
  · exact h (.gen q) (by simpa [Gen.Valid, Ix.Valid] using hq) rfl
  · refine h (.exc q) ?_ rfl
    cases hx : g.exc with
    | none => exact absurd hx he
    | some e => simp [Gen.Valid, Ix.Valid, Gen.nexc, hx, hq]
  · have := h (.gov q) ?_ rfl
    · have e5 : (if g.exc = none then 0 else 5) = g.nexc := by
        cases hx : g.exc <;> simp [Gen.nexc, hx]
      rw [e5]
      exact this
    · cases hx : g.gov with
      | none => exact absurd hx hg
      | some e => simp [Gen.Valid, Ix.Valid, Gen.ngov, hx, hq]

/-- C190 (no gaps, no overlap): the entries of the vector at a bus after the two of the bus itself are divided among the
generators in service: each belongs to exactly one. -/
theorem C190_partition (b : Bus) (hi : b.isolated = false) (r : ℕ) (h2 : 2 ≤ r) (hr : r < b.nvar) :
    ∃! k : ℕ, ∃ g, b.gens[k]? = some g ∧ g.on = true ∧ b.start k ≤ r ∧ r < b.start k + g.size := by
  have hr' : r < (place b.gens 2).2 := by simpa [Bus.nvar, hi] using hr
  obtain ⟨⟨g, n⟩, hm, h3, h4⟩ := place_cover h2 hr'
  obtain ⟨k, hk, hon, rfl⟩ := (place_iff _ _ _ _).mp hm
  refine ⟨k, ⟨g, hk, hon, h3, h4⟩, ?_⟩
  rintro k' ⟨g', hk', hon', h3', h4'⟩
  have mono : ∀ a c : ℕ, a < c → ∀ ga, b.gens[a]? = some ga → ga.on = true → b.start a + ga.size ≤ b.start c := by
    intro a c hac ga ha hona
    have ht : b.gens.take c = b.gens.take a ++ ga :: ((b.gens.drop (a + 1)).take (c - (a + 1))) := by
      have hlt : a < b.gens.length := (List.getElem?_eq_some_iff.mp ha).1
      have hge : b.gens[a] = ga := (List.getElem?_eq_some_iff.mp ha).2
      have e1 : c = (a + 1) + (c - (a + 1)) := by omega
      conv_lhs => rw [e1]
      rw [List.take_add, List.take_succ, ha]
      simp
    unfold Bus.start
    rw [ht]
    simp [hona]
    omega
  rcases lt_trichotomy k' k with h | h | h
  · have := mono k' k h g' hk' hon'
    simp only [Bus.start] at *
    omega
  · exact h
  · have := mono k k' h g hk hon
    simp only [Bus.start] at *
    omega

/-- A generator with exciter out of service between two in service: 2, (6 + 5 + 6), (2 + 5). -/
example (p : Rou) (c : Cls) (e e' : Exc) (w : Wsieg1) (Efd Pm pg qg : ℝ) :
    let b : Bus := ⟨false, 0, 0, 0, 0, 1, 0, [⟨true, .rou p, some e, some w, Efd, Pm, pg, qg⟩,
      ⟨false, .rou p, some e, none, Efd, Pm, pg, qg⟩, ⟨true, .cls c, some e', none, Efd, Pm, pg, qg⟩]⟩
    b.start 0 = 2 ∧ b.start 2 = 19 ∧ b.nvar = 26 := ⟨rfl, rfl, rfl⟩

/-! ### C196 -/

/-- C196: without exciters ESST1A the residual depends only on the state at which it is evaluated, not on evaluations before:
evaluations leave the network as it is. -/
theorem C196_history_partial (N : Net ι)
    (h : ∀ i, ∀ g ∈ (N.bus i).gens, g.on = true → ∀ e VT, g.exc ≠ some (.esst1a e VT))
    (ys : List (ι → ℕ → ℝ)) (m : Mode) (x xd xp : ι → ℕ → ℝ) (buf : ℕ → ℝ) (i : ι) (r : ℕ) :
    (ys.foldl Net.seen N).F m x xd xp buf i r = N.F m x xd xp buf i r := by
  have h1 : ∀ y, N.seen y = N := by
    intro y
    obtain ⟨bus, branches, junk⟩ := N
    simp only [Net.seen]
    congr 1
    funext i
    split
    · rfl
    · have : (bus i).gens.map (fun g => if g.on then g.seen (Net.volt ⟨bus, branches, junk⟩ y i) else g) = (bus i).gens := by
        conv_rhs => rw [← List.map_id (bus i).gens]
        apply List.map_congr_left
        intro g hg
        split
        · rename_i hon
          have := h i g hg hon
          unfold Gen.seen
          cases he : g.exc with
          | none => rfl
          | some e =>
            cases e with
            | exdc1 e => rfl
            | esst1a e VT => exact absurd he (this e VT)
        · rfl
      rw [this]
  have h2 : ys.foldl Net.seen N = N := by
    induction ys with
    | nil => rfl
    | cons y ys ih => rw [List.foldl_cons, h1, ih]
  rw [h2]

private theorem seen_get (N : Net ι) (y : ι → ℕ → ℝ) (i : ι) (hi : (N.bus i).isolated = false) (k : ℕ) (g : Gen)
    (hk : (N.bus i).gens[k]? = some g) (hon : g.on = true) :
    ((N.seen y).bus i).gens[k]? = some (g.seen (N.volt y i)) := by
  simp [Net.seen, hi, hk, hon]

private theorem Gen.seen_size (g : Gen) (v : ℝ × ℝ) : (g.seen v).size = g.size ∧ (g.seen v).on = g.on ∧
    (g.seen v).mach = g.mach ∧ (g.seen v).gov = g.gov ∧ (g.seen v).exc.isSome = g.exc.isSome := by
  unfold Gen.seen
  cases he : g.exc with
  | none => simp [he]
  | some e => cases e <;> simp [Gen.size, Gen.nexc, Gen.ngov, he]

private theorem seen_start (N : Net ι) (y : ι → ℕ → ℝ) (i : ι) (k : ℕ) : ((N.seen y).bus i).start k = (N.bus i).start k := by
  unfold Bus.start Net.seen
  simp only
  split
  · rfl
  · simp only [← List.map_take, List.map_map]
    congr 2
    apply List.map_congr_left
    intro g _
    simp only [Function.comp]
    by_cases hon : g.on = true
    · simp [hon, (g.seen_size _).1, (g.seen_size _).2.1]
    · simp [hon]

/-- C196: the equation of the field of GENROU or GENSAL with an exciter ESST1A at its upper limit depends on the voltage at
the evaluation before: after evaluations at two states with different voltages at the bus, two different values at the
same state. -/
theorem C196_esst1a_violated (N : Net ι) (i : ι) (hi : (N.bus i).isolated = false) (k : ℕ) (g : Gen)
    (hk : (N.bus i).gens[k]? = some g) (hon : g.on = true)
    (hp : (∃ p, g.mach = .rou p ∧ p.Tdop ≠ 0) ∨ (∃ p, g.mach = .sal p ∧ p.Tdop ≠ 0))
    (e : Esst1a) (VT : ℝ) (he : g.exc = some (.esst1a e VT)) (hV : e.Vrmax ≠ 0)
    (y1 y2 x xd xp : ι → ℕ → ℝ) (buf : ℕ → ℝ)
    (h12 : √(y1 i 0 * y1 i 0 + y1 i 1 * y1 i 1) ≠ √(y2 i 0 * y2 i 0 + y2 i 1 * y2 i 1))
    (h1 : √(y1 i 0 * y1 i 0 + y1 i 1 * y1 i 1) * e.Vrmax - e.Kc * g.fieldCurrent (N.stateOf x i g k)
      < N.stateOf x i g k (.exc 3))
    (h2 : √(y2 i 0 * y2 i 0 + y2 i 1 * y2 i 1) * e.Vrmax - e.Kc * g.fieldCurrent (N.stateOf x i g k)
      < N.stateOf x i g k (.exc 3)) :
    (N.seen y1).F .resid x xd xp buf i ((N.bus i).start k + 2)
      ≠ (N.seen y2).F .resid x xd xp buf i ((N.bus i).start k + 2) := by
  have hsize : 2 < g.mach.size := by rcases hp with ⟨p, hp, _⟩ | ⟨p, hp, _⟩ <;> simp [hp, Mach.size]
  have key : ∀ y : ι → ℕ → ℝ, √(y i 0 * y i 0 + y i 1 * y i 1) * e.Vrmax - e.Kc * g.fieldCurrent (N.stateOf x i g k)
      < N.stateOf x i g k (.exc 3) → ∃ a T : ℝ, T ≠ 0 ∧ (T, a) = (match g.mach with
        | .cls _ => (0, 0)
        | .rou p => (p.Tdop, -g.fieldCurrent (N.stateOf x i g k) / p.Tdop - xd i ((N.bus i).start k + 2))
        | .sal p => (p.Tdop, -g.fieldCurrent (N.stateOf x i g k) / p.Tdop - xd i ((N.bus i).start k + 2))) ∧
      (N.seen y).F .resid x xd xp buf i ((N.bus i).start k + 2)
        = (√(y i 0 * y i 0 + y i 1 * y i 1) * e.Vrmax - e.Kc * g.fieldCurrent (N.stateOf x i g k)) / T + a := by
    intro y hy
    have hvolt : ∀ z j, (N.seen y).volt z j = N.volt z j := by
      intro z j
      have : ((N.seen y).bus j).isolated = (N.bus j).isolated := by
        simp only [Net.seen]
        split <;> rfl
      simp only [Net.volt, this]
      rfl
    have hiy : ((N.seen y).bus i).isolated = false := by
      simp only [Net.seen, hi]
      rfl
    have hw := (C190_written (N.seen y) .resid x xd xp buf i hiy k (g.seen (N.volt y i)) (seen_get N y i hi k g hk hon)
      (by rw [(g.seen_size _).2.1]; exact hon)).1 2 (by rw [(g.seen_size _).2.2.1]; exact hsize)
    rw [seen_start] at hw
    rw [hw, hvolt]
    have hy0 : N.volt y i = (y i 0, y i 1) := by simp [Net.volt, hi]
    have hs : g.seen (N.volt y i) = { g with exc := some (.esst1a e (√(y i 0 * y i 0 + y i 1 * y i 1))) } := by
      simp [Gen.seen, he, hy0]
    have hX : (g.seen (N.volt y i)).pushed (N.volt x i) (x i) ((N.bus i).start k) = N.stateOf x i g k := by
      rw [hs]
      simp only [Gen.pushed, Net.stateOf, he, Gen.nexc]
      rfl
    rw [hX, hs]
    have hefd : ∀ V, V * e.Vrmax - e.Kc * g.fieldCurrent (N.stateOf x i g k) < N.stateOf x i g k (.exc 3) →
        e.efd (N.stateOf x i g k) V (g.fieldCurrent (N.stateOf x i g k))
          = V * e.Vrmax - e.Kc * g.fieldCurrent (N.stateOf x i g k) := by
      intro V h
      unfold Esst1a.efd
      exact min_eq_right (le_trans h.le (le_max_left _ _))
    rcases hp with ⟨p, hp, hT⟩ | ⟨p, hp, hT⟩
    · refine ⟨_, p.Tdop, hT, by rw [hp], ?_⟩
      have hf : g.fieldCurrent (N.stateOf x i g k) = p.fieldCurrent (N.stateOf x i g k) := by simp [Gen.fieldCurrent, hp]
      simp only [Gen.resid, hp, Rou.resid, Gen.drive, Gen.fieldCurrent]
      rw [← hf, hefd _ hy]
      simp only [Gen.pushed]
      ring
    · refine ⟨_, p.Tdop, hT, by rw [hp], ?_⟩
      have hf : g.fieldCurrent (N.stateOf x i g k) = p.fieldCurrent (N.stateOf x i g k) := by simp [Gen.fieldCurrent, hp]
      simp only [Gen.resid, hp, Sal.resid, Gen.drive, Gen.fieldCurrent]
      rw [← hf, hefd _ hy]
      simp only [Gen.pushed]
      ring
  obtain ⟨a, T, hT, e1, k1⟩ := key y1 h1
  obtain ⟨a', T', hT', e2, k2⟩ := key y2 h2
  have hpair := e1.trans e2.symm
  obtain ⟨rfl, rfl⟩ := Prod.mk.inj hpair
  rw [k1, k2]
  intro h
  have h' := add_right_cancel h
  rw [div_left_inj' hT] at h'
  exact h12 (mul_right_cancel₀ hV (by linarith))

/-- One bus with GENROU and ESST1A, regulator output 10, evaluated before with the voltages 1 and 2. -/
example (p : Rou) (hp : p.Tdop ≠ 0) (hx : p.Xd = p.Xdp) (xd xp : Unit → ℕ → ℝ) (buf : ℕ → ℝ) :
    let e : Esst1a := ⟨0, 1, -1, 0, 0, 0, 0, 100, 0.1, 20, -20, 4, -4, 0.1, 0, 1, 0, false, false, false, false⟩
    let g : Gen := ⟨true, .rou p, some (.esst1a e 0), none, 0, 1, 0, 0⟩
    let N : Net Unit := ⟨fun _ => ⟨false, 0, 0, 0, 0, 1, 0, [g]⟩, [], fun _ => (0, 0)⟩
    let x : Unit → ℕ → ℝ := fun _ _ => 10
    (N.seen (fun _ r => if r = 0 then 1 else 0)).F .resid x xd xp buf () 4
      ≠ (N.seen (fun _ r => if r = 0 then 2 else 0)).F .resid x xd xp buf () 4 := by
  intro e g N x
  have h4 : √(4 : ℝ) = 2 := by rw [show (4:ℝ) = 2 ^ 2 by norm_num]; exact Real.sqrt_sq (by norm_num)
  have hX : ∀ ix, N.stateOf x () g 0 ix = 10 := by
    intro ix
    cases ix with
    | net n => cases n <;> rfl
    | _ => rfl
  have hf : g.fieldCurrent (N.stateOf x () g 0) = 10 := by
    have : g.fieldCurrent (N.stateOf x () g 0) = p.fieldCurrent (N.stateOf x () g 0) := rfl
    rw [this, Rou.fieldCurrent, hx, hX]
    ring
  refine C196_esst1a_violated N () rfl 0 g rfl rfl (Or.inl ⟨p, rfl, hp⟩) e 0 rfl (by norm_num [e]) _ _ x xd xp buf ?_ ?_ ?_
  · norm_num [h4]
  · rw [hX, hf]
    norm_num [e]
  · rw [hX, hf]
    norm_num [h4, e]

end GridPACK.Dae
