import Verif.Model.Random
import Mathlib.Tactic.Linarith
import Mathlib.Tactic.NormNum
import Mathlib.Tactic.Ring
import Mathlib.Tactic.FieldSimp

/-! C242 (seeds), C243 (normally distributed numbers). -/
namespace GridPACK.Random

variable {G : Type}

/-- Calls of `grand` since the last seeding decide whether a number is waiting. -/
def evenGrands : List Call → Bool → Bool
  | [], b => b
  | .grand :: cs, b => evenGrands cs (!b)
  | _ :: cs, b => evenGrands cs b

theorem runs_iset (L : Lib G) (rank n : ℕ) (cs : List Call) (r : Rand G) (out : List ℝ) (r' : Rand G)
    (h : runs L rank n cs r = some (out, r')) : r'.iset = evenGrands cs r.iset := by
  induction cs generalizing r out with
  | nil => simp only [runs, Option.some.injEq, Prod.mk.injEq] at h; rw [← h.2]; rfl
  | cons c cs ih =>
    simp only [runs, Option.bind_eq_some_iff, Option.map_eq_some_iff, Prod.mk.injEq] at h
    obtain ⟨a, ha, b, hb, -, h2⟩ := h
    have := ih a.2 b.1 (by rw [hb, ← h2])
    rw [this]
    cases c with
    | drand => simp only [Call.run, Option.some.injEq] at ha; rw [← ha]; rfl
    | seed s => simp only [Call.run, Option.some.injEq] at ha; rw [← ha]; rfl
    | grand =>
      simp only [Call.run, grand] at ha
      simp only [evenGrands]
      split at ha
      · rename_i hi
        obtain ⟨x, -, e⟩ := Option.map_eq_some_iff.1 ha
        rw [← e, hi]; rfl
      · rename_i hi
        rw [← Option.some.inj ha]
        have : r.iset = true := by simpa using hi
        rw [this]; rfl

theorem runs_gset (L : Lib G) (rank n : ℕ) (cs : List Call) (g : G) (x y : ℝ) :
    (runs L rank n cs ⟨false, x, g⟩).map Prod.fst = (runs L rank n cs ⟨false, y, g⟩).map Prod.fst := by
  induction cs generalizing g x y with
  | nil => rfl
  | cons c cs ih =>
    cases c with
    | drand =>
      have := ih (L.next g).2 x y
      simp only [runs, Call.run, drand, Option.bind_some, Option.map_map] at this ⊢
      rw [show (Prod.fst ∘ fun b : List ℝ × Rand G => ((L.next g).1 :: b.1, b.2)) = (fun l => (L.next g).1 :: l) ∘ Prod.fst from rfl,
        ← Option.map_map, ← Option.map_map, this]
    | seed s =>
      have := ih (L.init (seedOf rank s)) x y
      simp only [runs, Call.run, seed, Option.bind_some, Option.map_map] at this ⊢
      rw [show (Prod.fst ∘ fun b : List ℝ × Rand G => ((0 : ℝ) :: b.1, b.2)) = (fun l => (0 : ℝ) :: l) ∘ Prod.fst from rfl,
        ← Option.map_map, ← Option.map_map, this]
    | grand => simp only [runs, Call.run, grand, if_true]

/-- C242 (partial: an even number of normally distributed numbers has been asked for before): after `seed`, the numbers
returned depend on the seed and the process only, not on what happened before: they are those of a new object with that seed. -/
theorem C242_seed_partial (L : Lib G) (rank n : ℕ) (before after : List Call) (s : ℤ) (r : Rand G) (out : List ℝ) (r' : Rand G)
    (hr : r.iset = false) (h : runs L rank n before r = some (out, r')) (he : evenGrands before false = false) :
    (runs L rank n after (seed L rank s r')).map Prod.fst = (runs L rank n after (newSeed L rank s)).map Prod.fst := by
  have hi : r'.iset = false := by rw [runs_iset L rank n before r out r' h, hr]; exact he
  obtain ⟨i, x, g⟩ := r'
  simp only at hi
  subst hi
  exact runs_gset L rank n after _ _ _

/-- C242 violated: after an odd number of normally distributed numbers, the first one after `seed` is left over from before,
whatever the new seed is. -/
theorem C242_leftover_violated (L : Lib G) (rank n : ℕ) (before : List Call) (s : ℤ) (r : Rand G) (out : List ℝ) (r' : Rand G)
    (hr : r.iset = false) (h : runs L rank n before r = some (out, r')) (ho : evenGrands before false = true) :
    (runs L rank n [.grand] (seed L rank s r')).map Prod.fst = some [r'.gset] := by
  have hi : r'.iset = true := by rw [runs_iset L rank n before r out r' h, hr]; exact ho
  simp [runs, Call.run, grand, seed, hi]

/-- C242: the numbers of process `p` with seed `s` are those of process `q` with seed `t` if `|s| + p = |t| + q`; so seeds of
opposite sign give the same numbers, and neighbouring seeds give the numbers of neighbouring processes. -/
theorem C242_overlap_violated (L : Lib G) (p q n : ℕ) (s t : ℤ) (h : s.natAbs + p = t.natAbs + q) (k : ℕ) :
    (runs L p n (List.replicate k .grand) (newSeed L p s)).map Prod.fst =
      (runs L q n (List.replicate k .grand) (newSeed L q t)).map Prod.fst ∧
    (runs L p n (List.replicate k .drand) (newSeed L p s)).map Prod.fst =
      (runs L q n (List.replicate k .drand) (newSeed L q t)).map Prod.fst := by
  have e : newSeed L p s = newSeed L q t := by simp [newSeed, seedOf, h]
  have hr : ∀ (c : Call), (c = .grand ∨ c = .drand) → ∀ (k : ℕ) (r : Rand G),
      runs L p n (List.replicate k c) r = runs L q n (List.replicate k c) r := by
    intro c hc k
    induction k with
    | zero => intro r; rfl
    | succ k ih =>
      intro r
      simp only [List.replicate_succ, runs]
      have : c.run L p n r = c.run L q n r := by rcases hc with rfl | rfl <;> rfl
      rw [this]
      congr 1
      funext a
      rw [ih]
  rw [hr _ (Or.inl rfl), hr _ (Or.inr rfl), e]
  exact ⟨rfl, rfl⟩

/-! ### C243 -/

theorem draw_spec (L : Lib G) (n : ℕ) (g : G) (x y r : ℝ) (g' : G) (h : draw L n g = some (x, y, r, g')) :
    r = x * x + y * y ∧ r < 1 := by
  induction n generalizing g with
  | zero => cases h
  | succ n ih =>
    simp only [draw] at h
    split at h
    · exact ih _ h
    · rename_i hr
      simp only [Option.some.injEq, Prod.mk.injEq] at h
      obtain ⟨rfl, rfl, rfl, -⟩ := h
      exact ⟨rfl, lt_of_not_ge hr⟩

theorem draw_point (L : Lib G) (n : ℕ) (g : G) (x y r : ℝ) (g' : G)
    (h : draw L n g = some (x, y, r, g')) : ∃ k : ℕ, ∃ h1 h2 : G, h2 = (L.next h1).2 ∧ x = 2 * (L.next h1).1 - 1 ∧
      y = 2 * (L.next h2).1 - 1 ∧ h1 = (fun g => (L.next g).2)^[2 * k] g := by
  induction n generalizing g with
  | zero => cases h
  | succ n ih =>
    simp only [draw] at h
    split at h
    · obtain ⟨k, h1, h2, e1, e2, e3, e4⟩ := ih _ h
      exact ⟨k + 1, h1, h2, e1, e2, e3, by rw [e4, show 2 * (k + 1) = 2 * k + 2 by ring, Function.iterate_add_apply]; rfl⟩
    · simp only [Option.some.injEq, Prod.mk.injEq] at h
      obtain ⟨rfl, rfl, -, -⟩ := h
      exact ⟨0, g, _, rfl, rfl, rfl, rfl⟩

/-- C243: two numbers in a row are the polar transform of one point of the unit disc: the point `(x, y)` is made of two
consecutive uniform numbers, the squares of the two numbers add up to `-2 ln (x² + y²)`, and they are proportional to `y` and
`x` with the same non-negative factor.  (For a point drawn uniformly from the disc this makes them independent and normally
distributed; that part of the argument is about distributions and is not part of the theorem.  The centre of the disc is
excluded: there the code divides by zero.) -/
theorem C243_polar (L : Lib G) (n : ℕ) (s : Rand G) (hs : s.iset = false)
    (a b : ℝ) (r' : Rand G) (h : runs L 0 n [.grand, .grand] s = some ([a, b], r')) :
    ∃ x y : ℝ, (∃ k : ℕ, ∃ g1 : G, g1 = (fun g => (L.next g).2)^[2 * k] s.gen ∧ x = 2 * (L.next g1).1 - 1 ∧
        y = 2 * (L.next (L.next g1).2).1 - 1) ∧
      x * x + y * y < 1 ∧ (x * x + y * y ≠ 0 →
        a ^ 2 + b ^ 2 = -2 * Real.log (x * x + y * y) ∧ ∃ c, 0 ≤ c ∧ a = c * y ∧ b = c * x) := by
  simp only [runs, Call.run, grand, if_pos hs, Option.bind_eq_some_iff, Option.map_eq_some_iff, Prod.mk.injEq] at h
  obtain ⟨p, ⟨⟨x, y, r, g'⟩, hd, rfl⟩, q, ⟨c, hc, d, hd', rfl⟩, h1, h2⟩ := h
  simp only [Bool.true_eq_false, if_false, Option.some.injEq] at hc
  subst hc
  simp only [Option.some.injEq] at hd'
  rw [← hd'] at h1
  simp only [List.cons.injEq, and_true] at h1
  obtain ⟨rfl, rfl⟩ := h1
  obtain ⟨er, hr1⟩ := draw_spec L n s.gen x y r g' hd
  obtain ⟨k, g1, g2, e1, e2, e3, e4⟩ := draw_point L n s.gen x y r g' hd
  refine ⟨x, y, ⟨k, g1, e4, e2, by rw [e3, e1]⟩, er ▸ hr1, fun h0 => ?_⟩
  have hr0 : 0 < r := by
    rcases lt_or_eq_of_le (show 0 ≤ r by rw [er]; nlinarith [mul_self_nonneg x, mul_self_nonneg y]) with h | h
    · exact h
    · exact absurd (er.symm.trans h.symm) h0
  have hl : 0 ≤ -2 * Real.log r / r := by
    have := Real.log_neg hr0 hr1
    exact div_nonneg (by linarith) hr0.le
  have hsq := Real.mul_self_sqrt hl
  refine ⟨?_, Real.sqrt (-2 * Real.log r / r), Real.sqrt_nonneg _, by ring, by ring⟩
  rw [← er]
  have : (y * Real.sqrt (-2 * Real.log r / r)) ^ 2 + (x * Real.sqrt (-2 * Real.log r / r)) ^ 2 =
      (x * x + y * y) * (Real.sqrt (-2 * Real.log r / r) * Real.sqrt (-2 * Real.log r / r)) := by ring
  rw [this, hsq, ← er]
  field_simp

/-- A generator for the examples: the numbers are 3/4 and 1/2 in turn. -/
noncomputable def toy : Lib Bool := ⟨fun n => n % 2 == 0, fun b => (if b then 3 / 4 else 1 / 2, !b)⟩

/-- C243, C242: the generator gives a point of the disc at once. -/
theorem toy_draw : draw toy 1 true = some (1 / 2, 0, 1 / 4, true) := by
  simp only [draw, toy]
  norm_num

/-- C243: the hypotheses are met by a new object. -/
example : ∃ a b r', runs toy 0 1 [.grand, .grand] (newSeed toy 0 2) = some ([a, b], r') := by
  have e : newSeed toy 0 2 = ⟨false, 0, true⟩ := rfl
  rw [e]
  simp [runs, Call.run, grand, toy_draw]

/-- C242: one number asked for, then a new seed: the next number is the one left over. -/
example : ∃ out r', runs toy 0 1 [.grand] (newSeed toy 0 2) = some (out, r') ∧ ∀ s : ℤ,
    (runs toy 0 1 [.grand] (seed toy 0 s r')).map Prod.fst = some [r'.gset] := by
  have h : ∃ out r', runs toy 0 1 [.grand] (newSeed toy 0 2) = some (out, r') := by
    have e : newSeed toy 0 2 = ⟨false, 0, true⟩ := rfl
    rw [e]
    simp [runs, Call.run, grand, toy_draw]
  obtain ⟨out, r', h⟩ := h
  exact ⟨out, r', h, fun s => C242_leftover_violated toy 0 1 [.grand] s _ out r' rfl h rfl⟩

end GridPACK.Random
