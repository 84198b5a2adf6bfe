import Verif.Model.DaeBus
import Mathlib.Algebra.BigOperators.Ring.Finset
import Mathlib.Algebra.BigOperators.Group.List.Lemmas
import Mathlib.Algebra.Order.Ring.Nat

/-! Matrix blocks resulting from lists of assignments, and checks of the assignments of devices. -/
namespace GridPACK.Dae

/-- No plain assignment hits an entry assigned before. -/
def Fresh {α} (ws : List (Wr α)) : Prop := ws.Pairwise (fun a b => b.add = true ∨ ¬(a.c = b.c ∧ a.r = b.r))

theorem run_append (ws : List (Wr ℕ)) (w : Wr ℕ) : run (ws ++ [w]) = put (run ws) w := by
  simp [run]

theorem sum_eq_zero_of_forall {l : List ℝ} (h : ∀ x ∈ l, x = 0) : l.sum = 0 := by
  induction l with
  | nil => rfl
  | cons a l ih =>
    rw [List.sum_cons, h a (by simp), ih (fun x hx => h x (by simp [hx])), add_zero]

/-- Entries after fresh assignments are sums. -/
theorem run_eq (ws : List (Wr ℕ)) (hf : Fresh ws) (c r : ℕ) :
    run ws c r = (ws.map (fun w => if w.c = c ∧ w.r = r then w.v else 0)).sum := by
  induction ws using List.reverseRecOn with
  | nil => rfl
  | append_singleton ws w ih =>
    have hf' := List.pairwise_append.mp hf
    rw [run_append, List.map_append, List.sum_append]
    simp only [put, List.map_cons, List.map_nil, List.sum_cons, List.sum_nil, add_zero]
    rw [ih hf'.1]
    by_cases h : c = w.c ∧ r = w.r
    · have h' : w.c = c ∧ w.r = r := ⟨h.1.symm, h.2.symm⟩
      rw [if_pos h, if_pos h']
      cases hw : w.add
      · have hz : (ws.map (fun w => if w.c = c ∧ w.r = r then w.v else 0)).sum = 0 := by
          apply sum_eq_zero_of_forall
          intro x hx
          obtain ⟨a, ha, rfl⟩ := List.mem_map.mp hx
          have := hf'.2.2 a ha w (by simp)
          rw [if_neg]
          rintro ⟨h1, h2⟩
          rcases this with h3 | h3
          · simp [hw] at h3
          · exact h3 ⟨h1.trans h.1, h2.trans h.2⟩
        simp [hz]
      · simp
    · have h' : ¬(w.c = c ∧ w.r = r) := fun k => h ⟨k.1.symm, k.2.symm⟩
      rw [if_neg h, if_neg h', add_zero]

/-- Sum over the assignments to row `r`. -/
noncomputable def linN (ws : List (Wr ℕ)) (d : ℕ → ℝ) (r : ℕ) : ℝ :=
  (ws.map (fun w => if w.r = r then w.v * d w.c else 0)).sum

theorem linN_append (a b : List (Wr ℕ)) (d : ℕ → ℝ) (r : ℕ) : linN (a ++ b) d r = linN a d r + linN b d r := by
  simp [linN]

theorem linN_flatMap {β} (l : List β) (f : β → List (Wr ℕ)) (d : ℕ → ℝ) (r : ℕ) :
    linN (l.flatMap f) d r = (l.map (fun b => linN (f b) d r)).sum := by
  induction l with
  | nil => simp [linN]
  | cons b l ih => rw [List.flatMap_cons, linN_append, ih, List.map_cons, List.sum_cons]

/-- A row of the block times a direction. -/
theorem run_mul (ws : List (Wr ℕ)) (hf : Fresh ws) (n : ℕ) (hc : ∀ w ∈ ws, w.c < n) (d : ℕ → ℝ) (r : ℕ) :
    ∑ c ∈ Finset.range n, run ws c r * d c = linN ws d r := by
  simp only [run_eq ws hf]
  clear hf
  induction ws with
  | nil => simp [linN]
  | cons w ws ih =>
    simp only [List.map_cons, List.sum_cons, add_mul, Finset.sum_add_distrib]
    rw [ih (fun a ha => hc a (by simp [ha]))]
    simp only [linN, List.map_cons, List.sum_cons]
    congr 1
    have hw : w.c < n := hc w (by simp)
    by_cases hr : w.r = r
    · simp only [hr, and_true, if_true]
      rw [Finset.sum_eq_single w.c]
      · simp
      · intro b _ hb
        simp [Ne.symm hb]
      · intro h
        simp [hw] at h
    · simp [hr]

theorem run_row_zero (ws : List (Wr ℕ)) (hf : Fresh ws) (r : ℕ) (hr : ∀ w ∈ ws, w.r ≠ r) (c : ℕ) : run ws c r = 0 := by
  rw [run_eq ws hf]
  apply sum_eq_zero_of_forall
  intro x hx
  obtain ⟨a, ha, rfl⟩ := List.mem_map.mp hx
  simp [hr a ha]

theorem Fresh.of_add {α} {ws : List (Wr α)} (h : ∀ w ∈ ws, w.add = true) : Fresh ws := by
  unfold Fresh
  rw [List.pairwise_iff_getElem]
  intro i j hi hj _
  exact Or.inl (h _ (List.getElem_mem hj))

/-! ### Checking assignments -/

/-- A number for each name. -/
def Ix.code : Ix → ℕ
  | .net k => 4 * k
  | .gen k => 4 * k + 1
  | .exc k => 4 * k + 2
  | .gov k => 4 * k + 3

theorem Ix.code_inj {a b : Ix} (h : a.code = b.code) : a = b := by
  cases a <;> cases b <;> simp only [Ix.code] at h <;> first | (congr 1; omega) | omega

/-- Column, row and kind of an assignment. -/
def key (w : Wr Ix) : ℕ × ℕ × Bool := (w.c.code, w.r.code, w.add)

/-- Freshness of assignments given by their keys. -/
def freshB : List (ℕ × ℕ × Bool) → Bool
  | [] => true
  | a :: l => l.all (fun b => b.2.2 || !(a.1 == b.1 && a.2.1 == b.2.1)) && freshB l

theorem Fresh.of_keys {ws : List (Wr Ix)} (h : freshB (ws.map key) = true) : Fresh ws := by
  induction ws with
  | nil => exact List.Pairwise.nil
  | cons a ws ih =>
    simp only [List.map_cons, freshB, Bool.and_eq_true, List.all_eq_true, List.mem_map] at h
    refine List.pairwise_cons.mpr ⟨fun b hb => ?_, ih h.2⟩
    have := h.1 (key b) ⟨b, hb, rfl⟩
    simp only [key, Bool.or_eq_true, Bool.not_eq_true', Bool.and_eq_false_iff, beq_eq_false_iff_ne] at this
    rcases this with h1 | h1 | h1
    · exact Or.inl h1
    · right; rintro ⟨e, _⟩; exact h1 (by rw [e])
    · right; rintro ⟨_, e⟩; exact h1 (by rw [e])

/-- Names of a generator whose machine, exciter and governor have `a`, `b`, `c` variables. -/
def Ix.Valid (a b c : ℕ) : Ix → Prop
  | .net k => k < 2
  | .gen k => k < a
  | .exc k => k < b
  | .gov k => k < c

instance (a b c : ℕ) : DecidablePred (Ix.Valid a b c) := fun ix => by
  cases ix <;> simp only [Ix.Valid] <;> infer_instance

/-- The name belongs to the bus itself. -/
def Ix.isNet : Ix → Bool
  | .net _ => true
  | _ => false

/-- What is needed of the assignments of a device. -/
structure Tidy (a b c : ℕ) (ws : List (Wr Ix)) : Prop where
  fresh : Fresh ws
  col : ∀ w ∈ ws, w.c.Valid a b c
  row : ∀ w ∈ ws, w.r.Valid a b c
  own : ∀ w ∈ ws, w.add = false → (w.c.isNet && w.r.isNet) = false

/-- Check of a name. -/
def Ix.validB (a b c : ℕ) : Ix → Bool
  | .net k => Nat.blt k 2
  | .gen k => Nat.blt k a
  | .exc k => Nat.blt k b
  | .gov k => Nat.blt k c

theorem Ix.validB_iff {a b c : ℕ} {ix : Ix} (h : ix.validB a b c = true) : ix.Valid a b c := by
  cases ix <;> simpa [Ix.validB, Ix.Valid, Nat.blt_eq] using h

/-- Check of an assignment. -/
def keyOk (a b c : ℕ) (w : Wr Ix) : Bool :=
  w.c.validB a b c && w.r.validB a b c && (w.add || !(w.c.isNet && w.r.isNet))

theorem Tidy.of_keys {a b c : ℕ} {ws : List (Wr Ix)} (hf : freshB (ws.map key) = true)
    (hk : ws.all (keyOk a b c) = true) : Tidy a b c ws := by
  have hk' : ∀ w ∈ ws, keyOk a b c w = true := by
    intro w hw
    exact List.all_eq_true.mp hk _ hw
  refine ⟨.of_keys hf, ?_, ?_, ?_⟩
  · intro w hw
    have := hk' w hw
    simp only [keyOk, Bool.and_eq_true] at this
    exact Ix.validB_iff this.1.1
  · intro w hw
    have := hk' w hw
    simp only [keyOk, Bool.and_eq_true] at this
    exact Ix.validB_iff this.1.2
  · intro w hw ha
    have := hk' w hw
    simp only [keyOk, Bool.and_eq_true, ha] at this
    have h := this.2
    cases hc : w.c.isNet <;> cases hr : w.r.isNet <;> simp [hc, hr] at h ⊢

/-- The device whose rows contain the name. -/
def Ix.kind : Ix → ℕ
  | .net _ => 0
  | .gen _ => 0
  | .exc _ => 1
  | .gov _ => 2

theorem Ix.Valid.mono {a b c a' b' c' : ℕ} (ha : a ≤ a') (hb : b ≤ b') (hc : c ≤ c') {ix : Ix} (h : ix.Valid a b c) :
    ix.Valid a' b' c' := by
  cases ix <;> simp only [Ix.Valid] at h ⊢ <;> omega

/-- Two groups of assignments to different rows. -/
theorem Tidy.append {a b c : ℕ} {ws vs : List (Wr Ix)} (h1 : Tidy a b c ws) (h2 : Tidy a b c vs)
    (hr : ∀ w ∈ ws, ∀ v ∈ vs, w.r ≠ v.r) : Tidy a b c (ws ++ vs) := by
  refine ⟨List.pairwise_append.mpr ⟨h1.fresh, h2.fresh, fun w hw v hv => Or.inr (fun h => hr w hw v hv h.2)⟩, ?_, ?_, ?_⟩
  all_goals
    intro w hw
    rcases List.mem_append.mp hw with h | h
    · first | exact h1.col w h | exact h1.row w h | exact h1.own w h
    · first | exact h2.col w h | exact h2.row w h | exact h2.own w h

end GridPACK.Dae
