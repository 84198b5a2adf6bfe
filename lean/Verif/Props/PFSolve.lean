import Verif.Model.PFSolve
import Verif.Model.QLimit
import Mathlib.Tactic.Linarith
import Mathlib.Tactic.NormNum

/-! C91, C92: result and termination of the power-flow iteration. -/
namespace GridPACK.PFSolve

variable {σ ξ : Type}

/-- The result of the inner loop: `x` solves the linear system of `s`; without divergence and with fewer than
the allowed iterations the mismatch of `s` is within the tolerance. -/
theorem inner_spec (P : Problem σ ξ) (org : ℝ) (n : Nat) (iter : Int) (s : σ) (x : ξ) (tol : ℝ)
    (hx : P.solve s = some x) (ht : tol = P.mismatch s) (s' : σ) (x' : ξ) (it' : Int) (d : Bool)
    (h : inner P org n iter s x tol = .done s' x' it' d) :
    P.solve s' = some x' ∧ iter ≤ it' ∧ it' ≤ iter + n ∧
      (d = false → it' < iter + n → P.mismatch s' ≤ P.tolerance) := by
  induction n generalizing iter s x tol with
  | zero =>
    simp only [inner, Inner.done.injEq] at h
    obtain ⟨rfl, rfl, rfl, rfl⟩ := h
    refine ⟨hx, le_refl _, by simp, fun _ h => ?_⟩
    simp at h
  | succ n ih =>
    simp only [inner] at h
    by_cases hg : tol > P.tolerance
    · simp only [hg, if_true] at h
      cases hs : P.solve (P.push s x) with
      | none => simp [hs] at h
      | some y =>
        simp only [hs] at h
        by_cases hd : P.mismatch (P.push s x) > 100 * org
        · simp only [hd, if_true, Inner.done.injEq] at h
          obtain ⟨rfl, rfl, rfl, rfl⟩ := h
          exact ⟨hs, by omega, by push_cast; omega, by simp⟩
        · simp only [hd, if_false] at h
          obtain ⟨h1, h2, h3, h4⟩ := ih (iter + 1) _ y _ hs rfl h
          exact ⟨h1, by omega, by push_cast; omega, fun a b => h4 a (by push_cast at b; omega)⟩
    · simp only [hg, if_false, Inner.done.injEq] at h
      obtain ⟨rfl, rfl, rfl, rfl⟩ := h
      exact ⟨hx, le_refl _, by push_cast; omega, fun _ _ => by rw [← ht]; exact not_lt.mp hg⟩

theorem passes_true (P : Problem σ ξ) (k : Nat) (ret : Bool) (s f : σ)
    (h : passes P k ret s = some (f, true)) :
    ret = true ∧ ∃ c x, P.mismatch c ≤ P.tolerance ∧ P.solve c = some x ∧
      ((P.qlim = false ∧ f = P.push c x) ∨ (P.qlim = true ∧ (P.qcheck c).2 = true ∧ f = P.push (P.qcheck c).1 x)) := by
  induction k generalizing ret s with
  | zero => simp [passes] at h
  | succ k ih =>
    simp only [passes] at h
    cases hs : P.solve (P.prepare s) with
    | none => simp [hs] at h
    | some x =>
      simp only [hs] at h
      cases hin : inner P (P.mismatch (P.prepare s)) P.maxIter.toNat 0 (P.prepare s) x
          (P.mismatch (P.prepare s)) with
      | failed s' => simp [hin] at h
      | done c y it d =>
        simp only [hin] at h
        obtain ⟨hsol, h0, h1, hconv⟩ := inner_spec P _ _ _ _ _ _ hs rfl c y it d hin
        have fin : (if it ≥ P.maxIter then false else if d = true then false else ret) = true →
            ret = true ∧ P.mismatch c ≤ P.tolerance := by
          intro hr
          by_cases hi : it ≥ P.maxIter
          · simp [hi] at hr
          · cases d
            · simp only [hi, if_false, Bool.false_eq_true] at hr
              exact ⟨hr, hconv rfl (by omega)⟩
            · simp [hi] at hr
        by_cases hq : P.qlim = false
        · simp only [hq, if_true, Option.some.injEq, Prod.mk.injEq] at h
          obtain ⟨h2, h3⟩ := h
          obtain ⟨a, b⟩ := fin h3
          exact ⟨a, c, y, b, hsol, Or.inl ⟨hq, h2.symm⟩⟩
        · simp only [hq] at h
          by_cases hqc : (P.qcheck c).2 = true
          · simp only [hqc, if_true, Bool.true_eq_false, if_false, Option.some.injEq, Prod.mk.injEq] at h
            obtain ⟨h2, h3⟩ := h
            obtain ⟨a, b⟩ := fin h3
            exact ⟨a, c, y, b, hsol, Or.inr ⟨by simpa using hq, hqc, h2.symm⟩⟩
          · simp only [hqc] at h
            obtain ⟨hr, rest⟩ := ih _ _ h
            exact ⟨(fin hr).1, rest⟩

/-- C91: if `solve` returns true, the network it leaves is a state within the tolerance (and, if reactive limits
are checked, found without violation) with one further correction applied.  For every network, linear solver,
tolerance and iteration limit. -/
theorem C91_true_means_converged (P : Problem σ ξ) (k : Nat) (s f : σ) (h : solve P k s = some (f, true)) :
    ∃ c x, P.mismatch c ≤ P.tolerance ∧ P.solve c = some x ∧
      ((P.qlim = false ∧ f = P.push c x) ∨
       (P.qlim = true ∧ (P.qcheck c).2 = true ∧ f = P.push (P.qcheck c).1 x)) :=
  (passes_true P k true s f h).2

/-- C91, the other direction fails: if the mismatch falls below the tolerance just at the last allowed
iteration, the result is false although the network has converged.  Here with one allowed iteration. -/
theorem C91_last_iteration_violated (P : Problem σ ξ) (k : Nat) (s : σ) (x y : ξ) (hm : P.maxIter = 1)
    (hq : P.qlim = false) (h0 : P.mismatch (P.prepare s) > P.tolerance)
    (hx : P.solve (P.prepare s) = some x) (hy : P.solve (P.push (P.prepare s) x) = some y)
    (hc : P.mismatch (P.push (P.prepare s) x) ≤ P.tolerance) (hp : 0 ≤ P.tolerance) :
    solve P (k + 1) s = some (P.push (P.push (P.prepare s) x) y, false) ∧
    P.mismatch (P.push (P.prepare s) x) ≤ P.tolerance := by
  have hd : ¬ P.mismatch (P.push (P.prepare s) x) > 100 * P.mismatch (P.prepare s) := by
    intro h; linarith
  refine ⟨?_, hc⟩
  simp [solve, passes, hx, hm, inner, h0, hy, hd, hq]

/-- C91 fails in the same way when the reactive limits are checked: once one pass has failed to converge, the
result is false, whatever the following passes do. -/
theorem C91_sticky_violated (P : Problem σ ξ) (k : Nat) (s f : σ) (r : Bool)
    (h : passes P k false s = some (f, r)) : r = false := by
  cases r with
  | false => rfl
  | true => exact absurd (passes_true P k false s f h).1 (by simp)

/-- A network of one number that each correction halves exactly to zero: meets the hypotheses. -/
noncomputable def ex : Problem ℝ ℝ :=
  { prepare := id, mismatch := fun s => |s|, solve := fun s => some s, push := fun s x => s - x,
    qcheck := fun s => (s, true), tolerance := 1, maxIter := 1, qlim := false }

example : ex.maxIter = 1 ∧ ex.mismatch (ex.prepare 5) > ex.tolerance ∧
    ex.mismatch (ex.push (ex.prepare 5) 5) ≤ ex.tolerance := by
  refine ⟨rfl, ?_, ?_⟩ <;> simp [ex]

/-- The same network with two allowed iterations converges and returns true. -/
example : solve { ex with maxIter := 2 } 1 5 = some (0, true) := by
  simp [solve, passes, inner, ex]
  norm_num

/-! ### C92: termination -/

/-- A measure (the number of voltage-controlled buses) that preparing and pushing corrections keep and that every
reactive-limit check with a violation lowers. -/
structure Measure (P : Problem σ ξ) (m : σ → Nat) : Prop where
  prepare : ∀ s, m (P.prepare s) = m s
  push : ∀ s x, m (P.push s x) = m s
  lower : ∀ s, (P.qcheck s).2 = false → m (P.qcheck s).1 < m s

theorem inner_measure (P : Problem σ ξ) (m : σ → Nat) (hm : Measure P m) (org : ℝ) (n : Nat) (iter : Int)
    (s : σ) (x : ξ) (tol : ℝ) (s' : σ) (x' : ξ) (it' : Int) (d : Bool)
    (h : inner P org n iter s x tol = .done s' x' it' d) : m s' = m s := by
  induction n generalizing iter s x tol with
  | zero =>
    simp only [inner, Inner.done.injEq] at h
    rw [h.1]
  | succ n ih =>
    simp only [inner] at h
    by_cases hg : tol > P.tolerance
    · simp only [hg, if_true] at h
      cases hs : P.solve (P.push s x) with
      | none => simp [hs] at h
      | some y =>
        simp only [hs] at h
        by_cases hd : P.mismatch (P.push s x) > 100 * org
        · simp only [hd, if_true, Inner.done.injEq] at h
          rw [← h.1, hm.push]
        · simp only [hd, if_false] at h
          rw [ih _ _ _ _ h, hm.push]
    · simp only [hg, if_false, Inner.done.injEq] at h
      rw [h.1]

theorem passes_some (P : Problem σ ξ) (m : σ → Nat) (hm : Measure P m) (s : σ) (k : Nat) (hk : m s < k)
    (ret : Bool) : (passes P k ret s).isSome := by
  induction k generalizing ret s with
  | zero => omega
  | succ k ih =>
    simp only [passes]
    cases hs : P.solve (P.prepare s) with
    | none => simp
    | some x =>
      simp only
      cases hin : inner P (P.mismatch (P.prepare s)) P.maxIter.toNat 0 (P.prepare s) x
          (P.mismatch (P.prepare s)) with
      | failed s' => simp
      | done c y it d =>
        simp only
        have hc : m c = m s := by rw [inner_measure P m hm _ _ _ _ _ _ c y it d hin, hm.prepare]
        split
        · simp
        · split
          · simp
          · next hq =>
            refine ih _ ?_ _
            rw [hm.push]
            have := hm.lower c (by simpa using hq)
            omega

/-- C92: with such a measure, `solve` ends after at most (measure + 1) passes, from every state. -/
theorem C92_terminates (P : Problem σ ξ) (m : σ → Nat) (hm : Measure P m) (s : σ) (k : Nat) (hk : m s < k) :
    (solve P k s).isSome := passes_some P m hm s k hk true

/-- C92, the measure: for every list of buses, checking the reactive limits of all of them keeps the number of
voltage-controlled buses if none is reported and lowers it otherwise. -/
theorem C92_conversion_lowers (bs : List QLimit.Bus) (rs : List (QLimit.Bus × Bool))
    (h : bs.mapM QLimit.chkQlim = some rs) :
    ((rs.map Prod.fst).filter QLimit.Bus.isPV).length + (rs.filter Prod.snd).length =
      (bs.filter QLimit.Bus.isPV).length := by
  induction bs generalizing rs with
  | nil => simp at h; subst h; rfl
  | cons b bs ih =>
    rw [List.mapM_cons] at h
    cases hb : QLimit.chkQlim b with
    | none => simp [hb] at h
    | some r =>
      cases hr : bs.mapM QLimit.chkQlim with
      | none => simp [hb, hr] at h
      | some rs' =>
        simp [hb, hr] at h
        subst h
        have hi := ih rs' hr
        have hc : (r.2 = true ∧ b.isPV = true ∧ r.1.isPV = false) ∨ (r.2 = false ∧ r.1.isPV = b.isPV) := by
          unfold QLimit.chkQlim at hb
          cases hpv : b.isPV
          · simp [hpv] at hb; subst hb; simp
          · simp only [hpv, if_true] at hb
            split at hb
            · split at hb
              · simp at hb
              · simp only [Option.some.injEq] at hb; subst hb; left; simp [QLimit.convert]
            · split at hb
              · simp only [Option.some.injEq] at hb; subst hb; left; simp [QLimit.convert]
              · simp only [Option.some.injEq] at hb; subst hb; right; simp
        simp only [List.map_cons, List.filter_cons]
        rcases hc with ⟨h1, h2, h3⟩ | ⟨h1, h2⟩
        · simp only [h1, h2, h3, if_true, List.length_cons, Bool.false_eq_true, if_false]; omega
        · rw [h1, h2]
          cases b.isPV <;> simp <;> omega

/-- Buses as a list of flags "voltage-controlled": a check that converts the first one has a measure. -/
example : Measure (σ := List Bool) (ξ := Unit)
    { prepare := id, mismatch := fun _ => 0, solve := fun _ => some (), push := fun s _ => s,
      qcheck := fun s => if true ∈ s then (s.replace true false, false) else (s, true),
      tolerance := 1, maxIter := 2, qlim := true } (fun s => s.count true) := by
  refine ⟨fun _ => rfl, fun _ _ => rfl, ?_⟩
  intro s h
  simp only at h ⊢
  split
  · next hm =>
    simp only
    clear h
    induction s with
    | nil => simp at hm
    | cons a s ih =>
      cases a
      · have : true ∈ s := by simpa using hm
        have e : (false :: s).replace true false = false :: s.replace true false := by
          simp [List.replace]
        rw [e]
        simpa using ih this
      · simp
  · next hm => simp [hm] at h

end GridPACK.PFSolve
