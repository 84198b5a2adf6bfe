import Verif.Spec.FreqMonitor
import Mathlib.Tactic.Linarith
import Mathlib.Tactic.NormNum
import Mathlib.Order.Monotone.Basic
import Mathlib.Tactic.Push

/-! C239 (frequency monitoring), C240 (monitoring in consecutive simulations), C241 (the maximum frequency). -/
namespace GridPACK.FreqMonitor

theorem after_up (m : Mon) (t f : ℕ → ℝ) (n : ℕ) : (m.after t f (n + 1)).up = ((m.after t f n).upCheck (t n) (f n)).1 := rfl
theorem after_upStart (m : Mon) (t f : ℕ → ℝ) (n : ℕ) :
    (m.after t f (n + 1)).upStart = ((m.after t f n).upCheck (t n) (f n)).2.1 := rfl
theorem after_down (m : Mon) (t f : ℕ → ℝ) (n : ℕ) : (m.after t f (n + 1)).down = ((m.after t f n).downCheck (t n) (f n)).1 := rfl
theorem after_downStart (m : Mon) (t f : ℕ → ℝ) (n : ℕ) :
    (m.after t f (n + 1)).downStart = ((m.after t f n).downCheck (t n) (f n)).2.1 := rfl
theorem after_prev (m : Mon) (t f : ℕ → ℝ) (n : ℕ) : (m.after t f (n + 1)).prev = f n := rfl

theorem ok_false (m : Mon) (t f : ℕ → ℝ) (n : ℕ) : m.ok t f n = false ↔
    ((m.after t f n).upCheck (t n) (f n)).2.2 = true ∨ ((m.after t f n).downCheck (t n) (f n)).2.2 = true := by
  simp only [Mon.ok, Mon.step, Bool.and_eq_false_iff, Bool.not_eq_false']

theorem rising_succ {f : ℕ → ℝ} {i n : ℕ} (hi : i ≤ n) (h : Rising f i n) (h1 : 61 < f (n + 1)) (h2 : f n < f (n + 1)) :
    Rising f i (n + 1) := by
  refine ⟨h.1, fun k h3 h4 => ?_⟩
  rcases Nat.lt_or_ge n k with h5 | h5
  · obtain rfl : k = n + 1 := by omega
    exact ⟨h1, h2⟩
  · exact h.2 k h3 h5

theorem falling_succ {f : ℕ → ℝ} {i n : ℕ} (hi : i ≤ n) (h : Falling f i n) (h1 : f (n + 1) < 59) (h2 : f (n + 1) < f n) :
    Falling f i (n + 1) := by
  refine ⟨h.1, fun k h3 h4 => ?_⟩
  rcases Nat.lt_or_ge n k with h5 | h5
  · obtain rfl : k = n + 1 := by omega
    exact ⟨h1, h2⟩
  · exact h.2 k h3 h5

/-- While the monitor runs, the frequency has risen since the start that it remembers. -/
theorem up_sound (t f : ℕ → ℝ) (m : Mon) (hm : m.up = false) (n : ℕ) (h : (m.after t f (n + 1)).up = true) :
    ∃ i ≤ n, (m.after t f (n + 1)).upStart = t i ∧ Rising f i n := by
  induction n with
  | zero =>
    rw [after_up, Mon.upCheck] at h
    rw [after_upStart, Mon.upCheck]
    simp only [Mon.after, hm, if_true] at h ⊢
    split at h
    · rename_i h61
      refine ⟨0, le_rfl, by rw [if_pos h61], h61, fun k h1 h2 => by omega⟩
    · cases h
  | succ n ih =>
    rw [after_up, Mon.upCheck] at h
    rw [after_upStart, Mon.upCheck]
    by_cases hu : (m.after t f (n + 1)).up = false
    · simp only [hu, if_true] at h ⊢
      split at h
      · rename_i h61
        exact ⟨n + 1, le_rfl, by rw [if_pos h61], h61, fun k h1 h2 => by omega⟩
      · cases h
    · rw [if_neg hu] at h ⊢
      split at h
      · rename_i hc
        rw [if_pos hc]
        obtain ⟨i, hi, h1, h2⟩ := ih (by simpa using hu)
        rw [after_prev] at hc
        exact ⟨i, by omega, h1, rising_succ hi h2 hc.2 (by linarith [hc.1])⟩
      · cases h

theorem down_sound (t f : ℕ → ℝ) (m : Mon) (hm : m.down = false) (n : ℕ) (h : (m.after t f (n + 1)).down = true) :
    ∃ i ≤ n, (m.after t f (n + 1)).downStart = t i ∧ Falling f i n := by
  induction n with
  | zero =>
    rw [after_down, Mon.downCheck] at h
    rw [after_downStart, Mon.downCheck]
    simp only [Mon.after, hm, if_true] at h ⊢
    split at h
    · rename_i h61
      refine ⟨0, le_rfl, by rw [if_pos h61], h61, fun k h1 h2 => by omega⟩
    · cases h
  | succ n ih =>
    rw [after_down, Mon.downCheck] at h
    rw [after_downStart, Mon.downCheck]
    by_cases hu : (m.after t f (n + 1)).down = false
    · simp only [hu, if_true] at h ⊢
      split at h
      · rename_i h61
        exact ⟨n + 1, le_rfl, by rw [if_pos h61], h61, fun k h1 h2 => by omega⟩
      · cases h
    · rw [if_neg hu] at h ⊢
      split at h
      · rename_i hc
        rw [if_pos hc]
        obtain ⟨i, hi, h1, h2⟩ := ih (by simpa using hu)
        rw [after_prev] at hc
        exact ⟨i, by omega, h1, falling_succ hi h2 hc.2 (by linarith [hc.1])⟩
      · cases h

/-- C239: no false alarm: if the monitor finds a violation at a sample, the frequency of the generator has been above 61 Hz
and rising, or below 59 Hz and falling, from some earlier sample on, for at least half a second. -/
theorem C239_no_false_alarm (t f : ℕ → ℝ) (m : Mon) (hu : m.up = false) (hd : m.down = false) (n : ℕ)
    (h : m.ok t f n = false) : Drift t f n := by
  rw [ok_false] at h
  rcases h with h | h
  · rw [Mon.upCheck] at h
    split at h
    · split at h <;> cases h
    · rename_i hup
      split at h
      · rename_i hc
        cases n with
        | zero => exact absurd hu hup
        | succ n =>
          obtain ⟨i, hi, h1, h2⟩ := up_sound t f m hu n (by simpa using hup)
          rw [after_prev] at hc
          rw [h1] at h
          exact ⟨i, by omega, Or.inl (rising_succ hi h2 hc.2 (by linarith [hc.1])), of_decide_eq_true h⟩
      · cases h
  · rw [Mon.downCheck] at h
    split at h
    · split at h <;> cases h
    · rename_i hup
      split at h
      · rename_i hc
        cases n with
        | zero => exact absurd hd hup
        | succ n =>
          obtain ⟨i, hi, h1, h2⟩ := down_sound t f m hd n (by simpa using hup)
          rw [after_prev] at hc
          rw [h1] at h
          exact ⟨i, by omega, Or.inr (falling_succ hi h2 hc.2 (by linarith [hc.1])), of_decide_eq_true h⟩
      · cases h

/-- From the second sample of a rise on, the monitor runs, started not later than this sample. -/
theorem up_running (t f : ℕ → ℝ) (ht : Monotone t) (m : Mon) (hm : m.up = false) (i n : ℕ) (hin : i + 1 ≤ n) (h : Rising f i n) :
    (m.after t f (n + 1)).up = true ∧ (m.after t f (n + 1)).upStart ≤ t (i + 1) := by
  induction n with
  | zero => omega
  | succ n ih =>
    have h1 := h.2 (n + 1) (by omega) le_rfl
    rw [Nat.add_sub_cancel] at h1
    rw [after_up, after_upStart, Mon.upCheck]
    by_cases hu : (m.after t f (n + 1)).up = false
    · have hni : n = i := by
        by_contra hne
        have := (ih (by omega) ⟨h.1, fun k a b => h.2 k a (by omega)⟩).1
        rw [hu] at this; cases this
      subst hni
      rw [if_pos hu, if_pos h1.1]
      exact ⟨rfl, le_rfl⟩
    · rw [if_neg hu, if_pos (by rw [after_prev]; exact ⟨by linarith [h1.2], h1.1⟩)]
      refine ⟨rfl, ?_⟩
      obtain ⟨j, hj, e, -⟩ := up_sound t f m hm n (by simpa using hu)
      rcases Nat.lt_or_ge (i + 1) (n + 1) with hlt | hge
      · exact (ih (by omega) ⟨h.1, fun k a b => h.2 k a (by omega)⟩).2
      · have e : (m.after t f (n + 1)).upStart = t j := e
        show (m.after t f (n + 1)).upStart ≤ t (i + 1)
        rw [e]; exact ht (by omega)

theorem down_running (t f : ℕ → ℝ) (ht : Monotone t) (m : Mon) (hm : m.down = false) (i n : ℕ) (hin : i + 1 ≤ n)
    (h : Falling f i n) : (m.after t f (n + 1)).down = true ∧ (m.after t f (n + 1)).downStart ≤ t (i + 1) := by
  induction n with
  | zero => omega
  | succ n ih =>
    have h1 := h.2 (n + 1) (by omega) le_rfl
    rw [Nat.add_sub_cancel] at h1
    rw [after_down, after_downStart, Mon.downCheck]
    by_cases hu : (m.after t f (n + 1)).down = false
    · have hni : n = i := by
        by_contra hne
        have := (ih (by omega) ⟨h.1, fun k a b => h.2 k a (by omega)⟩).1
        rw [hu] at this; cases this
      subst hni
      rw [if_pos hu, if_pos h1.1]
      exact ⟨rfl, le_rfl⟩
    · rw [if_neg hu, if_pos (by rw [after_prev]; exact ⟨by linarith [h1.2], h1.1⟩)]
      refine ⟨rfl, ?_⟩
      obtain ⟨j, hj, e, -⟩ := down_sound t f m hm n (by simpa using hu)
      rcases Nat.lt_or_ge (i + 1) (n + 1) with hlt | hge
      · exact (ih (by omega) ⟨h.1, fun k a b => h.2 k a (by omega)⟩).2
      · have e : (m.after t f (n + 1)).downStart = t j := e
        show (m.after t f (n + 1)).downStart ≤ t (i + 1)
        rw [e]; exact ht (by omega)

/-- C239 (partial: half a second counted from the second sample of the drift): every drift of a generator is found. -/
theorem C239_found_partial (t f : ℕ → ℝ) (ht : Monotone t) (m : Mon) (hu : m.up = false) (hd : m.down = false) (n : ℕ)
    (h : LateDrift t f n) : m.ok t f n = false := by
  obtain ⟨i, hin, h, htime⟩ := h
  rw [ok_false]
  cases n with
  | zero => omega
  | succ n =>
    rcases h with h | h
    · left
      have h1 := h.2 (n + 1) (by omega) le_rfl
      rw [Nat.add_sub_cancel] at h1
      obtain ⟨e1, e2⟩ := up_running t f ht m hu i n (by omega) ⟨h.1, fun k a b => h.2 k a (by omega)⟩
      rw [Mon.upCheck, if_neg (by rw [e1]; decide), if_pos (by rw [after_prev]; exact ⟨by linarith [h1.2], h1.1⟩)]
      exact decide_eq_true (by linarith)
    · right
      have h1 := h.2 (n + 1) (by omega) le_rfl
      rw [Nat.add_sub_cancel] at h1
      obtain ⟨e1, e2⟩ := down_running t f ht m hd i n (by omega) ⟨h.1, fun k a b => h.2 k a (by omega)⟩
      rw [Mon.downCheck, if_neg (by rw [e1]; decide), if_pos (by rw [after_prev]; exact ⟨by linarith [h1.2], h1.1⟩)]
      exact decide_eq_true (by linarith)

/-- C239 violated: a sample that ends one rise is not taken as the start of the next: if the frequency is above 61 Hz, drops a
little at sample 1 and rises from then on, the time is counted from sample 2, so that a rise from sample 1 to sample 2 is not
found however long it takes. -/
theorem C239_restart_violated (t f : ℕ → ℝ) (h0 : 61 < f 0) (h1 : 61 < f 1) (h01 : f 1 ≤ f 0) (h12 : f 1 < f 2)
    (ht : 1 / 2 ≤ t 2 - t 1) : Drift t f 2 ∧ Mon.new.ok t f 2 = true := by
  refine ⟨⟨1, by norm_num, Or.inl ⟨h1, fun k a b => ?_⟩, ht⟩, ?_⟩
  · obtain rfl : k = 2 := by omega
    exact ⟨by linarith, h12⟩
  · rw [← Bool.not_eq_false, ok_false]
    have u1 : (Mon.new.after t f 1).up = true := by
      rw [after_up, Mon.upCheck]; simp [Mon.after, Mon.new, h0]
    have u2 : (Mon.new.after t f 2).up = false := by
      rw [after_up, Mon.upCheck, if_neg (by rw [u1]; decide), if_neg (by rw [after_prev]; rintro ⟨a, b⟩; linarith)]
    have d1 : (Mon.new.after t f 1).down = false := by
      rw [after_down, Mon.downCheck, if_pos (show (Mon.new.after t f 0).down = false from rfl), if_neg (by intro h; linarith)]
    have d2 : (Mon.new.after t f 2).down = false := by
      rw [after_down, Mon.downCheck, if_pos d1, if_neg (by intro h; linarith)]
    rintro (h | h)
    · rw [Mon.upCheck, if_pos u2] at h; split at h <;> cases h
    · rw [Mon.downCheck, if_pos d2] at h; split at h <;> cases h

/-- C239: the result for the network: true on all processes exactly if every watched generator of every bus passes, and each
process lists its buses that do not. -/
theorem C239_network (start time : ℝ) (hs : start ≤ time) (procs : List (List (Bool × ℤ × List (Bool × ℝ) × List Mon))) :
    ((netCheck start time procs).1 = true ↔ ∀ bs ∈ procs, ∀ b ∈ bs, b.1 = true → ∀ (i : ℕ) (w : ℝ),
      b.2.2.1[i]? = some (true, w) → ((b.2.2.2.getD i Mon.new).step time (60 * w)).2 = true) ∧
    ((netCheck start time procs).1 = true ↔ ∀ l ∈ (netCheck start time procs).2, l = []) := by
  have key : ∀ (gens : List (Bool × ℝ)) (mons : List Mon), (busCheck start time gens mons).2 = true ↔
      ∀ (i : ℕ) (w : ℝ), gens[i]? = some (true, w) → ((mons.getD i Mon.new).step time (60 * w)).2 = true := by
    intro gens mons
    simp only [busCheck, ge_iff_le, if_pos hs, List.all_eq_true, List.mem_mapIdx]
    constructor
    · intro h i w hi
      obtain ⟨hlt, e⟩ := List.getElem?_eq_some_iff.1 hi
      have := h _ ⟨i, hlt, rfl⟩
      rw [e] at this
      simpa using this
    · rintro h x ⟨i, hlt, rfl⟩
      cases hg : gens[i].1 with
      | false => simp
      | true =>
        have := h i gens[i].2 (by rw [List.getElem?_eq_getElem hlt, ← hg])
        simp only [Bool.not_true, Bool.false_or]
        exact this
  constructor
  · simp only [netCheck, List.all_eq_true, Bool.not_eq_true', Bool.and_eq_false_iff, Bool.not_eq_false']
    refine forall₄_congr fun bs _ b _ => ?_
    rw [← key]
    cases b.1 <;> simp
  · simp only [netCheck, List.all_eq_true, List.mem_map, forall_exists_index, and_imp, forall_apply_eq_imp_iff₂,
      List.map_eq_nil_iff, List.filter_eq_nil_iff]
    simp only [Bool.not_eq_true', Bool.not_eq_true]

/-- The entries of a bus after the checks 0 … `n`-1; `gens k` are the generators at check `k`. -/
noncomputable def busAfter (start : ℝ) (t : ℕ → ℝ) (gens : ℕ → List (Bool × ℝ)) (mons : List Mon) : ℕ → List Mon
  | 0 => mons
  | n + 1 => (busCheck start (t n) (gens n) (busAfter start t gens mons n)).1

theorem busAfter_entry (start : ℝ) (t w : ℕ → ℝ) (gens : ℕ → List (Bool × ℝ)) (mons : List Mon) (i : ℕ) (m : Mon)
    (hs : ∀ k, start ≤ t k) (hg : ∀ k, (gens k)[i]? = some (true, w k)) (hm : mons[i]? = some m) (n : ℕ) :
    (busAfter start t gens mons n)[i]? = some (m.after t (fun k => 60 * w k) n) := by
  induction n with
  | zero => exact hm
  | succ n ih =>
    simp only [busAfter, busCheck, ge_iff_le, if_pos (hs n), List.getElem?_mapIdx, ih, Option.map_some, hg n]
    rfl

/-- C239 for the checks of a whole bus, one after the other: a watched generator with a drift of its frequency
(60 times its speed), counted from the second sample, is found whatever the other generators of the bus do; before the
time at which monitoring begins nothing happens. -/
theorem C239_bus_partial (start : ℝ) (t w : ℕ → ℝ) (gens : ℕ → List (Bool × ℝ)) (mons : List Mon) (i : ℕ) (m : Mon)
    (hs : ∀ k, start ≤ t k) (ht : Monotone t) (hg : ∀ k, (gens k)[i]? = some (true, w k)) (hm : mons[i]? = some m)
    (hu : m.up = false) (hd : m.down = false) (n : ℕ) (h : LateDrift t (fun k => 60 * w k) n) :
    (busCheck start (t n) (gens n) (busAfter start t gens mons n)).2 = false ∧
    ∀ time gs ms, time < start → busCheck start time gs ms = (ms, true) := by
  constructor
  · have hok := C239_found_partial t (fun k => 60 * w k) ht m hu hd n h
    have he := busAfter_entry start t w gens mons i m hs hg hm n
    simp only [busCheck, ge_iff_le, if_pos (hs n)]
    rw [List.all_eq_false]
    refine ⟨false, ?_, by decide⟩
    rw [List.mem_mapIdx]
    obtain ⟨hlt, e⟩ := List.getElem?_eq_some_iff.1 (hg n)
    refine ⟨i, hlt, ?_⟩
    rw [e]
    simp only [Bool.not_true, Bool.false_or, List.getD_eq_getElem?_getD, he, Option.getD_some]
    exact hok
  · intro time gs ms h
    simp only [busCheck, ge_iff_le, if_neg (not_le.mpr h)]

/-- C239, no false alarm of a bus: a check that fails is due to a drift of a watched generator. -/
theorem C239_bus_sound (start : ℝ) (t : ℕ → ℝ) (w : ℕ → ℕ → ℝ) (watched : ℕ → Bool) (size : ℕ) (mons : List Mon)
    (hs : ∀ k, start ≤ t k) (hl : mons.length = size) (hm : ∀ m ∈ mons, m.up = false ∧ m.down = false) (n : ℕ)
    (h : (busCheck start (t n) ((List.range size).map (fun i => (watched i, w i n)))
      (busAfter start t (fun k => (List.range size).map (fun i => (watched i, w i k))) mons n)).2 = false) :
    ∃ i < size, watched i = true ∧ Drift t (fun k => 60 * w i k) n := by
  simp only [busCheck, ge_iff_le, if_pos (hs n), List.all_eq_false, List.mem_mapIdx] at h
  obtain ⟨b, ⟨i, hlt, rfl⟩, hb⟩ := h
  have hi : i < size := by simpa using hlt
  simp only [List.getElem_map, List.getElem_range, Bool.not_eq_true, Bool.or_eq_false_iff, Bool.not_eq_false'] at hb
  refine ⟨i, hi, hb.1, ?_⟩
  have hmi : mons[i]? = some (mons[i]'(by omega)) := List.getElem?_eq_getElem _
  have he := busAfter_entry start t (w i) (fun k => (List.range size).map (fun i => (watched i, w i k))) mons i _ hs
    (fun k => by simp [hi, hb.1]) hmi n
  obtain ⟨m1, m2⟩ := hm _ (List.getElem_mem (by omega : i < mons.length))
  refine C239_no_false_alarm t (fun k => 60 * w i k) _ m1 m2 n ?_
  have h2 := hb.2
  rw [List.getD_eq_getElem?_getD, he, Option.getD_some] at h2
  exact h2

/-- C239: a generator at 61.5, 62, 62.5, 63 Hz, a sample every 0.3 s: the drift is found at the last sample. -/
example : Mon.new.ok (fun n => 3 / 10 * n) (fun n => 61 + (n + 1) / 2) 3 = false :=
  C239_found_partial _ _ (by intro a b h; simp only; have : (a : ℝ) ≤ b := by exact_mod_cast h
                             linarith) _ rfl rfl 3
    ⟨0, by norm_num, Or.inl ⟨by norm_num, fun k a b => by
      obtain ⟨j, rfl⟩ : ∃ j, k = j + 1 := ⟨k - 1, by omega⟩
      constructor <;> push_cast [Nat.add_sub_cancel]
      · have : (0:ℝ) ≤ j := Nat.cast_nonneg j
        linarith
      · linarith⟩, by norm_num⟩

/-- C239: two generators, the second at these frequencies, the first not watched. -/
example : (busCheck 0 (3 / 10 * (3 : ℕ)) [(false, 1), (true, (61 + ((3 : ℕ) + 1) / 2) / 60)]
    (busAfter 0 (fun n => 3 / 10 * n) (fun n => [(false, 1), (true, (61 + (n + 1) / 2) / 60)])
      [Mon.new, Mon.new] 3)).2 = false :=
  (C239_bus_partial 0 (fun n => 3 / 10 * n) (fun n => (61 + (n + 1) / 2) / 60)
    (fun n => [(false, 1), (true, (61 + (n + 1) / 2) / 60)]) [Mon.new, Mon.new] 1 Mon.new
    (fun k => by positivity)
    (by intro a b h; simp only; have : (a : ℝ) ≤ b := by exact_mod_cast h
        linarith) (fun _ => rfl) rfl rfl rfl 3
    ⟨0, by norm_num, Or.inl ⟨by norm_num, fun k a b => by
      obtain ⟨j, rfl⟩ : ∃ j, k = j + 1 := ⟨k - 1, by omega⟩
      constructor <;> push_cast [Nat.add_sub_cancel]
      · have : (0:ℝ) ≤ j := Nat.cast_nonneg j
        linarith
      · linarith⟩, by norm_num⟩).1

/-! ### C240 -/

/-- A sample leads to the same verdict and, but for starts that are not in use, the same entry. -/
def Like (a b : Mon) : Prop :=
  a.up = b.up ∧ (a.up = true → a.upStart = b.upStart) ∧ a.down = b.down ∧ (a.down = true → a.downStart = b.downStart) ∧
  ((a.up = true ∨ a.down = true) → a.prev = b.prev)

theorem step_like {a b : Mon} (h : Like a b) (t f : ℝ) : Like (a.step t f).1 (b.step t f).1 ∧ (a.step t f).2 = (b.step t f).2 := by
  obtain ⟨au, as, ad, ads, ap⟩ := a
  obtain ⟨bu, bs, bd, bds, bp⟩ := b
  obtain ⟨h1, h2, h3, h4, h5⟩ := h
  simp only at h1 h2 h3 h4 h5
  subst h1 h3
  have key : Like (Mon.step ⟨au, as, ad, ads, ap⟩ t f).1 (Mon.step ⟨au, bs, ad, bds, bp⟩ t f).1 ∧
      (Mon.step ⟨au, as, ad, ads, ap⟩ t f).2 = (Mon.step ⟨au, bs, ad, bds, bp⟩ t f).2 := by
    cases au <;> cases ad <;> simp_all only [Bool.false_eq_true, false_implies, true_implies, or_true, true_or, or_self,
      forall_const] <;> simp only [Like, Mon.step, Mon.upCheck, Mon.downCheck, if_true, Bool.true_eq_false, if_false] <;>
      (refine ⟨⟨?_, ?_, ?_, ?_, fun _ => trivial⟩, ?_⟩) <;> (repeat' split) <;> simp_all
  exact key

/-- C240 (partial: the previous simulation ended outside any drift): the verdicts of a simulation are those of the first
simulation with the same samples. -/
theorem C240_next_partial (m : Mon) (hu : m.up = false) (hd : m.down = false) (t f : ℕ → ℝ) (n : ℕ) :
    m.ok t f n = Mon.new.ok t f n := by
  have h : ∀ n, Like (m.after t f n) (Mon.new.after t f n) := by
    intro n
    induction n with
    | zero => simp [Like, Mon.after, Mon.new, hu, hd]
    | succ n ih => exact (step_like ih _ _).1
  exact (step_like (h n) _ _).2

/-- C240 violated: loading a bus again, as before every simulation of a contingency, leaves the entries of its generators as the
previous simulation left them. -/
theorem C240_reload_violated (n : ℕ) (mons : List Mon) (i : ℕ) (hi : i < mons.length) :
    (reload n mons)[i]? = mons[i]? := by
  simp [reload, List.getElem?_append_left hi]

/-- C240 violated: if the previous simulation ended during a rise that began at time `s`, a rise above 61 Hz in the next one that
starts above the last frequency is not found until half a second after `s`, however long it has lasted; with new entries it is
found. -/
theorem C240_stale_violated (m : Mon) (hu : m.up = true) (hd : m.down = false) (t f : ℕ → ℝ) (ht : Monotone t) (n : ℕ)
    (hn : 1 < n) (hp : m.prev < f 0) (hr : Rising f 0 n) (htime : 1 / 2 ≤ t n - t 1) (hs : t n < m.upStart + 1 / 2) :
    m.ok t f n = true ∧ Mon.new.ok t f n = false := by
  refine ⟨?_, C239_found_partial t f ht Mon.new rfl rfl n ⟨0, by omega, Or.inl hr, htime⟩⟩
  have key : ∀ k ≤ n, (m.after t f k).up = true ∧ (m.after t f k).upStart = m.upStart ∧ (m.after t f k).down = false ∧
      (m.after t f k).prev < f k ∧ 61 < f k := by
    intro k
    induction k with
    | zero => intro _; exact ⟨hu, rfl, hd, hp, hr.1⟩
    | succ k ih =>
      intro hk
      obtain ⟨h1, h2, h3, h4, h5⟩ := ih (by omega)
      have h6 := hr.2 (k + 1) (by omega) hk
      rw [Nat.add_sub_cancel] at h6
      refine ⟨?_, ?_, ?_, by rw [after_prev]; exact h6.2, h6.1⟩
      · rw [after_up, Mon.upCheck, if_neg (by rw [h1]; decide), if_pos ⟨by linarith, h5⟩]
      · rw [after_upStart, Mon.upCheck, if_neg (by rw [h1]; decide), if_pos ⟨by linarith, h5⟩]; exact h2
      · rw [after_down, Mon.downCheck, if_pos h3, if_neg (by intro h; linarith)]
  obtain ⟨h1, h2, h3, h4, h5⟩ := key n le_rfl
  rw [← Bool.not_eq_false, ok_false]
  rintro (h | h)
  · rw [Mon.upCheck, if_neg (by rw [h1]; decide), if_pos ⟨by linarith, h5⟩, h2] at h
    have := of_decide_eq_true h
    linarith
  · rw [Mon.downCheck, if_pos h3] at h
    split at h <;> cases h

/-- C240: a rise from 61.5 Hz at 0.3 s steps, after a simulation that ended at 61.2 Hz in a rise begun at time 4. -/
example : (⟨true, 4, false, 0, 612 / 10⟩ : Mon).ok (fun n => 3 / 10 * n) (fun n => 61 + (n + 1) / 2) 3 = true :=
  (C240_stale_violated _ rfl rfl _ _ (by intro a b h; simp only; have : (a : ℝ) ≤ b := by exact_mod_cast h
                                         linarith) 3 (by norm_num) (by norm_num)
    ⟨by norm_num, fun k a b => by
      obtain ⟨j, rfl⟩ : ∃ j, k = j + 1 := ⟨k - 1, by omega⟩
      constructor <;> push_cast [Nat.add_sub_cancel]
      · have : (0:ℝ) ≤ j := Nat.cast_nonneg j
        linarith
      · linarith⟩ (by norm_num) (by norm_num)).1

/-! ### C241 -/

/-- C241 (partial: the function exists, but the simulation does not call it): the check against a limit fails exactly if a
watched generator has a frequency above the limit. -/
theorem C241_limit_partial (limit : ℝ) (gens : List (Bool × ℝ)) :
    limitCheck limit gens = false ↔ ∃ w, (true, w) ∈ gens ∧ limit < 60 * w := by
  simp only [limitCheck, List.all_eq_false, Bool.not_eq_true, Bool.or_eq_false_iff, Bool.not_eq_false', decide_eq_true_eq]
  constructor
  · rintro ⟨⟨b, w⟩, hm, h1, h2⟩
    simp only at h1 h2
    subst h1
    exact ⟨w, hm, h2⟩
  · rintro ⟨w, hm, h⟩
    exact ⟨(true, w), hm, rfl, h⟩

/-- C241 violated: a simulation in which the frequency of a generator stays at any value, however far above the maximum given to
`setFrequencyMonitoring`, is reported to be all right. -/
theorem C241_maximum_violated (limit F : ℝ) (_h : limit < F) (hF : 61 ≤ F) (t : ℕ → ℝ) (n : ℕ) :
    frequencyOK limit Mon.new t (fun _ => F) n = true := by
  induction n with
  | zero => rfl
  | succ n ih =>
    rw [frequencyOK, ih, Bool.true_and, ← Bool.not_eq_false]
    intro h
    obtain ⟨i, hi, h, -⟩ := C239_no_false_alarm t (fun _ => F) Mon.new rfl rfl n h
    rcases h with h | h
    · exact absurd (h.2 n hi le_rfl).2 (lt_irrefl _)
    · exact absurd (h.2 n hi le_rfl).2 (lt_irrefl _)

/-- C241: a generator at 80 Hz with the default maximum of 61.8 Hz. -/
example : frequencyOK (618 / 10) Mon.new (fun n => n) (fun _ => 80) 1000 = true :=
  C241_maximum_violated _ _ (by norm_num) (by norm_num) _ _

end GridPACK.FreqMonitor
