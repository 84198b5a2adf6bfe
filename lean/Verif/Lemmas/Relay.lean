import Verif.Model.Relay

/-! A relay with a pick-up stage and a breaker stage, in general. -/
namespace GridPACK.Relay

/-- Counters `c`, breaker count, flag and trip status. -/
structure GState (γ : Type) where
  c : γ
  breaker : Nat
  flag : Bool
  trip : Bool

/-- One step of the general relay. -/
def gstep {γ ρ : Type} (c0 : γ) (cstep : γ → ρ → γ) (pick : γ → Bool) (brk : Nat → Bool) (s : GState γ) (r : ρ) :
    GState γ :=
  let c := if s.flag = false then cstep s.c r else s.c
  if pick c then
    if brk (s.breaker + 1) then ⟨c0, 0, false, true⟩ else ⟨c, s.breaker + 1, true, false⟩
  else ⟨c, s.breaker, false, s.trip⟩

variable {γ ρ : Type} {c0 : γ} {cstep : γ → ρ → γ} {pick : γ → Bool} {brk : Nat → Bool} {reading : Nat → ρ}

/-- The counters without the breaker stage. -/
abbrev free (c0 : γ) (cstep : γ → ρ → γ) (reading : Nat → ρ) : Nat → γ := after cstep c0 reading

/-- As long as the pick-up condition was not met, the counters run freely. -/
theorem before_pick (k : Nat) (h : ∀ p, p < k → pick (free c0 cstep reading (p + 1)) = false) :
    after (gstep c0 cstep pick brk) ⟨c0, 0, false, false⟩ reading k = ⟨free c0 cstep reading k, 0, false, false⟩ := by
  induction k with
  | zero => rfl
  | succ k ih =>
    have := ih (fun p hp => h p (by omega))
    have hk := h k (by omega)
    simp only [after] at hk ⊢
    rw [this]
    simp [gstep, hk, free]

/-- After pick-up at step `p` the breaker counts up. -/
theorem breaker_runs {p : Nat} (hfirst : ∀ q, q < p → pick (free c0 cstep reading (q + 1)) = false)
    (hp : pick (free c0 cstep reading (p + 1)) = true) (j : Nat) (h : ∀ i, i ≤ j → brk (i + 1) = false) :
    after (gstep c0 cstep pick brk) ⟨c0, 0, false, false⟩ reading (p + j + 1)
      = ⟨free c0 cstep reading (p + 1), j + 1, true, false⟩ := by
  induction j with
  | zero =>
    have h0 := before_pick (brk := brk) p hfirst
    simp only [after, free] at hp ⊢
    rw [h0]
    have := h 0 (by omega)
    simp [gstep, hp, free, this]
  | succ j ih =>
    have hj := ih (fun i hi => h i (by omega))
    have hb := h (j + 1) (by omega)
    show gstep c0 cstep pick brk (after _ _ _ (p + j + 1)) _ = _
    rw [hj]
    simp [gstep, hp, hb]

/-- The general relay trips within `N` steps exactly if the free counters meet the pick-up condition at some step
`p` and the breaker condition is met at step `n`, counted from `p`. -/
theorem trips_iff (hmono : ∀ a b, a ≤ b → brk a = true → brk b = true) (N : Nat) :
    (∃ k, k ≤ N ∧ (after (gstep c0 cstep pick brk) ⟨c0, 0, false, false⟩ reading k).trip = true) ↔
    ∃ p n, p ≤ n ∧ n < N ∧ pick (free c0 cstep reading (p + 1)) = true ∧ brk (n - p + 1) = true := by
  classical
  constructor
  · rintro ⟨k, hk, ht⟩
    by_cases hex : ∃ p, p < k ∧ pick (free c0 cstep reading (p + 1)) = true
    · have hex' : ∃ p, pick (free c0 cstep reading (p + 1)) = true := hex.imp fun _ h => h.2
      let p := Nat.find hex'
      have hp : pick (free c0 cstep reading (p + 1)) = true := Nat.find_spec hex'
      have hfirst : ∀ q, q < p → pick (free c0 cstep reading (q + 1)) = false := by
        intro q hq
        have := Nat.find_min hex' hq
        simpa using this
      obtain ⟨q, hqk, hq⟩ := hex
      have hpk : p < k := lt_of_le_of_lt (Nat.find_min' hex' hq) hqk
      by_cases hb : ∃ i, i ≤ k - p - 1 ∧ brk (i + 1) = true
      · obtain ⟨i, hi, hbi⟩ := hb
        exact ⟨p, p + i, by omega, by omega, hp, by rwa [Nat.add_sub_cancel_left]⟩
      · exfalso
        have hall : ∀ i, i ≤ k - p - 1 → brk (i + 1) = false := by
          intro i hi
          by_contra hc
          exact hb ⟨i, hi, by simpa using hc⟩
        have hr := breaker_runs hfirst hp (k - p - 1) hall
        rw [show p + (k - p - 1) + 1 = k by omega] at hr
        rw [hr] at ht
        exact absurd ht (by simp)
    · exfalso
      have h : ∀ p, p < k → pick (free c0 cstep reading (p + 1)) = false := by
        intro p hp
        by_contra hc
        exact hex ⟨p, hp, by simpa using hc⟩
      rw [before_pick k h] at ht
      exact absurd ht (by simp)
  · rintro ⟨p', n, hpn, hn, hp', hb'⟩
    have hex' : ∃ p, pick (free c0 cstep reading (p + 1)) = true := ⟨p', hp'⟩
    let p := Nat.find hex'
    have hp : pick (free c0 cstep reading (p + 1)) = true := Nat.find_spec hex'
    have hpp : p ≤ p' := Nat.find_min' hex' hp'
    have hfirst : ∀ q, q < p → pick (free c0 cstep reading (q + 1)) = false := by
      intro q hq
      have := Nat.find_min hex' hq
      simpa using this
    have hbx : ∃ i, brk (i + 1) = true := ⟨n - p, hmono _ _ (by omega) hb'⟩
    let i := Nat.find hbx
    have hi : brk (i + 1) = true := Nat.find_spec hbx
    have hin : i ≤ n - p := Nat.find_min' hbx (hmono _ _ (by omega) hb')
    have hmin : ∀ j, j < i → brk (j + 1) = false := by
      intro j hj
      have := Nat.find_min hbx hj
      simpa using this
    refine ⟨p + i + 1, by omega, ?_⟩
    show (gstep c0 cstep pick brk (after _ _ _ (p + i)) _).trip = true
    rcases Nat.eq_zero_or_pos i with h0 | h0
    · rw [h0, Nat.add_zero, before_pick p hfirst]
      have hp2 := hp
      simp only [free, after] at hp2
      rw [h0] at hi
      simp [gstep, free, hp2, hi]
    · have hr := breaker_runs hfirst hp (i - 1) (fun j hj => hmin j (by omega))
      rw [show p + (i - 1) + 1 = p + i by omega] at hr
      rw [hr, show i - 1 + 1 = i by omega]
      simp [gstep, hp, hi]

/-- Every rise of the trip status is due to readings after all earlier rises. -/
theorem rise_due (n : Nat) (h0 : (after (gstep c0 cstep pick brk) ⟨c0, 0, false, false⟩ reading n).trip = false)
    (h1 : (after (gstep c0 cstep pick brk) ⟨c0, 0, false, false⟩ reading (n + 1)).trip = true) :
    ∃ m q, m ≤ q ∧ q ≤ n ∧
      (∀ i, i < n → (after (gstep c0 cstep pick brk) ⟨c0, 0, false, false⟩ reading i).trip = false →
        (after (gstep c0 cstep pick brk) ⟨c0, 0, false, false⟩ reading (i + 1)).trip = true → i < m) ∧
      pick (free c0 cstep (fun j => reading (m + j)) (q - m + 1)) = true ∧ brk (n - q + 1) = true := by
  let S := after (gstep c0 cstep pick brk) ⟨c0, 0, false, false⟩ reading
  have inv : ∀ k, ∃ m, m ≤ k ∧ (∀ i, i < k → (S i).trip = false → (S (i + 1)).trip = true → i < m) ∧
      (((S k).flag = false ∧ (S k).breaker = 0 ∧ (S k).c = free c0 cstep (fun j => reading (m + j)) (k - m)) ∨
       ((S k).flag = true ∧ (S k).trip = false ∧ ∃ q, m ≤ q ∧ q < k ∧ (S k).breaker = k - q ∧
        (S k).c = free c0 cstep (fun j => reading (m + j)) (q - m + 1) ∧ pick (S k).c = true)) := by
    intro k
    induction k with
    | zero => exact ⟨0, le_refl _, fun i hi => absurd hi (by omega), Or.inl ⟨rfl, rfl, rfl⟩⟩
    | succ k ih =>
      obtain ⟨m, hm, hr, hcase⟩ := ih
      have hS : S (k + 1) = gstep c0 cstep pick brk (S k) (reading k) := rfl
      rcases hcase with ⟨hf, hb, hc⟩ | ⟨hf, ht, q, hq1, hq2, hb, hc, hp⟩
      · have hfree : cstep (S k).c (reading k) = free c0 cstep (fun j => reading (m + j)) (k - m + 1) := by
          rw [hc]; simp only [free, after]; rw [show m + (k - m) = k by omega]
        by_cases hp : pick (cstep (S k).c (reading k)) = true
        · by_cases hk : brk ((S k).breaker + 1) = true
          · refine ⟨k + 1, le_refl _, fun i hi _ _ => hi, Or.inl ?_⟩
            rw [hS]
            simp [gstep, hf, hp, hk, free, after]
          · refine ⟨m, by omega, fun i hi ha hb' => ?_, Or.inr ?_⟩
            · rcases Nat.lt_or_ge i k with h | h
              · exact hr i h ha hb'
              · have : i = k := by omega
                subst this
                rw [hS] at hb'
                simp [gstep, hf, hp, hk] at hb'
            · rw [hS]
              refine ⟨by simp [gstep, hf, hp, hk], by simp [gstep, hf, hp, hk], k, hm, by omega, ?_, ?_, ?_⟩
              · simp [gstep, hf, hp, hk]; omega
              · simpa [gstep, hf, hp, hk] using hfree
              · simp [gstep, hf, hp, hk]
        · refine ⟨m, by omega, fun i hi ha hb' => ?_, Or.inl ?_⟩
          · rcases Nat.lt_or_ge i k with h | h
            · exact hr i h ha hb'
            · have : i = k := by omega
              subst this
              rw [hS] at hb'
              simp [gstep, hf, hp, ha] at hb'
          · rw [hS, show k + 1 - m = k - m + 1 by omega, ← hfree]
            simp [gstep, hf, hp, hb]
      · by_cases hk : brk ((S k).breaker + 1) = true
        · refine ⟨k + 1, le_refl _, fun i hi _ _ => hi, Or.inl ?_⟩
          rw [hS]
          simp [gstep, hf, hp, hk, free, after]
        · refine ⟨m, by omega, fun i hi ha hb' => ?_, Or.inr ?_⟩
          · rcases Nat.lt_or_ge i k with h | h
            · exact hr i h ha hb'
            · have : i = k := by omega
              subst this
              rw [hS] at hb'
              simp [gstep, hf, hp, hk] at hb'
          · rw [hS]
            refine ⟨by simp [gstep, hf, hp, hk], by simp [gstep, hf, hp, hk], q, hq1, by omega, ?_, ?_, ?_⟩
            · simp [gstep, hf, hp, hk]; omega
            · simpa [gstep, hf, hp, hk] using hc
            · simp [gstep, hf, hp, hk]
  obtain ⟨m, hm, hr, hcase⟩ := inv n
  have hS : S (n + 1) = gstep c0 cstep pick brk (S n) (reading n) := rfl
  have h1' : (S (n + 1)).trip = true := h1
  have h0' : (S n).trip = false := h0
  rw [hS] at h1'
  rcases hcase with ⟨hf, hb, hc⟩ | ⟨hf, ht, q, hq1, hq2, hb, hc, hp⟩
  · have hfree : cstep (S n).c (reading n) = free c0 cstep (fun j => reading (m + j)) (n - m + 1) := by
      rw [hc]; simp only [free, after]; rw [show m + (n - m) = n by omega]
    by_cases hp : pick (cstep (S n).c (reading n)) = true
    · by_cases hk : brk ((S n).breaker + 1) = true
      · refine ⟨m, n, hm, le_refl _, hr, ?_, ?_⟩
        · rw [← hfree]; exact hp
        · rw [hb] at hk; simpa using hk
      · simp [gstep, hf, hp, hk] at h1'
    · simp [gstep, hf, hp, h0'] at h1'
  · by_cases hk : brk ((S n).breaker + 1) = true
    · refine ⟨m, q, hq1, by omega, hr, ?_, ?_⟩
      · rw [← hc]; exact hp
      · rw [hb] at hk; exact hk
    · simp [gstep, hf, hp, hk] at h1'

/-- A step-by-step projection carries over to runs. -/
theorem after_proj {σ τ : Type} (f : σ → τ) {s : σ → ρ → σ} {t : τ → ρ → τ} (h : ∀ a r, f (s a r) = t (f a) r) (i : σ)
    (k : Nat) : f (after s i reading k) = after t (f i) reading k := by
  induction k with
  | zero => rfl
  | succ k ih => simp only [after]; rw [h, ih]

open Classical in
/-- A counter that is increased while `low` holds and reset otherwise. -/
noncomputable def runStep (low : ρ → Prop) (c : Nat) (r : ρ) : Nat := if low r then c + 1 else 0

/-- Such a counter reaches `m ≥ 1` exactly if `low` held at the last `m` steps. -/
theorem run_ge_iff (low : ρ → Prop) (k m : Nat) (hm : 0 < m) :
    m ≤ after (runStep low) 0 reading k ↔ m ≤ k ∧ ∀ j, k - m ≤ j → j < k → low (reading j) := by
  induction k generalizing m with
  | zero => simp only [after]; omega
  | succ k ih =>
    simp only [after, runStep]
    by_cases hl : low (reading k)
    · rw [if_pos hl]
      rcases Nat.lt_or_ge 1 m with h1 | h1
      · have := ih (m - 1) (by omega)
        constructor
        · intro h
          obtain ⟨ha, hb⟩ := this.1 (by omega)
          refine ⟨by omega, fun j hj hjk => ?_⟩
          rcases Nat.lt_or_ge j k with hlt | hge
          · exact hb j (by omega) hlt
          · have : j = k := by omega
            rwa [this]
        · rintro ⟨ha, hb⟩
          have := this.2 ⟨by omega, fun j hj hjk => hb j (by omega) (by omega)⟩
          omega
      · constructor
        · intro _
          refine ⟨by omega, fun j hj hjk => ?_⟩
          have : j = k := by omega
          rwa [this]
        · intro _; omega
    · rw [if_neg hl]
      constructor
      · intro h; omega
      · rintro ⟨ha, hb⟩
        exact absurd (hb k (by omega) (by omega)) hl

/-- A condition on the counter that is monotone and false for 0, in terms of consecutive readings. -/
theorem run_pick_iff (low : ρ → Prop) (P : Nat → Prop) (h0 : ¬ P 0) (hmono : ∀ a b, a ≤ b → P a → P b) (p : Nat) :
    P (after (runStep low) 0 reading (p + 1)) ↔
      ∃ s, s ≤ p ∧ (∀ j, s ≤ j → j ≤ p → low (reading j)) ∧ P (p - s + 1) := by
  constructor
  · intro h
    let c := after (runStep low) 0 reading (p + 1)
    have hc : 0 < c := by
      rcases Nat.eq_zero_or_pos c with hz | hz
      · exact absurd (hz ▸ h) h0
      · exact hz
    obtain ⟨ha, hb⟩ := (run_ge_iff (reading := reading) low (p + 1) c hc).1 (le_refl _)
    exact ⟨p + 1 - c, by omega, fun j hj hjp => hb j hj (by omega), by
      rw [show p - (p + 1 - c) + 1 = c by omega]; exact h⟩
  · rintro ⟨s, hs, hall, hP⟩
    refine hmono _ _ ?_ hP
    exact (run_ge_iff low (p + 1) (p - s + 1) (by omega)).2
      ⟨by omega, fun j hj hjk => hall j (by omega) (by omega)⟩

end GridPACK.Relay
