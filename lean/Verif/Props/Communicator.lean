import Verif.Model.Communicator
import Mathlib.Tactic.Ring
import Mathlib.Tactic.Linarith

/-! Property C07: dividing a communicator partitions the processes into consecutive blocks. -/
namespace GridPACK.Communicator

theorem nlarge_eq (np ns : Nat) (hs : 0 < ns) : nlarge np ns = ((np / ns : Nat) : Int) := by
  have e : ∀ a : Nat, ((a : Nat) : Int).tdiv (ns : Int) = ((a / ns : Nat) : Int) := by
    intro a; rw [Int.tdiv_eq_ediv_of_nonneg (by omega)]; simp
  have hdm : ns * (np / ns) + np % ns = np := Nat.div_add_mod np ns
  have hlt : np % ns < ns := Nat.mod_lt _ hs
  generalize hq : np / ns = q at *
  generalize hr : np % ns = r at *
  unfold nlarge
  rw [e, hq]
  have hnp : (np : Int) = (ns : Int) * q + r := by exact_mod_cast hdm.symm
  have hsI : (0:Int) < ns := by exact_mod_cast hs
  have hltI : (r : Int) < ns := by exact_mod_cast hlt
  by_cases h0 : r = 0
  · have h1 : ¬ ((q:Int) * ns < np) := by rw [hnp, h0]; push_cast; nlinarith
    have h2 : ¬ ((q:Int) * ns > np) := by rw [hnp, h0]; push_cast; nlinarith
    simp only [h1, h2, if_false]
    rw [e, hq]
    have h3 : ¬ ((np:Int) - q * ns > ns) := by rw [hnp, h0]; push_cast; nlinarith
    simp only [h3, if_false]
  · have hrpos : (0:Int) < r := by omega
    have h1 : ((q:Int) * ns < np) := by rw [hnp]; nlinarith
    have h2 : ((q + 1:Int) * ns > np) := by rw [hnp]; nlinarith
    simp only [h1, h2, if_true]
    have hval : ((np:Int) - ((q + 1) * ns - np)) = (q - 1) * ns + 2 * r := by rw [hnp]; ring
    rw [hval]
    by_cases hq0 : q = 0
    · subst hq0
      have hz : (((0:Nat):Int) - 1) * ns + 2 * r = 2 * r - ns := by ring
      rw [hz]
      have : (2 * (r:Int) - ns).tdiv ns = 0 := by
        rcases Int.le_total 0 (2 * (r:Int) - ns) with h | h
        · exact Int.tdiv_eq_zero_of_lt h (by omega)
        · have : (2 * (r:Int) - ns) = -(ns - 2 * (r:Int)) := by ring
          rw [this, Int.neg_tdiv, Int.tdiv_eq_zero_of_lt (by omega) (by omega)]; rfl
      rw [this]
      have h3 : ¬ ((np:Int) - 0 * ns > ns) := by rw [hnp]; push_cast; nlinarith
      simp only [h3, if_false]; rfl
    · have hq1 : (1:Int) ≤ q := by omega
      have hnn : 0 ≤ ((q:Int) - 1) * ns + 2 * r := by nlinarith
      rw [Int.tdiv_eq_ediv_of_nonneg hnn]
      have hdiv : (((q:Int) - 1) * ns + 2 * r) / ns = (q - 1) + (2 * r) / ns := by
        rw [add_comm, Int.add_mul_ediv_right _ _ (by omega)]; ring
      rw [hdiv]
      by_cases hh : (2 * (r:Int)) < ns
      · rw [Int.ediv_eq_zero_of_lt (by omega) hh]
        have h3 : ((np:Int) - (q - 1 + 0) * ns > ns) := by rw [hnp]; nlinarith
        simp only [h3, if_true]; ring
      · have : (2 * (r:Int)) / ns = 1 := by
          have h5 : (2 * (r:Int)) = (2 * r - ns) + 1 * ns := by ring
          rw [h5, Int.add_mul_ediv_right _ _ (by omega), Int.ediv_eq_zero_of_lt (by omega) (by omega)]; rfl
        rw [this]
        have h3 : ¬ ((np:Int) - (q - 1 + 1) * ns > ns) := by rw [hnp]; nlinarith
        simp only [h3, if_false]; ring

/-- The colour of rank `me` is the number of the block of `nsize` ranks it lies in, plus one. -/
theorem color_eq (np ns me : Nat) (hs : 0 < ns) (hme : me < np) :
    color np ns me = some (me / ns + 1) := by
  unfold color
  have hs' : ¬ ((ns:Int) = 0) := by omega
  rw [if_neg hs']
  have hdm : ns * (np / ns) + np % ns = np := Nat.div_add_mod np ns
  have hlt : np % ns < ns := Nat.mod_lt _ hs
  have step : ∀ i c, i < np →
      colorStep np ns (some c) i = if i % ns = 0 then some (c + 1) else some c := by
    intro i c hi
    unfold colorStep
    simp only [nlarge_eq np ns hs]
    by_cases h : i < np / ns * ns
    · have h' : (i:Int) < ((np / ns : Nat):Int) * ns := by exact_mod_cast h
      rw [if_pos h', Int.tmod_eq_emod_of_nonneg (by omega)]
      have : ((i:Int) % ns = 0) ↔ (i % ns = 0) := by omega
      simp only [this]
    · have h' : ¬ (i:Int) < ((np / ns : Nat):Int) * ns := by exact_mod_cast h
      rw [if_neg h']
      have hlow : np / ns * ns ≤ i := by omega
      have hmul : np / ns * ns = ns * (np / ns) := Nat.mul_comm _ _
      have hne : ¬ ((ns:Int) - 1 = 0) := by omega
      rw [if_neg hne]
      have hsub : (i:Int) - ((np / ns : Nat):Int) * ns = ((i - np / ns * ns : Nat):Int) := by
        rw [Nat.cast_sub hlow]; push_cast; ring
      rw [hsub, Int.tmod_eq_emod_of_nonneg (by omega)]
      have hi1 : i % ns = i - np / ns * ns := by
        have : i = (i - np / ns * ns) + ns * (np / ns) := by omega
        rw [this, Nat.add_mul_mod_self_left, Nat.mod_eq_of_lt (by omega)]; omega
      rw [hi1]
      generalize i - np / ns * ns = k at *
      have hk : k < np % ns := by omega
      have : ((k:Int) % ((ns:Int) - 1) = 0) ↔ (k = 0) := by
        rw [Int.emod_eq_of_lt (by omega) (by omega)]; omega
      simp only [this]
  have main : ∀ m, m < np →
      (List.range (m + 1)).foldl (colorStep np ns) (some 0) = some (m / ns + 1) := by
    intro m
    induction m with
    | zero => intro h; simp [step 0 0 h]
    | succ m ih =>
      intro h
      rw [List.range_succ, List.foldl_append, ih (by omega)]
      simp only [List.foldl_cons, List.foldl_nil]
      rw [step _ _ h, Nat.succ_div]
      by_cases hd : ns ∣ m + 1
      · rw [if_pos (Nat.mod_eq_zero_of_dvd hd), if_pos hd]
      · rw [if_neg (fun h => hd (Nat.dvd_of_mod_eq_zero h)), if_neg hd]
  exact main me hme

/-- C07.  For every number of processes and every `nsize ≥ 1`, the group of rank `me`, listed in
new-rank order, is the run of consecutive old ranks that starts at the largest multiple of `nsize`
not above `me`; it has `nsize` members unless fewer ranks are left. -/
theorem C07_divide_blocks (nprocs nsize me : Nat) (hs : 0 < nsize) (hme : me < nprocs) :
    divide nprocs nsize me =
      List.range' (me / nsize * nsize) (min nsize (nprocs - me / nsize * nsize)) := by
  have hfil : divide nprocs nsize me
      = (List.range nprocs).filter (fun r => decide (r / nsize = me / nsize)) := by
    unfold divide
    apply List.filter_congr
    intro r hr
    rw [color_eq nprocs nsize r hs (List.mem_range.mp hr), color_eq nprocs nsize me hs hme]
    simp
  rw [hfil]
  set b := me / nsize * nsize with hb
  have hbm : b ≤ me := Nat.div_mul_le_self me nsize
  have hchar : ∀ r, (r / nsize = me / nsize) ↔ (b ≤ r ∧ r < b + nsize) := by
    intro r
    rw [Nat.div_eq_iff hs]
    omega
  simp only [hchar]
  set k := min nsize (nprocs - b) with hk
  have hsplit : List.range nprocs
      = List.range' 0 b ++ (List.range' b k ++ List.range' (b + k) (nprocs - b - k)) := by
    rw [List.range_eq_range', List.range'_append_1]
    have h2 : List.range' 0 b ++ List.range' b (k + (nprocs - b - k))
        = List.range' 0 (b + (k + (nprocs - b - k))) := by
      have := List.range'_append_1 (s := 0) (m := b) (n := k + (nprocs - b - k))
      simpa using this
    rw [h2]; congr 1; omega
  rw [hsplit, List.filter_append, List.filter_append]
  have e1 : (List.range' 0 b).filter (fun r => decide (b ≤ r ∧ r < b + nsize)) = [] := by
    rw [List.filter_eq_nil_iff]; intro r hr; rw [List.mem_range'_1] at hr; simp; omega
  have e2 : (List.range' b k).filter (fun r => decide (b ≤ r ∧ r < b + nsize))
      = List.range' b k := by
    rw [List.filter_eq_self]; intro r hr; rw [List.mem_range'_1] at hr; simp; omega
  have e3 : (List.range' (b + k) (nprocs - b - k)).filter
      (fun r => decide (b ≤ r ∧ r < b + nsize)) = [] := by
    rw [List.filter_eq_nil_iff]; intro r hr; rw [List.mem_range'_1] at hr; simp; omega
  rw [e1, e2, e3]; simp

/-- C07.  Every process is in its own group; two processes are in the same group or in disjoint
groups; every group that does not contain the last rank has exactly `nsize` members. -/
theorem C07_divide_partition (nprocs nsize : Nat) (hs : 0 < nsize) :
    (∀ p, p < nprocs → p ∈ divide nprocs nsize p) ∧
    (∀ p q, p < nprocs → q < nprocs → ∀ r, r ∈ divide nprocs nsize p → r ∈ divide nprocs nsize q →
      divide nprocs nsize p = divide nprocs nsize q) ∧
    (∀ p, p < nprocs → (divide nprocs nsize p).length ≤ nsize) ∧
    (∀ p, p < nprocs → nprocs - 1 ∉ divide nprocs nsize p →
      (divide nprocs nsize p).length = nsize) := by
  refine ⟨?_, ?_, ?_, ?_⟩
  · intro p hp; simp [divide, hp]
  · intro p q _ _ r hp hq
    simp only [divide, List.mem_filter, decide_eq_true_eq] at hp hq
    simp only [divide, ← hp.2, ← hq.2]
  · intro p hp; rw [C07_divide_blocks _ _ _ hs hp]; simp
  · intro p hp h
    rw [C07_divide_blocks _ _ _ hs hp] at h ⊢
    rw [List.mem_range'_1] at h
    have : p / nsize * nsize ≤ p := Nat.div_mul_le_self p nsize
    simp only [List.length_range']; omega

/-- Eleven processes in groups of four: `{0..3} {4..7} {8..10}`. -/
example : divide 11 4 5 = [4, 5, 6, 7] ∧ divide 11 4 9 = [8, 9, 10] := by decide
/-- Groups larger than the machine. -/
example : divide 2 10 1 = [0, 1] := by decide
/-- `nsize = 0` is a division by zero. -/
example : color 4 0 2 = none := by decide

end GridPACK.Communicator
