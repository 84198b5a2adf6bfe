import Verif.Model.StatBlock
import Mathlib.Algebra.BigOperators.Group.List.Basic
import Mathlib.Tactic.Linarith
import Mathlib.Tactic.Ring
import Mathlib.Tactic.FieldSimp

/-! Properties C32 (minimum and maximum), C33 (mean and deviation), C66 (column sums), C67 (blocks). -/
namespace GridPACK.StatBlock

/-! ### C32 -/

/-- Column `j` of the row is taken into account. -/
def Counts (mval : Int) (row : List Entry) (j : Nat) (v : Real) : Prop :=
  ∃ m, row[j]? = some (v, m) ∧ m ≥ mval

/-- Invariant of the scan, in terms of the columns seen so far (column 0 always counts). -/
structure ScanInv (mval : Int) (e0 : Entry) (row : List Entry) (n : Nat) (st : MinMax) : Prop where
  min_at : (st.jmin = 0 ∧ st.min = e0.1) ∨ (st.jmin < n ∧ Counts mval row st.jmin st.min)
  max_at : (st.jmax = 0 ∧ st.max = e0.1) ∨ (st.jmax < n ∧ Counts mval row st.jmax st.max)
  min_le : st.min ≤ e0.1 ∧ ∀ j v, j < n → Counts mval row j v → st.min ≤ v
  max_ge : e0.1 ≤ st.max ∧ ∀ j v, j < n → Counts mval row j v → v ≤ st.max

theorem scan_inv (mval : Int) (e0 : Entry) (row pre suf : List Entry) (hrow : row = pre ++ suf)
    (st : MinMax) (h : ScanInv mval e0 row pre.length st) :
    ScanInv mval e0 row row.length ((suf.zipIdx pre.length).foldl (minMaxStep mval) st) := by
  induction suf generalizing pre st with
  | nil => subst hrow; simpa using h
  | cons e suf ih =>
    rw [List.zipIdx_cons, List.foldl_cons]
    have hget : row[pre.length]? = some e := by rw [hrow]; simp
    have step : ScanInv mval e0 row (pre.length + 1) (minMaxStep mval st (e, pre.length)) := by
      unfold minMaxStep
      by_cases hm : e.2 ≥ mval
      · have hcount : Counts mval row pre.length e.1 := ⟨e.2, by rw [hget], hm⟩
        have honly : ∀ v, Counts mval row pre.length v → v = e.1 := by
          rintro v ⟨m, hv, _⟩
          rw [hget] at hv
          injection hv with hv
          exact (congrArg Prod.fst hv).symm
        rw [if_pos hm]
        constructor
        · simp only
          by_cases hlt : e.1 < st.min
          · rw [if_pos hlt, if_pos hlt]
            exact .inr ⟨by omega, hcount⟩
          · rw [if_neg hlt, if_neg hlt]
            rcases h.min_at with h1 | ⟨h1, h2⟩
            · exact .inl h1
            · exact .inr ⟨by omega, h2⟩
        · simp only
          by_cases hlt : e.1 > st.max
          · rw [if_pos hlt, if_pos hlt]
            exact .inr ⟨by omega, hcount⟩
          · rw [if_neg hlt, if_neg hlt]
            rcases h.max_at with h1 | ⟨h1, h2⟩
            · exact .inl h1
            · exact .inr ⟨by omega, h2⟩
        · simp only
          have hle : (if e.1 < st.min then e.1 else st.min) ≤ st.min ∧
              (if e.1 < st.min then e.1 else st.min) ≤ e.1 := by
            split
            · constructor <;> linarith
            · constructor <;> linarith
          refine ⟨le_trans hle.1 h.min_le.1, ?_⟩
          intro j v hj hv
          by_cases hjn : j = pre.length
          · subst hjn; rw [honly v hv]; exact hle.2
          · exact le_trans hle.1 (h.min_le.2 j v (by omega) hv)
        · simp only
          have hle : st.max ≤ (if e.1 > st.max then e.1 else st.max) ∧
              e.1 ≤ (if e.1 > st.max then e.1 else st.max) := by
            split
            · constructor <;> linarith
            · constructor <;> linarith
          refine ⟨le_trans h.max_ge.1 hle.1, ?_⟩
          intro j v hj hv
          by_cases hjn : j = pre.length
          · subst hjn; rw [honly v hv]; exact hle.2
          · exact le_trans (h.max_ge.2 j v (by omega) hv) hle.1
      · have hnone : ∀ v, ¬ Counts mval row pre.length v := by
          rintro v ⟨m, hv, hge⟩
          rw [hget] at hv
          injection hv with hv
          apply hm
          rw [hv]; exact hge
        rw [if_neg hm]
        constructor
        · rcases h.min_at with h1 | ⟨h1, h2⟩
          · exact .inl h1
          · exact .inr ⟨by omega, h2⟩
        · rcases h.max_at with h1 | ⟨h1, h2⟩
          · exact .inl h1
          · exact .inr ⟨by omega, h2⟩
        · refine ⟨h.min_le.1, ?_⟩
          intro j v hj hv
          by_cases hjn : j = pre.length
          · subst hjn; exact absurd hv (hnone v)
          · exact h.min_le.2 j v (by omega) hv
        · refine ⟨h.max_ge.1, ?_⟩
          intro j v hj hv
          by_cases hjn : j = pre.length
          · subst hjn; exact absurd hv (hnone v)
          · exact h.max_ge.2 j v (by omega) hv
    have := ih (pre ++ [e]) (by rw [hrow]; simp) _ (by simpa using step)
    simpa using this

/-- What the scan reports, for every row: extremes over column 0 and the unmasked columns. -/
theorem C32_exact (mval : Int) (e0 : Entry) (es : List Entry) :
    ScanInv mval e0 (e0 :: es) (e0 :: es).length (rowMinMax mval e0 es) := by
  unfold rowMinMax
  refine scan_inv mval e0 (e0 :: es) [] (e0 :: es) rfl _ ?_
  exact ⟨.inl ⟨rfl, rfl⟩, .inl ⟨rfl, rfl⟩, ⟨le_refl _, by simp⟩, ⟨le_refl _, by simp⟩⟩

/-- C32, the part that holds: when the base case (column 0) is unmasked, the reported minimum and maximum
are attained at the reported unmasked columns and no unmasked column lies outside. -/
theorem C32_min_max_partial (mval : Int) (e0 : Entry) (es : List Entry) (h0 : e0.2 ≥ mval) :
    let r := rowMinMax mval e0 es
    Counts mval (e0 :: es) r.jmin r.min ∧ Counts mval (e0 :: es) r.jmax r.max ∧
    ∀ j v, Counts mval (e0 :: es) j v → r.min ≤ v ∧ v ≤ r.max := by
  intro r
  have h := C32_exact mval e0 es
  have hbase : Counts mval (e0 :: es) 0 e0.1 := ⟨e0.2, rfl, h0⟩
  refine ⟨?_, ?_, ?_⟩
  · rcases h.min_at with ⟨h1, h2⟩ | ⟨_, h2⟩
    · show Counts mval (e0 :: es) (rowMinMax mval e0 es).jmin (rowMinMax mval e0 es).min
      rw [h1, h2]; exact hbase
    · exact h2
  · rcases h.max_at with ⟨h1, h2⟩ | ⟨_, h2⟩
    · show Counts mval (e0 :: es) (rowMinMax mval e0 es).jmax (rowMinMax mval e0 es).max
      rw [h1, h2]; exact hbase
    · exact h2
  · intro j v hv
    have hj : j < (e0 :: es).length := by
      obtain ⟨m, hm, _⟩ := hv
      rw [List.getElem?_eq_some_iff] at hm
      exact hm.1
    exact ⟨h.min_le.2 j v hj hv, h.max_ge.2 j v hj hv⟩

/-- C32 fails when the base case is masked: its value is still reported, for every row in which it is
below all others. -/
theorem C32_masked_base_violated (mval : Int) (e0 : Entry) (es : List Entry) (_h0 : e0.2 < mval)
    (hmin : ∀ j v, Counts mval (e0 :: es) j v → e0.1 < v) :
    (rowMinMax mval e0 es).min = e0.1 ∧
    ∀ j, ¬ Counts mval (e0 :: es) j (rowMinMax mval e0 es).min := by
  have h := C32_exact mval e0 es
  have hm : (rowMinMax mval e0 es).min = e0.1 := by
    rcases h.min_at with ⟨_, h2⟩ | ⟨_, h2⟩
    · exact h2
    · exact absurd (hmin _ _ h2) (not_lt.mpr h.min_le.1)
  refine ⟨hm, ?_⟩
  intro j hj
  rw [hm] at hj
  exact lt_irrefl _ (hmin j _ hj)

example : (((1 : Real), (2 : Int)) : Entry).2 ≥ 1 ∧
    Counts 1 [((1 : Real), (2 : Int)), (0, 0), (3, 1)] 2 3 := ⟨by norm_num, ⟨1, rfl, le_refl _⟩⟩

/-- The violation is reachable: masked base value 1, unmasked value 3. -/
example : (rowMinMax 1 ((1 : Real), (0 : Int)) [(3, 1)]).min = 1 := by
  refine (C32_masked_base_violated 1 (1, 0) [(3, 1)] (by norm_num) ?_).1
  rintro j v ⟨m, hm, hge⟩
  match j, hm with
  | 0, hm => simp at hm; omega
  | 1, hm => simp at hm; rw [← hm.1]; norm_num
  | (k + 2), hm => simp at hm

/-! ### C33 -/

/-- Unmasked values of a row. -/
def values (mval : Int) (row : List Entry) : List Real :=
  (row.filter (fun e => e.2 ≥ mval)).map (·.1)

noncomputable def mean (l : List Real) : Real := l.sum / l.length

/-- Sample variance. -/
noncomputable def variance (l : List Real) : Real :=
  (l.map (fun x => (x - mean l) ^ 2)).sum / ((l.length - 1 : Nat) : Real)

theorem values_cons (mval : Int) (e : Entry) (row : List Entry) :
    values mval (e :: row) = if e.2 ≥ mval then e.1 :: values mval row else values mval row := by
  unfold values
  rw [List.filter_cons]
  by_cases h : e.2 ≥ mval <;> simp [h]

theorem sums_eq (mval : Int) (base : Real) (row : List Entry) (k : Nat) (s : Sums) :
    ((row.zipIdx k).foldl (sumStep mval base) s).ncnt = s.ncnt + (values mval row).length ∧
    ((row.zipIdx k).foldl (sumStep mval base) s).avg = s.avg + (values mval row).sum ∧
    ((row.zipIdx k).foldl (sumStep mval base) s).avg2 =
      s.avg2 + ((values mval row).map (fun x => x * x)).sum := by
  induction row generalizing k s with
  | nil => simp [values]
  | cons e row ih =>
    rw [List.zipIdx_cons, List.foldl_cons]
    obtain ⟨h1, h2, h3⟩ := ih (k + 1) (sumStep mval base s (e, k))
    rw [h1, h2, h3, values_cons]
    unfold sumStep
    by_cases h : e.2 ≥ mval
    · simp only [h, if_true, List.length_cons, List.sum_cons, List.map_cons]
      refine ⟨by omega, by ring, by ring⟩
    · simp [h]

theorem sq_dev_sum (l : List Real) (m : Real) :
    (l.map (fun x => (x - m) ^ 2)).sum =
      (l.map (fun x => x * x)).sum - 2 * m * l.sum + l.length * m * m := by
  induction l with
  | nil => simp
  | cons x l ih =>
    simp only [List.map_cons, List.sum_cons, List.length_cons]
    rw [ih]
    push_cast
    ring

theorem variance_eq (l : List Real) (h : 0 < l.length) :
    variance l = ((l.map (fun x => x * x)).sum - l.length * mean l * mean l) /
      ((l.length - 1 : Nat) : Real) := by
  unfold variance
  rw [sq_dev_sum]
  congr 1
  have hs : l.sum = l.length * mean l := by
    unfold mean
    have : (l.length : Real) ≠ 0 := by
      have : l.length ≠ 0 := by omega
      exact_mod_cast this
    field_simp
  rw [hs]
  ring

/-- C33.  For every row and threshold: the reported average is the mean of the unmasked entries, and
the reported deviation is the square root of their sample variance (0 for a single entry).  Rounding is
not modelled. -/
theorem C33_mean_and_deviation (mval : Int) (e0 : Entry) (es : List Entry)
    (h : 0 < (values mval (e0 :: es)).length) :
    (rowStats mval e0 es).1 = mean (values mval (e0 :: es)) ∧
    (rowStats mval e0 es).2.1 = Real.sqrt (variance (values mval (e0 :: es))) := by
  obtain ⟨h1, h2, h3⟩ := sums_eq mval e0.1 (e0 :: es) 0 ⟨0, 0, 0, 0⟩
  simp only [zero_add] at h1 h2 h3
  unfold rowStats finish
  simp only
  rw [h1, h2, h3, if_pos h]
  refine ⟨rfl, ?_⟩
  by_cases h2 : (values mval (e0 :: es)).length > 1
  · rw [if_pos h2, if_pos h, variance_eq _ h]
    unfold mean
    split
    · rfl
    · rename_i hn
      exact (Real.sqrt_eq_zero'.mpr (not_lt.mp hn)).symm
  · rw [if_neg h2]
    have : (values mval (e0 :: es)).length = 1 := by omega
    unfold variance
    rw [this]
    simp

/-- C33 for a row without unmasked entries: zeros are reported. -/
theorem C33_no_entries (mval : Int) (e0 : Entry) (es : List Entry)
    (h : (values mval (e0 :: es)).length = 0) : rowStats mval e0 es = (0, 0, 0) := by
  obtain ⟨h1, _, _⟩ := sums_eq mval e0.1 (e0 :: es) 0 ⟨0, 0, 0, 0⟩
  simp only [Nat.zero_add] at h1
  unfold rowStats finish
  simp only
  rw [h1, h]
  simp

/-- C33, third reported number: the deviation from the base case.  When the base case is unmasked it is
the square root of the mean square difference of the other unmasked entries from the base value. -/
theorem C33_deviation_from_base (mval : Int) (e0 : Entry) (es : List Entry) (h0 : e0.2 ≥ mval)
    (h : 0 < (values mval es).length) :
    (rowStats mval e0 es).2.2 =
      Real.sqrt (((values mval es).map (fun x => (x - e0.1) ^ 2)).sum / (values mval es).length) := by
  obtain ⟨h1, _, _⟩ := sums_eq mval e0.1 (e0 :: es) 0 ⟨0, 0, 0, 0⟩
  have hdiff : ∀ (row : List Entry) (k : Nat) (s : Sums), 0 < k →
      ((row.zipIdx k).foldl (sumStep mval e0.1) s).diff2 =
        s.diff2 + ((values mval row).map (fun x => (x - e0.1) ^ 2)).sum := by
    intro row
    induction row with
    | nil => intro k s _; simp [values]
    | cons e row ih =>
      intro k s hk
      rw [List.zipIdx_cons, List.foldl_cons, ih (k + 1) _ (by omega), values_cons]
      unfold sumStep
      by_cases h : e.2 ≥ mval
      · simp only [h, if_true, List.map_cons, List.sum_cons]
        rw [if_pos hk]
        ring
      · simp [h]
  have hd : (((e0 :: es).zipIdx 0).foldl (sumStep mval e0.1) ⟨0, 0, 0, 0⟩).diff2 =
      ((values mval es).map (fun x => (x - e0.1) ^ 2)).sum := by
    rw [List.zipIdx_cons, List.foldl_cons, hdiff es 1 _ (by omega)]
    unfold sumStep
    simp [h0]
  simp only [Nat.zero_add] at h1
  have hlen : (values mval (e0 :: es)).length = (values mval es).length + 1 := by
    rw [values_cons, if_pos h0]; rfl
  rw [hlen] at h1
  unfold rowStats finish
  simp only
  have hp1 : (values mval es).length + 1 > 0 := Nat.succ_pos _
  have hp2 : (values mval es).length + 1 > 1 := Nat.succ_lt_succ h
  rw [h1, hd]
  simp only [hp1, hp2, if_true, Nat.add_sub_cancel]
  split
  · rfl
  · rename_i hn
    exact (Real.sqrt_eq_zero'.mpr (not_lt.mp hn)).symm

example : values 1 [((1 : Real), (2 : Int)), (7, 0), (3, 1)] = [1, 3] := by simp [values]

/-! ### C66 -/

theorem columnSum_fst (mval : Int) (col : List Entry) :
    (columnSum mval col).1 = (values mval col).sum := by
  unfold columnSum
  simp only
  have : ∀ (col : List Entry) (s : Real),
      col.foldl (fun s (e : Entry) => if e.2 ≥ mval then s + e.1 else s) s =
        s + (values mval col).sum := by
    intro col
    induction col with
    | nil => intro s; simp [values]
    | cons e col ih =>
      intro s
      rw [List.foldl_cons, ih, values_cons]
      by_cases h : e.2 ≥ mval
      · simp only [h, if_true, List.sum_cons]; ring
      · simp [h]
  rw [this]; simp

/-- C66, the part that holds: the reported column sum is the sum of the unmasked entries; the reported
average is their mean when no entry of the column is masked. -/
theorem C66_column_sum_partial (mval : Int) (col : List Entry) :
    (columnSum mval col).1 = (values mval col).sum ∧
    (col ≠ [] → (∀ e ∈ col, e.2 ≥ mval) → (columnSum mval col).2 = mean (values mval col)) := by
  refine ⟨columnSum_fst mval col, ?_⟩
  intro hne hall
  have h := columnSum_fst mval col
  have hlen : (values mval col).length = col.length := by
    unfold values
    rw [List.length_map, List.filter_eq_self.mpr]
    intro e he; simpa using hall e he
  have hpos : col.length > 0 := List.length_pos_iff.mpr hne
  have h2 : (columnSum mval col).2 = (columnSum mval col).1 / col.length := by
    unfold columnSum
    simp only
    rw [if_pos hpos]
  rw [h2, h]
  unfold mean
  rw [hlen]

/-- C66: with masked entries the average is divided by all rows: always wrong when the sum is not zero. -/
theorem C66_masked_average_violated (mval : Int) (col : List Entry)
    (hm : (values mval col).length < col.length) (hv : values mval col ≠ [])
    (hs : (values mval col).sum ≠ 0) : (columnSum mval col).2 ≠ mean (values mval col) := by
  have h := columnSum_fst mval col
  have hpos : col.length > 0 := by omega
  have h2 : (columnSum mval col).2 = (columnSum mval col).1 / col.length := by
    unfold columnSum
    simp only
    rw [if_pos hpos]
  rw [h2, h]
  unfold mean
  intro he
  have hl : (values mval col).length ≠ 0 := by
    rw [Ne, List.length_eq_zero_iff]; exact hv
  have h3 : ((values mval col).length : Real) ≠ 0 := by exact_mod_cast hl
  have h4 : (col.length : Real) ≠ 0 := by
    have : col.length ≠ 0 := by omega
    exact_mod_cast this
  rw [div_eq_div_iff h4 h3] at he
  have := mul_left_cancel₀ hs he
  have : (values mval col).length = col.length := by exact_mod_cast this
  omega

/-! ### C67 -/

theorem nblockLoop_eq (n B fuel nb : Nat) (h1 : (nb - 1) * B ≤ n ∧ (nb = 0 ∨ (nb - 1) * B < n))
    (hf : n < (nb + fuel) * B) :
    n ≤ nblockLoop n B fuel nb * B ∧ (nblockLoop n B fuel nb = 0 ∨
      (nblockLoop n B fuel nb - 1) * B < n) := by
  induction fuel generalizing nb with
  | zero =>
    unfold nblockLoop
    refine ⟨?_, h1.2⟩
    simp at hf; omega
  | succ fuel ih =>
    unfold nblockLoop
    by_cases h : n > nb * B
    · rw [if_pos h]
      apply ih
      · simp only [Nat.add_sub_cancel]
        exact ⟨by omega, .inr h⟩
      · have : nb + 1 + fuel = nb + (fuel + 1) := by omega
        rw [this]; exact hf
    · rw [if_neg h]
      exact ⟨by omega, h1.2⟩

theorem nblock_spec (n B : Nat) (hB : 0 < B) :
    n ≤ nblock n B * B ∧ (nblock n B = 0 ∨ (nblock n B - 1) * B < n) := by
  unfold nblock
  apply nblockLoop_eq n B (n + 1) (n / B)
  · have h := Nat.div_mul_le_self n B
    constructor
    · exact le_trans (Nat.mul_le_mul_right B (Nat.sub_le _ 1)) h
    · by_cases h0 : n / B = 0
      · exact .inl h0
      · right
        obtain ⟨m, hm⟩ : ∃ m, n / B = m + 1 := ⟨n / B - 1, (Nat.succ_pred_eq_of_ne_zero h0).symm⟩
        rw [hm] at h ⊢
        rw [Nat.add_mul] at h
        simp only [Nat.add_sub_cancel]
        omega
  · have : n + 1 ≤ (n / B + (n + 1)) * B := by
      calc n + 1 ≤ (n / B + (n + 1)) * 1 := by rw [Nat.mul_one]; exact Nat.le_add_left _ _
        _ ≤ (n / B + (n + 1)) * B := Nat.mul_le_mul_left _ hB
    omega

theorem blockRows_eq (n B t : Nat) (hB : 0 < B) :
    blockRows n B t = List.range' (t * B) (min ((t + 1) * B) n - t * B) := by
  unfold blockRows
  simp only
  have e : ((t : Int) + 1) * (B : Int) = (((t + 1) * B : Nat) : Int) := by push_cast; ring
  have e2 : (t + 1) * B = t * B + B := by ring
  rw [e, e2]
  generalize t * B = a
  by_cases h1 : ((a + B : Nat) : Int) - 1 ≥ (n : Int)
  · rw [if_pos h1]
    by_cases h2 : (a : Int) ≤ (n : Int) - 1
    · rw [if_pos h2]
      congr 1
      omega
    · rw [if_neg h2]
      have : min (a + B) n - a = 0 := by omega
      rw [this]; rfl
  · rw [if_neg h1, if_pos (by omega)]
    congr 1
    omega

/-- C67.  The tasks handed out by the counter cover every row (or column) of the table exactly once,
for every table size and block size. -/
theorem C67_blocks_cover (n B : Nat) (hB : 0 < B) :
    (List.range (nblock n B)).flatMap (blockRows n B) = List.range n := by
  have hspec := nblock_spec n B hB
  have key : ∀ m, (List.range m).flatMap (blockRows n B) = List.range (min (m * B) n) := by
    intro m
    induction m with
    | zero => simp
    | succ m ih =>
      rw [List.range_succ, List.flatMap_append, ih, List.flatMap_singleton, blockRows_eq n B m hB]
      have e2 : (m + 1) * B = m * B + B := by ring
      rw [e2]
      generalize m * B = a
      by_cases h : a ≤ n
      · have h1 : min a n = a := by omega
        rw [h1, List.range_eq_range', List.range_eq_range']
        have := List.range'_append_1 (s := 0) (m := a) (n := min (a + B) n - a)
        rw [Nat.zero_add] at this
        rw [this]
        congr 1
        omega
      · have h1 : min a n = n := by omega
        have h2 : min (a + B) n = n := by omega
        have h3 : n - a = 0 := by omega
        rw [h1, h2, h3]
        simp
  rw [key]
  congr 1
  omega

example : nblock 250 100 = 3 ∧ blockRows 250 100 2 = List.range' 200 50 := by decide

/-- C67, counts: `writeMaskValueCount` reports the number of entries with exactly the given mask. -/
theorem C67_mask_count (mval : Int) (es : List Entry) :
    maskCount mval es = (es.filter (fun e => e.2 = mval)).length := by
  unfold maskCount
  have : ∀ (es : List Entry) (n : Nat), es.foldl (fun n (e : Entry) => if e.2 = mval then n + 1 else n) n =
      n + (es.filter (fun e => e.2 = mval)).length := by
    intro es
    induction es with
    | nil => intro n; rfl
    | cons e es ih =>
      intro n
      rw [List.foldl_cons, ih, List.filter_cons]
      by_cases h : e.2 = mval
      · simp [h]; omega
      · simp [h]
  rw [this]; simp

end GridPACK.StatBlock
