import Verif.Props.StateEstBranch
import Verif.Props.GenMap
import Verif.Props.BusVectorMap

/-! C129: announced and written values.  C130: columns and corrections.  C131: the iteration.  C132: weights.
C133: saved generators. -/
namespace GridPACK.StateEst

/-! ### C129 -/

theorem flat_length (n : Net) (i : Nat) (l : List Branch) (a m : Branch → ℝ) :
    (l.flatMap (fun e => n.pair (e.far i) (a e) (m e))).length =
      (l.map (fun e => if !(n.bus (e.far i)).ref then 2 else 1)).sum := by
  induction l with
  | nil => rfl
  | cons e l ih => rw [List.flatMap_cons, List.length_append, ih, pair_length, List.map_cons, List.sum_cons]

theorem busEntries_length (n : Net) (s : State) (i : Nat) (hi : (n.bus i).iso = false)
    (hn : ∀ e ∈ n.neighbors i, e.ok n = true) (m : BusMeas) :
    (n.busEntries s i m).length = n.busCount i m := by
  unfold Net.busEntries Net.busCount
  rw [hi, if_pos (by simp)]
  cases m.type with
  | other => rfl
  | VM => exact pair_length _ _ _ _
  | VA => exact pair_length _ _ _ _
  | PI =>
    obtain ⟨_, _, h3⟩ := busLoop_eq n s i hn (0, 0) (fun e => e.piOff n s i) (fun e => e.piRet s i)
    simp only [h3, List.length_append, pair_length]
    congr 1
    exact flat_length _ _ _ _ _
  | QI =>
    obtain ⟨_, _, h3⟩ := busLoop_eq n s i hn (0, 0) (fun e => e.qiOff n s i) (fun e => e.qiRet s i)
    simp only [h3, List.length_append, pair_length]
    congr 1
    exact flat_length _ _ _ _ _

/-- C129, buses.  The number of Jacobian values a bus announces is the number it writes, if neither the bus nor a
neighbour is isolated. -/
theorem C129_bus_partial (n : Net) (s : State) (i : Nat) (hi : (n.bus i).iso = false)
    (hn : ∀ e ∈ n.neighbors i, e.ok n = true) :
    ((n.bus i).meas.flatMap (n.busEntries s i)).length = n.busNumValues i := by
  unfold Net.busNumValues
  rw [List.length_flatMap]
  congr 1
  apply List.map_congr_left
  intro m _
  exact busEntries_length n s i hi hn m

theorem lineEntries_length (n : Net) (s : State) (e : Branch) (l : Line) (ty : BrType) (h : ty ≠ .IJI) :
    (n.lineEntries s e l ty).length =
      (if !(n.bus e.bus1).ref then 2 else 1) + (if !(n.bus e.bus2).ref then 2 else 1) := by
  cases ty with
  | IJI => exact absurd rfl h
  | _ => simp only [Net.lineEntries, Net.pij, Net.qij, Net.iij, Net.pji, Net.qji, List.length_append, pair_length]

theorem brEntries_length (n : Net) (s : State) (e : Branch) (hok : e.ok n = true) (hact : e.active = true)
    (m : BrMeas) (hm : m.type ≠ .IJI) : (n.brEntries s e m).length = n.brCount e m := by
  have : n.brEntries s e m =
      e.lines.flatMap (fun l => if l.tag = m.ckt then n.lineEntries s e l m.type else []) := by
    unfold Net.brEntries Net.lineEntries
    rw [if_pos hok]
    simp only [hact, and_true]
    cases h : m.type with
    | IJI => exact absurd h hm
    | _ => rfl
  rw [this]
  unfold Net.brCount
  rw [List.length_flatMap]
  congr 1
  apply List.map_congr_left
  intro l _
  split
  · exact lineEntries_length n s e l m.type hm
  · rfl

/-- C129, branches.  The same for a branch in service (some line in service) without current measurements at its
"to" end, and for every branch with an isolated end. -/
theorem C129_branch_partial (n : Net) (s : State) (e : Branch)
    (h : e.ok n = false ∨ (e.active = true ∧ ∀ m ∈ e.meas, m.type ≠ .IJI)) :
    (e.meas.flatMap (n.brEntries s e)).length = n.brNumValues e := by
  unfold Net.brNumValues
  rw [List.length_flatMap]
  cases hok : e.ok n with
  | false =>
    have : e.meas.map (fun m => (n.brEntries s e m).length) = e.meas.map (fun _ => 0) := by
      apply List.map_congr_left
      intro m _
      unfold Net.brEntries
      rw [hok]
      rfl
    simp [this]
  | true =>
    rw [hok] at h
    obtain ⟨hact, hm⟩ := h.resolve_left (by simp)
    rw [if_pos rfl]
    congr 1
    apply List.map_congr_left
    intro m hmm
    exact brEntries_length n s e hok hact m (hm m hmm)

/-- C129 is violated by every measured isolated bus: it announces values for a voltage measurement and writes
none, in the Jacobian and in the weight matrix. -/
theorem C129_isolated_bus_violated (n : Net) (s : State) (i : Nat) (hi : (n.bus i).iso = true) (m : BusMeas)
    (hm : m ∈ (n.bus i).meas) (ht : m.type = .VM) :
    ((n.bus i).meas.flatMap (n.busEntries s i)) = [] ∧ 0 < n.busNumValues i ∧
    rinvValues (!(n.bus i).iso) ((n.bus i).meas.map (·.dev)) = [] ∧ 0 < ((n.bus i).meas.map (·.dev)).length := by
  refine ⟨?_, ?_, by simp [rinvValues, hi], by rw [List.length_map]; exact List.length_pos_of_mem hm⟩
  · rw [List.flatMap_eq_nil_iff]
    intro m' _
    unfold Net.busEntries
    rw [hi]
    rfl
  · unfold Net.busNumValues
    have h1 : n.busCount i m ∈ (n.bus i).meas.map (n.busCount i) := List.mem_map.mpr ⟨m, hm, rfl⟩
    have h2 := List.single_le_sum (by intro x _; exact Nat.zero_le x) _ h1
    have h3 : 0 < n.busCount i m := by
      unfold Net.busCount
      rw [ht]
      simp only []
      split <;> decide
    omega

/-- C129 is violated by every branch out of service on which a line is measured. -/
theorem C129_inactive_branch_violated (n : Net) (s : State) (e : Branch) (hok : e.ok n = true)
    (hact : e.active = false) (m : BrMeas) (hm : m ∈ e.meas) (l : Line) (hl : l ∈ e.lines) (ht : l.tag = m.ckt) :
    e.meas.flatMap (n.brEntries s e) = [] ∧ 0 < n.brNumValues e := by
  refine ⟨?_, ?_⟩
  · rw [List.flatMap_eq_nil_iff]
    intro m' _
    unfold Net.brEntries
    rw [if_pos hok]
    simp only [hact]
    cases m'.type <;> simp
  · unfold Net.brNumValues
    rw [if_pos hok]
    have h1 : n.brCount e m ∈ e.meas.map (n.brCount e) := List.mem_map.mpr ⟨m, hm, rfl⟩
    have h2 := List.single_le_sum (by intro x _; exact Nat.zero_le x) _ h1
    have h3 : 0 < n.brCount e m := by
      unfold Net.brCount
      have h4 := List.mem_map_of_mem (f := fun l : Line => if l.tag = m.ckt then
        (if !(n.bus e.bus1).ref then 2 else 1) + (if !(n.bus e.bus2).ref then 2 else 1) else 0) hl
      have h5 := List.single_le_sum (by intro x _; exact Nat.zero_le x) _ h4
      refine lt_of_lt_of_le ?_ h5
      rw [if_pos ht]
      split <;> omega
    omega

/-! ### C130 -/

/-- A measurement at the bus, on one of its branches or at a neighbour. -/
def Net.Observed (n : Net) (i : Nat) : Prop :=
  (n.bus i).meas ≠ [] ∨ ∃ e ∈ n.neighbors i, (n.bus (e.far i)).meas ≠ [] ∨ e.meas ≠ []

theorem numCols_eq (n : Net) (i : Nat) :
    n.numCols i = (if (n.bus i).meas ≠ [] ∨ ∃ e ∈ n.neighbors i, (n.bus (e.far i)).meas ≠ [] ∨ e.meas ≠ [] then
      (if (n.bus i).iso then 0 else if (n.bus i).ref then 1 else 2) else 0) := by
  unfold Net.numCols
  have : (!(n.bus i).meas.isEmpty ||
      (n.neighbors i).any (fun e => !(n.bus (e.far i)).meas.isEmpty || !e.meas.isEmpty)) = true ↔
      ((n.bus i).meas ≠ [] ∨ ∃ e ∈ n.neighbors i, (n.bus (e.far i)).meas ≠ [] ∨ e.meas ≠ []) := by
    simp
  simp only []
  by_cases h : (n.bus i).meas ≠ [] ∨ ∃ e ∈ n.neighbors i, (n.bus (e.far i)).meas ≠ [] ∨ e.meas ≠ []
  · rw [if_pos h, this.mpr h]
    cases (n.bus i).iso <;> cases (n.bus i).ref <;> simp
  · rw [if_neg h, if_pos]
    rw [Bool.not_eq_true', ← Bool.not_eq_true, this]
    exact h

/-- C130, sizes.  If every bus that is not isolated has a measurement on it or next to it, then every bus has as
many Jacobian columns as elements of the correction vector. -/
theorem C130_sizes_partial (n : Net) (i : Nat) (h : (n.bus i).iso = true ∨ n.Observed i) :
    n.numCols i = (n.vectorSize i).getD 0 := by
  rw [numCols_eq]
  unfold Net.vectorSize
  cases hi : (n.bus i).iso with
  | true => simp
  | false =>
    rw [hi] at h
    have ho : (n.bus i).meas ≠ [] ∨ ∃ e ∈ n.neighbors i, (n.bus (e.far i)).meas ≠ [] ∨ e.meas ≠ [] :=
      h.resolve_left (by simp)
    rw [if_pos ho]
    cases (n.bus i).ref <;> simp

/-- C130 is violated by an unobserved bus: it has no column in the Jacobian, but takes elements out of the
correction vector (so the elements after it go to the wrong buses, and the vector is too short). -/
theorem C130_unobserved_violated (n : Net) (i : Nat) (hi : (n.bus i).iso = false) (h : ¬ n.Observed i) :
    n.numCols i = 0 ∧ 0 < (n.vectorSize i).getD 0 := by
  have ho : ¬ ((n.bus i).meas ≠ [] ∨ ∃ e ∈ n.neighbors i, (n.bus (e.far i)).meas ≠ [] ∨ e.meas ≠ []) := h
  rw [numCols_eq, if_neg ho]
  refine ⟨rfl, ?_⟩
  unfold Net.vectorSize
  rw [hi]
  cases (n.bus i).ref <;> simp

theorem pair_mem_cols (n : Net) (j : Nat) (a m : ℝ) (x : Entry) (h : x ∈ n.pair j a m)
    (hi : (n.bus j).iso = false)
    (ho : (n.bus j).meas ≠ [] ∨ ∃ e ∈ n.neighbors j, (n.bus (e.far j)).meas ≠ [] ∨ e.meas ≠ []) :
    x.2.1 < n.numCols x.1 := by
  have h1 := (pair_mem _ _ _ _ _ h).1
  rw [h1, numCols_eq, if_pos ho, hi]
  unfold Net.pair at h
  cases hr : (n.bus j).ref <;> simp [hr] at h
  · rcases h with rfl | rfl <;> simp
  · subst h; simp

/-- C130, columns.  Every value written by a bus that is not isolated and has no isolated neighbour lies in an
existing column. -/
theorem C130_bus_columns_partial (n : Net) (hl : n.NoLoops) (s : State) (i : Nat) (hi : (n.bus i).iso = false)
    (hn : ∀ e ∈ n.neighbors i, e.ok n = true) (m : BusMeas) (hm : m ∈ (n.bus i).meas) :
    ∀ x ∈ n.busEntries s i m, x.2.1 < n.numCols x.1 := by
  have hmeas : (n.bus i).meas ≠ [] := List.ne_nil_of_mem hm
  have own : ∀ a m', ∀ x ∈ n.pair i a m', x.2.1 < n.numCols x.1 := fun a m' x hx =>
    pair_mem_cols n i a m' x hx hi (Or.inl hmeas)
  have offs : ∀ (a m' : Branch → ℝ), ∀ x ∈ (n.neighbors i).flatMap (fun e => n.pair (e.far i) (a e) (m' e)),
      x.2.1 < n.numCols x.1 := by
    intro a m' x hx
    obtain ⟨e, he, hx⟩ := List.mem_flatMap.mp hx
    refine pair_mem_cols n _ _ _ x hx (far_iso (hn e he)) (Or.inr ⟨e, ?_, Or.inl ?_⟩)
    · obtain ⟨h1, h2⟩ := mem_neighbors he
      unfold Net.neighbors
      rw [List.mem_filter]
      refine ⟨h1, ?_⟩
      unfold Branch.far
      split <;> simp
    · have : e.far (e.far i) = i := by
        obtain ⟨h1, h2⟩ := mem_neighbors he
        have hne := hl e h1
        unfold Branch.far
        by_cases h : e.bus1 = i
        · rw [if_pos h, if_neg hne, h]
        · rw [if_neg h, if_pos rfl]; exact h2.resolve_left h
      rw [this]
      exact hmeas
  unfold Net.busEntries
  rw [hi, if_pos (by simp)]
  cases m.type with
  | other => simp
  | VM => exact own _ _
  | VA => exact own _ _
  | PI =>
    obtain ⟨_, _, h3⟩ := busLoop_eq n s i hn (0, 0) (fun e => e.piOff n s i) (fun e => e.piRet s i)
    simp only [h3]
    intro x hx
    rw [List.mem_append] at hx
    exact hx.elim (offs _ _ x) (own _ _ x)
  | QI =>
    obtain ⟨_, _, h3⟩ := busLoop_eq n s i hn (0, 0) (fun e => e.qiOff n s i) (fun e => e.qiRet s i)
    simp only [h3]
    intro x hx
    rw [List.mem_append] at hx
    exact hx.elim (offs _ _ x) (own _ _ x)

/-- C130, columns of branch values: always existing. -/
theorem C130_branch_columns (n : Net) (s : State) (e : Branch) (he : e ∈ n.branches) (m : BrMeas)
    (hm : m ∈ e.meas) : ∀ x ∈ n.brEntries s e m, x.2.1 < n.numCols x.1 := by
  intro x hx
  unfold Net.brEntries at hx
  cases hok : e.ok n with
  | false => rw [hok] at hx; simp at hx
  | true =>
    rw [if_pos hok] at hx
    have hmeas : e.meas ≠ [] := List.ne_nil_of_mem hm
    have h1 : (n.bus e.bus1).iso = false := by unfold Branch.ok at hok; simp at hok; exact hok.1
    have h2 : (n.bus e.bus2).iso = false := by unfold Branch.ok at hok; simp at hok; exact hok.2
    have key : ∀ a m' a' m'', x ∈ n.pair e.bus1 a m' ++ n.pair e.bus2 a' m'' → x.2.1 < n.numCols x.1 := by
      intro a m' a' m'' h
      rw [List.mem_append] at h
      rcases h with h | h
      · exact pair_mem_cols n _ _ _ x h h1 (Or.inr ⟨e, by unfold Net.neighbors; simp [he], Or.inr hmeas⟩)
      · exact pair_mem_cols n _ _ _ x h h2 (Or.inr ⟨e, by unfold Net.neighbors; simp [he], Or.inr hmeas⟩)
    simp only [] at hx
    split at hx
    all_goals first
      | (obtain ⟨l, _, hx⟩ := List.mem_flatMap.mp hx
         split at hx
         · exact key _ _ _ _ hx
         · simp at hx)
      | simp at hx

/-! ### Order of the columns and of the correction vector -/

/-- Columns of the owned buses among the first `k`. -/
def busTotal (p : GenMap.Proc) (k : Nat) : Nat :=
  ((p.buses.take k).map (fun b => if b.active then b.size else 0)).sum

theorem branch_fold (p : GenMap.Proc) (hb : ∀ b ∈ p.branches, b.size = 0) (i : Nat) (l : List Nat) :
    ∀ st : GenMap.St, (l.foldl (GenMap.branchStep p i) st).icnt = st.icnt ∧
      ∀ k, (l.foldl (GenMap.branchStep p i) st).off (.bus k) = st.off (.bus k) := by
  have hz : ∀ j, GenMap.size p (.branch j) = 0 := by
    intro j
    unfold GenMap.size
    simp only []
    cases h : p.branches[j]? with
    | none => rfl
    | some b => simp [hb b (List.mem_of_getElem? h)]
  have ha : ∀ (st : GenMap.St) j, (GenMap.assign p st (.branch j)).icnt = st.icnt ∧
      ∀ k, (GenMap.assign p st (.branch j)).off (.bus k) = st.off (.bus k) := by
    intro st j
    unfold GenMap.assign
    refine ⟨by simp [hz j], fun k => ?_⟩
    simp
  induction l with
  | nil => intro st; exact ⟨rfl, fun _ => rfl⟩
  | cons j l ih =>
    intro st
    rw [List.foldl_cons]
    have hs : (GenMap.branchStep p i st j).icnt = st.icnt ∧
        ∀ k, (GenMap.branchStep p i st j).off (.bus k) = st.off (.bus k) := by
      unfold GenMap.branchStep
      split
      · split
        · exact ha st j
        · exact ⟨rfl, fun _ => rfl⟩
      · split
        · exact ha st j
        · exact ⟨rfl, fun _ => rfl⟩
    obtain ⟨h1, h2⟩ := ih (GenMap.branchStep p i st j)
    exact ⟨h1.trans hs.1, fun k => (h2 k).trans (hs.2 k)⟩

theorem bus_offsets (p : GenMap.Proc) (hb : ∀ b ∈ p.branches, b.size = 0) (k : Nat) (hk : k ≤ p.buses.length) :
    ((List.range k).foldl (GenMap.busStep p) { icnt := 0, off := fun _ => 0 }).icnt = busTotal p k ∧
    ∀ i, i < k → GenMap.activeBus p i = true →
      ((List.range k).foldl (GenMap.busStep p) { icnt := 0, off := fun _ => 0 }).off (.bus i) = busTotal p i := by
  induction k with
  | zero => exact ⟨rfl, by intro i hi; omega⟩
  | succ k ih =>
    obtain ⟨h1, h2⟩ := ih (by omega)
    rw [List.range_succ, List.foldl_append, List.foldl_cons, List.foldl_nil]
    generalize (List.range k).foldl (GenMap.busStep p) { icnt := 0, off := fun _ => 0 } = st at h1 h2
    have hget : p.buses[k]? = some (p.buses[k]'(by omega)) := List.getElem?_eq_getElem (by omega)
    have htot : busTotal p (k + 1) = busTotal p k +
        (if (p.buses[k]'(by omega)).active then (p.buses[k]'(by omega)).size else 0) := by
      unfold busTotal
      rw [List.take_add_one, hget, List.map_append, List.sum_append]
      simp only [Option.toList_some, List.map_cons, List.map_nil, List.sum_cons, List.sum_nil, add_zero]
    have hact : GenMap.activeBus p k = (p.buses[k]'(by omega)).active := by
      unfold GenMap.activeBus; rw [hget]; rfl
    have hsize : GenMap.size p (.bus k) = (p.buses[k]'(by omega)).size := by
      unfold GenMap.size; simp only []; rw [hget]; rfl
    unfold GenMap.busStep
    by_cases ha : GenMap.activeBus p k = true
    · rw [if_pos ha]
      obtain ⟨b1, b2⟩ := branch_fold p hb k (GenMap.nbrs p k) (GenMap.assign p st (.bus k))
      rw [b1, htot, if_pos (hact ▸ ha)]
      refine ⟨by unfold GenMap.assign; simp only []; rw [h1, hsize], ?_⟩
      intro i hi hia
      rw [b2]
      unfold GenMap.assign
      simp only []
      by_cases hik : i = k
      · subst hik; rw [if_pos rfl, h1]
      · rw [if_neg (by simpa using hik)]
        exact h2 i (by omega) hia
    · rw [if_neg ha, htot, if_neg (hact ▸ ha), add_zero]
      refine ⟨h1, ?_⟩
      intro i hi hia
      by_cases hik : i = k
      · subst hik; exact absurd hia ha
      · exact h2 i (by omega) hia

/-- The same buses, in the same order and with the same sizes, for the two mappers. -/
def SameBuses {V : Type} (p : GenMap.Proc) (q : BusVectorMap.Proc V) : Prop :=
  q.map (fun b => (b.active, b.size.getD 0)) = p.buses.map (fun b => (b.active, b.size))

theorem same_total {V : Type} (p : GenMap.Proc) (q : BusVectorMap.Proc V) (h : SameBuses p q) (k : Nat) :
    busTotal p k = BusVectorMap.numValues (q.take k) := by
  unfold busTotal BusVectorMap.numValues
  have h1 : (q.take k).map (fun b => (BusVectorMap.contribution b).getD 0) =
      ((q.map (fun b => (b.active, b.size.getD 0))).take k).map (fun e => if e.1 then e.2 else 0) := by
    rw [← List.map_take, List.map_map]
    apply List.map_congr_left
    intro b _
    unfold BusVectorMap.contribution
    cases h : b.active <;> simp [h]
  have h2 : (p.buses.take k).map (fun b => if b.active then b.size else 0) =
      ((p.buses.map (fun b => (b.active, b.size))).take k).map (fun e => if e.1 then e.2 else 0) := by
    rw [← List.map_take, List.map_map]
    rfl
  rw [h1, h2, h]

theorem mapToBus_get {V : Type} (X : Nat → V) : ∀ (q : BusVectorMap.Proc V) (o i : Nat) (b : BusVectorMap.Bus V)
    (k : Nat), q[i]? = some b → BusVectorMap.contribution b = some k →
    (BusVectorMap.mapToBus o X q)[(BusVectorMap.contributing (q.take i)).length]? =
      some ((List.range' (o + BusVectorMap.numValues (q.take i)) k).map X) := by
  intro q
  induction q with
  | nil => intro o i b k h; simp at h
  | cons a q ih =>
    intro o i b k h hb
    have hcons : ∀ s, BusVectorMap.contribution a = some s →
        BusVectorMap.mapToBus o X (a :: q) = (List.range' o s).map X :: BusVectorMap.mapToBus (o + s) X q := by
      intro s hs
      unfold BusVectorMap.mapToBus BusVectorMap.indices
      have hc : BusVectorMap.contributing (a :: q) = (a, s) :: BusVectorMap.contributing q := by
        unfold BusVectorMap.contributing
        rw [List.filterMap_cons, hs]
        rfl
      rw [hc, List.map_cons, List.sum_cons, ← List.range'_append_1, List.map_append]
      unfold BusVectorMap.mapToBusLoop
      simp
      cases BusVectorMap.contributing q <;> rfl
    cases i with
    | zero =>
      simp only [List.getElem?_cons_zero, Option.some.injEq] at h
      subst h
      rw [hcons k hb]
      simp [BusVectorMap.contributing, BusVectorMap.numValues]
    | succ i =>
      rw [List.getElem?_cons_succ] at h
      rw [List.take_succ_cons]
      cases hs : BusVectorMap.contribution a with
      | some s =>
        have hc : BusVectorMap.contributing (a :: q.take i) = (a, s) :: BusVectorMap.contributing (q.take i) := by
          unfold BusVectorMap.contributing
          rw [List.filterMap_cons, hs]
          rfl
        have hn : BusVectorMap.numValues (a :: q.take i) = s + BusVectorMap.numValues (q.take i) := by
          unfold BusVectorMap.numValues
          rw [List.map_cons, List.sum_cons, hs]
          rfl
        rw [hcons s hs, hc, hn, List.length_cons, List.getElem?_cons_succ, ih (o + s) i b k h hb]
        rw [Nat.add_assoc]
      | none =>
        have hc : ∀ l, BusVectorMap.contributing (a :: l) = BusVectorMap.contributing l := by
          intro l
          unfold BusVectorMap.contributing
          rw [List.filterMap_cons, hs]
          rfl
        have hn : BusVectorMap.numValues (a :: q.take i) = BusVectorMap.numValues (q.take i) := by
          unfold BusVectorMap.numValues
          rw [List.map_cons, List.sum_cons, hs]
          simp
        have hm : BusVectorMap.mapToBus o X (a :: q) = BusVectorMap.mapToBus o X q := by
          unfold BusVectorMap.mapToBus
          rw [hc]
        rw [hm, hc, hn]
        exact ih o i b k h hb

/-- C130, order.  For every distribution of the network: if the two mappers see the same buses with the same
sizes and branches have no columns, the block that `mapToBus` hands to a bus consists of exactly the elements of
the correction vector at the column numbers of that bus. -/
theorem C130_order {V : Type} (ps : List GenMap.Proc) (qs : List (BusVectorMap.Proc V))
    (hsame : List.Forall₂ SameBuses ps qs) (hb : ∀ p ∈ ps, ∀ b ∈ p.branches, b.size = 0)
    (hu : GenMap.UniqueIds ps) (ws : List (GenMap.Comp × Nat)) (hw : ws.Perm (GenMap.allScatter ps))
    (me : Nat) (p : GenMap.Proc) (q : BusVectorMap.Proc V) (hp : ps[me]? = some p) (hq : qs[me]? = some q)
    (i : Nat) (b : BusVectorMap.Bus V) (hi : q[i]? = some b) (k : Nat)
    (hc : BusVectorMap.contribution b = some k) (X : Nat → V) :
    (BusVectorMap.mapToBus (BusVectorMap.base qs me) X q)[(BusVectorMap.contributing (q.take i)).length]? =
      some ((GenMap.indices (GenMap.global ws) p (.bus i)).map X) := by
  have hpq : SameBuses p q := by
    have h1 := List.getElem?_eq_some_iff.mp hp
    have h2 := List.getElem?_eq_some_iff.mp hq
    obtain ⟨l1, e1⟩ := h1
    obtain ⟨l2, e2⟩ := h2
    have := (List.forall₂_iff_get.mp hsame).2 me l1 l2
    simpa [e1, e2] using this
  have hbp := hb p (List.mem_of_getElem? hp)
  have hdim : ∀ p' q', SameBuses p' q' → (∀ b ∈ p'.branches, b.size = 0) →
      GenMap.dimension p' = BusVectorMap.numValues (V := V) q' := by
    intro p' q' h hb'
    have h1 := same_total p' q' h (max p'.buses.length q'.length)
    rw [List.take_of_length_le (by omega)] at h1
    unfold busTotal at h1
    rw [List.take_of_length_le (by omega)] at h1
    unfold GenMap.dimension
    rw [h1]
    have : p'.branches.map (fun b => if b.active then b.size else 0) = p'.branches.map (fun _ => 0) := by
      apply List.map_congr_left
      intro b hbb
      rw [hb' b hbb]
      simp
    rw [this]
    simp
  have hbase : GenMap.procOffset ps me = BusVectorMap.base qs me := by
    unfold GenMap.procOffset BusVectorMap.base
    congr 2
    clear hp hq hw hu
    induction hsame with
    | nil => rfl
    | cons h _ ih =>
      rw [List.map_cons, List.map_cons, hdim _ _ h (hb _ (by simp)), ih (fun p hp => hb p (by simp [hp]))]
  have hlen : i < p.buses.length := by
    obtain ⟨h1, _⟩ := List.getElem?_eq_some_iff.mp hi
    have h2 := congrArg List.length hpq
    rw [List.length_map, List.length_map] at h2
    omega
  have hpair : (b.active, b.size.getD 0) = (p.buses[i].active, p.buses[i].size) := by
    have h1 : (q.map (fun b => (b.active, b.size.getD 0)))[i]? = some (b.active, b.size.getD 0) := by
      rw [List.getElem?_map, hi]; rfl
    rw [hpq, List.getElem?_map, List.getElem?_eq_getElem hlen] at h1
    simpa using h1.symm
  have hcb : b.active = true ∧ b.size = some k := by
    unfold BusVectorMap.contribution at hc
    cases hba : b.active <;> simp [hba] at hc
    exact ⟨rfl, hc⟩
  have hact : GenMap.activeBus p i = true := by
    unfold GenMap.activeBus
    rw [List.getElem?_eq_getElem hlen]
    have := (Prod.mk.inj hpair).1
    simp [← this, hcb.1]
  have hsize : GenMap.size p (.bus i) = k := by
    unfold GenMap.size
    simp only []
    rw [List.getElem?_eq_getElem hlen]
    have := (Prod.mk.inj hpair).2
    simp [← this, hcb.2]
  have hown : GenMap.Comp.bus i ∈ GenMap.owned p := by
    unfold GenMap.owned
    rw [List.mem_append]
    left
    exact List.mem_map.mpr ⟨i, List.mem_filter.mpr ⟨by simpa using hlen, hact⟩, rfl⟩
  rw [mapToBus_get X q _ i b k hi hc]
  congr 2
  rw [(GenMap.C23_ghost_copies_agree hu ws hw hp hown rfl rfl).2, hsize]
  congr 1
  have h1 := (bus_offsets p hbp p.buses.length le_rfl).2 i hlen hact
  unfold GenMap.setOffsets
  rw [h1, same_total p q hpq i, hbase, Nat.add_comm]

/-- Two processes meeting the hypotheses: three buses with 1, 2 and 2 columns on the first, one of them a ghost;
an isolated bus and one with 2 columns on the second; a branch without columns. -/
example :
    let ps : List GenMap.Proc :=
      [⟨[⟨true, 0, 1, [0]⟩, ⟨false, 1, 2, []⟩, ⟨true, 2, 2, [0]⟩], [⟨true, 0, 0, 0, 2⟩]⟩,
       ⟨[⟨true, 3, 0, []⟩, ⟨true, 1, 2, []⟩], []⟩]
    let qs : List (BusVectorMap.Proc Nat) :=
      [[⟨true, some 1, id⟩, ⟨false, some 2, id⟩, ⟨true, some 2, id⟩], [⟨true, none, id⟩, ⟨true, some 2, id⟩]]
    List.Forall₂ SameBuses ps qs ∧ (∀ p ∈ ps, ∀ b ∈ p.branches, b.size = 0) ∧ GenMap.UniqueIds ps ∧
    BusVectorMap.mapToBus (BusVectorMap.base qs 0) (fun k => 10 * k) (qs.headD []) = [[0], [10, 20]] := by
  refine ⟨?_, by decide, by unfold GenMap.UniqueIds; decide, by decide⟩
  exact .cons (by unfold SameBuses; decide) (.cons (by unfold SameBuses; decide) .nil)

/-- In the example network both buses are observed; with bus 0 isolated it has neither columns nor elements. -/
example : (exNet false).Observed 0 ∧ (exNet false).Observed 1 ∧ (exNet false).numCols 0 = 1 ∧
    (exNet false).numCols 1 = 2 ∧ (exNet true).numCols 0 = 0 ∧ (exNet true).vectorSize 0 = none := by
  refine ⟨Or.inr ?_, Or.inl (by simp [exNet]), ?_, ?_, ?_, ?_⟩
  · simp [Net.neighbors, exNet, Branch.far]
  all_goals simp [Net.numCols, Net.vectorSize, Net.neighbors, exNet, Branch.far]

/-- Counts in the example network: 3 values for the injection, 2 for the voltage. -/
example : (exNet false).busNumValues 1 = 5 := by
  simp [Net.busNumValues, Net.busCount, exNet, Net.neighbors, Branch.far]

/-! ### C131 -/

/-- A measurement for which the Jacobian row is right (C125, C126). -/
def Net.GoodRow (n : Net) (s : State) : Row → Prop
  | .bus i k m => (n.bus i).iso = false ∧ (∀ e ∈ n.neighbors i, e.ok n = true) ∧
      (∀ m' ∈ (n.bus i).meas, m'.type ≠ .other) ∧ (n.bus i).meas[k]? = some m
  | .branch e k m => e.bus1 ≠ e.bus2 ∧ e.ok n = true ∧ e.active = true ∧ (∀ m' ∈ e.meas, m'.type ≠ .IJI) ∧
      e.meas[k]? = some m ∧ ∃ l, e.lines.filter (fun l' => l'.tag = m.ckt) = [l] ∧
      ((m.type = .QIJ ∨ m.type = .QJI ∨ (m.type = .PIJ ∧ (n.bus e.bus1).gs = 0) ∨
        (m.type = .PJI ∧ (n.bus e.bus2).gs = 0)) ∨
       (m.type = .IIJ ∧ l.tap = 0 ∧ l.charging = 0 ∧ (l.r ≠ 0 ∨ l.x ≠ 0) ∧ 0 < s.v e.bus1 ∧
        s.v e.bus1 ^ 2 + s.v e.bus2 ^ 2 -
          2 * s.v e.bus1 * s.v e.bus2 * Real.cos (s.θ e.bus1 - s.θ e.bus2) ≠ 0))

/-- The buses of `B` include those the measurement depends on. -/
def Net.Within (n : Net) (B : Finset Nat) : Row → Prop
  | .bus i _ _ => i ∈ B ∧ ∀ e ∈ n.neighbors i, e.far i ∈ B
  | .branch e _ _ => e.bus1 ∈ B ∧ e.bus2 ∈ B

/-- Predicted change of a measured quantity for a correction `d`. -/
noncomputable def Net.predict (n : Net) (s : State) (B : Finset Nat) (r : Row) (d : Nat → Nat → ℝ) : ℝ :=
  ∑ j ∈ B, ∑ c ∈ Finset.range 2, n.hjac s r j c * d j c

theorem ez_deriv (n : Net) (hl : n.NoLoops) (hs : n.Simple) (s : State) (w : ℝ × ℝ) (B : Finset Nat) (r : Row)
    (hg : n.GoodRow s r) (hB : n.Within B r) (d : Nat → Nat → ℝ) :
    HasDerivAt (fun t => n.ez (n.correct s (fun j c => t * d j c)) w r) (-n.predict s B r d) 0 := by
  cases r with
  | bus i k m =>
    obtain ⟨h1, h2, h3, h4⟩ := hg
    exact C125_bus_jacobian_partial n hl hs s i h1 h2 h3 k m h4 w B hB d
  | branch e k m =>
    obtain ⟨h1, h2, h3, h4, h5, l, h6, h7⟩ := hg
    rcases h7 with h7 | ⟨a1, a2, a3, a4, a5, a6⟩
    · exact C126_power_jacobian_partial n s e h1 h2 h3 h4 k m h5 l h6 h7 B hB d
    · exact C126_current_jacobian_partial n s e h1 h2 h3 h4 k m h5 l h6 a1 a2 a3 a4 a5 a6 B hB d

theorem correct_zero (n : Net) (s : State) (d : Nat → Nat → ℝ) :
    n.correct s (fun j c => 0 * d j c) = s := by
  cases s with
  | mk v θ =>
    have hv := fun j => correct_v n ⟨v, θ⟩ d 0 j
    have ha := fun j => correct_a n ⟨v, θ⟩ d 0 j
    generalize n.correct ⟨v, θ⟩ (fun j c => 0 * d j c) = s' at hv ha
    cases s' with
    | mk v' θ' =>
      have e1 : v' = v := by funext j; simpa using hv j
      have e2 : θ' = θ := by funext j; simpa using ha j
      rw [e1, e2]

/-- Weighted sum of squared residuals; a measurement with deviation σ counts with 1/σ², one without deviation
not at all. -/
noncomputable def Net.objective (n : Net) (w : ℝ × ℝ) (rows : List Row) (s : State) : ℝ :=
  (rows.map (fun r => (if r.dev = 0 then 0 else 1 / r.dev ^ 2) * (n.ez s w r) ^ 2)).sum

theorem weight_eq (dev : ℝ) : weight dev = if dev = 0 then 0 else 1 / dev ^ 2 := by
  unfold weight
  by_cases h : dev = 0
  · simp [h]
  · simp only [ne_eq, h, not_false_eq_true, if_true, if_false]; ring

theorem weight_nonneg (dev : ℝ) : 0 ≤ weight dev := by
  rw [weight_eq]
  split
  · exact le_rfl
  · positivity

theorem objective_deriv (n : Net) (hl : n.NoLoops) (hs : n.Simple) (s : State) (w : ℝ × ℝ) (B : Finset Nat)
    (d : Nat → Nat → ℝ) (rows : List Row) (hg : ∀ r ∈ rows, n.GoodRow s r ∧ n.Within B r) :
    HasDerivAt (fun t => n.objective w rows (n.correct s (fun j c => t * d j c)))
      (-2 * (rows.map (fun r => weight r.dev * n.predict s B r d * n.ez s w r)).sum) 0 := by
  unfold Net.objective
  induction rows with
  | nil => simpa using hasDerivAt_const (0 : ℝ) (0 : ℝ)
  | cons r rows ih =>
    have h1 := ez_deriv n hl hs s w B r (hg r (by simp)).1 (hg r (by simp)).2 d
    have h2 := ih (fun r hr => hg r (by simp [hr]))
    have h3 := ((h1.pow 2).const_mul (weight r.dev)).add h2
    simp only [List.map_cons, List.sum_cons]
    refine (h3.congr_deriv ?_).congr_of_eventuallyEq ?_
    · rw [correct_zero]
      norm_num
      ring
    · refine Filter.Eventually.of_forall fun t => ?_
      simp [weight_eq]

theorem sum_list_comm (rows : List Row) (B : Finset Nat) (f : Row → Nat → Nat → ℝ) :
    (∑ j ∈ B, ∑ c ∈ Finset.range 2, (rows.map (fun r => f r j c)).sum) =
      (rows.map (fun r => ∑ j ∈ B, ∑ c ∈ Finset.range 2, f r j c)).sum := by
  induction rows with
  | nil => simp
  | cons r rows ih => simp only [List.map_cons, List.sum_cons, Finset.sum_add_distrib, ih]

theorem rhs_dot (n : Net) (s : State) (w : ℝ × ℝ) (rows : List Row) (B : Finset Nat) (d : Nat → Nat → ℝ) :
    (∑ j ∈ B, ∑ c ∈ Finset.range 2, n.rhs s w rows j c * d j c) =
      (rows.map (fun r => weight r.dev * n.predict s B r d * n.ez s w r)).sum := by
  unfold Net.rhs
  simp only [← List.sum_map_mul_right]
  rw [sum_list_comm rows B (fun r j c => n.hjac s r j c * weight r.dev * n.ez s w r * d j c)]
  congr 1
  apply List.map_congr_left
  intro r _
  unfold Net.predict
  rw [Finset.mul_sum, Finset.sum_mul]
  refine Finset.sum_congr rfl fun j _ => ?_
  rw [Finset.mul_sum, Finset.sum_mul]
  refine Finset.sum_congr rfl fun c _ => ?_
  ring

/-- C131, gradient.  The right-hand side assembled in a pass is −1/2 times the gradient of the weighted sum of
squared residuals: for every correction `d` (applied the way the module applies the solution). -/
theorem C131_gradient_partial (n : Net) (hl : n.NoLoops) (hs : n.Simple) (s : State) (w : ℝ × ℝ)
    (B : Finset Nat) (rows : List Row) (hg : ∀ r ∈ rows, n.GoodRow s r ∧ n.Within B r) (d : Nat → Nat → ℝ) :
    HasDerivAt (fun t => n.objective w rows (n.correct s (fun j c => t * d j c)))
      (-2 * ∑ j ∈ B, ∑ c ∈ Finset.range 2, n.rhs s w rows j c * d j c) 0 := by
  rw [rhs_dot]
  exact objective_deriv n hl hs s w B d rows hg

/-- C131, fixed points.  The correction of a pass can be zero only at a stationary point of the weighted sum:
if the zero correction solves the linear system, all directional derivatives vanish. -/
theorem C131_fixed_point_partial (n : Net) (hl : n.NoLoops) (hs : n.Simple) (s : State) (w : ℝ × ℝ)
    (B : Finset Nat) (rows : List Row) (hg : ∀ r ∈ rows, n.GoodRow s r ∧ n.Within B r)
    (hx : ∀ j ∈ B, ∀ c < 2, (∑ j' ∈ B, ∑ c' ∈ Finset.range 2, n.gain s rows j c j' c' * 0) =
      n.rhs s w rows j c) (d : Nat → Nat → ℝ) :
    HasDerivAt (fun t => n.objective w rows (n.correct s (fun j c => t * d j c))) 0 0 := by
  have h := C131_gradient_partial n hl hs s w B rows hg d
  convert h using 1
  have : (∑ j ∈ B, ∑ c ∈ Finset.range 2, n.rhs s w rows j c * d j c) = 0 := by
    refine Finset.sum_eq_zero fun j hj => Finset.sum_eq_zero fun c hc => ?_
    rw [← hx j hj c (by simpa using hc)]
    simp
  rw [this, mul_zero]

/-- C131, direction.  A solution of the linear system of a pass is a direction in which the weighted sum does not
increase: its slope is −2 Σ w (H x)². -/
theorem C131_descent_partial (n : Net) (hl : n.NoLoops) (hs : n.Simple) (s : State) (w : ℝ × ℝ)
    (B : Finset Nat) (rows : List Row) (hg : ∀ r ∈ rows, n.GoodRow s r ∧ n.Within B r) (x : Nat → Nat → ℝ)
    (hx : ∀ j ∈ B, ∀ c < 2, (∑ j' ∈ B, ∑ c' ∈ Finset.range 2, n.gain s rows j c j' c' * x j' c') =
      n.rhs s w rows j c) :
    ∃ D, HasDerivAt (fun t => n.objective w rows (n.correct s (fun j c => t * x j c))) D 0 ∧ D ≤ 0 ∧
      (D = 0 → ∀ r ∈ rows, r.dev ≠ 0 → n.predict s B r x = 0) := by
  refine ⟨_, C131_gradient_partial n hl hs s w B rows hg x, ?_⟩
  have h1 : (∑ j ∈ B, ∑ c ∈ Finset.range 2, n.rhs s w rows j c * x j c) =
      (rows.map (fun r => weight r.dev * n.predict s B r x ^ 2)).sum := by
    have h2 : ∀ j ∈ B, ∀ c ∈ Finset.range 2, n.rhs s w rows j c * x j c =
        (rows.map (fun r => n.hjac s r j c * weight r.dev * n.predict s B r x * x j c)).sum := by
      intro j hj c hc
      rw [← hx j hj c (by simpa using hc)]
      unfold Net.gain
      rw [List.sum_map_mul_right]
      congr 1
      simp only [← List.sum_map_mul_right]
      rw [sum_list_comm rows B (fun r j' c' => n.hjac s r j c * weight r.dev * n.hjac s r j' c' * x j' c')]
      congr 1
      apply List.map_congr_left
      intro r _
      unfold Net.predict
      rw [Finset.mul_sum]
      refine Finset.sum_congr rfl fun j' _ => ?_
      rw [Finset.mul_sum]
      refine Finset.sum_congr rfl fun c' _ => ?_
      ring
    rw [Finset.sum_congr rfl (fun j hj => Finset.sum_congr rfl (h2 j hj))]
    rw [sum_list_comm rows B (fun r j c => n.hjac s r j c * weight r.dev * n.predict s B r x * x j c)]
    congr 1
    apply List.map_congr_left
    intro r _
    have : (∑ j ∈ B, ∑ c ∈ Finset.range 2, n.hjac s r j c * weight r.dev * n.predict s B r x * x j c) =
        weight r.dev * n.predict s B r x * (∑ j ∈ B, ∑ c ∈ Finset.range 2, n.hjac s r j c * x j c) := by
      rw [Finset.mul_sum]
      refine Finset.sum_congr rfl fun j' _ => ?_
      rw [Finset.mul_sum]
      refine Finset.sum_congr rfl fun c' _ => ?_
      ring
    rw [this]
    change _ * n.predict s B r x = _
    ring
  rw [h1]
  have hnn : ∀ y ∈ rows.map (fun r => weight r.dev * n.predict s B r x ^ 2), 0 ≤ y := by
    intro y hy
    obtain ⟨r, _, rfl⟩ := List.mem_map.mp hy
    exact mul_nonneg (weight_nonneg _) (sq_nonneg _)
  refine ⟨by have := List.sum_nonneg hnn; linarith, ?_⟩
  intro h0 r hr hdev
  have hle := List.single_le_sum hnn _ (List.mem_map_of_mem hr)
  have hz : weight r.dev * n.predict s B r x ^ 2 = 0 :=
    le_antisymm (by linarith) (mul_nonneg (weight_nonneg _) (sq_nonneg _))
  rcases mul_eq_zero.mp hz with h | h
  · rw [weight_eq, if_neg hdev] at h
    have : r.dev ^ 2 ≠ 0 := pow_ne_zero 2 hdev
    exact absurd h (by positivity)
  · exact pow_eq_zero_iff (by norm_num) |>.mp h

/-- Both measurements of the example network are good rows, at every state. -/
example (s : State) : ∀ r ∈ [Row.bus 1 0 ⟨.PI, 1, 1⟩, Row.bus 1 1 ⟨.VM, 1, 2⟩],
    (exNet false).GoodRow s r ∧ (exNet false).Within {0, 1} r := by
  intro r hr
  simp only [List.mem_cons, List.not_mem_nil, or_false] at hr
  rcases hr with rfl | rfl <;>
    simp [Net.GoodRow, Net.Within, exNet, Net.neighbors, Branch.ok, Branch.far]

/-- A flow measurement on a line is a good row too. -/
example (s : State) :
    let e : Branch := ⟨0, 1, -2, 3, -2, 3, true, [⟨['1'], 1, 2, 0, 0, 0⟩], [⟨.QIJ, ['1'], 1, 1⟩]⟩
    (exNet false).GoodRow s (.branch e 0 ⟨.QIJ, ['1'], 1, 1⟩) := by
  simp [Net.GoodRow, exNet, Branch.ok]

theorem loop_spec {S : Type} (tolerance : ℝ) (step : S → S × ℝ) (k : Nat) : ∀ (tol : ℝ) (s : S),
    (loop tolerance step k tol s).2.1 ≤ k ∧
    (loop tolerance step k tol s).1 = (fun s => (step s).1)^[k - (loop tolerance step k tol s).2.1] s ∧
    (0 < (loop tolerance step k tol s).2.1 → (loop tolerance step k tol s).2.2 ≤ tolerance) ∧
    (∀ i, i < k - (loop tolerance step k tol s).2.1 → 0 < i →
      tolerance < (step ((fun s => (step s).1)^[i - 1] s)).2) := by
  induction k with
  | zero =>
    intro tol s
    refine ⟨le_rfl, rfl, fun h => absurd h (by simp [loop]), fun i hi => by omega⟩
  | succ k ih =>
    intro tol s
    unfold loop
    by_cases h : tol > tolerance
    · rw [if_pos h]
      obtain ⟨a, b, c, d⟩ := ih (step s).2 (step s).1
      generalize hr : loop tolerance step k (step s).2 (step s).1 = r at a b c d
      have e : k + 1 - r.2.1 = (k - r.2.1) + 1 := by omega
      refine ⟨by omega, ?_, c, ?_⟩
      · rw [e, Function.iterate_succ_apply]; exact b
      · intro i hi hi0
        rw [e] at hi
        by_cases h1 : i = 1
        · subst h1
          simp only [Nat.sub_self, Function.iterate_zero, id]
          by_contra hle
          cases k with
          | zero => omega
          | succ k =>
            unfold loop at hr
            rw [if_neg hle] at hr
            have : r.2.1 = k + 1 := by rw [← hr]
            omega
        · have := d (i - 1) (by omega) (by omega)
          rw [← Function.iterate_succ_apply] at this
          have e2 : (i - 1 - 1).succ = i - 1 := by omega
          rwa [e2] at this
    · rw [if_neg h]
      refine ⟨le_rfl, by simp, fun _ => not_lt.mp h, ?_⟩
      intro i hi
      simp at hi

/-- C131, passes.  For every problem: the estimate is obtained by p ≤ maxIter passes from the start, p = maxIter
unless the last correction was at most the tolerance, and no earlier correction was; with a positive tolerance
and maxIter > 0 there is at least one pass. -/
theorem C131_passes {S : Type} (tolerance : ℝ) (maxIter : Nat) (step : S → S × ℝ) (s : S) (ht : 0 < tolerance) :
    ∃ p, p ≤ maxIter ∧ (0 < maxIter → 0 < p) ∧
      (solve tolerance maxIter step s).1 = (fun s => (step s).1)^[p] s ∧
      (p < maxIter → (step ((fun s => (step s).1)^[p - 1] s)).2 ≤ tolerance) ∧
      ∀ i, 0 < i → i < p → tolerance < (step ((fun s => (step s).1)^[i - 1] s)).2 := by
  unfold solve
  cases maxIter with
  | zero => exact ⟨0, le_rfl, fun h => h, rfl, by omega, by omega⟩
  | succ k =>
    obtain ⟨a, b, c, d⟩ := loop_spec tolerance step k (step s).2 (step s).1
    have hunf : loop tolerance step (k + 1) (2 * tolerance) s = loop tolerance step k (step s).2 (step s).1 := by
      conv_lhs => unfold loop
      rw [if_pos (by linarith)]
    have hfull := loop_spec tolerance step (k + 1) (2 * tolerance) s
    rw [hunf] at hfull ⊢
    -- norm of the last pass
    have hlast : ∀ (k : Nat) (s : S), 0 < (loop tolerance step k (step s).2 (step s).1).2.1 →
        (step ((fun s => (step s).1)^[k - (loop tolerance step k (step s).2 (step s).1).2.1] s)).2 ≤
          tolerance := by
      intro k
      induction k with
      | zero => intro s h; simp [loop] at h
      | succ k ih =>
        intro s h
        by_cases hgt : (step s).2 > tolerance
        · have e : loop tolerance step (k + 1) (step s).2 (step s).1 =
              loop tolerance step k (step (step s).1).2 (step (step s).1).1 := by
            conv_lhs => unfold loop
            rw [if_pos hgt]
          rw [e] at h ⊢
          have h1 := ih (step s).1 h
          have h2 := (loop_spec tolerance step k (step (step s).1).2 (step (step s).1).1).1
          rw [show k + 1 - (loop tolerance step k (step (step s).1).2 (step (step s).1).1).2.1 =
            (k - (loop tolerance step k (step (step s).1).2 (step (step s).1).1).2.1) + 1 by omega,
            Function.iterate_succ_apply]
          exact h1
        · have e : loop tolerance step (k + 1) (step s).2 (step s).1 = ((step s).1, k + 1, (step s).2) := by
            conv_lhs => unfold loop
            rw [if_neg hgt]
          rw [e]
          simpa using hgt
    refine ⟨k + 1 - (loop tolerance step k (step s).2 (step s).1).2.1, by omega, fun _ => by omega, hfull.2.1, ?_,
      fun i h0 hi => hfull.2.2.2 i hi h0⟩
    intro hp
    have h := hlast k s (by omega)
    rw [show k + 1 - (loop tolerance step k (step s).2 (step s).1).2.1 - 1 =
      k - (loop tolerance step k (step s).2 (step s).1).2.1 by omega]
    exact h

/-- C131 is violated by a tolerance of zero ("iterate as long as allowed"): no pass at all is made, for every
problem. -/
theorem C131_zero_tolerance_violated {S : Type} (tolerance : ℝ) (h : tolerance ≤ 0) (maxIter : Nat)
    (step : S → S × ℝ) (s : S) : (solve tolerance maxIter step s).1 = s := by
  unfold solve
  cases maxIter with
  | zero => rfl
  | succ k =>
    unfold loop
    rw [if_neg (by linarith)]

/-! ### C132 -/

/-- C132.  A measurement with a larger deviation weighs less; the weight is 1/σ². -/
theorem C132_weight_partial (σ σ' : ℝ) (h : 0 < σ) (h' : σ < σ') :
    weight σ = (σ ^ 2)⁻¹ ∧ 0 < weight σ' ∧ weight σ' < weight σ ∧
    rinvValues true [σ, σ'] = [(σ ^ 2)⁻¹, (σ' ^ 2)⁻¹] := by
  have e : ∀ x : ℝ, 0 < x → weight x = (x ^ 2)⁻¹ := by
    intro x hx
    rw [weight_eq, if_neg hx.ne', one_div]
  have h2 : 0 < σ' := h.trans h'
  refine ⟨e σ h, ?_, ?_, by simp [rinvValues, e σ h, e σ' h2]⟩
  · rw [e σ' h2]; positivity
  · rw [e σ h, e σ' h2]
    exact inv_strictAnti₀ (by positivity) (by nlinarith)

/-- C132 is violated by an exact measurement (deviation 0): it weighs less than every other measurement — its
row adds nothing to the right-hand side and nothing to the gain matrix, whatever its value. -/
theorem C132_exact_measurement_violated (n : Net) (s : State) (w : ℝ × ℝ) (r : Row) (h : r.dev = 0) (σ : ℝ)
    (hσ : σ ≠ 0) (rows : List Row) :
    weight r.dev < weight σ ∧ (∀ j c, n.rhs s w (r :: rows) j c = n.rhs s w rows j c) ∧
    ∀ j c j' c', n.gain s (r :: rows) j c j' c' = n.gain s rows j c j' c' := by
  have h0 : weight r.dev = 0 := by rw [weight_eq, if_pos h]
  refine ⟨?_, ?_, ?_⟩
  · rw [h0, weight_eq, if_neg hσ]; positivity
  · intro j c; simp [Net.rhs, h0]
  · intro j c j' c'; simp [Net.gain, h0]

/-! ### C133 -/

theorem loadGens_qmin (ds : List GenData) : (loadGens ds).qmin = [] := by
  unfold loadGens
  suffices h : ∀ g : Gens, g.qmin = [] → (ds.foldl Gens.push g).qmin = [] from h _ rfl
  induction ds with
  | nil => exact fun g h => h
  | cons d ds ih => exact fun g h => ih _ h

/-- C133 is violated by every case: no generator result is ever stored, however many generators the bus has. -/
theorem C133_violated (ds : List GenData) (qinj ql sbase : ℝ) : (loadGens ds).saved qinj ql sbase = [] := by
  unfold Gens.saved
  rw [loadGens_qmin]
  rfl

end GridPACK.StateEst
