import Verif.Spec.NetworkClone
import Verif.Props.NetworkLookup

/-! C259–C261: copy of a network, connected buses, reference bus. -/
namespace GridPACK.NetworkClone

variable {δ : Type}

theorem modify_last {α : Type} (l : List α) (x : α) (f : α → α) : (l ++ [x]).modify l.length f = l ++ [f x] := by
  induction l with
  | nil => rfl
  | cons a t ih => simpa using ih

theorem foldl_nbrs (l : List Int) : ∀ (n : Net δ) (i : Nat) (bs : List (Bus δ)) (c : Bus δ),
    n.buses = bs ++ [c] → bs.length = i →
    l.foldl (fun n j => n.modBus i (fun c => { c with nbrs := c.nbrs ++ [j] })) n =
      { n with buses := bs ++ [{ c with nbrs := c.nbrs ++ l }] } := by
  induction l with
  | nil =>
    intro n i bs c h _
    cases n; simp at h ⊢; exact h
  | cons j t ih =>
    intro n i bs c h hi
    rw [List.foldl_cons, ih (n.modBus i _) i bs { c with nbrs := c.nbrs ++ [j] } _ hi]
    · simp [Net.modBus]
    · simp only [Net.modBus, h, ← hi]
      exact modify_last bs c _

theorem cloneBus_eq (src : Net δ) (e : δ) (n : Net δ) (i : Nat) (b : Bus δ) (hb : src.buses[i]? = some b)
    (hn : n.buses.length = i) :
    cloneBus src e n i = some { n with buses := n.buses ++ [{ b with refFlag := false }] } := by
  unfold cloneBus
  simp only [hb, Option.bind_eq_bind, Option.bind_some, Option.pure_def, Option.some.injEq]
  rw [foldl_nbrs b.nbrs _ i n.buses ⟨b.active, b.orig, b.gid, [], b.data, false⟩ _ hn]
  · simp [Net.modBus, Net.addBus]
  · simp only [Net.modBus, Net.addBus, ← hn, modify_last]

theorem cloneBuses_eq (src : Net δ) (e : δ) (n : Net δ) (hn : n.buses = []) : ∀ k, k ≤ src.buses.length →
    (List.range k).foldlM (cloneBus src e) n =
      some { n with buses := (src.buses.take k).map (fun b => { b with refFlag := false }) } := by
  intro k
  induction k with
  | zero => intro _; cases n; simp at hn ⊢; exact hn
  | succ k ih =>
    intro hk
    have hk' : k < src.buses.length := by omega
    rw [List.range_succ, List.foldlM_append, ih (by omega)]
    simp only [Option.bind_eq_bind, Option.bind_some, List.foldlM_cons, List.foldlM_nil]
    rw [cloneBus_eq src e _ k src.buses[k] (by simp [hk']) (by simp; omega)]
    rw [List.take_add_one, List.getElem?_eq_getElem hk']
    simp only [Option.toList_some, List.map_append, List.map_cons, List.map_nil, Option.pure_def, Option.bind_some]

theorem cloneBranch_eq (src : Net δ) (e : δ) (n : Net δ) (i : Nat) (b : Branch δ) (hb : src.branches[i]? = some b)
    (hn : n.branches.length = i) (h1 : src.getGlobalBusIndex b.l1 = some b.g1)
    (h2 : src.getGlobalBusIndex b.l2 = some b.g2) :
    cloneBranch src e n i = some { n with branches := n.branches ++ [b] } := by
  unfold cloneBranch
  rw [hb]
  simp only [h1, h2, Option.bind_eq_bind, Option.bind_some, Option.pure_def,
    Net.modBranch, Net.addBranch, ← hn, modify_last]

theorem global_of_partitioned (src : Net δ) (hp : src.Partitioned) (b : Branch δ) (hb : b ∈ src.branches) :
    src.getGlobalBusIndex b.l1 = some b.g1 ∧ src.getGlobalBusIndex b.l2 = some b.g2 := by
  obtain ⟨⟨c, h0, hc, hg⟩, ⟨c', h0', hc', hg'⟩⟩ := hp b hb
  constructor
  · unfold Net.getGlobalBusIndex
    rw [if_neg (by omega), hc]; simp [hg]
  · unfold Net.getGlobalBusIndex
    rw [if_neg (by omega), hc']; simp [hg']

theorem cloneBranches_eq (src : Net δ) (hp : src.Partitioned) (e : δ) (n : Net δ) (hn : n.branches = []) :
    ∀ k, k ≤ src.branches.length →
    (List.range k).foldlM (cloneBranch src e) n = some { n with branches := src.branches.take k } := by
  intro k
  induction k with
  | zero => intro _; cases n; simp at hn ⊢; exact hn
  | succ k ih =>
    intro hk
    have hk' : k < src.branches.length := by omega
    rw [List.range_succ, List.foldlM_append, ih (by omega)]
    simp only [Option.bind_eq_bind, Option.bind_some, List.foldlM_cons, List.foldlM_nil]
    obtain ⟨g1, g2⟩ := global_of_partitioned src hp src.branches[k] (List.getElem_mem hk')
    rw [cloneBranch_eq src e _ k src.branches[k] (by simp [hk']) (by simp; omega) g1 g2]
    rw [List.take_add_one]
    simp [hk']

/-- The buses of the copy. -/
def cloned (src : Net δ) : List (Bus δ) :=
  src.buses.mapIdx (fun i b => { b with refFlag := decide (src.refBus = (i : Int)) })

theorem ref_eq (src n : Net δ) (hb : n.buses = src.buses.map (fun b => { b with refFlag := false }))
    (hr : n.refBus = -1) :
    (if src.refBus ≠ -1 then n.setReferenceBus src.refBus else n) =
      { n with buses := cloned src, refBus := src.refBus } := by
  have base : (∀ i : Nat, i < src.buses.length → src.refBus ≠ (i : Int)) → cloned src = n.buses := by
    intro h
    rw [hb]
    apply List.ext_getElem?
    intro i
    simp only [cloned, List.getElem?_mapIdx, List.getElem?_map]
    by_cases hi : i < src.buses.length
    · simp [hi, h i hi]
    · simp [List.getElem?_eq_none (Nat.le_of_not_lt hi)]
  by_cases h : src.refBus ≠ -1
  · rw [if_pos h]
    unfold Net.setReferenceBus
    simp only []
    by_cases hv : 0 ≤ src.refBus ∧ src.refBus < n.buses.length
    · rw [if_pos hv]
      simp only [Net.modBus, hb]
      congr 1
      apply List.ext_getElem?
      intro i
      simp only [cloned, List.getElem?_mapIdx, List.getElem?_modify, List.getElem?_map]
      by_cases hi : i < src.buses.length
      · by_cases he : src.refBus.toNat = i
        · have : src.refBus = (i : Int) := by omega
          simp [hi, this]
        · have : src.refBus ≠ (i : Int) := by omega
          simp [hi, he, this]
      · simp [List.getElem?_eq_none (Nat.le_of_not_lt hi)]
    · rw [if_neg hv, base]
      intro i hi he
      apply hv
      rw [hb]; simp; omega
  · have h' : src.refBus = -1 := by simpa using h
    rw [if_neg h, base (by intro i _; omega), h', ← hr]

theorem clone_eq (src : Net δ) (e : δ) (new : Net δ) (hp : src.Partitioned) :
    clone src e new = some (Net.setMap ⟨cloned src, src.branches, src.refBus, src.netData, new.busMap,
      new.branchMap⟩) := by
  unfold clone
  rw [cloneBuses_eq src e new.clear rfl _ (le_refl _)]
  simp only [Option.bind_eq_bind, Option.bind_some, List.take_length]
  rw [ref_eq src _ rfl rfl, cloneBranches_eq src hp e _ rfl _ (le_refl _)]
  simp [Net.clear]

/-- C259.  The copy of a partitioned network has the same buses, branches, reference bus and data, and finds buses by
number; what the target held before does not matter. -/
theorem C259_clone (src : Net δ) (e : δ) (new : Net δ) (hp : src.Partitioned) :
    ∃ r, clone src e new = some r ∧
      r.buses.length = src.buses.length ∧
      (∀ (i : Nat) b, src.buses[i]? = some b → ∃ c, r.buses[i]? = some c ∧ b.Same c ∧
        (c.refFlag = true ↔ src.refBus = i)) ∧
      r.branches = src.branches ∧ r.refBus = src.refBus ∧ r.netData = src.netData ∧
      (∀ q, r.getLocalBusIndices q =
        (List.range src.buses.length).filter (fun i => decide ((src.buses[i]?).map (·.orig) = some q))) ∧
      (∀ i, r.getConnectedBuses i = src.getConnectedBuses i) ∧
      r.Partitioned ∧ (∀ new', clone src e new' = some r) := by
  have horig : (cloned src).map (·.orig) = src.buses.map (·.orig) := by
    apply List.ext_getElem?
    intro i
    simp only [cloned, List.getElem?_map, List.getElem?_mapIdx]
    cases src.buses[i]? <;> rfl
  have hget : ∀ (i : Nat) b, src.buses[i]? = some b →
      (cloned src)[i]? = some { b with refFlag := decide (src.refBus = (i : Int)) } := by
    intro i b hb
    simp [cloned, List.getElem?_mapIdx, hb]
  refine ⟨_, clone_eq src e new hp, ?_, ?_, rfl, rfl, rfl, ?_, ?_, ?_, ?_⟩
  · simp [Net.setMap, cloned]
  · intro i b hb
    exact ⟨_, hget i b hb, ⟨rfl, rfl, rfl, rfl, rfl⟩, by simp⟩
  · intro q
    have h := NetworkLookup.C18_bus_lookup
      ⟨(cloned src).map (·.orig), src.branches.map (fun b => (b.o1, b.o2)), new.busMap, new.branchMap⟩ q
    rw [horig] at h
    simp only [Net.getLocalBusIndices, Net.setMap]
    simp only [NetworkLookup.getLocalBusIndices] at h
    rw [horig, h]
    simp
  · intro i
    unfold Net.getConnectedBuses
    simp only [Net.setMap]
    cases hb : src.buses[i]? with
    | none =>
      have : (cloned src)[i]? = none := by simp [cloned, List.getElem?_mapIdx, hb]
      simp [this]
    | some b => simp [hget i b hb]
  · intro b hb
    obtain ⟨⟨c, h0, hc, hg⟩, ⟨c', h0', hc', hg'⟩⟩ := hp b hb
    exact ⟨⟨_, h0, hget _ _ hc, hg⟩, ⟨_, h0', hget _ _ hc', hg'⟩⟩
  · intro new'
    rw [clone_eq src e new' hp]
    rfl

example : ∃ n : Net Nat, n.Partitioned ∧ n.branches.length = 1 ∧ n.refBus = 1 := by
  refine ⟨⟨[⟨true, 7, 0, [0], 5, false⟩, ⟨false, 9, 1, [0], 6, true⟩], [⟨true, 0, 7, 9, 0, 1, 0, 1, 8⟩], 1, 0, [], []⟩,
    ?_, rfl, rfl⟩
  intro b hb
  simp only [List.mem_singleton] at hb
  subst hb
  exact ⟨⟨_, by decide, rfl, rfl⟩, ⟨_, by decide, rfl, rfl⟩⟩

/-- C260.  The buses connected to a bus are the other ends of its branches, one for each branch. -/
theorem C260_connected (n : Net δ) (hn : n.NeighborsOk) (i : Nat) (b : Bus δ) (hb : n.buses[i]? = some b) :
    ∃ r, n.getConnectedBuses i = some r ∧ r.length = b.nbrs.length ∧
      ∀ (k : Nat) j, b.nbrs[k]? = some j → ∃ br o, n.branches[j.toNat]? = some br ∧ r[k]? = some o ∧
        ((br.l1 = i ∧ br.l2 = o) ∨ (br.l2 = i ∧ br.l1 = o)) := by
  have key : ∀ l : List Int, (∀ j ∈ l, 0 ≤ j ∧ ∃ br, n.branches[j.toNat]? = some br ∧ (br.l1 = i ∨ br.l2 = i)) →
      ∃ r, l.mapM (fun j => do
        let br ← if j < 0 then none else n.branches[j.toNat]?
        pure (if br.l1 ≠ (i : Int) then br.l1 else br.l2)) = some r ∧ r.length = l.length ∧
      ∀ (k : Nat) j, l[k]? = some j → ∃ br o, n.branches[j.toNat]? = some br ∧ r[k]? = some o ∧
        ((br.l1 = i ∧ br.l2 = o) ∨ (br.l2 = i ∧ br.l1 = o)) := by
    intro l
    induction l with
    | nil => intro _; exact ⟨[], rfl, rfl, by simp⟩
    | cons a t ih =>
      intro h
      obtain ⟨r, hr, hl, hk⟩ := ih (fun j hj => h j (by simp [hj]))
      obtain ⟨h0, br, hbr, hend⟩ := h a (by simp)
      refine ⟨(if br.l1 ≠ (i : Int) then br.l1 else br.l2) :: r, ?_, by simp [hl], ?_⟩
      · rw [List.mapM_cons, hr, if_neg (by omega), hbr]
        rfl
      · intro k j hj
        cases k with
        | zero =>
          simp only [List.getElem?_cons_zero, Option.some.injEq] at hj
          subst hj
          refine ⟨br, _, hbr, rfl, ?_⟩
          by_cases he : br.l1 = (i : Int)
          · left; simp [he]
          · right
            rcases hend with h1 | h1
            · exact absurd h1 he
            · simp [he, h1]
        | succ k =>
          simpa using hk k j (by simpa using hj)
  obtain ⟨r, hr, hl, hk⟩ := key b.nbrs (hn i b hb)
  refine ⟨r, ?_, hl, hk⟩
  unfold Net.getConnectedBuses
  rw [hb]
  exact hr

example : (⟨[⟨true, 7, 0, [0], 5, false⟩, ⟨true, 9, 1, [0], 6, true⟩], [⟨true, 0, 7, 9, 0, 1, 0, 1, 8⟩], 1, 0, [], []⟩
    : Net Nat).NeighborsOk := by
  intro i b hb j hj
  match i with
  | 0 =>
    simp only [List.getElem?_cons_zero, Option.some.injEq] at hb
    subst hb
    simp only [List.mem_singleton] at hj
    subst hj
    exact ⟨by decide, _, rfl, Or.inl rfl⟩
  | 1 =>
    simp only [List.getElem?_cons_succ, List.getElem?_cons_zero, Option.some.injEq] at hb
    subst hb
    simp only [List.mem_singleton] at hj
    subst hj
    exact ⟨by decide, _, rfl, Or.inr rfl⟩
  | k + 2 => simp at hb

/-- C261.  A legal reference bus is the one returned, and its bus is marked. -/
theorem C261_reference_partial (n : Net δ) (i : Nat) (b : Bus δ) (hb : n.buses[i]? = some b) :
    (n.setReferenceBus i).refBus = i ∧
      (n.setReferenceBus i).buses[i]? = some { b with refFlag := true } ∧
      ∀ (k : Nat), k ≠ i → (n.setReferenceBus i).buses[k]? = n.buses[k]? := by
  have hi : i < n.buses.length := (List.getElem?_eq_some_iff.mp hb).1
  unfold Net.setReferenceBus
  simp only []
  rw [if_pos ⟨by omega, by exact_mod_cast hi⟩]
  refine ⟨rfl, ?_, ?_⟩
  · simp [Net.modBus, hb]
  · intro k hk
    have : ¬ i = k := fun h => hk h.symm
    simp [Net.modBus, this]

/-- C261 fails for an illegal index: it is reported as an error but then returned as the reference bus, although it
is neither -1 nor the index of a bus. -/
theorem C261_illegal_violated (n : Net δ) (idx : Int) (h : ¬ (0 ≤ idx ∧ idx < n.buses.length)) (h1 : idx ≠ -1) :
    (n.setReferenceBus idx).refBus ≠ -1 ∧
      ¬ (0 ≤ (n.setReferenceBus idx).refBus ∧ (n.setReferenceBus idx).refBus < (n.setReferenceBus idx).buses.length) := by
  unfold Net.setReferenceBus
  simp only []
  rw [if_neg h]
  exact ⟨h1, h⟩

example : ¬ (0 ≤ (2 : Int) ∧ (2 : Int) < ([] : List (Bus Nat)).length) ∧ (2 : Int) ≠ -1 := by decide

end GridPACK.NetworkClone
