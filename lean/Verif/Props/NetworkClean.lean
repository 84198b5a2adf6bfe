import Verif.Model.NetworkClean
import Mathlib.Data.List.Induction

/-! Property C15: `clean()` removes exactly the ghosts and keeps the network consistent. -/
namespace GridPACK.NetworkClean

variable {α β γ : Type}

theorem find_append (m : List (Int × Int)) (a b k : Int) :
    find (m ++ [(a, b)]) k = match find m k with
      | some v => some v
      | none => if a = k then some b else none := by
  unfold find
  rw [List.find?_append]
  cases h : m.find? (fun e => decide (e.1 = k)) with
  | some v => simp
  | none => by_cases hk : a = k <;> simp [hk]

/-- What the index map must answer for `i`, when only the first `k` elements were considered. -/
def mapsTo (act : α → Bool) (l : List α) (k : Nat) (i : Int) : Option Int :=
  if 0 ≤ i ∧ i.toNat < k then
    match l[i.toNat]? with
    | some x => if act x then some (((l.take i.toNat).countP act : Nat) : Int) else none
    | none => none
  else none

theorem compact_inv (act : α → Bool) (l : List α) (k : Nat) (hk : k ≤ l.length) :
    let st := (List.range k).foldl (compactStep act) (l, 0, [])
    st.1.length = l.length ∧ st.2.1 = (l.take k).countP act ∧
      st.1.take st.2.1 = (l.take k).filter act ∧ (∀ j, k ≤ j → st.1[j]? = l[j]?) ∧
      ∀ i, find st.2.2 i = mapsTo act l k i := by
  induction k with
  | zero =>
    refine ⟨rfl, by simp, by simp, fun _ _ => rfl, ?_⟩
    intro i
    unfold mapsTo
    simp [find]
  | succ k ih =>
    obtain ⟨h1, h2, h3, h4, h5⟩ := ih (by omega)
    simp only [List.range_succ, List.foldl_append, List.foldl_cons, List.foldl_nil]
    generalize hst : (List.range k).foldl (compactStep act) (l, 0, []) = st at h1 h2 h3 h4 h5
    have hlt : k < l.length := by omega
    have hget : st.1[k]? = some l[k] := by rw [h4 k (by omega)]; exact List.getElem?_eq_getElem hlt
    have htake : l.take (k + 1) = l.take k ++ [l[k]] := by
      rw [List.take_add_one, List.getElem?_eq_getElem hlt]; rfl
    have hle : st.2.1 ≤ k := by
      rw [h2]
      exact Nat.le_trans List.countP_le_length (by rw [List.length_take]; omega)
    have hmap_same : ∀ i, (i ≠ (k : Int) ∨ act l[k] = false) →
        mapsTo act l (k + 1) i = mapsTo act l k i := by
      intro i hi
      unfold mapsTo
      by_cases hc : 0 ≤ i ∧ i.toNat < k
      · rw [if_pos hc, if_pos ⟨hc.1, by omega⟩]
      · rw [if_neg hc]
        by_cases hc' : 0 ≤ i ∧ i.toNat < k + 1
        · have he : i.toNat = k := by omega
          rw [if_pos hc', he, List.getElem?_eq_getElem hlt]
          rcases hi with hi | hi
          · exact absurd (by omega) hi
          · simp [hi]
        · rw [if_neg hc']
    unfold compactStep
    rw [hget]
    simp only
    by_cases ha : act l[k] = true
    · rw [if_pos ha]
      refine ⟨by simp [h1], ?_, ?_, ?_, ?_⟩
      · show st.2.1 + 1 = _
        rw [htake, List.countP_append, h2]
        simp [ha]
      · show (st.1.set st.2.1 l[k]).take (st.2.1 + 1) = _
        rw [htake, List.filter_append, ← h3]
        have hlt2 : st.2.1 < st.1.length := by omega
        rw [List.take_add_one, List.getElem?_set_self hlt2, List.take_set_of_le (Nat.le_refl _)]
        simp [ha]
      · intro j hj
        show (st.1.set st.2.1 l[k])[j]? = _
        rw [List.getElem?_set_ne (by omega)]
        exact h4 j (by omega)
      · intro i
        show find (st.2.2 ++ [((k : Int), (st.2.1 : Int))]) i = _
        rw [find_append, h5]
        by_cases hi : i = (k : Int)
        · have e1 : mapsTo act l k i = none := by
            unfold mapsTo; rw [if_neg (by omega)]
          rw [e1]
          simp only
          rw [if_pos hi.symm]
          unfold mapsTo
          have hik : i.toNat = k := by omega
          rw [if_pos (by omega), hik, List.getElem?_eq_getElem hlt]
          simp [ha, h2]
        · rw [hmap_same i (.inl hi), if_neg (Ne.symm hi)]
          cases mapsTo act l k i <;> rfl
    · rw [if_neg ha]
      have ha' : act l[k] = false := by simpa using ha
      refine ⟨h1, ?_, ?_, fun j hj => h4 j (by omega), ?_⟩
      · rw [htake, List.countP_append, h2]; simp [ha']
      · rw [htake, List.filter_append, ← h3]; simp [ha']
      · intro i
        rw [hmap_same i (.inr ha'), h5]

theorem compact_fst (act : α → Bool) (l : List α) : (compact act l).1 = l.filter act := by
  obtain ⟨h1, h2, h3, _, _⟩ := compact_inv act l l.length (Nat.le_refl _)
  unfold compact
  simp only
  rw [List.take_length] at h2 h3
  have hle : l.countP act ≤ l.length := List.countP_le_length
  rw [show l.length - (l.length - ((List.range l.length).foldl (compactStep act) (l, 0, [])).2.1)
    = ((List.range l.length).foldl (compactStep act) (l, 0, [])).2.1 by rw [h2]; omega, h3]

theorem compact_snd (act : α → Bool) (l : List α) (i : Int) :
    find (compact act l).2 i = mapsTo act l l.length i := by
  obtain ⟨_, _, _, _, h5⟩ := compact_inv act l l.length (Nat.le_refl _)
  exact h5 i

/-- The element kept from position `i` is found at its new position. -/
theorem filter_getElem (act : α → Bool) (l : List α) (i : Nat) (x : α) (h : l[i]? = some x)
    (hx : act x = true) : (l.filter act)[(l.take i).countP act]? = some x := by
  induction l generalizing i with
  | nil => simp at h
  | cons y l ih =>
    cases i with
    | zero =>
      simp only [List.getElem?_cons_zero, Option.some.injEq] at h
      subst h
      rw [List.filter_cons, if_pos hx]; simp
    | succ i =>
      rw [List.getElem?_cons_succ] at h
      rw [List.take_succ_cons, List.countP_cons, List.filter_cons]
      by_cases hy : act y = true
      · rw [if_pos hy, if_pos hy, List.getElem?_cons_succ]; exact ih i h
      · rw [if_neg hy, if_neg hy]; exact ih i h

theorem mapsTo_some (act : α → Bool) (l : List α) (i : Int) (v : Int)
    (h : mapsTo act l l.length i = some v) :
    ∃ x, 0 ≤ i ∧ 0 ≤ v ∧ l[i.toNat]? = some x ∧ act x = true ∧
      (l.filter act)[v.toNat]? = some x := by
  unfold mapsTo at h
  split at h
  · rename_i hi
    split at h
    · rename_i x hx
      split at h
      · rename_i ha
        simp only [Option.some.injEq] at h
        refine ⟨x, hi.1, by omega, hx, ha, ?_⟩
        rw [← h, Int.toNat_natCast]
        exact filter_getElem act l _ x hx ha
      · cases h
    · cases h
  · cases h

theorem mapsTo_none (act : α → Bool) (l : List α) (i : Int)
    (h : mapsTo act l l.length i = none) (hi : 0 ≤ i) : ∀ x, l[i.toNat]? = some x →
      act x = false := by
  intro x hx
  have hlt : i.toNat < l.length := by
    rw [List.getElem?_eq_some_iff] at hx; exact hx.1
  unfold mapsTo at h
  rw [if_pos ⟨hi, hlt⟩, hx] at h
  simp only at h
  by_contra hc
  rw [if_pos (by simpa using hc)] at h
  cases h

/-- Everything that identifies a bus, as opposed to where its neighbours are stored. -/
def BusRec.ident (b : BusRec β) : Int × Int × β := (b.orig, b.gid, b.data)

/-- Everything that identifies a branch. -/
def BranchRec.ident (b : BranchRec γ) : Int × Int × Int × γ := (b.o1, b.o2, b.gid, b.data)

/-- Local index `i` in the old bus list and local index `j` in the new one denote the same, owned,
bus. -/
def SameOwnedBus (old new : Net β γ) (i j : Int) : Prop :=
  ∃ b b', 0 ≤ i ∧ 0 ≤ j ∧ old.buses[i.toNat]? = some b ∧ new.buses[j.toNat]? = some b' ∧
    b.active = true ∧ b'.ident = b.ident

/-- The new end `j` of a branch is right for the old end `i`: the same bus if it is owned, `-1`
if it was a ghost (or there was no such bus). -/
def EndKept (old new : Net β γ) (i j : Int) : Prop :=
  SameOwnedBus old new i j ∨
    (j = -1 ∧ ¬ ∃ b, 0 ≤ i ∧ old.buses[i.toNat]? = some b ∧ b.active = true)

/-- Branch records at the given local indices. -/
def branchesAt (net : Net β γ) (is : List Int) : List (Option (Int × Int × Int × γ)) :=
  is.map (fun i => (net.branches[i.toNat]?).map BranchRec.ident)

/-- The indices in `is` that denote owned branches. -/
def ownedOnly (net : Net β γ) (is : List Int) : List Int :=
  is.filter (fun i => decide (0 ≤ i) && ((net.branches[i.toNat]?).map (·.active)).getD false)

/-- C15.  For every pattern of active flags, after `clean()`:
1. exactly the owned buses remain, in order, with number, global index and data;
2. exactly the owned branches remain, in order, with their numbers and data;
3. both ends of every branch refer to the same bus as before if it is owned, else are `-1`;
4. the neighbour list of every bus consists of the owned ones among its old neighbours;
5. a reference bus that is owned (or undefined) stays the same bus (or undefined).
The missing part is a reference bus that is a ghost: see `C15_reference_bus_violated`. -/
theorem C15_clean_partial (net : Net β γ) :
    (clean net).buses.map BusRec.ident = (net.buses.filter (·.active)).map BusRec.ident ∧
    (∀ b ∈ (clean net).buses, b.active = true) ∧
    (clean net).branches.map BranchRec.ident =
      (net.branches.filter (·.active)).map BranchRec.ident ∧
    (∀ b ∈ (clean net).branches, b.active = true) ∧
    (∀ (k : Nat) (b b' : BranchRec γ), (net.branches.filter (·.active))[k]? = some b → (clean net).branches[k]? = some b' →
      EndKept net (clean net) b.l1 b'.l1 ∧ EndKept net (clean net) b.l2 b'.l2) ∧
    (∀ (k : Nat) (b b' : BusRec β), (net.buses.filter (·.active))[k]? = some b → (clean net).buses[k]? = some b' →
      branchesAt (clean net) b'.nbrs = branchesAt net (ownedOnly net b.nbrs)) ∧
    (net.refBus = -1 → (clean net).refBus = -1) ∧
    (∀ b, 0 ≤ net.refBus → net.buses[net.refBus.toNat]? = some b → b.active = true →
      SameOwnedBus net (clean net) net.refBus (clean net).refBus) := by
  have hbu : (clean net).buses = (net.buses.filter (·.active)).map
      (renumber (compact (·.active) net.branches).2) := by
    unfold clean; simp only [compact_fst]
  have hbr : (clean net).branches = (net.branches.filter (·.active)).map
      (relocate (compact (·.active) net.buses).2) := by
    unfold clean; simp only [compact_fst]
  have hsame : ∀ i v, find (compact (·.active) net.buses).2 i = some v →
      SameOwnedBus net (clean net) i v := by
    intro i v h
    rw [compact_snd] at h
    obtain ⟨x, h1, h2, h3, h4, h5⟩ := mapsTo_some _ _ _ _ h
    refine ⟨x, renumber (compact (·.active) net.branches).2 x, h1, h2, h3, ?_, h4, rfl⟩
    rw [hbu, List.getElem?_map, h5]; rfl
  have hend : ∀ i, EndKept net (clean net) i ((find (compact (·.active) net.buses).2 i).getD (-1)) := by
    intro i
    cases h : find (compact (·.active) net.buses).2 i with
    | some v => exact .inl (hsame i v h)
    | none =>
      right
      refine ⟨rfl, ?_⟩
      rintro ⟨b, h1, h2, h3⟩
      rw [compact_snd] at h
      rw [mapsTo_none _ _ _ h h1 b h2] at h3
      cases h3
  refine ⟨?_, ?_, ?_, ?_, ?_, ?_, ?_, ?_⟩
  · rw [hbu, List.map_map]; rfl
  · intro b hb
    rw [hbu] at hb
    obtain ⟨x, hx, rfl⟩ := List.mem_map.mp hb
    exact (List.mem_filter.mp hx).2
  · rw [hbr, List.map_map]; rfl
  · intro b hb
    rw [hbr] at hb
    obtain ⟨x, hx, rfl⟩ := List.mem_map.mp hb
    exact (List.mem_filter.mp hx).2
  · intro k b b' h1 h2
    rw [hbr, List.getElem?_map, h1] at h2
    simp only [Option.map_some, Option.some.injEq] at h2
    subst h2
    exact ⟨hend b.l1, hend b.l2⟩
  · intro k b b' h1 h2
    rw [hbu, List.getElem?_map, h1] at h2
    simp only [Option.map_some, Option.some.injEq] at h2
    subst h2
    show branchesAt (clean net) (b.nbrs.filterMap (find (compact (·.active) net.branches).2)) = _
    generalize b.nbrs = is
    induction is with
    | nil => rfl
    | cons i is ih =>
      rw [List.filterMap_cons]
      unfold ownedOnly
      rw [List.filter_cons]
      cases hf : find (compact (·.active) net.branches).2 i with
      | none =>
        rw [compact_snd] at hf
        rw [if_neg]
        · exact ih
        · intro hc
          rw [Bool.and_eq_true, decide_eq_true_eq] at hc
          obtain ⟨hc1, hc2⟩ := hc
          cases hg : net.branches[i.toNat]? with
          | none => rw [hg] at hc2; cases hc2
          | some x =>
            rw [hg] at hc2
            have := mapsTo_none _ _ _ hf hc1 x hg
            simp only [Option.map_some, Option.getD_some] at hc2
            rw [this] at hc2; cases hc2
      | some v =>
        rw [compact_snd] at hf
        obtain ⟨x, g1, g2, g3, g4, g5⟩ := mapsTo_some _ _ _ _ hf
        rw [if_pos]
        · unfold branchesAt at ih ⊢
          rw [List.map_cons, List.map_cons, ih]
          rw [hbr, List.getElem?_map, g5, g3]; rfl
        · rw [g3]; simp [g1, g4]
  · intro h
    unfold clean; simp [h]
  · intro b h0 h1 h2
    have hne : net.refBus ≠ -1 := by omega
    have hrb : (clean net).refBus = (find (compact (·.active) net.buses).2 net.refBus).getD 0 := by
      unfold clean; simp only [if_pos hne]
    cases h : find (compact (·.active) net.buses).2 net.refBus with
    | some v => rw [hrb, h]; exact hsame _ _ h
    | none =>
      rw [compact_snd] at h
      rw [mapsTo_none _ _ _ h h0 b h1] at h2; cases h2

/-- Bus 2 (a ghost) is the reference bus; buses 1 and 3 are owned. -/
def exNet : Net Unit Unit :=
  { buses := [⟨true, 1, 0, [0], ()⟩, ⟨false, 2, 5, [0, 1], ()⟩, ⟨true, 3, 1, [1], ()⟩]
    branches := [⟨false, 1, 2, 0, 0, 1, ()⟩, ⟨true, 2, 3, 1, 1, 2, ()⟩]
    refBus := 1 }

example : ((clean exNet).buses.map (·.orig), (clean exNet).branches.map (fun b => (b.l1, b.l2)),
    (clean exNet).buses.map (·.nbrs)) = ([1, 3], [(-1, 1)], [[], [0]]) := by decide

/-- C15 is violated for the reference bus: a network whose reference bus is a ghost on this
process ends up, after `clean()`, with a different bus as reference (and not "undefined"), and if
no owned bus is left the reference index designates no bus at all. -/
theorem C15_reference_bus_violated :
    ((exNet.buses[exNet.refBus.toNat]?).map (·.orig) = some 2 ∧ (clean exNet).refBus ≠ -1 ∧
      ((clean exNet).buses[(clean exNet).refBus.toNat]?).map (·.orig) = some 1) ∧
    (∃ net : Net Unit Unit, (clean net).refBus = 0 ∧ (clean net).buses = []) := by
  refine ⟨by decide, ⟨[⟨false, 2, 5, [], ()⟩], [], 0⟩, by decide, by decide⟩

/-- In general: every ghost reference bus is silently replaced by local index 0. -/
theorem C15_ghost_reference_becomes_zero (net : Net β γ) (b : BusRec β) (h0 : 0 ≤ net.refBus)
    (h1 : net.buses[net.refBus.toNat]? = some b) (h2 : b.active = false) :
    (clean net).refBus = 0 := by
  have hne : net.refBus ≠ -1 := by omega
  have hrb : (clean net).refBus = (find (compact (·.active) net.buses).2 net.refBus).getD 0 := by
    unfold clean; simp only [if_pos hne]
  rw [hrb, compact_snd]
  cases h : mapsTo (·.active) net.buses net.buses.length net.refBus with
  | none => rfl
  | some v =>
    obtain ⟨x, _, _, g3, g4, _⟩ := mapsTo_some _ _ _ _ h
    rw [h1] at g3
    simp only [Option.some.injEq] at g3
    subst g3
    rw [h2] at g4; cases g4

end GridPACK.NetworkClean
