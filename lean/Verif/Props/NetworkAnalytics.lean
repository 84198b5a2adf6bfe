import Verif.Lemmas.NetworkAnalytics

/-! Claims C197–C199: the network analytics report the network, however it is distributed. -/
namespace GridPACK.NetworkAnalytics
variable {V : Type}

theorem busView (net : Whole V) (w : List (Local V)) (h : Distributes net w) (f : WBus V → Int) :
    total (·.active) (fun b : Bus V => f b.whole) (w.map (·.buses)) = (net.buses.map f).sum := by
  rw [total_eq, ← (h.buses.map f).sum_eq]
  congr 1
  simp [List.map_flatMap, List.flatMap_map, Function.comp_def]

theorem branchView (net : Whole V) (w : List (Local V)) (h : Distributes net w) (f : WBranch V → Int) :
    total (·.active) (fun b : Branch V => f b.whole) (w.map (·.branches)) = (net.branches.map f).sum := by
  rw [total_eq, ← (h.branches.map f).sum_eq]
  congr 1
  simp [List.map_flatMap, List.flatMap_map, Function.comp_def]

theorem forall2_map {α β : Type} (R : α → β → Prop) (f : α → β) (l : List α) (h : ∀ x, R x (f x)) :
    List.Forall₂ R l (l.map f) := by
  induction l with
  | nil => exact .nil
  | cons a l ih => exact .cons (h a) ih

/-- C197: however the network is distributed, the number of generators reported is the sum over all
buses of the network of the units in service. -/
theorem C197_generators (net : Whole V) (w : List (Local V)) (h : Distributes net w) :
    ∃ c : List Int, List.Forall₂ (fun b n =>
        UnitsInService "GENERATOR_NUMBER" "GENERATOR_STAT" b.data n) net.buses c ∧
      numGenerators w = c.sum :=
  ⟨_, forall2_map _ _ _ (fun b => countUnits_spec _ _ b.data),
    busView net w h (fun b => busGenerators b.data)⟩

/-- C197, loads. -/
theorem C197_loads (net : Whole V) (w : List (Local V)) (h : Distributes net w) :
    ∃ c : List Int, List.Forall₂ (fun b n =>
        UnitsInService "LOAD_NUMBER" "LOAD_STATUS" b.data n) net.buses c ∧ numLoads w = c.sum :=
  ⟨_, forall2_map _ _ _ (fun b => countUnits_spec _ _ b.data),
    busView net w h (fun b => busLoads b.data)⟩

/-- C197, lines. -/
theorem C197_lines (net : Whole V) (w : List (Local V)) (h : Distributes net w) :
    ∃ c : List Int, List.Forall₂ (fun b n =>
        UnitsInService "BRANCH_NUM_ELEMENTS" "BRANCH_STATUS" b.data n) net.branches c ∧
      numLines w = c.sum :=
  ⟨_, forall2_map _ _ _ (fun b => countUnits_spec _ _ b.data),
    branchView net w h (fun b => branchLines b.data)⟩

/-- C197: the total numbers of buses and branches are those of the network. -/
theorem C197_totals (net : Whole V) (w : List (Local V)) (h : Distributes net w) :
    totalBuses w = net.buses.length ∧ totalBranches w = net.branches.length := by
  constructor
  · have := busView net w h (fun _ => 1)
    simpa [totalBuses] using this
  · have := branchView net w h (fun _ => 1)
    simpa [totalBranches] using this

theorem busIds (net : Whole V) (w : List (Local V)) (h : Distributes net w) :
    (((w.map (·.buses)).flatMap (fun l => l.filter (·.active))).map (·.gid)).Nodup := by
  have := ((h.buses.map (·.gid)).nodup_iff).2 h.busIds
  simpa [List.map_flatMap, List.flatMap_map, Function.comp_def, Bus.whole] using this

theorem branchIds (net : Whole V) (w : List (Local V)) (h : Distributes net w) :
    (((w.map (·.branches)).flatMap (fun l => l.filter (·.active))).map (·.gid)).Nodup := by
  have := ((h.branches.map (·.gid)).nodup_iff).2 h.branchIds
  simpa [List.map_flatMap, List.flatMap_map, Function.comp_def, Branch.whole] using this

/-- The rank and position where a bus of the network is active. -/
theorem busSplit (net : Whole V) (w : List (Local V)) (h : Distributes net w) {b : WBus V}
    (hb : b ∈ net.buses) : ∃ x : Bus V, x.whole = b ∧
      Nonempty (Split (·.active) (·.gid) (w.map (·.buses)) x) := by
  obtain ⟨l, hl, hx⟩ := List.mem_flatMap.1 (h.buses.mem_iff.2 hb)
  obtain ⟨x, hx', rfl⟩ := List.mem_map.1 hx
  obtain ⟨hx, ha⟩ := List.mem_filter.1 hx'
  exact ⟨x, rfl, split_of_nodup _ _ _ (busIds net w h) (List.mem_map_of_mem hl) hx ha⟩

theorem branchSplit (net : Whole V) (w : List (Local V)) (h : Distributes net w) {b : WBranch V}
    (hb : b ∈ net.branches) : ∃ x : Branch V, x.whole = b ∧
      Nonempty (Split (·.active) (·.gid) (w.map (·.branches)) x) := by
  obtain ⟨l, hl, hx⟩ := List.mem_flatMap.1 (h.branches.mem_iff.2 hb)
  obtain ⟨x, hx', rfl⟩ := List.mem_map.1 hx
  obtain ⟨hx, ha⟩ := List.mem_filter.1 hx'
  exact ⟨x, rfl, split_of_nodup _ _ _ (branchIds net w h) (List.mem_map_of_mem hl) hx ha⟩

theorem busAbsent (net : Whole V) (w : List (Local V)) (h : Distributes net w) (g : Int)
    (hg : ∀ b ∈ net.buses, b.gid ≠ g) :
    ∀ l ∈ w.map (·.buses), ∀ y ∈ l, y.active = true → y.gid ≠ g := by
  intro l hl y hy ha
  obtain ⟨l, hl', rfl⟩ := List.mem_map.1 hl
  exact hg y.whole (h.buses.mem_iff.1 (List.mem_flatMap.2 ⟨l, hl',
    List.mem_map_of_mem (List.mem_filter.2 ⟨hy, ha⟩)⟩))

theorem branchAbsent (net : Whole V) (w : List (Local V)) (h : Distributes net w) (g : Int)
    (hg : ∀ b ∈ net.branches, b.gid ≠ g) :
    ∀ l ∈ w.map (·.branches), ∀ y ∈ l, y.active = true → y.gid ≠ g := by
  intro l hl y hy ha
  obtain ⟨l, hl', rfl⟩ := List.mem_map.1 hl
  exact hg y.whole (h.branches.mem_iff.1 (List.mem_flatMap.2 ⟨l, hl',
    List.mem_map_of_mem (List.mem_filter.2 ⟨hy, ha⟩)⟩))

/-- C198: the counts for one bus or branch are those of the bus or branch with that global number,
whatever rank holds it; for a number that does not occur they are zero. -/
theorem C198_counts (net : Whole V) (w : List (Local V)) (h : Distributes net w) :
    (∀ b ∈ net.buses,
      UnitsInService "GENERATOR_NUMBER" "GENERATOR_STAT" b.data (numGeneratorsAt w b.gid) ∧
      UnitsInService "LOAD_NUMBER" "LOAD_STATUS" b.data (numLoadsAt w b.gid)) ∧
    (∀ b ∈ net.branches,
      UnitsInService "BRANCH_NUM_ELEMENTS" "BRANCH_STATUS" b.data (numLinesAt w b.gid)) ∧
    (∀ g, (∀ b ∈ net.buses, b.gid ≠ g) → numGeneratorsAt w g = 0 ∧ numLoadsAt w g = 0) ∧
    (∀ g, (∀ b ∈ net.branches, b.gid ≠ g) → numLinesAt w g = 0) := by
  refine ⟨?_, ?_, ?_, ?_⟩
  · intro b hb
    obtain ⟨x, rfl, ⟨s⟩⟩ := busSplit net w h hb
    have e1 : numGeneratorsAt w x.whole.gid = busGenerators x.data := countAt_split _ _ _ _ x s
    have e2 : numLoadsAt w x.whole.gid = busLoads x.data := countAt_split _ _ _ _ x s
    rw [e1, e2]
    exact ⟨countUnits_spec _ _ _, countUnits_spec _ _ _⟩
  · intro b hb
    obtain ⟨x, rfl, ⟨s⟩⟩ := branchSplit net w h hb
    have e1 : numLinesAt w x.whole.gid = branchLines x.data := countAt_split _ _ _ _ x s
    rw [e1]
    exact countUnits_spec _ _ _
  · intro g hg
    exact ⟨countAt_absent _ _ _ _ _ (busAbsent net w h g hg),
      countAt_absent _ _ _ _ _ (busAbsent net w h g hg)⟩
  · intro g hg
    exact countAt_absent _ _ _ _ _ (branchAbsent net w h g hg)

/-- C198: `getBusInfo` and `getBranchInfo` succeed exactly when the component with that global number
has the entry, and then every rank gets the value stored with it; otherwise, and for a number that does
not occur, they return false and leave the caller's variable alone. -/
theorem C198_info (net : Whole V) (w : List (Local V)) (h : Distributes net w) (field : String) :
    (∀ b ∈ net.buses, (∀ i : Nat, getBusInfo w b.gid field i = some (entry b.data field (some i))) ∧
      ∀ d : Int, d < 0 → getBusInfo w b.gid field d = some (entry b.data field none)) ∧
    (∀ b ∈ net.branches,
      (∀ i : Nat, getBranchInfo w b.gid field i = some (entry b.data field (some i))) ∧
      ∀ d : Int, d < 0 → getBranchInfo w b.gid field d = some (entry b.data field none)) ∧
    (∀ g d, (∀ b ∈ net.buses, b.gid ≠ g) → getBusInfo w g field d = some none) ∧
    (∀ g d, (∀ b ∈ net.branches, b.gid ≠ g) → getBranchInfo w g field d = some none) := by
  refine ⟨?_, ?_, ?_, ?_⟩
  · intro b hb
    obtain ⟨x, rfl, ⟨s⟩⟩ := busSplit net w h hb
    have e := fun d => info_split (V := V) (·.active) (·.gid) (·.data) _ x s field d
    refine ⟨fun i => ?_, fun d hd => ?_⟩
    · refine (e i).trans ?_
      rw [if_neg (by omega)]; rfl
    · refine (e d).trans ?_
      rw [if_pos hd]; rfl
  · intro b hb
    obtain ⟨x, rfl, ⟨s⟩⟩ := branchSplit net w h hb
    have e := fun d => info_split (V := V) (·.active) (·.gid) (·.data) _ x s field d
    refine ⟨fun i => ?_, fun d hd => ?_⟩
    · refine (e i).trans ?_
      rw [if_neg (by omega)]; rfl
    · refine (e d).trans ?_
      rw [if_pos hd]; rfl
  · intro g d hg
    exact info_absent _ _ _ _ _ _ _ (busAbsent net w h g hg)
  · intro g d hg
    exact info_absent _ _ _ _ _ _ _ (branchAbsent net w h g hg)

/-- What `getConnectedBranches` computes for an active bus. -/
theorem connected_eq (net : Whole V) (w : List (Local V)) (h : Distributes net w) {l : Local V}
    (hl : l ∈ w) {b : Bus V} (hb : b ∈ l.buses) (ha : b.active = true) :
    getConnectedBranches w b.gid = match at? l.buses b.orig with
      | none => none
      | some c => c.nbrs.mapM fun k => (at? l.branches k).map (·.gid) := by
  obtain ⟨A, B, rfl⟩ := List.append_of_mem hl
  obtain ⟨P, Q, hPQ⟩ := List.append_of_mem hb
  have hn := busIds net _ h
  simp only [List.map_append, List.map_cons, List.flatMap_append, List.flatMap_cons, hPQ,
    List.filter_append, List.filter_cons, ha, if_true] at hn
  have hA : ∀ m ∈ A, connectedOnRank m b.gid = some none := by
    intro m hm
    unfold connectedOnRank
    rw [lfg_none]
    intro y hy hay he
    refine (List.nodup_append.1 hn).2.2 y.gid (List.mem_map_of_mem (List.mem_flatMap.2
      ⟨_, List.mem_map_of_mem hm, List.mem_filter.2 ⟨hy, hay⟩⟩)) b.gid (by simp) he
  have h2 := (List.nodup_append.1 hn).2.1
  rw [List.append_assoc] at h2
  have h3 := (List.nodup_append.1 h2).2.1
  rw [List.cons_append, List.nodup_cons] at h3
  have hB : ∀ m ∈ B, connectedOnRank m b.gid = some none := by
    intro m hm
    unfold connectedOnRank
    rw [lfg_none]
    intro y hy hay he
    apply h3.1
    rw [← he]
    exact List.mem_append_right _ (List.mem_map_of_mem (List.mem_flatMap.2
      ⟨_, List.mem_map_of_mem hm, List.mem_filter.2 ⟨hy, hay⟩⟩))
  have hQ : ∀ y ∈ Q, y.active = true → y.gid ≠ b.gid := by
    intro y hy hay he
    apply h3.1
    rw [← he]
    exact List.mem_append_left _ (List.mem_map_of_mem (List.mem_filter.2 ⟨hy, hay⟩))
  have hlx : localFromGlobal (·.active) (·.gid) l.buses b.gid = some P.length := by
    rw [hPQ]; exact lfg_some _ _ _ _ b ha hQ
  have hi : l.buses[P.length]? = some b := by rw [hPQ]; simp
  have hc : connectedOnRank l b.gid = match at? l.buses b.orig with
      | none => none
      | some c => (c.nbrs.mapM fun k => (at? l.branches k).map (·.gid)).map some := by
    unfold connectedOnRank
    rw [hlx]
    simp only [hi]
    cases at? l.buses b.orig <;> rfl
  unfold getConnectedBranches
  cases hat : at? l.buses b.orig with
  | none =>
    rw [hat] at hc
    rw [mapM_none_of_mem _ _ hl hc]
  | some c =>
    rw [hat] at hc
    dsimp only at hc ⊢
    cases hm : c.nbrs.mapM (fun k => (at? l.branches k).map (·.gid)) with
    | none =>
      rw [hm] at hc
      rw [mapM_none_of_mem _ _ hl hc]
    | some r =>
      rw [hm] at hc
      have e : (A ++ l :: B).mapM (fun l => connectedOnRank l b.gid)
          = some (A.map (fun _ => none) ++ some r :: B.map (fun _ => none)) := by
        rw [List.mapM_append, mapM_append_some _ A none hA, List.mapM_cons, hc,
          mapM_append_some _ B none hB]
        rfl
      rw [e]
      dsimp only
      rw [rootSum_one _ _ _ (by simp) (by simp)]
      simp

/-- C199, part: when the number of the bus in the input file happens to be its position among the
buses of the rank, `getConnectedBranches` gives the branches of the bus.  Missing: every other case,
see the theorems below. -/
theorem C199_connected_partial (net : Whole V) (w : List (Local V)) (h : Distributes net w)
    (hk : Linked net w) {l : Local V} (hl : l ∈ w) {b : Bus V} {i : Nat} (hi : l.buses[i]? = some b)
    (ha : b.active = true) (ho : b.orig = i) :
    ∃ r, getConnectedBranches w b.gid = some r ∧ BranchesOf net b.orig r := by
  have hb : b ∈ l.buses := List.mem_of_getElem? hi
  rw [connected_eq net w h hl hb ha]
  have hat : at? l.buses b.orig = some b := by simp [at?, ho, hi]
  rw [hat]
  dsimp only
  obtain ⟨hv, hm⟩ := hk l hl b hb ha
  obtain ⟨r, hr, hrm⟩ := mapM_some_of (fun k => (at? l.branches k).map (·.gid)) b.nbrs (by
    intro k hkk
    obtain ⟨h0, h1⟩ := hv k hkk
    have : k.toNat < l.branches.length := by omega
    simp [at?, h0, List.getElem?_eq_getElem this])
  refine ⟨r, hr, ?_⟩
  intro g
  rw [hrm]
  constructor
  · rintro ⟨k, hkk, he⟩
    obtain ⟨c, hc, rfl⟩ := Option.map_eq_some_iff.1 he
    have h0 := (hv k hkk).1
    rw [at?, if_pos h0] at hc
    obtain ⟨he1, he2⟩ := (hm c.whole).2 ⟨k, hkk, c, hc, rfl⟩
    exact ⟨c.whole, he1, rfl, he2⟩
  · rintro ⟨e, he, rfl, hends⟩
    obtain ⟨k, hkk, c, hc, rfl⟩ := (hm e).1 ⟨he, hends⟩
    refine ⟨k, hkk, ?_⟩
    simp [at?, (hv k hkk).1, hc, Branch.whole]

/-- C199 is violated: `getConnectedBranches` passes the number that the bus has in the input file to a
function that expects a local position.  Whenever that number is not below the number of buses of the
rank holding the bus, the call fails. -/
theorem C199_connected_violated (net : Whole V) (w : List (Local V)) (h : Distributes net w)
    {l : Local V} (hl : l ∈ w) {b : Bus V} (hb : b ∈ l.buses) (ha : b.active = true)
    (ho : (l.buses.length : Int) ≤ b.orig) : getConnectedBranches w b.gid = none := by
  rw [connected_eq net w h hl hb ha]
  have : at? l.buses b.orig = none := by
    unfold at?
    rw [if_pos (by omega), List.getElem?_eq_none (by omega)]
  rw [this]

/-- C199 is violated: in a network on one rank whose buses have the numbers 1, 2, 3, … in the input file,
`getConnectedBranches` gives the branches of the next bus. -/
theorem C199_connected_wrong_violated (net : Whole V) (l : Local V) (h : Distributes net [l])
    (hk : Linked net [l]) (hn : ∀ (i : Nat) (b : Bus V), l.buses[i]? = some b →
      b.orig = i + 1 ∧ b.active = true) {i : Nat} {b c : Bus V} (hb : l.buses[i]? = some b)
    (hc : l.buses[i + 1]? = some c) :
    ∃ r, getConnectedBranches [l] b.gid = some r ∧ BranchesOf net (b.orig + 1) r := by
  have hbm : b ∈ l.buses := List.mem_of_getElem? hb
  have hcm : c ∈ l.buses := List.mem_of_getElem? hc
  rw [connected_eq net [l] h (by simp) hbm (hn i b hb).2]
  have hat : at? l.buses b.orig = some c := by
    have e : ((i : Int) + 1).toNat = i + 1 := by omega
    have h0 : (0 : Int) ≤ (i : Int) + 1 := by omega
    simp [at?, (hn i b hb).1, e, h0, hc]
  rw [hat]
  dsimp only
  obtain ⟨hv, hm⟩ := hk l (by simp) c hcm (hn _ c hc).2
  have hoc : c.orig = b.orig + 1 := by
    rw [(hn _ c hc).1, (hn i b hb).1]; push_cast; rfl
  obtain ⟨r, hr, hrm⟩ := mapM_some_of (fun k => (at? l.branches k).map (·.gid)) c.nbrs (by
    intro k hkk
    obtain ⟨h0, h1⟩ := hv k hkk
    have : k.toNat < l.branches.length := by omega
    simp [at?, h0, List.getElem?_eq_getElem this])
  refine ⟨r, hr, ?_⟩
  intro g
  rw [hrm, ← hoc]
  constructor
  · rintro ⟨k, hkk, he⟩
    obtain ⟨c', hc', rfl⟩ := Option.map_eq_some_iff.1 he
    rw [at?, if_pos (hv k hkk).1] at hc'
    obtain ⟨he1, he2⟩ := (hm c'.whole).2 ⟨k, hkk, c', hc', rfl⟩
    exact ⟨c'.whole, he1, rfl, he2⟩
  · rintro ⟨e, he, rfl, hends⟩
    obtain ⟨k, hkk, c', hc', rfl⟩ := (hm e).1 ⟨he, hends⟩
    exact ⟨k, hkk, by simp [at?, (hv k hkk).1, hc', Branch.whole]⟩

/-- C199, part: on one rank, with the branches numbered by position, `getBranchEndpoints` gives the
ends of the branch, as numbers of the input file (the documentation promises global numbers). -/
theorem C199_endpoints_partial (l : Local V) (hn : ∀ (i : Nat) (b : Branch V), l.branches[i]? = some b →
      b.gid = i ∧ b.active = true) (i : Nat) (b : Branch V) (hb : l.branches[i]? = some b) :
    getBranchEndpoints [l] b.gid = some (b.o1, b.o2) := by
  have h1 : at? l.branches (b.gid) = some b := by simp [at?, (hn i b hb).1, hb]
  have h0 : 0 ≤ b.gid := by rw [(hn i b hb).1]; omega
  simp [getBranchEndpoints, endpointsOnRank, h1, h0, (hn i b hb).2]

/-- C199 is violated: `getBranchEndpoints` uses the global number of the branch as a local position on
every rank.  As soon as one rank holds no more branches than that number, the call fails. -/
theorem C199_endpoints_violated (w : List (Local V)) (g : Nat) {l : Local V} (hl : l ∈ w)
    (h : l.branches.length ≤ g) : getBranchEndpoints w g = none := by
  unfold getBranchEndpoints
  rw [mapM_none_of_mem _ _ hl]
  unfold endpointsOnRank
  have : at? l.branches (g : Int) = none := by simp [at?, h]
  rw [this]

/-! A network with three buses in a row, numbered 1, 2, 3 in the input file; bus 1 has two generators,
one of them out of service. -/

def exData (n : Int) (s : Int → Option Int) : Data Int :=
  ⟨fun f i => match i with
    | none => if f = "GENERATOR_NUMBER" then some n else none
    | some i => if f = "GENERATOR_STAT" then s i else none,
   fun f i => if f = "BUS_VOLTAGE_MAG" ∧ i = none then some 7 else none⟩

def exD1 : Data Int := exData 2 (fun i => if i = 0 then some 0 else none)
def exD2 : Data Int := exData 0 (fun _ => none)

def exWhole : Whole Int :=
  ⟨[⟨0, 1, exD1⟩, ⟨1, 2, exD2⟩, ⟨2, 3, exD2⟩], [⟨0, 1, 2, exD2⟩, ⟨1, 2, 3, exD2⟩]⟩

/-- On one rank. -/
def exSerial : Local Int :=
  ⟨[⟨true, 1, 0, [0], exD1⟩, ⟨true, 2, 1, [0, 1], exD2⟩, ⟨true, 3, 2, [1], exD2⟩],
   [⟨true, 1, 2, 0, 0, 1, exD2⟩, ⟨true, 2, 3, 1, 1, 2, exD2⟩]⟩

/-- On two ranks: bus 1 on the second, with a ghost of bus 2 and of branch 0. -/
def exTwo : List (Local Int) :=
  [⟨[⟨true, 2, 1, [1, 0], exD2⟩, ⟨true, 3, 2, [0], exD2⟩, ⟨false, 1, 0, [], exD1⟩],
    [⟨true, 2, 3, 1, 0, 1, exD2⟩, ⟨false, 1, 2, 0, 2, 0, exD2⟩]⟩,
   ⟨[⟨false, 2, 1, [], exD2⟩, ⟨true, 1, 0, [0], exD1⟩], [⟨true, 1, 2, 0, 1, 0, exD2⟩]⟩]

example : Distributes exWhole [exSerial] ∧ Distributes exWhole exTwo := by
  refine ⟨⟨List.Perm.refl _, List.Perm.refl _, by simp [exWhole], by simp [exWhole]⟩,
    ⟨?_, ?_, by simp [exWhole], by simp [exWhole]⟩⟩
  · show List.Perm [(⟨1, 2, exD2⟩ : WBus Int), ⟨2, 3, exD2⟩, ⟨0, 1, exD1⟩] _
    exact (List.perm_append_comm (l₁ := [(⟨1, 2, exD2⟩ : WBus Int), ⟨2, 3, exD2⟩]) (l₂ := [⟨0, 1, exD1⟩]))
  · exact List.Perm.swap _ _ _

example : numGenerators exTwo = 1 ∧ numGenerators [exSerial] = 1 ∧ numGeneratorsAt exTwo 0 = 1 ∧
    totalBuses exTwo = 3 ∧ getBusInfo exTwo 0 "BUS_VOLTAGE_MAG" (-1) = some (some 7) ∧
    getBusInfo exTwo 0 "BUS_VOLTAGE_MAG" 0 = some none := by decide +kernel

example : getConnectedBranches [exSerial] 0 = some [0, 1] ∧ getConnectedBranches [exSerial] 2 = none ∧
    getBranchEndpoints [exSerial] 1 = some (2, 3) ∧ getBranchEndpoints exTwo 1 = none := by
  decide +kernel

theorem exLinked : Linked exWhole [exSerial] := by
  intro l hl b hb ha
  simp only [List.mem_singleton] at hl
  subst hl
  simp only [exSerial, List.mem_cons, List.not_mem_nil, or_false] at hb
  rcases hb with rfl | rfl | rfl <;>
    refine ⟨by simp [exSerial], fun e => ?_⟩ <;>
    constructor
  all_goals simp only [exWhole, List.mem_cons, List.not_mem_nil, or_false]
  · rintro ⟨rfl | rfl, h⟩
    · exact ⟨0, rfl, _, rfl, rfl⟩
    · simp at h
  · rintro ⟨k, rfl, c, hc, rfl⟩
    cases hc; simp [Branch.whole]
  · rintro ⟨rfl | rfl, h⟩
    · exact ⟨0, .inl rfl, _, rfl, rfl⟩
    · exact ⟨1, .inr rfl, _, rfl, rfl⟩
  · rintro ⟨k, rfl | rfl, c, hc, rfl⟩
    · cases hc; simp [Branch.whole]
    · cases hc; simp [Branch.whole]
  · rintro ⟨rfl | rfl, h⟩
    · simp at h
    · exact ⟨1, rfl, _, rfl, rfl⟩
  · rintro ⟨k, rfl, c, hc, rfl⟩
    cases hc; simp [Branch.whole]

example : ∃ r, getConnectedBranches [exSerial] 0 = some r ∧ BranchesOf exWhole 2 r :=
  C199_connected_wrong_violated exWhole exSerial
    ⟨List.Perm.refl _, List.Perm.refl _, by simp [exWhole], by simp [exWhole]⟩ exLinked
    (by
      intro i b hb
      match i, hb with
      | 0, hb => cases hb; exact ⟨rfl, rfl⟩
      | 1, hb => cases hb; exact ⟨rfl, rfl⟩
      | 2, hb => cases hb; exact ⟨rfl, rfl⟩
      | n + 3, hb => simp [exSerial] at hb) (i := 0) (c := ⟨true, 2, 1, [0, 1], exD2⟩) rfl rfl

theorem exLinkedTwo : Linked exWhole exTwo := by
  intro l hl b hb ha
  simp only [exTwo, List.mem_cons, List.not_mem_nil, or_false] at hl
  rcases hl with rfl | rfl
  · simp only [List.mem_cons, List.not_mem_nil, or_false] at hb
    rcases hb with rfl | rfl | rfl
    · refine ⟨by simp, fun e => ?_⟩
      simp only [exWhole, List.mem_cons, List.not_mem_nil, or_false]
      constructor
      · rintro ⟨rfl | rfl, h⟩
        · exact ⟨1, .inl rfl, _, rfl, rfl⟩
        · exact ⟨0, .inr rfl, _, rfl, rfl⟩
      · rintro ⟨k, rfl | rfl, c, hc, rfl⟩
        · cases hc; simp [Branch.whole]
        · cases hc; simp [Branch.whole]
    · refine ⟨by simp, fun e => ?_⟩
      simp only [exWhole, List.mem_cons, List.not_mem_nil, or_false]
      constructor
      · rintro ⟨rfl | rfl, h⟩
        · simp at h
        · exact ⟨0, rfl, _, rfl, rfl⟩
      · rintro ⟨k, rfl, c, hc, rfl⟩
        cases hc; simp [Branch.whole]
    · simp at ha
  · simp only [List.mem_cons, List.not_mem_nil, or_false] at hb
    rcases hb with rfl | rfl
    · simp at ha
    · refine ⟨by simp, fun e => ?_⟩
      simp only [exWhole, List.mem_cons, List.not_mem_nil, or_false]
      constructor
      · rintro ⟨rfl | rfl, h⟩
        · exact ⟨0, rfl, _, rfl, rfl⟩
        · simp at h
      · rintro ⟨k, rfl, c, hc, rfl⟩
        cases hc; simp [Branch.whole]

theorem exDistributesTwo : Distributes exWhole exTwo :=
  ⟨List.perm_append_comm (l₁ := [(⟨1, 2, exD2⟩ : WBus Int), ⟨2, 3, exD2⟩]) (l₂ := [⟨0, 1, exD1⟩]),
    List.Perm.swap _ _ _, by simp [exWhole], by simp [exWhole]⟩

/-- Bus 1 happens to be at position 1 of the second rank. -/
example : ∃ r, getConnectedBranches exTwo 0 = some r ∧ BranchesOf exWhole 1 r :=
  C199_connected_partial exWhole exTwo exDistributesTwo exLinkedTwo (l := exTwo[1]) (by simp [exTwo])
    (b := ⟨true, 1, 0, [0], exD1⟩) (i := 1) rfl rfl rfl

end GridPACK.NetworkAnalytics
