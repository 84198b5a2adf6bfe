import Verif.Model.BusVectorMap
import Verif.Lemmas.Prefix
import Mathlib.Algebra.Group.Basic
import Mathlib.Data.List.Perm.Basic
import Mathlib.Data.List.Nodup

/-! Property C21: bus vector mapping round trip. -/
namespace GridPACK.BusVectorMap

variable {V : Type}

theorem numValues_eq (p : Proc V) : numValues p = ((contributing p).map (·.2)).sum := by
  unfold numValues contributing
  induction p with
  | nil => rfl
  | cons b p ih =>
    rw [List.map_cons, List.sum_cons, ih, List.filterMap_cons]
    cases contribution b <;> simp

/-- Indices and values of process with a given offset: consecutive positions. -/
theorem writes_fst (offset : Nat) (p : Proc V) :
    (writes offset p).map (·.1) = List.range' offset (numValues p) := by
  rw [numValues_eq]
  unfold writes
  generalize contributing p = l
  induction l generalizing offset with
  | nil => rfl
  | cons e l ih =>
    simp only [List.map_cons, offsetLoop, List.zip_cons_cons, List.flatMap_cons, List.map_append,
      List.sum_cons]
    rw [ih]
    unfold busWrites
    rw [List.map_map]
    have : List.map ((fun x : Nat × V => x.1) ∘ fun j => (offset + j, e.1.vals j)) (List.range e.2)
        = List.range' offset e.2 := by
      rw [List.range'_eq_map_range]
      rfl
    rw [this, List.range'_append_1]

theorem writes_snd (offset : Nat) (p : Proc V) :
    (writes offset p).map (·.2) =
      (contributing p).flatMap (fun e => (List.range e.2).map e.1.vals) := by
  unfold writes
  generalize contributing p = l
  induction l generalizing offset with
  | nil => rfl
  | cons e l ih =>
    simp only [List.map_cons, offsetLoop, List.zip_cons_cons, List.flatMap_cons, List.map_append]
    rw [ih]
    unfold busWrites
    rw [List.map_map]
    rfl

theorem base_eq (ps : List (Proc V)) (k : Nat) :
    base ps k = Prefix.off (fun i => ((ps[i]?).map numValues).getD 0) k := by
  unfold base
  induction k with
  | zero => rfl
  | succ k ih =>
    rw [Prefix.off_succ, ← ih, List.take_add_one, List.sum_append, List.getElem?_map]
    cases ps[k]? <;> simp

theorem allWrites_fst (ps : List (Proc V)) :
    (allWrites ps).map (·.1) = List.range (total ps) := by
  unfold allWrites
  rw [List.map_flatMap]
  have h : (ps.zipIdx.flatMap fun e => (writes (base ps e.2) e.1).map (·.1)) =
      ps.zipIdx.flatMap (fun e => List.range' (base ps e.2) (numValues e.1)) := by
    congr 1; funext e; exact writes_fst _ _
  rw [h]
  have key : ∀ (l pre : List (Proc V)),
      ((l.zipIdx pre.length).flatMap fun e => List.range' (base (pre ++ l) e.2) (numValues e.1)) =
        List.range' ((pre.map numValues).sum) ((l.map numValues).sum) := by
    intro l
    induction l with
    | nil => intro pre; rfl
    | cons p l ih =>
      intro pre
      rw [List.zipIdx_cons, List.flatMap_cons]
      have := ih (pre ++ [p])
      rw [List.length_append, List.length_singleton, List.append_assoc, List.singleton_append]
        at this
      rw [this]
      have hb : base (pre ++ p :: l) pre.length = (pre.map numValues).sum := by
        unfold base
        rw [List.map_append, List.take_append_of_le_length (by simp), List.take_of_length_le (by simp)]
      simp only [hb, List.map_append, List.map_cons, List.map_nil, List.sum_append, List.sum_cons,
        List.sum_nil, Nat.add_zero]
      rw [List.range'_append_1]
  have := key ps []
  simp only [List.length_nil, List.nil_append, List.map_nil, List.sum_nil] at this
  rw [this, List.range_eq_range']
  rfl

/-- The additions at one position do not depend on the order. -/
theorem assemble_at [AddMonoid V] (ws : List (Nat × V)) (hn : (ws.map (·.1)).Nodup) (r : Nat) :
    (∀ x, (r, x) ∈ ws → assemble ws r = x) ∧ (r ∉ ws.map (·.1) → assemble ws r = 0) := by
  unfold assemble
  have key : ∀ (ws : List (Nat × V)) (v : Nat → V), (ws.map (·.1)).Nodup →
      (∀ x, (r, x) ∈ ws → ws.foldl addElement v r = v r + x) ∧
      (r ∉ ws.map (·.1) → ws.foldl addElement v r = v r) := by
    intro ws
    induction ws with
    | nil => intro v _; exact ⟨fun x hx => absurd hx (by simp), fun _ => rfl⟩
    | cons w ws ih =>
      intro v hn
      rw [List.map_cons, List.nodup_cons] at hn
      obtain ⟨h1, h2⟩ := ih (addElement v w) hn.2
      rw [List.foldl_cons]
      constructor
      · intro x hx
        rcases List.mem_cons.mp hx with rfl | hx
        · rw [h2 hn.1]
          simp [addElement]
        · rw [h1 x hx]
          have : r ≠ w.1 := by
            intro he
            exact hn.1 (he ▸ List.mem_map.mpr ⟨(r, x), hx, rfl⟩)
          simp [addElement, this]
      · intro hr
        rw [List.map_cons, List.mem_cons, not_or] at hr
        rw [h2 hr.2]
        simp [addElement, hr.1]
  obtain ⟨h1, h2⟩ := key ws (fun _ => 0) hn
  exact ⟨fun x hx => by rw [h1 x hx]; simp, h2⟩

/-- The values contributed by a process, in the order of its buses: those of every active bus whose
`vectorSize` returns true. -/
def contributed (p : Proc V) : List V :=
  p.flatMap (fun b => if b.active then
    match b.size with
    | some s => (List.range s).map b.vals
    | none => []
  else [])

theorem contributed_eq (p : Proc V) :
    (contributing p).flatMap (fun e => (List.range e.2).map e.1.vals) = contributed p := by
  unfold contributing contributed contribution
  induction p with
  | nil => rfl
  | cons b p ih =>
    rw [List.filterMap_cons, List.flatMap_cons, ← ih]
    cases hb : b.active <;> simp
    cases b.size <;> simp

theorem allWrites_snd (ps : List (Proc V)) :
    (allWrites ps).map (·.2) = ps.flatMap contributed := by
  unfold allWrites
  rw [List.map_flatMap]
  have h : (ps.zipIdx.flatMap fun e => (writes (base ps e.2) e.1).map (·.2)) =
      ps.zipIdx.flatMap (fun e => contributed e.1) := by
    congr 1; funext e; rw [writes_snd, contributed_eq]
  rw [h]
  have : ∀ (l : List (Proc V)) (k : Nat),
      ((l.zipIdx k).flatMap fun e => contributed e.1) = l.flatMap contributed := by
    intro l
    induction l with
    | nil => intro k; rfl
    | cons p l ih => intro k; rw [List.zipIdx_cons, List.flatMap_cons, List.flatMap_cons, ih]
  exact this ps 0

/-- C21, vector.  For every distribution of the buses and every order in which the additions of the
processes take effect, the vector consists of the values contributed by the buses of process 0, then
of process 1, and so on; it has no further non-zero entry. -/
theorem C21_vector_is_concatenation [AddMonoid V] (ps : List (Proc V)) (ws : List (Nat × V))
    (hw : ws.Perm (allWrites ps)) :
    total ps = (ps.flatMap contributed).length ∧
    (∀ r, r < total ps → (ps.flatMap contributed)[r]? = some (assemble ws r)) ∧
    (∀ r, total ps ≤ r → assemble ws r = 0) := by
  have hf := allWrites_fst ps
  have hs := allWrites_snd ps
  have hlen : (allWrites ps).length = total ps := by
    have := congrArg List.length hf
    simpa using this
  have hn : (ws.map (·.1)).Nodup := by
    rw [(hw.map _).nodup_iff, hf]
    exact List.nodup_range
  refine ⟨?_, ?_, ?_⟩
  · rw [← hs, List.length_map, hlen]
  · intro r hr
    have hr' : r < (allWrites ps).length := by omega
    have h1 : (allWrites ps)[r].1 = r := by
      have : ((allWrites ps).map (·.1))[r]? = some r := by
        rw [hf, List.getElem?_range hr]
      rw [List.getElem?_map, List.getElem?_eq_getElem hr'] at this
      simpa using this
    have hm : (r, (allWrites ps)[r].2) ∈ ws := by
      rw [hw.mem_iff]
      have h2 := List.getElem_mem hr'
      have h3 : (allWrites ps)[r] = (r, (allWrites ps)[r].2) := Prod.ext h1 rfl
      rw [← h3]; exact h2
    rw [(assemble_at ws hn r).1 _ hm, ← hs, List.getElem?_map, List.getElem?_eq_getElem hr']
    rfl
  · intro r hr
    apply (assemble_at ws hn r).2
    rw [(hw.map _).mem_iff, hf, List.mem_range]
    omega

/-- Values received by the contributing buses, joined: the part of the vector belonging to the
process. -/
theorem mapToBusLoop_flatten (l : List (Bus V × Nat)) (vs : List V)
    (h : vs.length = (l.map (·.2)).sum) : (mapToBusLoop vs l).flatten = vs := by
  induction l generalizing vs with
  | nil =>
    simp at h
    subst h; rfl
  | cons e l ih =>
    rw [List.map_cons, List.sum_cons] at h
    unfold mapToBusLoop
    rw [List.flatten_cons, ih _ (by rw [List.length_drop]; omega), List.take_append_drop]

theorem mapToBusLoop_own (l : List (Bus V × Nat)) :
    mapToBusLoop (l.flatMap (fun e => (List.range e.2).map e.1.vals)) l =
      l.map (fun e => (List.range e.2).map e.1.vals) := by
  induction l with
  | nil => rfl
  | cons e l ih =>
    unfold mapToBusLoop
    rw [List.flatMap_cons, List.take_append_of_le_length (by simp),
      List.take_of_length_le (by simp), List.drop_append, List.drop_of_length_le (by simp)]
    simp only [List.length_map, List.length_range, Nat.sub_self, List.drop_zero, List.nil_append,
      List.map_cons]
    rw [ih]

/-- C21, back.  The pieces handed to the buses by `mapToBus`, taken over all processes in rank order,
are exactly the entries `0 .. total-1` of the vector, each used once, for every vector. -/
theorem C21_mapToBus_uses_every_entry_once (ps : List (Proc V)) (v : Nat → V) :
    (ps.zipIdx.flatMap (fun e => (mapToBus (base ps e.2) v e.1).flatten)) =
      (List.range (total ps)).map v := by
  rw [← allWrites_fst]
  unfold allWrites
  rw [List.map_flatMap, List.map_flatMap]
  congr 1
  funext e
  unfold mapToBus
  rw [mapToBusLoop_flatten _ _ (by simp [indices]), writes_fst, numValues_eq]
  rfl

/-- C21, round trip.  After the values of all buses were mapped to the vector (in any order) and the
vector was mapped back, every contributing bus is handed exactly its own values. -/
theorem C21_round_trip [AddMonoid V] (ps : List (Proc V)) (ws : List (Nat × V))
    (hw : ws.Perm (allWrites ps)) (me : Nat) (p : Proc V) (hp : ps[me]? = some p) :
    mapToBus (base ps me) (assemble ws) p =
      (contributing p).map (fun e => (List.range e.2).map e.1.vals) := by
  have hn : (ws.map (·.1)).Nodup := by
    rw [(hw.map _).nodup_iff, allWrites_fst]
    exact List.nodup_range
  have hread : (indices (base ps me) ((contributing p).map (·.2))).map (assemble ws) =
      (writes (base ps me) p).map (·.2) := by
    unfold indices
    rw [← numValues_eq, ← writes_fst, List.map_map]
    apply List.map_congr_left
    intro e he
    apply (assemble_at ws hn e.1).1
    rw [hw.mem_iff]
    refine List.mem_flatMap.mpr ⟨(p, me), ?_, he⟩
    rw [List.mem_zipIdx_iff_getElem?]
    exact hp
  unfold mapToBus
  rw [hread, writes_snd, mapToBusLoop_own]

/-- C21, local offsets.  What `getLocalOffset` reports for local bus `i`: nothing (−1, 0) if the bus
does not contribute; otherwise the number of values contributed by the earlier local buses. -/
theorem C21_local_offset (p : Proc V) (i : Nat) (b : Bus V) (h : p[i]? = some b) :
    (locLoop 0 p)[i]? = some
      (match contribution b with
       | none => (none, 0)
       | some s => (some (contributed (p.take i)).length, s)) := by
  have key : ∀ (p : Proc V) (i n : Nat) (b : Bus V), p[i]? = some b →
      (locLoop n p)[i]? = some
      (match contribution b with
       | none => (none, 0)
       | some s => (some (n + (contributed (p.take i)).length), s)) := by
    intro p
    induction p with
    | nil => intro i n b h; simp at h
    | cons c p ih =>
      intro i n b h
      cases i with
      | zero =>
        simp only [List.getElem?_cons_zero, Option.some.injEq] at h
        subst h
        unfold locLoop
        cases contribution c <;> simp [contributed]
      | succ i =>
        rw [List.getElem?_cons_succ] at h
        unfold locLoop
        cases hc : contribution c with
        | none =>
          simp only
          rw [List.getElem?_cons_succ, ih i n b h]
          have : contributed ((c :: p).take (i + 1)) = contributed (p.take i) := by
            rw [List.take_succ_cons, ← contributed_eq, ← contributed_eq]
            unfold contributing
            rw [List.filterMap_cons, hc]
            rfl
          rw [this]
        | some s =>
          simp only
          rw [List.getElem?_cons_succ, ih i (n + s) b h]
          have : (contributed ((c :: p).take (i + 1))).length =
              s + (contributed (p.take i)).length := by
            rw [List.take_succ_cons, ← contributed_eq, ← contributed_eq]
            unfold contributing
            rw [List.filterMap_cons, hc]
            simp
          rw [this, Nat.add_assoc]
  have := key p i 0 b h
  simpa using this

/-- Example: two processes; the second bus of process 0 is a ghost, process 1 has a bus that does
not contribute. -/
def exampleProcs : List (Proc Int) :=
  [[⟨true, some 2, fun j => 10 + j⟩, ⟨false, some 1, fun _ => 99⟩],
   [⟨true, none, fun _ => 7⟩, ⟨true, some 1, fun _ => 30⟩]]

example : allWrites exampleProcs = [(0, 10), (1, 11), (2, 30)] ∧
    mapToBus (base exampleProcs 1) (assemble (allWrites exampleProcs)) exampleProcs[1] = [[30]] := by
  decide

end GridPACK.BusVectorMap
