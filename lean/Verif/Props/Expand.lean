import Verif.Spec.Expand
import Verif.Lemmas.Expand

/-! Claims C300–C301: composite loads are expanded. -/
namespace GridPACK.Expand
open GridPACK.StringUtils (Str)

/-- The numbers of the buses owned after the expansion are different from each other. -/
theorem C300_numbers (procs : List Proc) (h : (owned procs).Nodup) : (owned (expand procs)).Nodup := by
  rw [(owned_expand procs).nodup_iff, List.nodup_append]
  refine ⟨h, ?_, ?_⟩
  · refine List.Nodup.map ?_ List.nodup_range
    intro a b hab
    simp only at hab
    omega
  · intro a ha b hb
    have := owned_le procs a ha
    rw [List.mem_map] at hb
    obtain ⟨j, -, rfl⟩ := hb
    omega

/-- As many buses as needed are added: two for each composite load. -/
theorem C300_count (procs : List Proc) :
    (owned (expand procs)).length = (owned procs).length + 2 * ((procs.flatMap (·.buses)).map loadsAt).sum := by
  rw [(owned_expand procs).length_eq, List.length_append, List.length_map, List.length_range, added_sum]

/-- The buses and branches there were before stay, with their numbers and loads, and get one further neighbour for each
composite load. -/
theorem C300_kept (procs : List Proc) (me : Nat) (p : Proc) (hp : procs[me]? = some p) :
    ∃ p', (expand procs)[me]? = some p' ∧ (∃ r, p'.branches = p.branches ++ r) ∧
      ∀ (i : Nat) (b : Bus), p.buses[i]? = some b → ∃ ns : List Nat, p'.buses[i]? = some ⟨b.number, b.active, b.models, b.nbrs ++ ns⟩ ∧
        ns.length = loadsAt b := by
  rcases expand_get procs me p hp with h | ⟨h, hc⟩
  · refine ⟨_, h, ⟨_, rfl⟩, ?_⟩
    intro i b hb
    have hi : i < p.buses.length := (List.getElem?_eq_some_iff.1 hb).1
    refine ⟨links ((newBranches p (offset procs me + maxIdx procs + 1)).zipIdx p.branches.length) i, ?_, ?_⟩
    · unfold expandOn
      simp only
      rw [linkAll_get, List.getElem?_append_left hi, hb]
      rfl
    · rw [links_new p _ _ i hi, comps_count p i b hb]
  · refine ⟨_, h, ⟨[], by simp⟩, ?_⟩
    intro i b hb
    refine ⟨[], by simpa using hb, ?_⟩
    rw [← comps_count p i b hb, hc]
    rfl

/-- Each composite load gets its own chain of transformer, low side bus, feeder and load bus. -/
theorem C300_chain (procs : List Proc) (me : Nat) (p : Proc) (hp : procs[me]? = some p) :
    ∃ p', ∃ low load k : Nat → Nat → Nat, (expand procs)[me]? = some p' ∧
      (∀ (i : Nat) (b : Bus), p.buses[i]? = some b → ∀ n < loadsAt b, Chain p p' i (low i n) (load i n) (k i n)) ∧
      ∀ (i : Nat) (b : Bus) (j : Nat) (c : Bus), p.buses[i]? = some b → p.buses[j]? = some c → ∀ n < loadsAt b, ∀ m < loadsAt c,
        low i n = low j m ∨ low i n = load j m ∨ load i n = load j m → i = j ∧ n = m := by
  rcases expand_get procs me p hp with h | ⟨h, hc⟩
  · refine ⟨_, fun i n => p.buses.length + 2 * pos p i n, fun i n => p.buses.length + 2 * pos p i n + 1,
      fun i n => p.branches.length + 2 * pos p i n, h, ?_, ?_⟩
    · intro i b hb n hn
      have hpos := comps_pos p i n b hb hn
      have hi : i < p.buses.length := (List.getElem?_eq_some_iff.1 hb).1
      have hnum : numberOf p i = b.number := by unfold numberOf; rw [hb]; rfl
      generalize hbase : ((offset procs me : Int) + maxIdx procs + 1) = base
      obtain ⟨nb1, nb2⟩ := pairs_get (fun c : Nat × Nat => (⟨base + 2 * c.2, true, [], []⟩ : Bus))
        (fun c => ⟨base + 2 * c.2 + 1, true, [none, none, none, none], []⟩) (comps p) 0 _ _ hpos
      obtain ⟨br1, br2⟩ := pairs_get
        (fun c : Nat × Nat => (⟨numberOf p c.1, base + 2 * c.2, c.1, p.buses.length + 2 * c.2, true⟩ : Branch))
        (fun c => ⟨base + 2 * c.2, base + 2 * c.2 + 1, p.buses.length + 2 * c.2, p.buses.length + 2 * c.2 + 1, true⟩)
        (comps p) 0 _ _ hpos
      have hB : expandOn procs me p = ⟨linkAll (p.buses ++ newBuses p base) ((newBranches p base).zipIdx p.branches.length),
          p.branches ++ newBranches p base⟩ := by
        unfold expandOn; rw [hbase]
      have get : ∀ (q : Nat) (x : Bus), (p.buses ++ newBuses p base)[q]? = some x → (expandOn procs me p).buses[q]? =
          some (⟨x.number, x.active, x.models, x.nbrs ++ links ((newBranches p base).zipIdx p.branches.length) q⟩ : Bus) := by
        intro q x hx
        rw [hB]
        simp only
        rw [linkAll_get, hx]
        rfl
      have gi := get i b (by rw [List.getElem?_append_left hi, hb])
      have glow := get (p.buses.length + 2 * pos p i n) _ (by
        rw [List.getElem?_append_right (by omega), Nat.add_sub_cancel_left]; exact nb1)
      have gload := get (p.buses.length + 2 * pos p i n + 1) _ (by
        rw [List.getElem?_append_right (by omega), Nat.add_assoc, Nat.add_sub_cancel_left]; exact nb2)
      have gbr1 : (expandOn procs me p).branches[p.branches.length + 2 * pos p i n]? = (newBranches p base)[2 * pos p i n]? := by
        rw [hB]
        simp only
        rw [List.getElem?_append_right (by omega), Nat.add_sub_cancel_left]
      have gbr2 : (expandOn procs me p).branches[p.branches.length + 2 * pos p i n + 1]? = (newBranches p base)[2 * pos p i n + 1]? := by
        rw [hB]
        simp only
        rw [List.getElem?_append_right (by omega), Nat.add_assoc, Nat.add_sub_cancel_left]
      have lk : ∀ (q : Nat) (br : Branch), (newBranches p base)[q]? = some br →
          p.branches.length + q ∈ links ((newBranches p base).zipIdx p.branches.length) br.l1 ∧
          p.branches.length + q ∈ links ((newBranches p base).zipIdx p.branches.length) br.l2 := by
        intro q br hq
        refine links_mem _ (br, p.branches.length + q) ?_
        apply List.mem_of_getElem? (i := q)
        rw [List.getElem?_zipIdx, hq]
        rfl
      replace gbr1 := gbr1.trans br1
      replace gbr2 := gbr2.trans br2
      have l1 := lk _ _ br1
      have l2 := lk _ _ br2
      simp only [Nat.zero_add] at l1 l2 glow gload gbr1 gbr2
      beta_reduce
      refine ⟨⟨by omega, by omega, by omega⟩, ⟨_, _, glow, gload, rfl, rfl⟩, ⟨by omega, ?_⟩, ?_⟩
      · exact ⟨_, _, _, gbr1, gi, glow, rfl, rfl, hnum, rfl, rfl, List.mem_append_right _ l1.1, List.mem_append_right _ l1.2⟩
      · exact ⟨_, _, _, gbr2, glow, gload, rfl, rfl, rfl, rfl, rfl, List.mem_append_right _ l2.1, List.mem_append_right _ l2.2⟩
    · intro i b j c hb hc n hn m hm hor
      refine pos_inj p i n j m b c hb hn hc hm ?_
      simp only at hor
      omega
  · refine ⟨p, fun _ _ => 0, fun _ _ => 0, fun _ _ => 0, h, ?_, ?_⟩
    · intro i b hb n hn
      rw [← comps_count p i b hb, hc] at hn
      simp at hn
    · intro i b j c hb _ n hn
      rw [← comps_count p i b hb, hc] at hn
      simp at hn

/-- The composite loads are still there after the expansion. -/
theorem loads_after (procs : List Proc) :
    (((expand procs).flatMap (·.buses)).map loadsAt).sum = ((procs.flatMap (·.buses)).map loadsAt).sum := by
  unfold expand
  split_ifs with h
  · rfl
  · generalize hq : procs = all at h ⊢
    have one : ∀ me p, ((expandOn all me p).buses.map loadsAt).sum = (p.buses.map loadsAt).sum := by
      intro me p
      unfold expandOn
      simp only
      rw [linkAll_map _ (fun b ns => rfl), List.map_append, List.sum_append]
      have : ((newBuses p (offset all me + maxIdx all + 1)).map loadsAt).sum = 0 := by
        generalize hN : newBuses p _ = N
        have ha : ∀ b ∈ N, loadsAt b = 0 := fun b hb => (newBuses_active p _ b (hN ▸ hb)).2
        clear hN
        induction N with
        | nil => rfl
        | cons a N ih => rw [List.map_cons, List.sum_cons, ha a (by simp), ih (fun b hb => ha b (by simp [hb]))]
      omega
    have key : ∀ (l : List Proc) (s : Nat),
        ((((l.zipIdx s).map (fun p => expandOn all p.2 p.1)).flatMap (·.buses)).map loadsAt).sum =
          ((l.flatMap (·.buses)).map loadsAt).sum := by
      intro l
      induction l with
      | nil => intro s; rfl
      | cons a l ih =>
        intro s
        rw [List.zipIdx_cons, List.map_cons, List.flatMap_cons, List.flatMap_cons, List.map_append, List.map_append,
          List.sum_append, List.sum_append, ih, one]
    exact key all 0

/-- Reading a second .dyr file expands the composite loads again. -/
theorem C301_again_violated (procs : List Proc) (h : 0 < ((procs.flatMap (·.buses)).map loadsAt).sum) :
    (owned (expand (expand procs))).length = (owned procs).length + 4 * ((procs.flatMap (·.buses)).map loadsAt).sum ∧
    (owned (expand (expand procs))).length ≠ (owned (expand procs)).length := by
  have h1 := C300_count procs
  have h2 := C300_count (expand procs)
  rw [loads_after] at h2
  omega

/-- Without composite loads nothing is changed. -/
theorem C301_none (procs : List Proc) (h : ((procs.flatMap (·.buses)).map loadsAt).sum = 0) : expand procs = procs := by
  unfold expand
  rw [if_pos]
  have e : ∀ l : List Proc, (l.map (fun p => (comps p).length)).sum = ((l.flatMap (·.buses)).map loadsAt).sum := by
    intro l
    induction l with
    | nil => rfl
    | cons a l ih => rw [List.map_cons, List.sum_cons, ih, List.flatMap_cons, List.map_append, List.sum_append, comps_length]
  rw [e, h]

/-- Two processes; bus 7 with two composite loads and one other load is owned by the second, the first has a copy. -/
def sample : List Proc :=
  [⟨[⟨3, true, [], [0]⟩, ⟨7, false, [some composite, none, some composite], [0]⟩], [⟨3, 7, 0, 1, true⟩]⟩,
    ⟨[⟨7, true, [some composite, none, some composite], [0]⟩, ⟨3, false, [], [0]⟩, ⟨5, true, [some composite], []⟩],
      [⟨3, 7, 1, 0, false⟩]⟩]

example : (owned sample).Nodup ∧ owned (expand sample) = [3, 7, 5, 8, 9, 10, 11, 12, 13] := by decide

example : 0 < ((sample.flatMap (·.buses)).map loadsAt).sum := by decide

end GridPACK.Expand
