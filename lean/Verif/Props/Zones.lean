import Verif.Spec.Zones
import Mathlib.Data.List.Perm.Basic
import Mathlib.Algebra.BigOperators.Group.List.Basic
import Mathlib.Tactic.Ring
import Mathlib.Tactic.FieldSimp
import Mathlib.Tactic.Linarith
import Mathlib.Tactic.LinearCombination
import Mathlib.Tactic.NormNum

/-! Properties C231 (list of zones), C232 (loads of zones and buses), C233 (load of the simulation), C234 (generation). -/
namespace GridPACK.Zones

/-! ### C231 -/

theorem note_fold (l : List Int) : ∀ m : List Int, m.Nodup →
    (l.foldl note m).Nodup ∧ ∀ z, z ∈ l.foldl note m ↔ z ∈ m ∨ z ∈ l := by
  induction l with
  | nil => intro m hm; simp [hm]
  | cons a l ih =>
    intro m hm
    have hn : (note m a).Nodup ∧ ∀ z, z ∈ note m a ↔ z ∈ m ∨ z = a := by
      unfold note
      by_cases h : a ∈ m
      · rw [if_pos h]
        refine ⟨hm, fun z => ⟨Or.inl, ?_⟩⟩
        rintro (hz | rfl)
        · exact hz
        · exact h
      · rw [if_neg h]
        refine ⟨?_, by simp⟩
        rw [List.nodup_append]
        refine ⟨hm, by simp, ?_⟩
        intro x hx y hy e
        simp at hy
        subst hy
        subst e
        exact h hx
    obtain ⟨h1, h2⟩ := ih _ hn.1
    rw [List.foldl_cons]
    refine ⟨h1, fun z => ?_⟩
    rw [h2, hn.2]
    simp [or_assoc]

theorem localMap_eq (bs : List Local) :
    localMap bs = ((bs.filter (fun b => b.active)).map Local.zone).foldl note [] := by
  unfold localMap
  rw [List.foldl_map]

theorem mem_localMap (bs : List Local) (z : Int) : z ∈ localMap bs ↔ ∃ b ∈ bs, b.active = true ∧ b.zone = z := by
  rw [localMap_eq, (note_fold _ [] (by simp)).2]
  simp [and_assoc]

theorem insertKey_perm (z : Int) (l : List Int) : (insertKey z l).Perm (z :: l) := by
  induction l with
  | nil => exact .refl _
  | cons y ys ih =>
    unfold insertKey
    split
    · exact .refl _
    · exact (ih.cons y).trans (.swap z y ys)

theorem iterated_perm (m : List Int) : (iterated m).Perm m := by
  unfold iterated
  induction m with
  | nil => exact .refl _
  | cons z m ih => exact (insertKey_perm z _).trans (ih.cons z)

theorem iterated_length (m : List Int) : (iterated m).length = m.length := (iterated_perm m).length_eq

theorem sum_written (maps : List (List Int)) : ∀ k : Nat,
    ((List.range maps.length).map (fun r => written maps r k)).sum = (((maps.map iterated).flatten)[k]?).getD 0 := by
  induction maps with
  | nil => intro k; simp
  | cons m ms ih =>
    intro k
    rw [List.length_cons, List.range_succ_eq_map, List.map_cons, List.sum_cons, List.map_map]
    have h0 : written (m :: ms) 0 k = ((iterated m)[k]?).getD 0 := by
      simp [written, start]
    rw [h0, List.map_cons, List.flatten_cons]
    by_cases hk : k < m.length
    · have hr : (List.range ms.length).map ((fun r => written (m :: ms) r k) ∘ Nat.succ) =
          (List.range ms.length).map (fun _ => (0 : Int)) := by
        apply List.map_congr_left
        intro r _
        simp only [Function.comp, written, start, Nat.succ_eq_add_one, List.map_cons, List.take_succ_cons, List.sum_cons]
        exact if_neg (by omega)
      rw [hr, List.getElem?_append_left (by rw [iterated_length]; exact hk)]
      simp
    · have hr : (List.range ms.length).map ((fun r => written (m :: ms) r k) ∘ Nat.succ) =
          (List.range ms.length).map (fun r => written ms r (k - m.length)) := by
        apply List.map_congr_left
        intro r _
        simp only [Function.comp, written, start, Nat.succ_eq_add_one, List.map_cons, List.take_succ_cons, List.sum_cons,
          List.getD_cons_succ]
        by_cases h : m.length + (List.take r (List.map List.length ms)).sum ≤ k
        · have h' : (List.take r (List.map List.length ms)).sum ≤ k - m.length := by omega
          rw [if_pos h]
          refine Eq.trans ?_ (if_pos h').symm
          rw [Nat.sub_sub]
        · have h' : ¬ (List.take r (List.map List.length ms)).sum ≤ k - m.length := by omega
          rw [if_neg h]
          exact (if_neg h').symm
      rw [hr, ih, List.getElem?_append_right (by rw [iterated_length]; omega), iterated_length,
        List.getElem?_eq_none (l := iterated m) (by rw [iterated_length]; omega)]
      simp

theorem allZones_eq (maps : List (List Int)) : allZones maps = (maps.map iterated).flatten := by
  have hl : (maps.map iterated).flatten.length = (maps.map List.length).sum := by
    rw [List.length_flatten, List.map_map]
    congr 1
    apply List.map_congr_left
    intro m _
    exact iterated_length m
  apply List.ext_getElem?
  intro k
  unfold allZones
  rw [List.getElem?_map]
  by_cases hk : k < (maps.map List.length).sum
  · rw [List.getElem?_range hk, Option.map_some, sum_written]
    rw [List.getElem?_eq_getElem (by rw [hl]; exact hk)]
    simp
  · rw [List.getElem?_eq_none (by simpa using hk), List.getElem?_eq_none (by rw [hl]; omega)]
    rfl

theorem pass_perm (x : Int) (ys : List Int) : ((pass x ys).1 :: (pass x ys).2).Perm (x :: ys) := by
  induction ys generalizing x with
  | nil => exact .refl _
  | cons y ys ih =>
    unfold pass
    split
    · exact (List.Perm.swap x _ _).trans ((ih y).cons x)
    · exact (List.Perm.swap y _ _).trans (((ih x).cons y).trans (.swap x y ys))

theorem pass_le (x : Int) (ys : List Int) : (pass x ys).1 ≤ x ∧ ∀ y ∈ (pass x ys).2, (pass x ys).1 ≤ y := by
  induction ys generalizing x with
  | nil => simp [pass]
  | cons y ys ih =>
    unfold pass
    split
    · next h =>
      obtain ⟨h1, h2⟩ := ih y
      refine ⟨by simp only; omega, ?_⟩
      intro z hz
      rcases List.mem_cons.1 hz with rfl | hz
      · simp only; omega
      · exact h2 z hz
    · next h =>
      obtain ⟨h1, h2⟩ := ih x
      refine ⟨h1, ?_⟩
      intro z hz
      rcases List.mem_cons.1 hz with rfl | hz
      · simp only; omega
      · exact h2 z hz

theorem sort_spec (n : Nat) : ∀ l : List Int, l.length = n → (sort l).Perm l ∧ (sort l).Pairwise (· ≤ ·) := by
  induction n with
  | zero => intro l hl; rw [List.length_eq_zero_iff.1 hl]; simp [sort]
  | succ n ih =>
    intro l hl
    match l, hl with
    | x :: xs, hl =>
      obtain ⟨h1, h2⟩ := ih (pass x xs).2 (by rw [pass_length]; simpa using hl)
      rw [sort]
      refine ⟨(h1.cons _).trans (pass_perm x xs), ?_⟩
      rw [List.pairwise_cons]
      exact ⟨fun y hy => (pass_le x xs).2 y (h1.mem_iff.1 hy), h2⟩

theorem zoneList_facts (procs : List (List Local)) :
    (zoneList procs).Pairwise (· < ·) ∧
    ∀ z, z ∈ zoneList procs ↔ ∃ b ∈ procs.flatten, b.active = true ∧ b.zone = z := by
  obtain ⟨n1, n2⟩ := note_fold (allZones (procs.map localMap)) [] (by simp)
  obtain ⟨s1, s2⟩ := sort_spec _ ((allZones (procs.map localMap)).foldl note []) rfl
  refine ⟨?_, fun z => ?_⟩
  · have hnd : (zoneList procs).Nodup := s1.nodup_iff.2 n1
    have := s2.and hnd
    exact this.imp (fun h => lt_of_le_of_ne h.1 h.2)
  · unfold zoneList
    rw [s1.mem_iff, n2, allZones_eq]
    simp only [List.not_mem_nil, false_or, List.map_map, List.mem_flatten, List.mem_map]
    constructor
    · rintro ⟨l, ⟨bs, hbs, rfl⟩, hz⟩
      have hz := (iterated_perm _).mem_iff.1 hz
      obtain ⟨b, hb, h⟩ := (mem_localMap bs z).1 hz
      exact ⟨b, ⟨bs, hbs, hb⟩, h⟩
    · rintro ⟨b, ⟨bs, hbs, hb⟩, h⟩
      exact ⟨_, ⟨bs, hbs, rfl⟩, (iterated_perm _).mem_iff.2 ((mem_localMap bs z).2 ⟨b, hb, h⟩)⟩

/-- **C231**.  For every distribution of the network over processes, the list of zones has, in ascending order and each once,
exactly the zones of the buses. -/
theorem C231_zones (buses : List (Int × ℝ × ℝ)) (procs : List (List Local)) (h : Distributed buses procs) :
    (zoneList procs).Pairwise (· < ·) ∧ ∀ z, z ∈ zoneList procs ↔ ∃ b ∈ buses, b.1 = z := by
  obtain ⟨h1, h2⟩ := zoneList_facts procs
  refine ⟨h1, fun z => ?_⟩
  rw [h2]
  constructor
  · rintro ⟨b, hb, ha, hz⟩
    exact ⟨(b.zone, b.p, b.q), h.mem_iff.1 (List.mem_map.2 ⟨b, List.mem_filter.2 ⟨hb, ha⟩, rfl⟩), hz⟩
  · rintro ⟨b, hb, hz⟩
    obtain ⟨c, hc, e⟩ := List.mem_map.1 (h.mem_iff.2 hb)
    obtain ⟨hc, ha⟩ := List.mem_filter.1 hc
    refine ⟨c, hc, ha, ?_⟩
    rw [← e] at hz
    exact hz

/-! ### C232 -/

theorem addBus_fold (f : Local → ℝ) (zs : List Int) (hz : zs.Nodup) (i : Nat) (z : Int) (hi : zs[i]? = some z)
    (bs : List Local) : ∀ v : List ℝ, v.length = zs.length →
    (bs.foldl (addBus f zs) v).length = zs.length ∧
    (bs.foldl (addBus f zs) v).getD i 0 = v.getD i 0 + ((bs.filter (fun b => b.zone = z)).map f).sum := by
  have hil : i < zs.length := (List.getElem?_eq_some_iff.1 hi).1
  induction bs with
  | nil => intro v hv; simp [hv]
  | cons b bs ih =>
    intro v hv
    rw [List.foldl_cons]
    have hlen : (addBus f zs v b).length = zs.length := by
      unfold addBus
      split <;> simp [hv]
    obtain ⟨h1, h2⟩ := ih _ hlen
    refine ⟨h1, h2.trans ?_⟩
    have hval : (addBus f zs v b).getD i 0 = v.getD i 0 + (if b.zone = z then f b else 0) := by
      unfold addBus
      cases hx : zs.idxOf? b.zone with
      | none =>
        have : b.zone ∉ zs := by simpa [List.idxOf?_eq_none_iff] using hx
        have hne : b.zone ≠ z := by
          rintro rfl
          exact this (List.mem_of_getElem? hi)
        simp [hne]
      | some j =>
        have hj : zs[j]? = some b.zone := by
          rw [List.idxOf?, List.findIdx?_eq_some_iff_getElem] at hx
          obtain ⟨hl, he, _⟩ := hx
          rw [List.getElem?_eq_getElem hl]
          simpa using he
        simp only
        by_cases hji : j = i
        · subst hji
          have : b.zone = z := by rw [hi] at hj; exact (Option.some.inj hj).symm
          rw [if_pos this]
          rw [List.getD_eq_getElem?_getD, List.getD_eq_getElem?_getD, List.getElem?_modify]
          rw [List.getElem?_eq_getElem (by rw [hv]; exact hil)]
          simp
        · have hne : b.zone ≠ z := by
            rintro e
            apply hji
            have hjl : j < zs.length := (List.getElem?_eq_some_iff.1 hj).1
            have : zs[j]? = zs[i]? := by rw [hj, hi, e]
            exact (List.getElem?_inj hjl hz).1 this
          rw [if_neg hne, add_zero]
          rw [List.getD_eq_getElem?_getD, List.getD_eq_getElem?_getD, List.getElem?_modify]
          cases v[i]? <;> simp [hji]
    rw [hval]
    by_cases hb : b.zone = z
    · simp [hb, add_assoc]
    · simp [hb]

theorem sums_flat (f : Local → ℝ) (procs : List (List Local)) (zs : List Int) (hz : zs.Nodup) (i : Nat) (z : Int)
    (hi : zs[i]? = some z) :
    (procs.map (fun bs => (localSums f zs bs).getD i 0)).sum =
      (((procs.flatten.filter (fun b => b.active)).filter (fun b => b.zone = z)).map f).sum := by
  induction procs with
  | nil => simp
  | cons bs procs ih =>
    rw [List.map_cons, List.sum_cons, ih, List.flatten_cons, List.filter_append, List.filter_append, List.map_append,
      List.sum_append]
    congr 1
    unfold localSums
    rw [(addBus_fold f zs hz i z hi _ _ (by simp)).2]
    have : (List.replicate zs.length (0 : ℝ)).getD i 0 = 0 := by
      rw [List.getD_eq_getElem?_getD]
      by_cases h : i < zs.length <;> simp [h]
    rw [this, zero_add]

theorem total_flat (f : Local → ℝ) (g : ℝ × ℝ → ℝ) (hfg : ∀ b : Local, f b = g (b.p, b.q)) (buses : List (Int × ℝ × ℝ))
    (procs : List (List Local)) (h : Distributed buses procs) (z : Int) :
    (((procs.flatten.filter (fun b => b.active)).filter (fun b => b.zone = z)).map f).sum = zoneTotal g buses z := by
  unfold zoneTotal
  have h1 := ((h.filter (fun b => b.1 = z)).map (fun b => g b.2)).sum_eq
  rw [← h1, List.filter_map, List.map_map]
  congr 1
  apply List.map_congr_left
  intro b _
  exact hfg b

/-- **C232** for zones: for every distribution over processes, the powers reported for the zones are the sums of the powers of
their buses, in the order of the list of zones. -/
theorem C232_zone_sums (buses : List (Int × ℝ × ℝ)) (procs : List (List Local)) (h : Distributed buses procs) :
    (zoneSums procs).1 = zoneList procs ∧
    (zoneSums procs).2.1 = (zoneList procs).map (zoneTotal Prod.fst buses) ∧
    (zoneSums procs).2.2 = (zoneList procs).map (zoneTotal Prod.snd buses) := by
  have hnd : (zoneList procs).Nodup := (zoneList_facts procs).1.imp (fun h => ne_of_lt h)
  refine ⟨rfl, ?_, ?_⟩
  · apply List.ext_getElem?
    intro i
    simp only [zoneSums, List.getElem?_map]
    by_cases hi : i < (zoneList procs).length
    · rw [List.getElem?_range hi, List.getElem?_eq_getElem hi, Option.map_some, Option.map_some,
        sums_flat _ procs _ hnd i _ (List.getElem?_eq_getElem hi), total_flat _ Prod.fst (fun _ => rfl) buses procs h]
    · rw [List.getElem?_eq_none (by simpa using hi), List.getElem?_eq_none (by simpa using hi)]
      rfl
  · apply List.ext_getElem?
    intro i
    simp only [zoneSums, List.getElem?_map]
    by_cases hi : i < (zoneList procs).length
    · rw [List.getElem?_range hi, List.getElem?_eq_getElem hi, Option.map_some, Option.map_some,
        sums_flat _ procs _ hnd i _ (List.getElem?_eq_getElem hi), total_flat _ Prod.snd (fun _ => rfl) buses procs h]
    · rw [List.getElem?_eq_none (by simpa using hi), List.getElem?_eq_none (by simpa using hi)]
      rfl

theorem readLoads_plain (ls : List LoadRec) (hc : ∀ l ∈ ls, l.composite = false) : ∀ pq st,
    readLoads ls pq st = ⟨pq ++ ls.map LoadRec.power, st ++ ls.map LoadRec.status, pq.length + ls.length⟩ := by
  induction ls with
  | nil => intro pq st; simp [readLoads]
  | cons l ls ih =>
    intro pq st
    rw [readLoads]
    simp only [hc l (by simp), Bool.false_eq_true, if_false]
    rw [ih (fun x hx => hc x (List.mem_cons_of_mem _ hx))]
    simp [LoadRec.power]
    omega

theorem readLoads_composite (ls : List LoadRec) (hc : ∃ l ∈ ls, l.composite = true) : ∀ pq st,
    (readLoads ls pq st).n = 0 := by
  induction ls with
  | nil => simp at hc
  | cons l ls ih =>
    intro pq st
    rw [readLoads]
    cases hl : l.composite
    · simp only [Bool.false_eq_true, if_false]
      apply ih
      obtain ⟨x, hx, h⟩ := hc
      rcases List.mem_cons.1 hx with rfl | hx
      · rw [hl] at h; cases h
      · exact ⟨x, hx, h⟩
    · simp

/-- **C232** for buses (partial): the load reported for a bus, all of whose loads are in service and none a composite load, is the
sum of its loads. -/
theorem C232_bus_partial (ls : List LoadRec) (hc : ∀ l ∈ ls, l.composite = false) (hs : ∀ l ∈ ls, l.status ≠ 0) :
    totalLoad (readLoads ls [] []) = loadInService ls := by
  rw [readLoads_plain ls hc]
  unfold totalLoad loadInService
  have : ls.filter (fun l => decide (l.status ≠ 0)) = ls := by
    rw [List.filter_eq_self]
    intro l hl
    simpa using hs l hl
  rw [this]
  simp [List.take_of_length_le, Function.comp_def]

/-- C232 fails for loads out of service: they are counted. -/
theorem C232_status_violated (ls : List LoadRec) (hc : ∀ l ∈ ls, l.composite = false)
    (hs : ((ls.filter (fun l => l.status = 0)).map (fun l => l.power.1)).sum ≠ 0) :
    (totalLoad (readLoads ls [] [])).1 ≠ (loadInService ls).1 := by
  rw [readLoads_plain ls hc]
  unfold totalLoad loadInService
  have key : ∀ ls : List LoadRec, (ls.map (fun l => l.power.1)).sum =
      ((ls.filter (fun l => l.status ≠ 0)).map (fun l => l.power.1)).sum +
      ((ls.filter (fun l => l.status = 0)).map (fun l => l.power.1)).sum := by
    intro ls
    induction ls with
    | nil => simp
    | cons l ls ih =>
      by_cases h : l.status = 0
      · simp only [List.map_cons, List.sum_cons, List.filter_cons, h, ih]
        simp
        ring
      · simp only [List.map_cons, List.sum_cons, List.filter_cons, h, ih]
        simp [h]
        ring
  intro h
  apply hs
  have e := key ls
  simp only [List.nil_append, List.length_nil, zero_add] at h
  rw [List.take_of_length_le (by simp), List.map_map] at h
  have h' : (ls.map (fun l => l.power.1)).sum = ((ls.filter (fun l => l.status ≠ 0)).map (fun l => l.power.1)).sum := h
  rw [h'] at e
  linarith

/-! ### C233 -/

/-- **C233** (partial).  For every list of loads of a bus without a composite load: the load that enters the simulation is the sum
of the loads in service. -/
theorem C233_load_partial (ls : List LoadRec) (hc : ∀ l ∈ ls, l.composite = false) :
    simulatedLoad (readLoads ls [] []) = loadInService ls := by
  rw [readLoads_plain ls hc]
  unfold simulatedLoad loadInService
  have key : ∀ (f : ℝ × ℝ → ℝ) (ls : List LoadRec),
      (((ls.map LoadRec.power).zip (ls.map LoadRec.status)).map (fun e => if e.2 ≠ 0 then f e.1 else 0)).sum =
      ((ls.filter (fun l => l.status ≠ 0)).map (fun l => f l.power)).sum := by
    intro f ls
    induction ls with
    | nil => simp
    | cons l ls ih =>
      by_cases h : l.status = 0
      · simpa [h] using ih
      · simpa [h] using ih
  simp only [List.nil_append, List.length_nil, zero_add]
  rw [List.take_of_length_le (by simp)]
  exact Prod.ext (key Prod.fst ls) (key Prod.snd ls)

/-- C232 and C233 fail at a bus with a composite load (which is moved to a bus of its own) and other loads: the other loads of
the bus, before and after it, vanish from the report and from the simulation. -/
theorem C233_composite_violated (ls : List LoadRec) (hc : ∃ l ∈ ls, l.composite = true)
    (ho : loadInService (ls.filter (fun l => !l.composite)) ≠ (0, 0)) :
    simulatedLoad (readLoads ls [] []) ≠ loadInService (ls.filter (fun l => !l.composite)) ∧
    totalLoad (readLoads ls [] []) ≠ loadInService (ls.filter (fun l => !l.composite)) := by
  have h := readLoads_composite ls hc [] []
  have h1 : simulatedLoad (readLoads ls [] []) = (0, 0) := by unfold simulatedLoad; rw [h]; simp
  have h2 : totalLoad (readLoads ls [] []) = (0, 0) := by unfold totalLoad; rw [h]; simp
  rw [h1, h2]
  exact ⟨ho.symm, ho.symm⟩

/-! ### C234 -/

/-- **C234**, bus.  After the transfer from the power flow, the generation reported for a bus that is not the reference bus is the
sum of the active powers of its generators in MW (those out of service have none). -/
theorem C234_bus (pinj qinj : ℝ) (b : PFBusData.Bus) (hr : b.ref = false) (hs : b.sbase ≠ 0) :
    (totalGen b.sbase (transferred pinj qinj b)).1 = (b.gens.map (fun g => g.pg)).sum := by
  unfold totalGen transferred PFBusData.saveGen
  simp only [hr, Bool.false_eq_true, if_false, List.map_map]
  have : (Prod.fst ∘ fun (g : PFBusData.Gen) => if b.isPV = true then
      (g.pg / b.sbase, g.pFac * (qinj + PFBusData.loadSum PFBusData.Load.ql b / b.sbase))
      else (g.pg / b.sbase, g.qg / b.sbase)) = fun g => g.pg / b.sbase := by
    funext g
    simp only [Function.comp]
    split <;> rfl
  rw [this]
  induction b.gens with
  | nil => simp
  | cons g gs ih =>
    simp only [List.map_cons, List.sum_cons]
    rw [add_mul, ih]
    field_simp

/-- **C234**, reference bus.  There the generation reported is the power injected into the network, as solved, plus the load of
the bus, in MW and MVar; at a bus with controlled voltage so is the reactive generation. -/
theorem C234_reference (pinj qinj : ℝ) (b : PFBusData.Bus) (hs : b.sbase ≠ 0)
    (hf : (b.gens.map (fun g => g.pFac)).sum = 1) :
    (b.ref = true → (totalGen b.sbase (transferred pinj qinj b)).1 = pinj * b.sbase + PFBusData.loadSum PFBusData.Load.pl b) ∧
    (b.ref = true ∨ b.isPV = true →
      (totalGen b.sbase (transferred pinj qinj b)).2 = qinj * b.sbase + PFBusData.loadSum PFBusData.Load.ql b) := by
  have key : ∀ c : ℝ, ((b.gens.map (fun g => g.pFac * c)).sum) = c := by
    intro c
    have : ∀ gs : List PFBusData.Gen, (gs.map (fun g => g.pFac * c)).sum = (gs.map (fun g => g.pFac)).sum * c := by
      intro gs
      induction gs with
      | nil => simp
      | cons g gs ih => simp only [List.map_cons, List.sum_cons, add_mul, ih]
    rw [this, hf, one_mul]
  constructor
  · intro hr
    unfold totalGen transferred PFBusData.saveGen
    simp only [hr, if_true, List.map_map]
    have : (Prod.fst ∘ fun (g : PFBusData.Gen) =>
        (g.pFac * (pinj + PFBusData.loadSum PFBusData.Load.pl b / b.sbase),
          g.pFac * (qinj + PFBusData.loadSum PFBusData.Load.ql b / b.sbase))) =
        fun g => g.pFac * (pinj + PFBusData.loadSum PFBusData.Load.pl b / b.sbase) := rfl
    rw [this, key]
    field_simp
  · intro hr
    unfold totalGen transferred PFBusData.saveGen
    simp only [List.map_map]
    have : (Prod.snd ∘ fun (g : PFBusData.Gen) => if b.ref = true then
        (g.pFac * (pinj + PFBusData.loadSum PFBusData.Load.pl b / b.sbase),
          g.pFac * (qinj + PFBusData.loadSum PFBusData.Load.ql b / b.sbase))
        else if b.isPV = true then (g.pg / b.sbase, g.pFac * (qinj + PFBusData.loadSum PFBusData.Load.ql b / b.sbase))
        else (g.pg / b.sbase, g.qg / b.sbase)) =
        fun g => g.pFac * (qinj + PFBusData.loadSum PFBusData.Load.ql b / b.sbase) := by
      funext g
      simp only [Function.comp]
      rcases hr with hr | hr
      · simp [hr]
      · simp only [hr, if_true]
        split <;> rfl
    rw [this, key]
    field_simp

/-- **C234**, asking.  On the process where the bus is active, asking for a generator by its id gives its powers in MW and MVar;
on the other processes the answer is "not here", or zeros if the user has asked for these. -/
theorem C234_ask (dummy : Bool) (sbase : ℝ) (gens : List (String × ℝ × ℝ)) (hd : (gens.map Prod.fst).Nodup)
    (g : String × ℝ × ℝ) (hg : g ∈ gens) :
    askGen dummy sbase [gens] g.1 = some (g.2.1 * sbase, g.2.2 * sbase) ∧
    askGen dummy sbase [] g.1 = if dummy then some (0, 0) else none := by
  refine ⟨?_, rfl⟩
  unfold askGen genPower
  have : gens.find? (fun x => decide (x.1 = g.1)) = some g := by
    induction gens with
    | nil => simp at hg
    | cons a gens ih =>
      rw [List.map_cons, List.nodup_cons] at hd
      rcases List.mem_cons.1 hg with rfl | hg
      · simp
      · have : a.1 ≠ g.1 := by
          intro e
          exact hd.1 (e ▸ List.mem_map.2 ⟨g, hg, rfl⟩)
        rw [List.find?_cons_of_neg (by simpa using this)]
        exact ih hd.2 hg
  simp only [this]
  simp

/-! ### Examples -/

/-- Three buses on two processes, zones 7, 2, 7; the second process has a copy of the first bus. -/
noncomputable def procs2 : List (List Local) :=
  [[⟨true, 7, 10, 1⟩, ⟨true, 2, 20, 2⟩], [⟨false, 7, 10, 1⟩, ⟨true, 7, 30, 3⟩]]

example : Distributed [(7, 10, 1), (7, 30, 3), (2, 20, 2)] procs2 := by
  unfold Distributed procs2
  simp
  exact List.Perm.swap _ _ _

example : zoneList procs2 = [2, 7] := by
  simp [zoneList, procs2, localMap, note, allZones, written, start, iterated, insertKey, sort, pass, List.range_succ]

example : loadInService [⟨10, 5, 0, 0, 0, 0, 1, false⟩, ⟨20, 5, 0, 0, 0, 0, 0, false⟩] = (10, 5) := by
  simp [loadInService, LoadRec.power]

end GridPACK.Zones
