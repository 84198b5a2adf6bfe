import Verif.Lemmas.RtprCases

/-! C244 (contingencies and watched generators of a region), C245 (tie lines), C246 (verdict about a rating),
C247 (faults of the dynamic simulation). -/
namespace GridPACK.RtprCases

open StringUtils GlobalVector
open GridPACK.CaDriver (Event bind)

/-! ### C244 -/

theorem region_iff (r : Region) (a z : Int) :
    (a = r.area ∧ (if r.zone > 0 then z else r.zone) = r.zone) ↔ r.Has a z := by
  unfold Region.Has
  by_cases h : r.zone > 0
  · rw [if_pos h]; exact ⟨fun e => ⟨e.1, fun _ => e.2⟩, fun e => ⟨e.1, e.2 h⟩⟩
  · rw [if_neg h]; exact ⟨fun e => ⟨e.1, fun h' => absurd h' h⟩, fun e => ⟨e.1, rfl⟩⟩

theorem gen_service (g : Gen) : g.status.getD 0 ≠ 0 ↔ g.InService := by
  unfold Gen.InService
  cases g.status with
  | none => simp
  | some s => simp

theorem line_service (l : Line) : l.status.getD 0 ≠ 0 ↔ l.InService := by
  unfold Line.InService
  cases l.status with
  | none => simp
  | some s => simp

/-- The generators that the local loop finds. -/
def gensOf (r : Region) (bs : List Bus) : List (Int × Str) :=
  bs.flatMap (fun b => if b.active = true ∧ r.Has b.area b.zone then
    ((b.gens.getD []).filter (fun g => decide (g.status.getD 0 ≠ 0))).map (fun g => (b.orig, g.id)) else [])

theorem genEntries_eq (orig : Int) (gs : List Gen) (h : ∀ g ∈ gs, Stored g.id) :
    genEntries orig gs = .ok ((gs.filter (fun g => decide (g.status.getD 0 ≠ 0))).map (fun g => (orig, g.id))) := by
  induction gs with
  | nil => rfl
  | cons g gs ih =>
    have h1 := h g (by simp)
    have ih := ih (fun g hg => h g (by simp [hg]))
    unfold genEntries
    by_cases hs : g.status.getD 0 ≠ 0
    · rw [if_pos hs, stored_clean h1, ih, List.filter_cons_of_pos (by simpa using hs)]
      simp only [CaDriver.bind, List.map_cons, stored_take h1]
    · rw [if_neg hs, ih, List.filter_cons_of_neg (by simpa using hs)]

theorem genLocal_eq (r : Region) (bs : List Bus) (h : ∀ b ∈ bs, ∀ gs, b.gens = some gs → ∀ g ∈ gs, Stored g.id) :
    genLocal r.area r.zone bs = .ok (gensOf r bs) := by
  induction bs with
  | nil => rfl
  | cons b bs ih =>
    have ih := ih (fun b hb => h b (by simp [hb]))
    have hb : ∀ g ∈ b.gens.getD [], Stored g.id := by
      intro g hg
      cases hgs : b.gens with
      | none => rw [hgs] at hg; simp at hg
      | some gs => rw [hgs] at hg; exact h b (by simp) gs hgs g hg
    unfold genLocal gensOf
    simp only [List.flatMap_cons]
    by_cases ha : b.active = true
    · by_cases hr : r.Has b.area b.zone
      · rw [if_pos ha, if_pos ((region_iff r b.area b.zone).2 hr), genEntries_eq _ _ hb, ih, if_pos ⟨ha, hr⟩]
        rfl
      · rw [if_pos ha, if_neg (fun e => hr ((region_iff r b.area b.zone).1 e)), ih,
          if_neg (fun e => hr e.2)]
        rfl
    · rw [if_neg ha, ih, if_neg (fun e => ha e.1)]
      rfl

theorem mem_gensOf (r : Region) (n : Nat) (procs : Nat → List Bus) (bus : Int) (id : Str) :
    (bus, id) ∈ (List.range n).flatMap (fun p => gensOf r (procs p)) ↔ IsGen n procs r bus id := by
  unfold IsGen gensOf
  simp only [List.mem_flatMap, List.mem_range]
  constructor
  · rintro ⟨p, hp, b, hb, hm⟩
    by_cases hc : b.active = true ∧ r.Has b.area b.zone
    · rw [if_pos hc] at hm
      obtain ⟨g, hg, e⟩ := List.mem_map.1 hm
      obtain ⟨hg, hs⟩ := List.mem_filter.1 hg
      simp only [Prod.mk.injEq] at e
      cases hgs : b.gens with
      | none => rw [hgs] at hg; simp at hg
      | some gs =>
        rw [hgs] at hg
        exact ⟨p, hp, b, hb, hc.1, e.1, hc.2, gs, hgs, g, hg, (gen_service g).1 (by simpa using hs), e.2⟩
    · rw [if_neg hc] at hm; simp at hm
  · rintro ⟨p, hp, b, hb, ha, ho, hr, gs, hgs, g, hg, hs, hi⟩
    refine ⟨p, hp, b, hb, ?_⟩
    rw [if_pos ⟨ha, hr⟩, hgs]
    exact List.mem_map.2 ⟨g, List.mem_filter.2 ⟨hg, by simpa using (gen_service g).2 hs⟩, by rw [ho, hi]⟩

theorem flatMap_sublist {α β : Type} (l : List α) (f g : α → List β) (h : ∀ a ∈ l, (f a).Sublist (g a)) :
    (l.flatMap f).Sublist (l.flatMap g) := by
  induction l with
  | nil => exact List.Sublist.slnil
  | cons a l ih =>
    simp only [List.flatMap_cons]
    exact (h a (by simp)).append (ih (fun b hb => h b (by simp [hb])))

theorem gensOf_sublist (r : Region) (n : Nat) (procs : Nat → List Bus) :
    ((List.range n).flatMap (fun p => gensOf r (procs p))).Sublist (allGens n procs) := by
  apply flatMap_sublist
  intro p _
  apply flatMap_sublist
  intro b _
  by_cases ha : b.active = true
  · rw [if_pos ha]
    split
    · exact (List.filter_sublist).map _
    · exact List.nil_sublist _
  · rw [if_neg ha, if_neg (fun e => ha e.1)]

theorem range_getD {α : Type} (L : List α) (d : α) {β : Type} (f : Nat → α → β) :
    (List.range L.length).map (fun i => f i (L.getD i d)) = L.zipIdx.map (fun x => f x.2 x.1) := by
  apply List.ext_getElem
  · simp
  · intro i h1 h2
    simp only [List.length_map, List.length_range] at h1
    simp [List.getD_eq_getElem?_getD, h1]

theorem gensOf_stored (r : Region) (n : Nat) (procs : Nat → List Bus)
    (hs : ∀ p, p < n → ∀ b ∈ procs p, ∀ gs, b.gens = some gs → ∀ g ∈ gs, Stored g.id) :
    ∀ x ∈ (List.range n).flatMap (fun p => gensOf r (procs p)), Stored x.2 := by
  rintro ⟨bus, id⟩ hx
  obtain ⟨p, hp, b, hb, -, -, -, gs, hgs, g, hg, -, rfl⟩ := (mem_gensOf r n procs bus id).1 hx
  exact hs p hp b hb gs hgs g hg

/-- C244, the part that holds: for every network, distribution and region, and for every execution in which no process
clears its part of the global vectors late, the contingencies created are the generators of the region that are in
service, numbered from 1, each of them once if the generators have different names.

Partial: in other executions entries are lost, see `C244_lost_violated`. -/
theorem C244_generators_partial (n : Nat) (procs : Nat → List Bus) (r : Region)
    (hs : ∀ p, p < n → ∀ b ∈ procs p, ∀ gs, b.gens = some gs → ∀ g ∈ gs, Stored g.id) :
    ∃ loc : Nat → List (Int × Str), (∀ p, p < n → genLocal r.area r.zone (procs p) = .ok (loc p)) ∧
      ∀ own1 own2 g1 g2 s1 s2, Clean n own1 (added (fun p => (loc p).map (·.1))) s1 →
        Clean n own2 (added (fun p => (loc p).map (·.2))) s2 →
        ∃ L : List (Int × Str), genContingencies n own1 own2 g1 g2 loc s1 s2 =
            .ok (L.zipIdx.map (fun x => .generator ("GenCTG" ++ toString (x.2 + 1)).toList [x.1])) ∧
          (∀ bus id, (bus, id) ∈ L ↔ IsGen n procs r bus id) ∧ ((allGens n procs).Nodup → L.Nodup) := by
  refine ⟨fun p => gensOf r (procs p), fun p hp => genLocal_eq r _ (hs p hp), ?_⟩
  intro own1 own2 g1 g2 s1 s2 c1 c2
  refine ⟨(List.range n).flatMap (fun p => gensOf r (procs p)), ?_, mem_gensOf r n procs,
    fun h => h.sublist (gensOf_sublist r n procs)⟩
  unfold genContingencies
  dsimp only
  by_cases h0 : offset (fun p => gensOf r (procs p)) n = 0
  · rw [if_pos h0]
    have : (List.range n).flatMap (fun p => gensOf r (procs p)) = [] := by
      apply List.eq_nil_of_length_eq_zero; rw [length_all, h0]
    rw [this]; rfl
  · rw [if_neg h0, joined_clean _ _ _ _ _ _ c1, joined_clean _ _ _ _ _ _ c2, flatMap_map, flatMap_map]
    rw [genFaults_ok _ (gensOf_stored r n procs hs) _ (by intro i hi; rw [length_all]; exact List.mem_range.1 hi),
      ← length_all, range_getD _ _ (fun i x => Event.generator ("GenCTG" ++ toString (i + 1)).toList [x])]

/-- C244 on one process: every execution gives the generators in service. -/
theorem C244_one_process (buses : List Bus) (r : Region)
    (hs : ∀ b ∈ buses, ∀ gs, b.gens = some gs → ∀ g ∈ gs, Stored g.id) :
    ∃ loc : List (Int × Str), genLocal r.area r.zone buses = .ok loc ∧
      ∀ g1 g2 s1 s2, Interleaved 1 (fun p => writeProg (added (fun _ => loc.map (·.1)) p)) s1 →
        Interleaved 1 (fun p => writeProg (added (fun _ => loc.map (·.2)) p)) s2 →
        genContingencies 1 (fun _ => 0) (fun _ => 0) g1 g2 (fun _ => loc) s1 s2 =
          .ok (loc.zipIdx.map (fun x => .generator ("GenCTG" ++ toString (x.2 + 1)).toList [x.1])) := by
  refine ⟨gensOf r buses, genLocal_eq r _ hs, ?_⟩
  intro g1 g2 s1 s2 i1 i2
  have c1 := clean_one (fun _ => (gensOf r buses).map (·.1)) s1 i1
  have c2 := clean_one (fun _ => (gensOf r buses).map (·.2)) s2 i2
  have hst := gensOf_stored r 1 (fun _ => buses) (fun p _ => hs)
  have e : (List.range 1).flatMap (fun p => gensOf r ((fun _ : Nat => buses) p)) = gensOf r buses := by simp
  rw [e] at hst
  unfold genContingencies
  dsimp only
  by_cases h0 : offset (fun _ => gensOf r buses) 1 = 0
  · rw [if_pos h0]
    have : gensOf r buses = [] := by
      rw [← e]; apply List.eq_nil_of_length_eq_zero; rw [length_all]; exact h0
    rw [this]; rfl
  · rw [if_neg h0, joined_clean _ _ _ _ _ _ c1, joined_clean _ _ _ _ _ _ c2]
    have hl : offset (fun _ => gensOf r buses) 1 = (gensOf r buses).length := by simp [offset]
    rw [show (List.range 1).flatMap (fun _ => (gensOf r buses).map (·.1)) = (gensOf r buses).map (·.1) by simp,
      show (List.range 1).flatMap (fun _ => (gensOf r buses).map (·.2)) = (gensOf r buses).map (·.2) by simp, hl,
      genFaults_ok _ hst _ (by intro i hi; exact List.mem_range.1 hi),
      range_getD _ _ (fun i x => Event.generator ("GenCTG" ++ toString (i + 1)).toList [x])]

/-- C244 fails on more than one process: `upload` does not synchronise.  For every generator found on a process that
does not hold its entry of the vector of names there is an execution, clean as far as the bus numbers are concerned,
that ends with an exception of `clean2Char` instead of a list of contingencies. -/
theorem C244_lost_violated (n : Nat) (procs : Nat → List Bus) (r : Region)
    (hs : ∀ p, p < n → ∀ b ∈ procs p, ∀ gs, b.gens = some gs → ∀ g ∈ gs, Stored g.id)
    (own1 own2 : Nat → Nat) (g1 : Nat → Int) (g2 : Nat → Str) (s1 : List (Nat × Act Int))
    (loc : Nat → List (Int × Str)) (hloc : ∀ p, p < n → genLocal r.area r.zone (procs p) = .ok (loc p))
    (p k : Nat) (hp : p < n) (hk : k < (loc p).length) (ho : ∀ i, own2 i < n) (hne : own2 (offset loc p + k) ≠ p) :
    ∃ s2, Interleaved n (fun p => writeProg (added (fun p => (loc p).map (·.2)) p)) s2 ∧
      genContingencies n own1 own2 g1 g2 loc s1 s2 = .throws := by
  have hst : ∀ q, q < n → ∀ x ∈ loc q, Stored x.2 := by
    intro q hq x hx
    have h1 := hloc q hq
    rw [genLocal_eq r _ (hs q hq)] at h1
    have h2 : gensOf r (procs q) = loc q := by injection h1
    apply gensOf_stored r n procs hs x
    rw [← h2] at hx
    exact List.mem_flatMap.2 ⟨q, List.mem_range.2 hq, hx⟩
  obtain ⟨s2, hI, hz⟩ := joined_lost n own2 ([] : Str) g2 (fun p => (loc p).map (·.2)) p k hp (by simpa using hk)
    (by apply ho) (by rw [offset_map]; exact hne)
  rw [offset_map] at hz
  refine ⟨s2, hI, ?_⟩
  have hlt : offset loc p + k < offset loc n := by
    have hmono : ∀ m, p < m → offset loc p + k < offset loc m := by
      intro m hm
      induction m with
      | zero => omega
      | succ m ih =>
        rw [offset_succ]
        by_cases e : p = m
        · subst e; omega
        · have := ih (by omega); omega
    exact hmono n hp
  unfold genContingencies
  dsimp only
  rw [if_neg (by omega)]
  apply genFaults_throws _ _ _ (offset loc p + k) (List.mem_range.2 hlt)
  · rw [List.getD_eq_getElem?_getD, hz]; rfl
  · intro j hj
    have hj := List.mem_range.1 hj
    obtain ⟨q, hq, hm⟩ := mem_added (fun p => (loc p).map (·.2)) n j (by rw [offset_map]; exact hj)
    have hv := C94_exact n own2 ([] : Str) g2 (added (fun p => (loc p).map (·.2))) s2 hI (added_ok _ n).1 (added_ok _ n).2
      q hq _ hm
    have hget : (joined n own2 ([] : Str) g2 (fun p => (loc p).map (·.2)) s2).getD j [] = writing own2 [] g2 s2 j := by
      unfold joined allData
      rw [numElems_added, offset_map, List.getD_eq_getElem?_getD]
      simp [hj]
    rw [hget]
    by_cases hc : ClearedAfter own2 s2 q
        ((j : Int), ((List.range n).flatMap (fun p => (loc p).map (·.2)))[j]'(by rw [length_all, offset_map]; exact hj))
    · left; simpa using hv.1 hc
    · right
      have := hv.2 hc
      simp only [Int.toNat_natCast] at this
      rw [this]
      obtain ⟨y, hy, e⟩ := List.mem_map.1 hm
      have hmem : ((List.range n).flatMap (fun p => (loc p).map (·.2)))[j]'(by rw [length_all, offset_map]; exact hj) ∈
          (List.range n).flatMap (fun p => (loc p).map (·.2)) := List.getElem_mem _
      obtain ⟨q', hq', hm'⟩ := List.mem_flatMap.1 hmem
      obtain ⟨x, hx, e'⟩ := List.mem_map.1 hm'
      rw [← e']
      exact hst q' (List.mem_range.1 hq') x hx

/-- The lines that the local loop finds. -/
def linesOf (r : Region) (bs : List Branch) : List (Int × Int × Str) :=
  bs.flatMap (fun b => if b.active = true ∧ r.Has b.area1 b.zone1 ∧ r.Has b.area2 b.zone2 then
    ((b.lines.getD []).filter (fun l => decide (l.status.getD 0 ≠ 0))).map (fun l => (b.from', b.to', l.ckt)) else [])

theorem lineEntries_eq (f t : Int) (ls : List Line) (h : ∀ l ∈ ls, Stored l.ckt) :
    lineEntries f t ls = .ok ((ls.filter (fun l => decide (l.status.getD 0 ≠ 0))).map (fun l => (f, t, l.ckt))) := by
  induction ls with
  | nil => rfl
  | cons l ls ih =>
    have h1 := h l (by simp)
    have ih := ih (fun g hg => h g (by simp [hg]))
    unfold lineEntries
    by_cases hs : l.status.getD 0 ≠ 0
    · rw [if_pos hs, stored_clean h1, ih, List.filter_cons_of_pos (by simpa using hs)]
      simp only [CaDriver.bind, List.map_cons, stored_take h1]
    · rw [if_neg hs, ih, List.filter_cons_of_neg (by simpa using hs)]

theorem region2_iff (r : Region) (a1 z1 a2 z2 : Int) :
    (r.area = a1 ∧ r.area = a2 ∧ r.zone = (if r.zone > 0 then z1 else r.zone) ∧
      r.zone = (if r.zone > 0 then z2 else r.zone)) ↔ r.Has a1 z1 ∧ r.Has a2 z2 := by
  rw [← region_iff, ← region_iff]
  constructor
  · rintro ⟨h1, h2, h3, h4⟩; exact ⟨⟨h1.symm, h3.symm⟩, h2.symm, h4.symm⟩
  · rintro ⟨⟨h1, h3⟩, h2, h4⟩; exact ⟨h1.symm, h2.symm, h3.symm, h4.symm⟩

theorem branchLocal_eq (r : Region) (bs : List Branch)
    (h : ∀ b ∈ bs, ∀ ls, b.lines = some ls → ∀ l ∈ ls, Stored l.ckt) :
    branchLocal r.area r.zone bs = .ok (linesOf r bs) := by
  induction bs with
  | nil => rfl
  | cons b bs ih =>
    have ih := ih (fun b hb => h b (by simp [hb]))
    have hb : ∀ l ∈ b.lines.getD [], Stored l.ckt := by
      intro g hg
      cases hgs : b.lines with
      | none => rw [hgs] at hg; simp at hg
      | some gs => rw [hgs] at hg; exact h b (by simp) gs hgs g hg
    unfold branchLocal linesOf
    simp only [List.flatMap_cons]
    by_cases ha : b.active = true
    · by_cases hr : r.Has b.area1 b.zone1 ∧ r.Has b.area2 b.zone2
      · rw [if_pos ha, if_pos ((region2_iff r _ _ _ _).2 hr), lineEntries_eq _ _ _ hb, ih, if_pos ⟨ha, hr⟩]
        rfl
      · rw [if_pos ha, if_neg (fun e => hr ((region2_iff r _ _ _ _).1 e)), ih,
          if_neg (fun e => hr e.2)]
        rfl
    · rw [if_neg ha, ih, if_neg (fun e => ha e.1)]
      rfl

theorem mem_linesOf (r : Region) (n : Nat) (procs : Nat → List Branch) (f t : Int) (id : Str) :
    (f, t, id) ∈ (List.range n).flatMap (fun p => linesOf r (procs p)) ↔ IsLine n procs r f t id := by
  unfold IsLine linesOf
  simp only [List.mem_flatMap, List.mem_range]
  constructor
  · rintro ⟨p, hp, b, hb, hm⟩
    by_cases hc : b.active = true ∧ r.Has b.area1 b.zone1 ∧ r.Has b.area2 b.zone2
    · rw [if_pos hc] at hm
      obtain ⟨g, hg, e⟩ := List.mem_map.1 hm
      obtain ⟨hg, hs⟩ := List.mem_filter.1 hg
      simp only [Prod.mk.injEq] at e
      cases hgs : b.lines with
      | none => rw [hgs] at hg; simp at hg
      | some gs =>
        rw [hgs] at hg
        exact ⟨p, hp, b, hb, hc.1, e.1, e.2.1, hc.2.1, hc.2.2, gs, hgs, g, hg, (line_service g).1 (by simpa using hs),
          e.2.2⟩
    · rw [if_neg hc] at hm; simp at hm
  · rintro ⟨p, hp, b, hb, ha, hf, ht, hr1, hr2, gs, hgs, g, hg, hs, hi⟩
    refine ⟨p, hp, b, hb, ?_⟩
    rw [if_pos ⟨ha, hr1, hr2⟩, hgs]
    exact List.mem_map.2 ⟨g, List.mem_filter.2 ⟨hg, by simpa using (line_service g).2 hs⟩, by rw [hf, ht, hi]⟩

theorem linesOf_sublist (r : Region) (n : Nat) (procs : Nat → List Branch) :
    ((List.range n).flatMap (fun p => linesOf r (procs p))).Sublist (allLines n procs) := by
  apply flatMap_sublist
  intro p _
  apply flatMap_sublist
  intro b _
  by_cases ha : b.active = true
  · rw [if_pos ha]
    split
    · exact (List.filter_sublist).map _
    · exact List.nil_sublist _
  · rw [if_neg ha, if_neg (fun e => ha e.1)]

/-- C244 for lines, the part that holds: the contingencies created are the lines in service both ends of which are in
the region, each of them once if they have different names. -/
theorem C244_lines_partial (n : Nat) (procs : Nat → List Branch) (r : Region)
    (hs : ∀ p, p < n → ∀ b ∈ procs p, ∀ ls, b.lines = some ls → ∀ l ∈ ls, Stored l.ckt) :
    ∃ loc : Nat → List (Int × Int × Str), (∀ p, p < n → branchLocal r.area r.zone (procs p) = .ok (loc p)) ∧
      ∀ own1 own2 own3 g1 g2 g3 s1 s2 s3, Clean n own1 (added (fun p => (loc p).map (·.1))) s1 →
        Clean n own2 (added (fun p => (loc p).map (·.2.1))) s2 →
        Clean n own3 (added (fun p => (loc p).map (·.2.2))) s3 →
        ∃ L : List (Int × Int × Str), branchContingencies n own1 own2 own3 g1 g2 g3 loc s1 s2 s3 =
            .ok (L.zipIdx.map (fun x => .branch ("LineCTG" ++ toString (x.2 + 1)).toList [x.1])) ∧
          (∀ f t id, (f, t, id) ∈ L ↔ IsLine n procs r f t id) ∧ ((allLines n procs).Nodup → L.Nodup) := by
  refine ⟨fun p => linesOf r (procs p), fun p hp => branchLocal_eq r _ (hs p hp), ?_⟩
  intro own1 own2 own3 g1 g2 g3 s1 s2 s3 c1 c2 c3
  refine ⟨(List.range n).flatMap (fun p => linesOf r (procs p)), ?_, mem_linesOf r n procs,
    fun h => h.sublist (linesOf_sublist r n procs)⟩
  have hst : ∀ x ∈ (List.range n).flatMap (fun p => linesOf r (procs p)), Stored x.2.2 := by
    rintro ⟨f, t, id⟩ hx
    obtain ⟨p, hp, b, hb, -, -, -, -, -, gs, hgs, g, hg, -, rfl⟩ := (mem_linesOf r n procs f t id).1 hx
    exact hs p hp b hb gs hgs g hg
  unfold branchContingencies
  dsimp only
  by_cases h0 : offset (fun p => linesOf r (procs p)) n = 0
  · rw [if_pos h0]
    have : (List.range n).flatMap (fun p => linesOf r (procs p)) = [] := by
      apply List.eq_nil_of_length_eq_zero; rw [length_all, h0]
    rw [this]; rfl
  · rw [if_neg h0, joined_clean _ _ _ _ _ _ c1, joined_clean _ _ _ _ _ _ c2, joined_clean _ _ _ _ _ _ c3,
      flatMap_map, flatMap_map, flatMap_map]
    rw [lineFaults_ok _ hst _ (by intro i hi; rw [length_all]; exact List.mem_range.1 hi),
      ← length_all, range_getD _ _ (fun i x => Event.branch ("LineCTG" ++ toString (i + 1)).toList [x])]

/-- C244 for the watched generators, the part that holds: they are the generators of the region in service, provided
there is one. -/
theorem C244_watched_partial (n : Nat) (procs : Nat → List Bus) (r : Region)
    (hs : ∀ p, p < n → ∀ b ∈ procs p, ∀ gs, b.gens = some gs → ∀ g ∈ gs, Stored g.id)
    (hex : ∃ bus id, IsGen n procs r bus id) :
    ∃ loc : Nat → List (Int × Str), (∀ p, p < n → genLocal r.area r.zone (procs p) = .ok (loc p)) ∧
      ∀ own1 own2 g1 g2 s1 s2 old, Clean n own1 (added (fun p => (loc p).map (·.1))) s1 →
        Clean n own2 (added (fun p => (loc p).map (·.2))) s2 →
        ∃ L : List (Int × Str), watched n own1 own2 g1 g2 loc s1 s2 old = (L.map (·.1), L.map (·.2)) ∧
          (∀ bus id, (bus, id) ∈ L ↔ IsGen n procs r bus id) ∧ ((allGens n procs).Nodup → L.Nodup) := by
  refine ⟨fun p => gensOf r (procs p), fun p hp => genLocal_eq r _ (hs p hp), ?_⟩
  intro own1 own2 g1 g2 s1 s2 old c1 c2
  refine ⟨(List.range n).flatMap (fun p => gensOf r (procs p)), ?_, mem_gensOf r n procs,
    fun h => h.sublist (gensOf_sublist r n procs)⟩
  unfold watched
  have h0 : offset (fun p => gensOf r (procs p)) n ≠ 0 := by
    obtain ⟨bus, id, h⟩ := hex
    have := (mem_gensOf r n procs bus id).2 h
    rw [← length_all]
    intro e
    rw [List.length_eq_zero_iff] at e
    rw [e] at this; simp at this
  rw [if_neg h0, joined_clean _ _ _ _ _ _ c1, joined_clean _ _ _ _ _ _ c2, flatMap_map, flatMap_map]
  dsimp only
  congr 1
  apply List.ext_getElem
  · simp
  · intro i h1 h2
    simp only [List.length_map, List.length_range] at h1
    rw [List.getElem_map, List.getElem_range, List.getD_eq_getElem?_getD, List.getElem?_eq_getElem h2]
    rfl

/-! ### C245 -/

/-- Zone numbers of the two regions that `getTieLines` can handle. -/
def Together (r1 r2 : Region) : Prop := (0 < r1.zone ∧ 0 < r2.zone) ∨ r1.zone = r2.zone

theorem tieBranch_eq (r1 r2 : Region) (h : Together r1 r2) (b : Branch) :
    tieBranch r1.area r1.zone r2.area r2.zone b =
      if (r1.Has b.area1 b.zone1 ∧ r2.Has b.area2 b.zone2) ∨ (r1.Has b.area2 b.zone2 ∧ r2.Has b.area1 b.zone1) then
        tieEntries b else [] := by
  have h1 := region_iff r1 b.area1 b.zone1
  have h2 := region_iff r2 b.area2 b.zone2
  have h3 := region_iff r1 b.area2 b.zone2
  have h4 := region_iff r2 b.area1 b.zone1
  unfold tieBranch
  dsimp only
  by_cases hf : r1.Has b.area1 b.zone1 ∧ r2.Has b.area2 b.zone2
  · rw [if_pos (Or.inl hf), if_pos]
    exact ⟨(h1.2 hf.1).1, (h1.2 hf.1).2, (h2.2 hf.2).1, (h2.2 hf.2).2⟩
  · rw [if_neg (fun e => hf ⟨h1.1 ⟨e.1, e.2.1⟩, h2.1 ⟨e.2.2.1, e.2.2.2⟩⟩)]
    by_cases hb : r1.Has b.area2 b.zone2 ∧ r2.Has b.area1 b.zone1
    · rw [if_pos (Or.inr hb), if_pos]
      refine ⟨(h3.2 hb.1).1, ?_, (h4.2 hb.2).1, ?_⟩
      · rcases h with ⟨ha, hc⟩ | h
        · rw [if_pos hc]; exact hb.1.2 ha
        · rw [h]; have := (h3.2 hb.1).2; rw [h] at this; exact this
      · rcases h with ⟨ha, hc⟩ | h
        · rw [if_pos ha]; exact hb.2.2 hc
        · rw [h]; have := (h4.2 hb.2).2; exact this
    · refine Eq.trans ?_ (if_neg (not_or.2 ⟨hf, hb⟩)).symm
      rw [if_neg]
      rintro ⟨e1, e2, e3, e4⟩
      apply hb
      constructor
      · refine ⟨e1, fun hz => ?_⟩
        rcases h with ⟨ha, hc⟩ | h
        · rw [if_pos hc] at e2; exact e2
        · rw [if_pos (h ▸ hz)] at e2; exact e2
      · refine ⟨e3, fun hz => ?_⟩
        rcases h with ⟨ha, hc⟩ | h
        · rw [if_pos ha] at e4; exact e4
        · rw [if_pos (h.symm ▸ hz)] at e4; exact e4

/-- C245, the part that holds: if a zone is given for both regions or for none, then for every network, distribution
and clean execution every process obtains the lines connecting the two regions, in either direction.

Partial: with a zone for one region only, lines are missing (`C245_zone_violated`); lines out of service are listed as
well (`C245_inactive_violated`). -/
theorem C245_ties_partial (n : Nat) (procs : Nat → List Branch) (r1 r2 : Region) (hz : Together r1 r2)
    (hs : ∀ p, p < n → ∀ b ∈ procs p, ∀ ls, b.lines = some ls → ∀ l ∈ ls, Stored l.ckt)
    (own : Nat → Nat) (garbage : Nat → Int × Int × Str) (sched : List (Nat × Act (Int × Int × Str)))
    (hc : Clean n own (added (fun p => tieLocal r1.area r1.zone r2.area r2.zone (procs p))) sched)
    (me : Nat) (hme : me < n) (f t : Int) (id : Str) :
    (f, t, id) ∈ tieLines n own garbage (fun p => tieLocal r1.area r1.zone r2.area r2.zone (procs p)) sched me ↔
      IsTie n procs r1 r2 f t id := by
  have key : tieLines n own garbage (fun p => tieLocal r1.area r1.zone r2.area r2.zone (procs p)) sched me =
      (List.range n).flatMap (fun p => tieLocal r1.area r1.zone r2.area r2.zone (procs p)) := by
    unfold tieLines
    by_cases h0 : offset (fun p => tieLocal r1.area r1.zone r2.area r2.zone (procs p)) n = 0
    · rw [if_pos h0]
      have h1 : (List.range n).flatMap (fun p => tieLocal r1.area r1.zone r2.area r2.zone (procs p)) = [] := by
        apply List.eq_nil_of_length_eq_zero; rw [length_all, h0]
      rw [h1]
      rw [List.flatMap_eq_nil_iff] at h1
      exact h1 me (List.mem_range.2 hme)
    · rw [if_neg h0, joined_clean _ _ _ _ _ _ hc]
  rw [key]
  unfold IsTie tieLocal
  simp only [List.mem_flatMap, List.mem_range]
  constructor
  · rintro ⟨p, hp, b, hb, hm⟩
    by_cases ha : b.active = true
    · rw [if_pos ha, tieBranch_eq r1 r2 hz] at hm
      by_cases hcn : (r1.Has b.area1 b.zone1 ∧ r2.Has b.area2 b.zone2) ∨ (r1.Has b.area2 b.zone2 ∧ r2.Has b.area1 b.zone1)
      · rw [if_pos hcn] at hm
        obtain ⟨l, hl, e⟩ := List.mem_map.1 hm
        cases hgs : b.lines with
        | none => rw [hgs] at hl; simp at hl
        | some ls =>
          rw [hgs] at hl
          have hl : l ∈ ls := hl
          rw [stored_take (hs p hp b hb ls hgs l hl)] at e
          simp only [Prod.mk.injEq] at e
          exact ⟨p, hp, b, hb, ha, e.1, e.2.1, hcn, ls, hgs, l, hl, e.2.2⟩
      · rw [if_neg hcn] at hm; simp at hm
    · rw [if_neg ha] at hm; simp at hm
  · rintro ⟨p, hp, b, hb, ha, hf, ht, hcn, ls, hls, l, hl, hi⟩
    refine ⟨p, hp, b, hb, ?_⟩
    rw [if_pos ha, tieBranch_eq r1 r2 hz]
    unfold Branch.Connects at hcn
    rw [if_pos hcn]
    refine List.mem_map.2 ⟨l, by rw [hls]; exact hl, ?_⟩
    rw [stored_take (hs p hp b hb ls hls l hl), hf, ht, hi]

/-- C245 fails if a zone is given for one of the two regions only: no line that runs from the second region to the first
is found. -/
theorem C245_zone_violated (r1 r2 : Region) (hz : ¬ Together r1 r2) (b : Branch)
    (hno : ¬ (r1.Has b.area1 b.zone1 ∧ r2.Has b.area2 b.zone2)) :
    tieBranch r1.area r1.zone r2.area r2.zone b = [] := by
  have h1 := region_iff r1 b.area1 b.zone1
  have h2 := region_iff r2 b.area2 b.zone2
  unfold tieBranch
  dsimp only
  rw [if_neg (fun e => hno ⟨h1.1 ⟨e.1, e.2.1⟩, h2.1 ⟨e.2.2.1, e.2.2.2⟩⟩), if_neg]
  rintro ⟨e1, e2, e3, e4⟩
  apply hz
  by_cases ha : 0 < r1.zone
  · by_cases hb : 0 < r2.zone
    · exact Or.inl ⟨ha, hb⟩
    · rw [if_neg hb] at e2; exact Or.inr e2.symm
  · rw [if_neg ha] at e4; exact Or.inr e4

/-- C245 fails for lines out of service: every line of a branch connecting the regions is listed as a tie line, whatever
its status. -/
theorem C245_inactive_violated (r1 r2 : Region) (hz : Together r1 r2) (b : Branch) (ls : List Line) (l : Line)
    (hc : b.Connects r1 r2) (hls : b.lines = some ls) (hl : l ∈ ls) (_hoff : ¬ l.InService) :
    (b.from', b.to', l.ckt.take 2) ∈ tieBranch r1.area r1.zone r2.area r2.zone b := by
  rw [tieBranch_eq r1 r2 hz]
  unfold Branch.Connects at hc
  rw [if_pos hc]
  exact List.mem_map.2 ⟨l, by rw [hls]; exact hl, rfl⟩

/-! ### C246 -/

theorem agreed_iff (n : Nat) (ret : Nat → Bool) : agreed n ret = true ↔ ∀ p, p < n → ret p = true := by
  unfold agreed
  rw [decide_eq_true_eq]
  have hle : ∀ m, ((List.range m).map (fun p => if ret p then 1 else 0)).sum ≤ m := by
    intro m
    induction m with
    | zero => simp
    | succ m ih =>
      rw [List.range_succ, List.map_append, List.sum_append]
      simp only [List.map_cons, List.map_nil, List.sum_cons, List.sum_nil]
      split <;> omega
  induction n with
  | zero => simp
  | succ n ih =>
    have h1 := hle n
    rw [List.range_succ, List.map_append, List.sum_append]
    simp only [List.map_cons, List.map_nil, List.sum_cons, List.sum_nil]
    constructor
    · intro h p hp
      by_cases hr : ret n = true
      · rw [if_pos hr] at h
        by_cases e : p = n
        · rw [e]; exact hr
        · exact ih.1 (by omega) p (by omega)
      · rw [if_neg hr] at h; omega
    · intro h
      rw [if_pos (h n (by omega)), ih.2 (fun p hp => h p (by omega))]
      rfl

theorem localRet_iff (base : Outcome) (cases : Nat → Outcome) (tasks : List Nat) :
    localRet base cases tasks = true ↔
      base.ties = true ∧ ∀ t ∈ tasks, (cases t).first = true → (cases t).ties = true := by
  unfold localRet
  have key : ∀ (r : Bool) (ts : List Nat),
      ts.foldl (fun ret t => if (cases t).first then ret && (cases t).ties else ret) r = true ↔
        r = true ∧ ∀ t ∈ ts, (cases t).first = true → (cases t).ties = true := by
    intro r ts
    induction ts generalizing r with
    | nil => simp
    | cons t ts ih =>
      rw [List.foldl_cons, ih]
      by_cases hf : (cases t).first = true
      · rw [if_pos hf]
        simp [hf, and_assoc]
      · rw [if_neg hf]
        simp [hf]
  rw [key]; simp

/-- What the verdict says, exactly: with at least one contingency and however the contingencies are shared out, it is
positive if and only if the tie lines are within their ratings in the base case and in every contingency for which the
power flow converged. -/
theorem verdict_iff (n ntasks : Nat) (tasks : Nat → List Nat) (base : Outcome) (cases : Nat → Outcome)
    (h0 : 0 < ntasks) (hs : Shared n ntasks tasks) :
    runContingencies n ntasks tasks base cases = true ↔
      base.ties = true ∧ ∀ t, t < ntasks → (cases t).first = true → (cases t).ties = true := by
  unfold runContingencies
  rw [if_neg (by omega), agreed_iff]
  constructor
  · intro h
    obtain ⟨p0, hp0, ht0⟩ := hs.1 0 h0
    refine ⟨((localRet_iff _ _ _).1 (h p0 hp0)).1, ?_⟩
    intro t ht
    obtain ⟨p, hp, htp⟩ := hs.1 t ht
    exact ((localRet_iff _ _ _).1 (h p hp)).2 t htp
  · rintro ⟨hb, hc⟩ p hp
    exact (localRet_iff _ _ _).2 ⟨hb, fun t ht => hc t (hs.2 p hp t ht)⟩

/-- C246, the part that holds: if the power flow of the base case and of every contingency has a solution and there is a
contingency, the verdict is positive if and only if the rating is secure, on any number of processes and for every
way of sharing out the contingencies. -/
theorem C246_verdict_partial (n ntasks : Nat) (tasks : Nat → List Nat) (base : Outcome) (cases : Nat → Outcome)
    (h0 : 0 < ntasks) (hs : Shared n ntasks tasks) (hb : base.Solved) (hc : ∀ t, t < ntasks → (cases t).Solved) :
    runContingencies n ntasks tasks base cases = true ↔ Secure ntasks base cases := by
  rw [verdict_iff n ntasks tasks base cases h0 hs]
  unfold Secure
  constructor
  · rintro ⟨h1, h2⟩
    exact ⟨⟨hb, h1⟩, fun t ht => ⟨hc t ht, h2 t ht (hc t ht).1⟩⟩
  · rintro ⟨⟨-, h1⟩, h2⟩
    exact ⟨h1, fun t ht _ => (h2 t ht).2⟩

/-- C246 holds in one direction always: a secure rating is accepted. -/
theorem C246_secure_accepted (n ntasks : Nat) (tasks : Nat → List Nat) (base : Outcome) (cases : Nat → Outcome)
    (hs : Shared n ntasks tasks) (h : Secure ntasks base cases) :
    runContingencies n ntasks tasks base cases = true := by
  by_cases h0 : 0 < ntasks
  · exact (verdict_iff n ntasks tasks base cases h0 hs).2 ⟨h.1.2, fun t ht _ => (h.2 t ht).2⟩
  · unfold runContingencies
    rw [if_pos (by omega)]
    obtain ⟨⟨h1, h2⟩, -⟩ := h.1
    cases ha : base.again with
    | none => exact h1
    | some a => cases a with
      | true => rfl
      | false => exact absurd ha h2

/-- C246 fails: a contingency for which the power flow diverges does not count against the rating; the verdict is the
same whatever the number of such contingencies. -/
theorem C246_divergent_violated (n ntasks : Nat) (tasks : Nat → List Nat) (base : Outcome) (cases : Nat → Outcome)
    (hs : Shared n ntasks tasks) (t : Nat) (ht : t < ntasks) (hd : (cases t).first = false)
    (hb : base.ties = true) (hc : ∀ t, t < ntasks → (cases t).first = true → (cases t).ties = true) :
    runContingencies n ntasks tasks base cases = true ∧ ¬ Secure ntasks base cases := by
  refine ⟨(verdict_iff n ntasks tasks base cases (by omega) hs).2 ⟨hb, hc⟩, fun h => ?_⟩
  have := (h.2 t ht).1.1
  rw [hd] at this
  cases this

/-- C246 fails: that the base case has no solution is not taken into account either. -/
theorem C246_base_violated (n ntasks : Nat) (tasks : Nat → List Nat) (base : Outcome) (cases : Nat → Outcome)
    (hs : Shared n ntasks tasks) (h0 : 0 < ntasks) (hd : base.first = false)
    (hb : base.ties = true) (hc : ∀ t, t < ntasks → (cases t).first = true → (cases t).ties = true) :
    runContingencies n ntasks tasks base cases = true ∧ ¬ Secure ntasks base cases := by
  refine ⟨(verdict_iff n ntasks tasks base cases h0 hs).2 ⟨hb, hc⟩, fun h => ?_⟩
  have := h.1.1.1
  rw [hd] at this
  cases this

/-- C246 fails without contingencies: an overloaded tie line in the base case does not count. -/
theorem C246_empty_violated (n : Nat) (tasks : Nat → List Nat) (base : Outcome) (cases : Nat → Outcome)
    (hb : base.Solved) (ht : base.ties = false) :
    runContingencies n 0 tasks base cases = true ∧ ¬ Secure 0 base cases := by
  constructor
  · unfold runContingencies
    rw [if_pos rfl]
    cases ha : base.again with
    | none => exact hb.1
    | some a => cases a with
      | true => rfl
      | false => exact absurd ha hb.2
  · intro h
    have := h.1.2
    rw [ht] at this
    cases this

/-! ### C247 -/

theorem ds_fold (runs : Nat → Run) (ts : List Nat) (h : ∀ t ∈ ts, ∃ ok, runs t = .done ok) (s : Bool × Bool) :
    (ts.foldl (fun s t => dsTask s (runs t)) s).2 = true ↔ s.2 = true ∧ ∀ t ∈ ts, runs t = .done true := by
  induction ts generalizing s with
  | nil => simp
  | cons t ts ih =>
    rw [List.foldl_cons, ih (fun u hu => h u (by simp [hu]))]
    obtain ⟨ok, hok⟩ := h t (by simp)
    rw [hok]
    cases ok <;> simp [dsTask, hok]

/-- C247, the part that holds: if every dynamic simulation ends normally, the verdict is positive if and only if no
frequency violation was found in any, however they are shared out. -/
theorem C247_verdict_partial (n ntasks : Nat) (tasks : Nat → List Nat) (runs : Nat → Run) (flag : Nat → Bool)
    (hs : Shared n ntasks tasks) (h : ∀ t, t < ntasks → ∃ ok, runs t = .done ok) :
    runDS n tasks runs flag = true ↔ ∀ t, t < ntasks → runs t = .done true := by
  unfold runDS
  rw [agreed_iff]
  constructor
  · intro hr t ht
    obtain ⟨p, hp, htp⟩ := hs.1 t ht
    exact ((ds_fold runs (tasks p) (fun u hu => h u (hs.2 p hp u hu)) _).1 (hr p hp)).2 t htp
  · intro hr p hp
    exact (ds_fold runs (tasks p) (fun u hu => h u (hs.2 p hp u hu)) _).2 ⟨rfl, fun t ht => hr t (hs.2 p hp t ht)⟩

theorem ds_good (runs : Nat → Run) (ts : List Nat) (h : ∀ t ∈ ts, runs t ≠ .done false) :
    ts.foldl (fun s t => dsTask s (runs t)) (true, true) = (true, true) := by
  induction ts with
  | nil => rfl
  | cons t ts ih =>
    rw [List.foldl_cons]
    have : dsTask (true, true) (runs t) = (true, true) := by
      have := h t (by simp)
      cases hr : runs t with
      | done ok => cases ok with
        | true => rfl
        | false => exact absurd hr this
      | early => rfl
      | late => rfl
    rw [this]
    exact ih (fun u hu => h u (by simp [hu]))

/-- C247 fails: a dynamic simulation that ends with an exception does not count against the rating. -/
theorem C247_exception_violated (n ntasks : Nat) (tasks : Nat → List Nat) (runs : Nat → Run)
    (hs : Shared n ntasks tasks) (h : ∀ t, t < ntasks → runs t ≠ .done false) :
    runDS n tasks runs (fun _ => true) = true := by
  unfold runDS
  rw [agreed_iff]
  intro p hp
  rw [ds_good runs (tasks p) (fun t ht => h t (hs.2 p hp t ht))]

/-- C247, conversion of contingencies with one element, the part that holds: the fault names that element. -/
theorem C247_fault_partial (start stop step : ℝ) (name : Str) (bus f t : Int) (id : Str) :
    (∃ x, toFault start stop step (.generator name [(bus, id)]) = some x ∧ x.isGenerator = true ∧ x.isLine = false ∧
      x.bus = bus ∧ x.tag = id ∧ x.start = start ∧ x.stop = stop) ∧
    (∃ x, toFault start stop step (.branch name [(f, t, id)]) = some x ∧ x.isGenerator = false ∧ x.isLine = true ∧
      x.from' = f ∧ x.to' = t ∧ x.tag = id ∧ x.start = start ∧ x.stop = stop) :=
  ⟨⟨_, rfl, rfl, rfl, rfl, rfl, rfl, rfl⟩, ⟨_, rfl, rfl, rfl, rfl, rfl, rfl, rfl, rfl⟩⟩

/-- C247 fails for a contingency with several elements: all but the first are forgotten. -/
theorem C247_several_violated (start stop step : ℝ) (name : Str) (g : Int × Str) (gs : List (Int × Str))
    (l : Int × Int × Str) (ls : List (Int × Int × Str)) :
    toFault start stop step (.generator name (g :: gs)) = toFault start stop step (.generator name [g]) ∧
    toFault start stop step (.branch name (l :: ls)) = toFault start stop step (.branch name [l]) :=
  ⟨rfl, rfl⟩

/-! ### Examples -/

/-- A bus of area 1, zone 2 with one generator in service and one that is not. -/
def exBus : Bus := ⟨true, 7, 1, 2, some [⟨some 1, "1 ".toList⟩, ⟨some 0, "2 ".toList⟩]⟩

/-- A branch from area 1, zone 2 to area 3, zone 4. -/
def exBranch : Branch := ⟨true, 7, 8, 1, 2, 3, 4, some [⟨some 1, "BL".toList⟩, ⟨some 0, "B2".toList⟩]⟩

theorem stored_ex : Stored "1 ".toList ∧ Stored "2 ".toList ∧ Stored "BL".toList ∧ Stored "B2".toList :=
  ⟨⟨"1".toList, by unfold IsId; decide, by decide⟩, ⟨"2".toList, by unfold IsId; decide, by decide⟩,
    ⟨"BL".toList, by unfold IsId; decide, by decide⟩, ⟨"B2".toList, by unfold IsId; decide, by decide⟩⟩

/-- The hypotheses of `C244_generators_partial` and of `C244_watched_partial`: the bus has the two-character ids and a
generator in service. -/
example : (∀ p, p < 2 → ∀ b ∈ (fun _ : Nat => [exBus]) p, ∀ gs, b.gens = some gs → ∀ g ∈ gs, Stored g.id) ∧
    IsGen 2 (fun _ => [exBus]) ⟨1, 0⟩ 7 "1 ".toList ∧ ¬ IsGen 2 (fun _ => [exBus]) ⟨1, 5⟩ 7 "1 ".toList := by
  refine ⟨?_, ⟨0, by decide, exBus, by simp, rfl, rfl, by decide, _, rfl, ⟨some 1, "1 ".toList⟩, by simp,
    ⟨1, rfl, by decide⟩, rfl⟩, ?_⟩
  · intro p _ b hb gs hgs g hg
    have hb : b = exBus := by simpa using hb
    subst hb
    have hgs : gs = [⟨some 1, "1 ".toList⟩, ⟨some 0, "2 ".toList⟩] := by
      have := hgs; simp only [exBus, Option.some.injEq] at this; exact this.symm
    subst hgs
    rcases List.mem_cons.1 hg with rfl | hg
    · exact stored_ex.1
    · rcases List.mem_cons.1 hg with rfl | hg
      · exact stored_ex.2.1
      · simp at hg
  · rintro ⟨p, -, b, hb, -, -, hr, -⟩
    have hb : b = exBus := by simpa using hb
    subst hb
    exact absurd (hr.2 (by decide)) (by decide)

/-- On two processes with the generators on process 0 and the vector held by process 1, there is an execution in which
the program ends with an exception. -/
example : genLocal 1 2 [exBus] = .ok [(7, "1 ".toList)] ∧
    ∃ s2, Interleaved 2 (fun p => writeProg (added (fun q => (if q = 0 then [(7, "1 ".toList)] else []).map
      (fun x : Int × Str => x.2)) p)) s2 ∧
    genContingencies 2 (fun _ => 1) (fun _ => 1) (fun _ => 0) (fun _ => [])
      (fun q => if q = 0 then [(7, "1 ".toList)] else []) [] s2 = .throws := by
  constructor
  · decide +kernel
  · refine C244_lost_violated 2 (fun q => if q = 0 then [exBus] else []) ⟨1, 2⟩ ?_ _ _ _ _ _ _ ?_ 0 0 (by decide)
      (by decide) (fun _ => by decide) (by decide)
    · intro p _ b hb gs hgs g hg
      have hb : b = exBus := by
        by_cases e : p = 0
        · simpa [e] using hb
        · simp [e] at hb
      subst hb
      have hgs : gs = [⟨some 1, "1 ".toList⟩, ⟨some 0, "2 ".toList⟩] := by
        have := hgs; simp only [exBus, Option.some.injEq] at this; exact this.symm
      subst hgs
      rcases List.mem_cons.1 hg with rfl | hg
      · exact stored_ex.1
      · rcases List.mem_cons.1 hg with rfl | hg
        · exact stored_ex.2.1
        · simp at hg
    · intro p hp
      by_cases e : p = 0
      · subst e; decide +kernel
      · rw [if_neg e, if_neg e]; rfl

/-- A branch that connects area 3 to zone 2 of area 1 in reverse direction: found if a zone is given for both regions,
not if the zone of the second one is left out. -/
example : tieBranch 3 4 1 2 exBranch = [(7, 8, "BL".toList), (7, 8, "B2".toList)] ∧
    exBranch.Connects ⟨3, 0⟩ ⟨1, 2⟩ ∧ ¬ Together ⟨3, 0⟩ ⟨1, 2⟩ ∧ tieBranch 3 0 1 2 exBranch = [] := by
  refine ⟨by decide +kernel, Or.inr (by decide), ?_, by decide +kernel⟩
  rintro (h | h)
  · exact absurd h.1 (by decide)
  · exact absurd h (by decide)

/-- Two processes, three contingencies, shared out; all have solutions, in the third a tie line is overloaded. -/
example : Shared 2 3 (fun p => if p = 0 then [0, 2] else [1]) ∧
    runContingencies 2 3 (fun p => if p = 0 then [0, 2] else [1]) ⟨true, none, true⟩
      (fun t => ⟨true, none, t ≠ 2⟩) = false ∧
    runContingencies 2 3 (fun p => if p = 0 then [0, 2] else [1]) ⟨true, none, true⟩
      (fun t => ⟨t ≠ 2, none, t ≠ 2⟩) = true := by
  refine ⟨⟨?_, ?_⟩, by decide, by decide⟩
  · intro t ht
    rcases t with _ | _ | _ | t
    · exact ⟨0, by decide, by decide⟩
    · exact ⟨1, by decide, by decide⟩
    · exact ⟨0, by decide, by decide⟩
    · omega
  · intro p hp t ht
    rcases p with _ | _ | p
    · have : t = 0 ∨ t = 2 := by simpa using ht
      omega
    · have : t = 1 := by simpa using ht
      omega
    · omega

/-- One run with a violation is noticed, one that throws is not. -/
example : runDS 1 (fun _ => [0, 1]) (fun t => if t = 0 then .done true else .done false) (fun _ => true) = false ∧
    runDS 1 (fun _ => [0, 1]) (fun t => if t = 0 then .done true else .early) (fun _ => true) = true := by
  decide

end GridPACK.RtprCases
