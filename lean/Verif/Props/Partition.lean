import Verif.Model.Partition
import Verif.Props.Shuffler
import Mathlib.Data.List.Nodup

/-! Property C12 (ownership and ghosts after partitioning), C56 (duplicate ghost copies) and C57
(local ends of branches). -/
namespace GridPACK.Partition
open GridPACK.Shuffler

/-- Number of edge ends at node `g`. -/
def incidences (edges : List Branch) (g : Nat) : Nat :=
  edges.countP (fun e => decide (e.g1 = g)) + edges.countP (fun e => decide (e.g2 = g))

/-- What the row of `nid` contains after a list of edges. -/
def rowOf (nd : Nat → Nat) (edges : List Branch) (nid : Nat) : List Nat :=
  edges.flatMap (fun e => if edgeDest nd e ≠ ghostEdgeDest nd e then
    (if nid = min e.g1 e.g2 then [ghostEdgeDest nd e] else []) ++
    (if nid = max e.g1 e.g2 then [edgeDest nd e] else []) else [])

theorem rowOf_length (nd : Nat → Nat) (edges : List Branch) (nid : Nat) :
    (rowOf nd edges nid).length ≤ incidences edges nid := by
  unfold rowOf incidences
  induction edges with
  | nil => simp
  | cons e es ih =>
    rw [List.flatMap_cons, List.length_append, List.countP_cons, List.countP_cons]
    have hmm : (min e.g1 e.g2 = e.g1 ∧ max e.g1 e.g2 = e.g2) ∨
        (min e.g1 e.g2 = e.g2 ∧ max e.g1 e.g2 = e.g1) := by omega
    have : (if edgeDest nd e ≠ ghostEdgeDest nd e then
        (if nid = min e.g1 e.g2 then [ghostEdgeDest nd e] else []) ++
        (if nid = max e.g1 e.g2 then [edgeDest nd e] else []) else []).length
        ≤ (if decide (e.g1 = nid) = true then 1 else 0)
          + (if decide (e.g2 = nid) = true then 1 else 0) := by
      have q1 : (e.g1 = nid) ↔ (nid = e.g1) := eq_comm
      have q2 : (e.g2 = nid) ↔ (nid = e.g2) := eq_comm
      split
      · rw [List.length_append]
        rcases hmm with ⟨h1, h2⟩ | ⟨h1, h2⟩ <;> rw [h1, h2] <;>
          simp only [decide_eq_true_eq, q1, q2] <;>
          (repeat' split) <;> simp only [List.length_cons, List.length_nil] <;> omega
      · simp
    omega

theorem fold_ghostRowStep (cap : Nat) (nd : Nat → Nat) (edges : List Branch)
    (hcap : ∀ g, incidences edges g ≤ cap) :
    ∃ rows, edges.foldl (ghostRowStep cap nd) (some (fun _ => [])) = some rows ∧
      ∀ nid, rows nid = rowOf nd edges nid := by
  induction edges using List.reverseRecOn with
  | nil => exact ⟨_, rfl, fun _ => rfl⟩
  | append_singleton es e ih =>
    have hinc : ∀ g, incidences es g ≤ incidences (es ++ [e]) g := by
      intro g; unfold incidences; simp only [List.countP_append]; omega
    obtain ⟨rows, h1, h2⟩ := ih (fun g => Nat.le_trans (hinc g) (hcap g))
    rw [List.foldl_append, h1]
    simp only [List.foldl_cons, List.foldl_nil, ghostRowStep]
    have hrow : ∀ nid, rowOf nd (es ++ [e]) nid = rows nid ++
        (if edgeDest nd e ≠ ghostEdgeDest nd e then
        (if nid = min e.g1 e.g2 then [ghostEdgeDest nd e] else []) ++
        (if nid = max e.g1 e.g2 then [edgeDest nd e] else []) else []) := by
      intro nid
      unfold rowOf
      rw [List.flatMap_append]
      simp only [List.flatMap_cons, List.flatMap_nil, List.append_nil]
      rw [h2]; rfl
    by_cases hd : edgeDest nd e ≠ ghostEdgeDest nd e
    · rw [if_pos hd]
      have hne : min e.g1 e.g2 ≠ max e.g1 e.g2 := by
        intro h; apply hd; unfold edgeDest ghostEdgeDest; rw [h]
      have hb : ∀ nid, (rowOf nd (es ++ [e]) nid).length ≤ cap :=
        fun nid => Nat.le_trans (rowOf_length _ _ _) (hcap nid)
      have hlt1 : (rows (min e.g1 e.g2)).length < cap := by
        have := hb (min e.g1 e.g2)
        rw [hrow, if_pos hd] at this
        simp at this; omega
      have hlt2 : (rows (max e.g1 e.g2)).length < cap := by
        have := hb (max e.g1 e.g2)
        rw [hrow, if_pos hd] at this
        simp at this; omega
      rw [pushRow, if_pos hlt1]
      simp only
      rw [pushRow, if_pos (by rw [if_neg (Ne.symm hne)]; exact hlt2)]
      refine ⟨_, rfl, ?_⟩
      intro nid
      rw [hrow, if_pos hd]
      by_cases ha : nid = min e.g1 e.g2
      · have hb' : ¬ nid = max e.g1 e.g2 := by omega
        simp [ha, hne]
      · by_cases hb' : nid = max e.g1 e.g2
        · simp [hb', Ne.symm hne]
        · simp [ha, hb']
    · rw [if_neg hd]
      refine ⟨rows, rfl, ?_⟩
      intro nid
      rw [hrow, if_neg hd]; simp

theorem mem_dedupAdj (l : List Nat) (x : Nat) : x ∈ dedupAdj l ↔ x ∈ l := by
  induction l with
  | nil => simp [dedupAdj]
  | cons a l ih =>
    cases l with
    | nil => simp [dedupAdj]
    | cons b l =>
      unfold dedupAdj
      by_cases h : a = b
      · rw [if_pos h, ih]; subst h; simp
      · rw [if_neg h, List.mem_cons, ih, List.mem_cons (a := x) (b := a)]

theorem mem_sortUnique (l : List Nat) (x : Nat) : x ∈ sortUnique l ↔ x ∈ l := by
  unfold sortUnique
  split
  · simp only [List.mem_append, mem_dedupAdj]
    have hp : x ∈ l.mergeSort (fun a b => decide (a ≤ b)) ↔ x ∈ l :=
      (List.mergeSort_perm l _).mem_iff
    constructor
    · rintro (h | h)
      · exact hp.mp h
      · exact hp.mp (List.mem_of_mem_drop h)
    · intro h; exact .inl (hp.mpr h)
  · rfl

theorem mem_rowOf (nd : Nat → Nat) (edges : List Branch) (nid d : Nat) :
    d ∈ rowOf nd edges nid ↔ ∃ e ∈ edges, edgeDest nd e ≠ ghostEdgeDest nd e ∧
      ((nid = min e.g1 e.g2 ∧ d = ghostEdgeDest nd e) ∨
       (nid = max e.g1 e.g2 ∧ d = edgeDest nd e)) := by
  unfold rowOf
  rw [List.mem_flatMap]
  constructor
  · rintro ⟨e, he, h⟩
    refine ⟨e, he, ?_⟩
    split at h
    · rename_i hd
      refine ⟨hd, ?_⟩
      rcases List.mem_append.mp h with h | h
      · left; split at h
        · rename_i hn; exact ⟨hn, by simpa using h⟩
        · simp at h
      · right; split at h
        · rename_i hn; exact ⟨hn, by simpa using h⟩
        · simp at h
    · simp at h
  · rintro ⟨e, he, hd, h⟩
    refine ⟨e, he, ?_⟩
    rw [if_pos hd]
    rcases h with ⟨h1, h2⟩ | ⟨h1, h2⟩
    · simp [h1, h2]
    · simp [h1, h2]

theorem mem_addressed {α : Type} (p : Nat) (items : List (α × Int)) (x : α) :
    x ∈ addressed p items ↔ (x, (p : Int)) ∈ items := by
  unfold addressed
  constructor
  · intro h
    obtain ⟨it, hit, rfl⟩ := List.mem_map.mp h
    have := List.mem_filter.mp hit
    have h2 : it.2 = (p : Int) := by simpa using this.2
    rw [← h2]; exact this.1
  · intro h
    exact List.mem_map.mpr ⟨_, List.mem_filter.mpr ⟨h, by simp⟩, rfl⟩

/-- Description of the partitioned network that the property theorems use. -/
theorem partition_spec (n cap : Nat) (nd : Nat → Nat) (hnd : ∀ g, nd g < n)
    (buses : Nat → List Bus) (branches : Nat → List Branch)
    (hcap : ∀ g, incidences ((List.range n).flatMap branches) g ≤ cap) :
    ∃ (ab : Nat → List Bus) (ae : Nat → List Branch) (gb : Nat → List Bus)
      (ge : Nat → List Branch), partition n cap nd buses branches = some (fun p =>
        ⟨ab p ++ (gb p).map (fun b : Bus => { b with active := false }), ae p ++ ge p⟩) ∧
      (∀ p, p < n →
        (ab p).Perm (((List.range n).flatMap buses).filter (fun b => decide (nd b.gid = p))) ∧
        (ae p).Perm (((List.range n).flatMap branches).filter
          (fun e => decide (edgeDest nd e = p))) ∧
        ((gb p).Perm (((List.range n).flatMap buses).flatMap (fun b =>
          ((sortUnique (rowOf nd ((List.range n).flatMap branches) b.gid)).filter
            (fun d => decide (d = p))).map (fun _ => b))) ∧
        ∀ b, b ∈ gb p ↔ b ∈ (List.range n).flatMap buses ∧
          p ∈ rowOf nd ((List.range n).flatMap branches) b.gid) ∧
        (∀ e, e ∈ ge p ↔ ∃ e0 ∈ (List.range n).flatMap branches, edgeDest nd e0 ≠ ghostEdgeDest nd e0 ∧
          ghostEdgeDest nd e0 = p ∧ e = { e0 with active := false })) := by
  set B := (List.range n).flatMap buses with hB
  set E := (List.range n).flatMap branches with hE
  obtain ⟨rows, hr1, hr2⟩ := fold_ghostRowStep cap nd E hcap
  have hrow : ghostRows n cap nd branches = some rows := hr1
  have d1 : ∀ p, p < n → ∀ it ∈ (buses p).map (fun b => (b, (nd b.gid : Int))),
      0 ≤ it.2 ∧ it.2 < (n : Int) := by
    intro p _ it hit
    obtain ⟨b, _, rfl⟩ := List.mem_map.mp hit
    have := hnd b.gid; simp only; omega
  have d2 : ∀ p, p < n → ∀ it ∈ (branches p).map (fun e => (e, (edgeDest nd e : Int))),
      0 ≤ it.2 ∧ it.2 < (n : Int) := by
    intro p _ it hit
    obtain ⟨e, _, rfl⟩ := List.mem_map.mp hit
    have : edgeDest nd e < n := hnd _
    simp only; omega
  have d3 : ∀ p, p < n → ∀ it ∈ ghostBuses rows (buses p), 0 ≤ it.2 ∧ it.2 < (n : Int) := by
    intro p _ it hit
    obtain ⟨b, _, h⟩ := List.mem_flatMap.mp hit
    obtain ⟨d, hd, rfl⟩ := List.mem_map.mp h
    rw [mem_sortUnique, hr2, mem_rowOf] at hd
    obtain ⟨e, _, _, h | h⟩ := hd
    · have : ghostEdgeDest nd e < n := hnd _
      simp only [Int.ofNat_eq_natCast]; omega
    · have : edgeDest nd e < n := hnd _
      simp only [Int.ofNat_eq_natCast]; omega
  have d4 : ∀ p, p < n → ∀ it ∈ ghostBranches nd (branches p), 0 ≤ it.2 ∧ it.2 < (n : Int) := by
    intro p _ it hit
    unfold ghostBranches at hit
    obtain ⟨e, _, h⟩ := List.mem_filterMap.mp hit
    split at h
    · have : ghostEdgeDest nd e < n := hnd _
      simp only [Option.some.injEq] at h
      rw [← h]; simp only; omega
    · simp at h
  obtain ⟨ab, hab, pab⟩ := C08_shuffle_delivers n _ d1
  obtain ⟨ae, hae, pae⟩ := C08_shuffle_delivers n _ d2
  obtain ⟨gb, hgb, pgb⟩ := C08_shuffle_delivers n _ d3
  obtain ⟨ge, hge, pge⟩ := C08_shuffle_delivers n _ d4
  refine ⟨ab, ae, gb, ge, ?_, ?_⟩
  · unfold partition; rw [hrow]; simp only; rw [hab, hae, hgb, hge]
  intro p hp
  refine ⟨?_, ?_, ?_, ?_⟩
  · refine (pab p hp).1.trans ?_
    rw [← List.map_flatMap, ← hB]
    unfold addressed
    rw [List.filter_map, List.map_map]
    apply List.Perm.of_eq
    have : ((fun x : Bus × Int => x.1) ∘ fun b => (b, (nd b.gid : Int))) = id := rfl
    rw [this, List.map_id]
    apply List.filter_congr
    intro b _
    simp only [Function.comp, decide_eq_decide]
    omega
  · refine (pae p hp).1.trans ?_
    rw [← List.map_flatMap, ← hE]
    unfold addressed
    rw [List.filter_map, List.map_map]
    apply List.Perm.of_eq
    have : ((fun x : Branch × Int => x.1) ∘ fun e => (e, (edgeDest nd e : Int))) = id := rfl
    rw [this, List.map_id]
    apply List.filter_congr
    intro b _
    simp only [Function.comp, decide_eq_decide]
    omega
  · refine ⟨?_, ?_⟩
    · refine (pgb p hp).1.trans (List.Perm.of_eq ?_)
      unfold ghostBuses
      rw [← List.flatMap_assoc, ← hB]
      unfold addressed
      rw [List.filter_flatMap, List.map_flatMap]
      congr 1
      funext b
      rw [← hr2, List.filter_map, List.map_map]
      congr 1
      apply List.filter_congr
      intro d _
      simp only [Function.comp, Int.ofNat_eq_natCast, decide_eq_decide]
      omega
    intro b
    rw [(pgb p hp).1.mem_iff, mem_addressed, List.mem_flatMap]
    constructor
    · rintro ⟨q, hq, h⟩
      obtain ⟨b', hb', h⟩ := List.mem_flatMap.mp h
      obtain ⟨d, hd, he⟩ := List.mem_map.mp h
      rw [Prod.mk.injEq, Int.ofNat_eq_natCast] at he
      have hdp : d = p := by omega
      obtain ⟨rfl, _⟩ := he
      subst hdp
      rw [mem_sortUnique, hr2] at hd
      exact ⟨List.mem_flatMap.mpr ⟨q, hq, hb'⟩, hd⟩
    · rintro ⟨hb', hd⟩
      obtain ⟨q, hq, hbq⟩ := List.mem_flatMap.mp hb'
      refine ⟨q, hq, List.mem_flatMap.mpr ⟨b, hbq, List.mem_map.mpr ⟨p, ?_, rfl⟩⟩⟩
      rw [mem_sortUnique, hr2]; exact hd
  · intro e
    rw [(pge p hp).1.mem_iff, mem_addressed, List.mem_flatMap]
    constructor
    · rintro ⟨q, hq, h⟩
      obtain ⟨e0, he0, h⟩ := List.mem_filterMap.mp h
      split at h
      · rename_i hd
        simp only [Option.some.injEq, Prod.mk.injEq] at h
        refine ⟨e0, List.mem_flatMap.mpr ⟨q, hq, he0⟩, hd, by omega, h.1.symm⟩
      · simp at h
    · rintro ⟨e0, he0, hd, hg, rfl⟩
      obtain ⟨q, hq, heq⟩ := List.mem_flatMap.mp he0
      refine ⟨q, hq, List.mem_filterMap.mpr ⟨e0, heq, ?_⟩⟩
      rw [if_pos hd, hg]

/-- The two end nodes of a branch record. -/
def Branch.hasEnd (e : Branch) (g : Nat) : Prop := e.g1 = g ∨ e.g2 = g

/-- Same branch, whatever the ownership flag. -/
def Branch.same (e e' : Branch) : Prop := e.gid = e'.gid ∧ e.g1 = e'.g1 ∧ e.g2 = e'.g2

/-- C12.  For every graph, every initial placement of buses and branches and every assignment
`nd` of nodes to processes, partitioning succeeds and
1. the owned buses of all processes together are exactly the buses of the network, each once, and
   a bus is owned where `nd` says;
2. the owned branches of all processes together are exactly the branches of the network, each
   once, and the owner of a branch owns one of its ends;
3. a process that owns a bus holds (owned or ghost) every branch that ends there;
4. a process holds (owned or ghost) both end buses of every branch it holds;
5. ghosts are needed: a ghost bus is not owned by its holder and ends a branch the holder holds. -/
theorem C12_partition_complete (n cap : Nat) (nd : Nat → Nat) (hnd : ∀ g, nd g < n)
    (buses : Nat → List Bus) (branches : Nat → List Branch)
    (hcap : ∀ g, incidences ((List.range n).flatMap branches) g ≤ cap)
    (hact : ∀ b ∈ (List.range n).flatMap buses, b.active = true)
    (hacte : ∀ e ∈ (List.range n).flatMap branches, e.active = true)
    (hends : ∀ e ∈ (List.range n).flatMap branches, ∀ g, e.hasEnd g →
      ∃ b ∈ (List.range n).flatMap buses, b.gid = g) :
    ∃ out : Nat → Local, partition n cap nd buses branches = some out ∧
      ((List.range n).flatMap (fun p => (out p).buses.filter (·.active))).Perm
        ((List.range n).flatMap buses) ∧
      (∀ p, p < n → ∀ b ∈ (out p).buses, b.active = true → nd b.gid = p) ∧
      ((List.range n).flatMap (fun p => (out p).branches.filter (·.active))).Perm
        ((List.range n).flatMap branches) ∧
      (∀ p, p < n → ∀ e ∈ (out p).branches, e.active = true → nd e.g1 = p ∨ nd e.g2 = p) ∧
      (∀ p, p < n → ∀ b ∈ (out p).buses, b.active = true →
        ∀ e ∈ (List.range n).flatMap branches, e.hasEnd b.gid →
          ∃ e' ∈ (out p).branches, e'.same e) ∧
      (∀ p, p < n → ∀ e ∈ (out p).branches, ∀ g, e.hasEnd g → ∃ b ∈ (out p).buses, b.gid = g) ∧
      (∀ p, p < n → ∀ b ∈ (out p).buses, b.active = false →
        nd b.gid ≠ p ∧ ∃ e ∈ (out p).branches, e.hasEnd b.gid) := by
  obtain ⟨ab, ae, gb, ge, hpart, hs⟩ := partition_spec n cap nd hnd buses branches hcap
  set B := (List.range n).flatMap buses with hB
  set E := (List.range n).flatMap branches with hE
  refine ⟨_, hpart, ?_⟩
  have habact : ∀ p, p < n → ∀ b ∈ ab p, b.active = true ∧ nd b.gid = p ∧ b ∈ B := by
    intro p hp b hb
    have := List.mem_filter.mp ((hs p hp).1.mem_iff.mp hb)
    exact ⟨hact b this.1, by simpa using this.2, this.1⟩
  have haeact : ∀ p, p < n → ∀ e ∈ ae p, e.active = true ∧ edgeDest nd e = p ∧ e ∈ E := by
    intro p hp e he
    have := List.mem_filter.mp ((hs p hp).2.1.mem_iff.mp he)
    exact ⟨hacte e this.1, by simpa using this.2, this.1⟩
  have hgeact : ∀ p, p < n → ∀ e ∈ ge p, e.active = false := by
    intro p hp e he
    obtain ⟨e0, _, _, _, rfl⟩ := ((hs p hp).2.2.2 e).mp he
    rfl
  have hfb : ∀ p, p < n → (ab p ++ (gb p).map (fun b : Bus => { b with active := false })).filter
      (·.active) = ab p := by
    intro p hp
    rw [List.filter_append, List.filter_eq_self.mpr (fun b hb => (habact p hp b hb).1),
      List.filter_eq_nil_iff.mpr]
    · simp
    · intro b hb
      obtain ⟨b0, _, rfl⟩ := List.mem_map.mp hb
      simp
  have hfe : ∀ p, p < n → (ae p ++ ge p).filter (·.active) = ae p := by
    intro p hp
    rw [List.filter_append, List.filter_eq_self.mpr (fun b hb => (haeact p hp b hb).1),
      List.filter_eq_nil_iff.mpr]
    · simp
    · intro b hb; simp [hgeact p hp b hb]
  have hminmax : ∀ e : Branch, ∀ g, e.hasEnd g → g = min e.g1 e.g2 ∨ g = max e.g1 e.g2 := by
    intro e g h; unfold Branch.hasEnd at h; omega
  have hmm' : ∀ e : Branch, e.hasEnd (min e.g1 e.g2) ∧ e.hasEnd (max e.g1 e.g2) := by
    intro e; unfold Branch.hasEnd; omega
  -- a bus with given gid of the network is held by `p` if owned or in the ghost row
  have hhold : ∀ p, p < n → ∀ g, (∃ b ∈ B, b.gid = g) →
      (nd g = p ∨ p ∈ rowOf nd E g) →
      ∃ b ∈ ab p ++ (gb p).map (fun b : Bus => { b with active := false }), b.gid = g := by
    rintro p hp g ⟨b, hb, rfl⟩ h
    rcases h with h | h
    · exact ⟨b, List.mem_append_left _ ((hs p hp).1.mem_iff.mpr
        (List.mem_filter.mpr ⟨hb, by simpa using h⟩)), rfl⟩
    · exact ⟨{ b with active := false }, List.mem_append_right _ (List.mem_map.mpr
        ⟨b, ((hs p hp).2.2.1.2 b).mpr ⟨hb, h⟩, rfl⟩), rfl⟩
  have hcover : ∀ p, ∀ e ∈ E, (edgeDest nd e = p ∨ (edgeDest nd e ≠ ghostEdgeDest nd e ∧
      ghostEdgeDest nd e = p)) → ∀ g, e.hasEnd g → nd g = p ∨ p ∈ rowOf nd E g := by
    intro p e he hor g hg
    by_cases hd : edgeDest nd e = ghostEdgeDest nd e
    · left
      rcases hor with h | h
      · rcases hminmax e g hg with rfl | rfl
        · exact h
        · exact hd.symm.trans h
      · exact absurd hd h.1
    · rcases hor with h | h
      · rcases hminmax e g hg with rfl | rfl
        · left; exact h
        · right; rw [mem_rowOf]; exact ⟨e, he, hd, .inr ⟨rfl, h.symm⟩⟩
      · rcases hminmax e g hg with rfl | rfl
        · right; rw [mem_rowOf]; exact ⟨e, he, hd, .inl ⟨rfl, h.2.symm⟩⟩
        · left; exact h.2
  refine ⟨?_, ?_, ?_, ?_, ?_, ?_, ?_⟩
  · have e1 : ((List.range n).flatMap (fun p =>
        (ab p ++ (gb p).map (fun b : Bus => { b with active := false })).filter (·.active))).Perm
        ((List.range n).flatMap (fun p => B.filter (fun b => decide (nd b.gid = p)))) := by
      apply List.Perm.flatMap_left
      intro p hp
      rw [hfb p (List.mem_range.mp hp)]
      exact (hs p (List.mem_range.mp hp)).1
    exact e1.trans (Buckets.flatMap_filter_perm _ n B (fun b _ => hnd b.gid))
  · intro p hp b hb hba
    rcases List.mem_append.mp hb with h | h
    · exact (habact p hp b h).2.1
    · obtain ⟨b0, _, rfl⟩ := List.mem_map.mp h
      simp at hba
  · have e1 : ((List.range n).flatMap (fun p => (ae p ++ ge p).filter (·.active))).Perm
        ((List.range n).flatMap (fun p => E.filter (fun e => decide (edgeDest nd e = p)))) := by
      apply List.Perm.flatMap_left
      intro p hp
      rw [hfe p (List.mem_range.mp hp)]
      exact (hs p (List.mem_range.mp hp)).2.1
    exact e1.trans (Buckets.flatMap_filter_perm _ n E (fun e _ => hnd _))
  · intro p hp e he hea
    rcases List.mem_append.mp he with h | h
    · have h2 := (haeact p hp e h).2.1
      unfold edgeDest at h2
      rcases Nat.le_total e.g1 e.g2 with hle | hle
      · rw [Nat.min_eq_left hle] at h2; exact .inl h2
      · rw [Nat.min_eq_right hle] at h2; exact .inr h2
    · rw [hgeact p hp e h] at hea; cases hea
  · intro p hp b hb hba e he hend
    have hown : nd b.gid = p := by
      rcases List.mem_append.mp hb with h | h
      · exact (habact p hp b h).2.1
      · obtain ⟨b0, _, rfl⟩ := List.mem_map.mp h
        simp at hba
    by_cases hed : edgeDest nd e = p
    · exact ⟨e, List.mem_append_left _ ((hs p hp).2.1.mem_iff.mpr
        (List.mem_filter.mpr ⟨he, by simpa using hed⟩)), rfl, rfl, rfl⟩
    · have hmax : b.gid = max e.g1 e.g2 := by
        rcases hminmax e _ hend with h | h
        · exfalso; apply hed; unfold edgeDest; rw [← h]; exact hown
        · exact h
      have hg : ghostEdgeDest nd e = p := by unfold ghostEdgeDest; rw [← hmax]; exact hown
      refine ⟨{ e with active := false }, List.mem_append_right _
        (((hs p hp).2.2.2 _).mpr ⟨e, he, by rw [hg]; exact hed, hg, rfl⟩), rfl, rfl, rfl⟩
  · intro p hp e he g hg
    rcases List.mem_append.mp he with h | h
    · obtain ⟨_, h2, h3⟩ := haeact p hp e h
      exact hhold p hp g (hends e h3 g hg) (hcover p e h3 (.inl h2) g hg)
    · obtain ⟨e0, he0, hd, hgd, rfl⟩ := ((hs p hp).2.2.2 e).mp h
      exact hhold p hp g (hends e0 he0 g hg) (hcover p e0 he0 (.inr ⟨hd, hgd⟩) g hg)
  · intro p hp b hb hba
    rcases List.mem_append.mp hb with h | h
    · rw [(habact p hp b h).1] at hba; cases hba
    · obtain ⟨b0, hb0, rfl⟩ := List.mem_map.mp h
      have hrow := (((hs p hp).2.2.1.2 b0).mp hb0).2
      rw [mem_rowOf] at hrow
      obtain ⟨e, he, hd, hcase⟩ := hrow
      rcases hcase with ⟨h1, h2⟩ | ⟨h1, h2⟩
      · refine ⟨?_, { e with active := false }, List.mem_append_right _
          (((hs p hp).2.2.2 _).mpr ⟨e, he, hd, h2.symm, rfl⟩), ?_⟩
        · show nd b0.gid ≠ p
          rw [h1, h2]; exact hd
        · show e.hasEnd b0.gid
          rw [h1]; exact (hmm' e).1
      · refine ⟨?_, e, List.mem_append_left _ ((hs p hp).2.1.mem_iff.mpr
          (List.mem_filter.mpr ⟨he, by simpa using h2.symm⟩)), ?_⟩
        · show nd b0.gid ≠ p
          rw [h1, h2]; exact Ne.symm hd
        · show e.hasEnd b0.gid
          rw [h1]; exact (hmm' e).2

theorem localIndex_spec (buses : List Bus) (g : Nat) (h : ∃ b ∈ buses, b.gid = g) :
    ∃ b, buses[localIndex buses g]? = some b ∧ b.gid = g := by
  have key : ∀ l : List Bus, (∃ b ∈ l, b.gid = g) →
      ∃ i b, (l.zipIdx.foldl (fun (acc : Option Nat) bi =>
        if bi.1.gid = g then some bi.2 else acc) none) = some i ∧ l[i]? = some b ∧ b.gid = g := by
    intro l
    induction l using List.reverseRecOn with
    | nil => rintro ⟨b, hb, _⟩; simp at hb
    | append_singleton l x ih =>
      intro hex
      rw [List.zipIdx_append, List.foldl_append]
      simp only [List.zipIdx_cons, List.zipIdx_nil, List.foldl_cons, List.foldl_nil]
      by_cases hx : x.gid = g
      · refine ⟨l.length, x, ?_, by simp, hx⟩
        simp [hx]
      · obtain ⟨b, hb, hbg⟩ := hex
        have hbl : b ∈ l := by
          rcases List.mem_append.mp hb with h | h
          · exact h
          · rw [List.mem_singleton.mp h] at hbg; exact absurd hbg hx
        obtain ⟨i, b', h1, h2, h3⟩ := ih ⟨b, hbl, hbg⟩
        refine ⟨i, b', ?_, ?_, h3⟩
        · rw [if_neg hx]; exact h1
        · rw [List.getElem?_append_left]
          · exact h2
          · rw [List.getElem?_eq_some_iff] at h2; exact h2.1
  obtain ⟨i, b, h1, h2, h3⟩ := key buses h
  refine ⟨b, ?_, h3⟩
  unfold localIndex
  rw [h1]; exact h2

/-- C57.  After partitioning, on every process the local indices stored as the two ends of every
branch it holds designate buses with the right global index. -/
theorem C57_local_ends_correct (n cap : Nat) (nd : Nat → Nat) (hnd : ∀ g, nd g < n)
    (buses : Nat → List Bus) (branches : Nat → List Branch)
    (hcap : ∀ g, incidences ((List.range n).flatMap branches) g ≤ cap)
    (hact : ∀ b ∈ (List.range n).flatMap buses, b.active = true)
    (hacte : ∀ e ∈ (List.range n).flatMap branches, e.active = true)
    (hends : ∀ e ∈ (List.range n).flatMap branches, ∀ g, e.hasEnd g →
      ∃ b ∈ (List.range n).flatMap buses, b.gid = g) :
    ∃ out : Nat → Local, partition n cap nd buses branches = some out ∧
      ∀ p, p < n → ∀ e ∈ (out p).branches,
        (∃ b, (out p).buses[localIndex (out p).buses e.g1]? = some b ∧ b.gid = e.g1) ∧
        (∃ b, (out p).buses[localIndex (out p).buses e.g2]? = some b ∧ b.gid = e.g2) := by
  obtain ⟨out, h1, _, _, _, _, _, h6, _⟩ := C12_partition_complete n cap nd hnd buses branches
    hcap hact hacte hends
  refine ⟨out, h1, ?_⟩
  intro p hp e he
  exact ⟨localIndex_spec _ _ (h6 p hp e he e.g1 (.inl rfl)),
    localIndex_spec _ _ (h6 p hp e he e.g2 (.inr rfl))⟩

theorem dedupAdj_length (l : List Nat) : (dedupAdj l).length ≤ l.length := by
  induction l with
  | nil => simp [dedupAdj]
  | cons a l ih =>
    cases l with
    | nil => simp [dedupAdj]
    | cons b l =>
      unfold dedupAdj
      split
      · exact Nat.le_trans ih (by simp)
      · rw [List.length_cons, List.length_cons]; omega

theorem dedupAdj_nodup (l : List Nat) (h : l.Nodup) : dedupAdj l = l := by
  induction l with
  | nil => simp [dedupAdj]
  | cons a l ih =>
    cases l with
    | nil => simp [dedupAdj]
    | cons b l =>
      have h2 := List.nodup_cons.mp h
      unfold dedupAdj
      rw [if_neg, ih h2.2]
      intro hab; apply h2.1; rw [hab]; exact List.mem_cons_self

theorem sortUnique_length (l : List Nat) : (sortUnique l).length = l.length := by
  unfold sortUnique
  split
  · have h1 := dedupAdj_length (l.mergeSort (fun a b => decide (a ≤ b)))
    rw [List.length_mergeSort] at h1
    simp only [List.length_append, List.length_drop, List.length_mergeSort]
    omega
  · rfl

theorem sortUnique_nodup (l : List Nat) : (sortUnique l).Nodup ↔ l.Nodup := by
  constructor
  · intro h
    have hsub : sortUnique l ⊆ l := fun x hx => (mem_sortUnique l x).mp hx
    have := (List.subperm_of_subset h hsub).perm_of_length_le (by rw [sortUnique_length]; exact Nat.le_refl _)
    exact this.nodup_iff.mp h
  · intro h
    unfold sortUnique
    split
    · have hs : (l.mergeSort (fun a b => decide (a ≤ b))).Nodup :=
        (List.mergeSort_perm l _).nodup_iff.mpr h
      simp only [dedupAdj_nodup _ hs, List.drop_length, List.append_nil]
      exact hs
    · exact h

/-- Number of branches that join bus `g` to buses assigned to process `p`. -/
def links (nd : Nat → Nat) (edges : List Branch) (g p : Nat) : Nat :=
  edges.countP (fun e => decide ((e.g1 = g ∧ nd e.g2 = p) ∨ (e.g2 = g ∧ nd e.g1 = p)))

theorem count_rowOf (nd : Nat → Nat) (edges : List Branch) (g p : Nat) (hp : nd g ≠ p) :
    (rowOf nd edges g).count p = links nd edges g p := by
  unfold rowOf links
  induction edges with
  | nil => simp
  | cons e es ih =>
    rw [List.flatMap_cons, List.count_append, ih, List.countP_cons, Nat.add_comm]
    congr 1
    unfold edgeDest ghostEdgeDest
    rcases Nat.le_total e.g1 e.g2 with h | h
    · rw [Nat.min_eq_left h, Nat.max_eq_right h]
      by_cases h1 : g = e.g1
      · by_cases h2 : g = e.g2
        · subst h1; rw [← h2]; simp [hp]
        · subst h1
          have h2' : ¬ e.g2 = e.g1 := fun h => h2 h.symm
          by_cases h3 : nd e.g2 = p
          · simp [h2, h3, hp]
          · by_cases h4 : nd e.g1 = nd e.g2 <;> simp [h2, h2', h3, h4]
      · by_cases h2 : g = e.g2
        · subst h2
          have h1' : ¬ e.g1 = e.g2 := fun h => h1 h.symm
          by_cases h3 : nd e.g1 = p
          · simp [h1, h3, Ne.symm hp]
          · by_cases h4 : nd e.g1 = nd e.g2
            · simp [h1', h4, hp]
            · simp [h1, h1', h3, h4]
        · have h1' : ¬ e.g1 = g := fun h => h1 h.symm
          have h2' : ¬ e.g2 = g := fun h => h2 h.symm
          simp [h1, h2, h1', h2']
    · rw [Nat.min_eq_right h, Nat.max_eq_left h]
      by_cases h1 : g = e.g1
      · by_cases h2 : g = e.g2
        · subst h1; rw [← h2]; simp [hp]
        · subst h1
          have h2' : ¬ e.g2 = e.g1 := fun h => h2 h.symm
          by_cases h3 : nd e.g2 = p
          · simp [h2, h3, Ne.symm hp]
          · by_cases h4 : nd e.g2 = nd e.g1 <;> simp [h2, h2', h3, h4, hp]
      · by_cases h2 : g = e.g2
        · subst h2
          have h1' : ¬ e.g1 = e.g2 := fun h => h1 h.symm
          by_cases h3 : nd e.g1 = p
          · simp [h1, h3, hp]
          · by_cases h4 : nd e.g2 = nd e.g1
            · simp [h1', h3, h4]
            · simp [h1, h1', h3, h4]
        · have h1' : ¬ e.g1 = g := fun h => h1 h.symm
          have h2' : ¬ e.g2 = g := fun h => h2 h.symm
          simp [h1, h2, h1', h2']

theorem rowOf_ne_owner (nd : Nat → Nat) (edges : List Branch) (g p : Nat)
    (h : p ∈ rowOf nd edges g) : nd g ≠ p := by
  rw [mem_rowOf] at h
  obtain ⟨e, _, hd, ⟨h1, h2⟩ | ⟨h1, h2⟩⟩ := h
  · rw [h1, h2]; exact hd
  · rw [h1, h2]; exact Ne.symm hd

theorem nodup_map_const (l : List Nat) (p g : Nat) :
    ((l.filter (fun d => decide (d = p))).map (fun _ => g)).Nodup ↔ l.count p ≤ 1 := by
  have h1 : (l.filter (fun d => decide (d = p))) = List.replicate (l.count p) p := by
    rw [← List.filter_beq]
    apply List.filter_congr
    intro x _
    rw [Bool.eq_iff_iff]; simp
  rw [h1, List.map_replicate]
  exact List.nodup_replicate

/-- C56, exact answer.  After partitioning, no process holds two records of the same bus **if and
only if** no bus is joined by two or more branches to buses of one other process.  So the claim
"no process holds two copies of a bus" fails for ordinary meshed networks (see
`C56_duplicate_ghosts_violated`). -/
theorem C56_no_duplicate_copies_iff_partial (n cap : Nat) (nd : Nat → Nat) (hnd : ∀ g, nd g < n)
    (buses : Nat → List Bus) (branches : Nat → List Branch)
    (hcap : ∀ g, incidences ((List.range n).flatMap branches) g ≤ cap)
    (hgid : (((List.range n).flatMap buses).map (·.gid)).Nodup) :
    ∃ out : Nat → Local, partition n cap nd buses branches = some out ∧
      ((∀ p, p < n → ((out p).buses.map (·.gid)).Nodup) ↔
       (∀ b ∈ (List.range n).flatMap buses, ∀ p, p ≠ nd b.gid →
         links nd ((List.range n).flatMap branches) b.gid p ≤ 1)) := by
  obtain ⟨ab, ae, gb, ge, hpart, hs⟩ := partition_spec n cap nd hnd buses branches hcap
  set B := (List.range n).flatMap buses with hB
  set E := (List.range n).flatMap branches with hE
  refine ⟨_, hpart, ?_⟩
  have hrowlt : ∀ g, ∀ d ∈ rowOf nd E g, d < n := by
    intro g d hd
    rw [mem_rowOf] at hd
    obtain ⟨e, _, _, ⟨_, h2⟩ | ⟨_, h2⟩⟩ := hd <;> rw [h2] <;> exact hnd _
  have hgm : ∀ p, p < n → ((gb p).map (·.gid)).Perm (B.flatMap (fun b =>
      ((sortUnique (rowOf nd E b.gid)).filter (fun d => decide (d = p))).map
        (fun _ => b.gid))) := by
    intro p hp
    refine ((hs p hp).2.2.1.1.map _).trans (List.Perm.of_eq ?_)
    rw [List.map_flatMap]
    congr 1; funext b
    rw [List.map_map]; rfl
  have hmapeq : ∀ p, (ab p ++ (gb p).map (fun b : Bus => { b with active := false })).map
      Bus.gid = (ab p).map Bus.gid ++ (gb p).map Bus.gid := by
    intro p; rw [List.map_append, List.map_map]; rfl
  have hrowiff : ∀ g, (rowOf nd E g).Nodup ↔ ∀ p, p ≠ nd g → links nd E g p ≤ 1 := by
    intro g
    rw [List.nodup_iff_count_le_one]
    constructor
    · intro h p hp
      rw [← count_rowOf nd E g p (Ne.symm hp)]; exact h p
    · intro h p
      by_cases hp : p = nd g
      · rw [List.count_eq_zero_of_not_mem]
        · omega
        · intro hm; exact rowOf_ne_owner nd E g p hm hp.symm
      · rw [count_rowOf nd E g p (Ne.symm hp)]; exact h p hp
  have hBpair : B.Pairwise (fun a b => a.gid ≠ b.gid) := List.pairwise_map.mp hgid
  constructor
  · intro h b hb
    rw [← hrowiff, ← sortUnique_nodup, List.nodup_iff_count_le_one]
    intro p
    by_cases hpm : p ∈ sortUnique (rowOf nd E b.gid)
    · have hp : p < n := hrowlt _ _ ((mem_sortUnique _ _).mp hpm)
      have h1 := h p hp
      simp only at h1
      rw [hmapeq, List.nodup_append] at h1
      have h2 := ((hgm p hp).nodup_iff.mp h1.2.1)
      rw [List.nodup_flatMap] at h2
      exact (nodup_map_const _ _ _).mp (h2.1 b hb)
    · rw [List.count_eq_zero_of_not_mem hpm]; omega
  · intro h p hp
    simp only
    rw [hmapeq, List.nodup_append]
    refine ⟨?_, ?_, ?_⟩
    · refine ((hs p hp).1.map _).nodup_iff.mpr ?_
      exact List.Nodup.sublist (List.Sublist.map _ List.filter_sublist) hgid
    · refine (hgm p hp).nodup_iff.mpr ?_
      rw [List.nodup_flatMap]
      refine ⟨?_, ?_⟩
      · intro b hb
        rw [nodup_map_const]
        exact List.nodup_iff_count_le_one.mp
          ((sortUnique_nodup _).mpr ((hrowiff b.gid).mpr (h b hb))) p
      · refine hBpair.imp ?_
        intro a b hab
        rw [Function.onFun, List.disjoint_left]
        intro x hx hx'
        obtain ⟨_, _, rfl⟩ := List.mem_map.mp hx
        obtain ⟨_, _, h2⟩ := List.mem_map.mp hx'
        exact hab h2.symm
    · intro g hg g' hg' heq
      subst heq
      obtain ⟨b, hb, rfl⟩ := List.mem_map.mp hg
      obtain ⟨b', hb', hbb⟩ := List.mem_map.mp hg'
      have h1 := (List.mem_filter.mp ((hs p hp).1.mem_iff.mp hb)).2
      have h2 := (((hs p hp).2.2.1.2 b').mp hb').2
      apply rowOf_ne_owner nd E _ _ h2
      rw [hbb]; simpa using h1

/-- A path 0–1–2–3 on two processes, cut in the middle; buses start on process 0, branches on
process 1. -/
def exBuses : Nat → List Bus := fun p => if p = 0 then
  [⟨0, 10, true⟩, ⟨1, 20, true⟩, ⟨2, 30, true⟩, ⟨3, 40, true⟩] else []
def exBranches : Nat → List Branch := fun p => if p = 1 then
  [⟨0, 0, 1, true⟩, ⟨1, 2, 1, true⟩, ⟨2, 2, 3, true⟩] else []

/-- The capacity hypothesis is met with the largest number of neighbours. -/
example : ∀ g, incidences ((List.range 2).flatMap exBranches) g ≤ 2 := by
  intro g
  show incidences [⟨0, 0, 1, true⟩, ⟨1, 2, 1, true⟩, ⟨2, 2, 3, true⟩] g ≤ 2
  have : g = 0 ∨ g = 1 ∨ g = 2 ∨ g = 3 ∨ 4 ≤ g := by omega
  rcases this with rfl | rfl | rfl | rfl | h
  · decide
  · decide
  · decide
  · decide
  · unfold incidences
    have h0 : ¬ 0 = g := by omega
    have h1 : ¬ 1 = g := by omega
    have h2 : ¬ 2 = g := by omega
    have h3 : ¬ 3 = g := by omega
    simp [h0, h1, h2, h3]

/-- Star with centre 0 on process 0 and leaves 1, 2 on process 1. -/
def starBuses : Nat → List Bus := fun p => if p = 0 then
  [⟨0, 10, true⟩, ⟨1, 20, true⟩, ⟨2, 30, true⟩] else []
def starBranches : Nat → List Branch := fun p => if p = 0 then
  [⟨0, 0, 1, true⟩, ⟨1, 0, 2, true⟩] else []
def starDest : Nat → Nat := fun g => if g = 0 then 0 else 1

theorem star_capacity : ∀ g, incidences ((List.range 2).flatMap starBranches) g ≤ 2 := by
  intro g
  show incidences [⟨0, 0, 1, true⟩, ⟨1, 0, 2, true⟩] g ≤ 2
  unfold incidences
  have h1 := List.countP_le_length (p := fun e : Branch => decide (e.g1 = g))
    (l := [⟨0, 0, 1, true⟩, ⟨1, 0, 2, true⟩])
  by_cases h : g = 0
  · subst h; decide
  · have h0 : ¬ 0 = g := fun h' => h h'.symm
    simp [h0, List.countP_cons]
    split <;> split <;> omega

/-- C56 is violated: partitioning the star leaves some process with two records of one bus. -/
theorem C56_duplicate_ghosts_violated :
    ∃ out : Nat → Local, partition 2 2 starDest starBuses starBranches = some out ∧
      ¬ ∀ p, p < 2 → ((out p).buses.map (·.gid)).Nodup := by
  obtain ⟨out, h1, h2⟩ := C56_no_duplicate_copies_iff_partial 2 2 starDest
    (by intro g; unfold starDest; split <;> omega) starBuses starBranches star_capacity
    (by decide)
  refine ⟨out, h1, ?_⟩
  rw [h2]
  intro h
  exact absurd (h ⟨0, 10, true⟩ (by decide) 1 (by decide)) (by decide)

end GridPACK.Partition
