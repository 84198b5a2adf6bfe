import Verif.Model.IndexHash
import Verif.Lemmas.Exchange

namespace GridPACK.IndexHash
open GridPACK.Exchange GridPACK.Buckets

variable {K V : Type} [DecidableEq K]

/-- Total of the counters = number of items sent. -/
theorem total_eq_zero_iff {α : Type} (n : Nat) (send : Nat → Nat → List α)
    (sched : List (Nat × Nat)) (hs : Complete n sched) :
    base (offsets (fun p d => (send p d).length) sched).counter n = 0 ↔
      ∀ p d, p < n → d < n → send p d = [] := by
  constructor
  · intro h p d hp hd
    have h1 := base_mono (offsets (fun p d => (send p d).length) sched).counter hd
    have h2 : (offsets (fun p d => (send p d).length) sched).counter d = 0 := by omega
    rw [offsets_counter] at h2
    have := sum_zero_mem _ h2 (send p d).length
      (List.mem_map.mpr ⟨(p, d), List.mem_filter.mpr ⟨(hs.2 p d).mpr ⟨hp, hd⟩, by simp⟩, rfl⟩)
    exact List.length_eq_zero_iff.mp this
  · intro h
    have hc : ∀ d, d < n → (offsets (fun p d => (send p d).length) sched).counter d = 0 := by
      intro d hd
      rw [offsets_counter]
      unfold cnt
      apply sum_zero_of
      intro x hx
      obtain ⟨⟨p, e⟩, hpe, rfl⟩ := List.mem_map.mp hx
      have h1 := List.mem_filter.mp hpe
      have h2 := (hs.2 p e).mp h1.1
      simp [h p e h2.1 h2.2]
    unfold base
    apply sum_zero_of
    intro x hx
    obtain ⟨d, hd, rfl⟩ := List.mem_map.mp hx
    exact hc d (List.mem_range.mp hd)

theorem hash_toNat_lt {nprocs : Nat} {h : Int} (hl : legal nprocs h = true) :
    h.toNat < nprocs := by
  simp [legal] at hl; omega

/-- All packed buffers empty iff the item list is empty. -/
theorem packed_nil_iff {α : Type} (n : Nat) (dest : α → Nat) (items : List α)
    (h : ∀ x ∈ items, dest x < n) : (∀ d, d < n → packed dest items d = []) ↔ items = [] := by
  constructor
  · intro hd
    cases items with
    | nil => rfl
    | cons x l =>
      have := hd (dest x) (h x (by simp))
      rw [packed_eq] at this
      simp at this
  · rintro rfl d _; simp [packed_eq]

omit [DecidableEq K] in
theorem addPairs_spec (n : Nat) (hash : K → Int) (sch : Sched) (old pairs : Nat → List (K × V))
    (hr : Complete n sch.reserve) (hw : Complete n sch.write)
    (hl : ∀ p, p < n → ∀ kv ∈ pairs p, legal n (hash kv.1) = true)
    (hne : ∃ p, p < n ∧ pairs p ≠ []) :
    ∃ umap, addPairs n hash sch old pairs = some umap ∧
      ∀ d, d < n → (umap d).Perm (((List.range n).flatMap pairs).filter
        (fun kv => decide ((hash kv.1).toNat = d))) := by
  unfold addPairs
  have hall : (List.range n).all (fun p => (pairs p).all (fun kv => legal n (hash kv.1))) = true := by
    rw [List.all_eq_true]; intro p hp
    rw [List.all_eq_true]; exact hl p (List.mem_range.mp hp)
  rw [if_pos hall]
  have hnz : ¬ (base (offsets (fun p d =>
      (packed (fun kv : K × V => (hash kv.1).toNat) (pairs p) d).length) sch.reserve).counter n
        = 0) := by
    intro h0
    obtain ⟨p, hp, hpp⟩ := hne
    have := (total_eq_zero_iff n _ sch.reserve hr).mp h0
    exact hpp ((packed_nil_iff n _ (pairs p) (fun kv hkv => hash_toNat_lt (hl p hp kv hkv))).mp
      (fun d hd => this p d hp hd))
  simp only
  rw [if_neg hnz]
  obtain ⟨out, h1, h2⟩ := exchange_spec n
    (fun p d => packed (fun kv : K × V => (hash kv.1).toNat) (pairs p) d) sch.reserve sch.write hr hw
  refine ⟨out, h1, ?_⟩
  intro d hd
  refine (h2 d hd).trans ?_
  rw [List.filter_flatMap]
  apply List.Perm.flatMap_left
  intro p _
  rw [packed_eq]
  exact List.reverse_perm _

theorem getValues_spec (n : Nat) (hash : K → Int) (s1 s2 : Sched) (umap : Nat → List (K × V))
    (keys : Nat → List K) (vals : Nat → List V)
    (h1r : Complete n s1.reserve) (h1w : Complete n s1.write)
    (h2r : Complete n s2.reserve) (h2w : Complete n s2.write)
    (hl : ∀ p, p < n → ∀ k ∈ keys p, legal n (hash k) = true)
    (hne : ∃ p, p < n ∧ keys p ≠ []) :
    ∃ out : Nat → List (K × V), getValues n hash s1 s2 umap keys vals
        = some (fun p => ((out p).map (·.1), (out p).map (·.2))) ∧
      ∀ p, p < n → (out p).Perm ((keys p).flatMap
        (fun k => ((umap (hash k).toNat).filter (fun kv => decide (kv.1 = k))))) := by
  unfold getValues
  have hall : (List.range n).all (fun p => (keys p).all (fun k => legal n (hash k))) = true := by
    rw [List.all_eq_true]; intro p hp
    rw [List.all_eq_true]; exact hl p (List.mem_range.mp hp)
  rw [if_pos hall]
  set send1 := fun p d => packed (fun r : K × Nat => (hash r.1).toNat)
        ((keys p).map (fun k => (k, p))) d with hs1
  have hdest : ∀ p, p < n → ∀ x ∈ (keys p).map (fun k => (k, p)), (hash x.1).toNat < n := by
    intro p hp x hx
    obtain ⟨k, hk, rfl⟩ := List.mem_map.mp hx
    exact hash_toNat_lt (hl p hp k hk)
  have hnz : ¬ (base (offsets (fun p d => (send1 p d).length) s1.reserve).counter n = 0) := by
    intro h0
    obtain ⟨p, hp, hpp⟩ := hne
    have := (total_eq_zero_iff n _ s1.reserve h1r).mp h0
    have := (packed_nil_iff n _ _ (hdest p hp)).mp (fun d hd => this p d hp hd)
    exact hpp (by simpa using this)
  simp only
  rw [if_neg hnz]
  obtain ⟨reqs, hreq, hreqp⟩ := exchange_spec n send1 s1.reserve s1.write h1r h1w
  rw [hreq]
  simp only
  set send2 := fun d p => (packed (fun a : K × Nat × V => a.2.1)
            (answers (umap d) (reqs d)) p).map (fun a => (a.1, a.2.2)) with hs2
  obtain ⟨out, hout, houtp⟩ := exchange_spec n send2 s2.reserve s2.write h2r h2w
  rw [hout]
  refine ⟨out, rfl, ?_⟩
  intro p hp
  refine (houtp p hp).trans ?_
  -- requests received at `d`, restricted to requester `p`
  have hreqd : ∀ d, d < n → ((reqs d).filter (fun r => decide (r.2 = p))).Perm
      (((keys p).filter (fun k => decide ((hash k).toNat = d))).map (fun k => (k, p))) := by
    intro d hd
    refine ((hreqp d hd).filter _).trans ?_
    rw [List.filter_flatMap]
    have e : ∀ q ∈ List.range n, ((send1 q d).filter (fun r => decide (r.2 = p))).Perm
        (if p = q then (((keys p).filter (fun k => decide ((hash k).toNat = d))).map
          (fun k => (k, p))) else []) := by
      intro q _
      rw [hs1]
      simp only [packed_eq]
      refine ((List.reverse_perm _).filter _).trans ?_
      rw [List.filter_map, List.filter_map, List.filter_filter]
      by_cases hpq : p = q
      · subst hpq; simp
      · have : ¬ q = p := fun h => hpq h.symm
        simp [hpq, this]
    refine (List.Perm.flatMap_left _ e).trans ?_
    clear e hreqp houtp hreq hout
    have : ∀ m, p < m → ∀ X : List (K × Nat),
        (List.range m).flatMap (fun q => if p = q then X else []) = X := by
      intro m
      induction m with
      | zero => intro h; omega
      | succ m ih =>
        intro h X
        rw [List.range_succ, List.flatMap_append]
        by_cases hpm : p = m
        · subst hpm
          have : (List.range p).flatMap (fun q => if p = q then X else []) = [] := by
            rw [List.flatMap_eq_nil_iff]
            intro q hq
            have := List.mem_range.mp hq
            rw [if_neg (by omega)]
          rw [this]; simp
        · rw [ih (by omega)]; simp [hpm]
    rw [this n hp]
  -- answers sent from `d` to `p`
  have hans : ∀ d ∈ List.range n, (send2 d p).Perm
      (((keys p).filter (fun k => decide ((hash k).toNat = d))).flatMap
        (fun k => ((umap (hash k).toNat).filter (fun kv => decide (kv.1 = k))))) := by
    intro d hd
    have hd := List.mem_range.mp hd
    rw [hs2]
    simp only [packed_eq]
    refine ((List.reverse_perm _).map _).trans ?_
    have e1 : ((answers (umap d) (reqs d)).filter (fun x => decide (x.2.1 = p))).map
          (fun a => (a.1, a.2.2))
        = ((reqs d).filter (fun r => decide (r.2 = p))).flatMap
          (fun r => (umap d).filter (fun kv => decide (kv.1 = r.1))) := by
      generalize reqs d = R
      unfold answers
      induction R with
      | nil => simp
      | cons r R ih =>
        rw [List.flatMap_cons, List.filter_append, List.map_append, ih]
        by_cases hr : r.2 = p
        · rw [List.filter_cons_of_pos (by simp [hr]), List.flatMap_cons]
          congr 1
          have : ∀ L : List (K × V), (((L.filter (fun kv => decide (kv.1 = r.1))).map
              (fun kv => (r.1, r.2, kv.2))).filter (fun x => decide (x.2.1 = p))).map
                (fun a => (a.1, a.2.2)) = L.filter (fun kv => decide (kv.1 = r.1)) := by
            intro L
            induction L with
            | nil => rfl
            | cons a L ihL =>
              by_cases ha : a.1 = r.1
              · rw [List.filter_cons_of_pos (by simp [ha]), List.map_cons,
                  List.filter_cons_of_pos (by simp [hr]), List.map_cons, ihL]
                congr 1
                exact Prod.ext ha.symm rfl
              · rw [List.filter_cons_of_neg (by simp [ha])]; exact ihL
          exact this _
        · rw [List.filter_cons_of_neg (by simp [hr])]
          have : (((umap d).filter (fun kv => decide (kv.1 = r.1))).map
              (fun kv => (r.1, r.2, kv.2))).filter (fun x => decide (x.2.1 = p)) = [] := by
            rw [List.filter_eq_nil_iff]
            intro x hx
            obtain ⟨kv, _, rfl⟩ := List.mem_map.mp hx
            simp [hr]
          rw [this]; rfl
    rw [e1]
    refine ((hreqd d hd).flatMap_right _).trans ?_
    rw [List.flatMap_map]
    apply List.Perm.of_eq
    apply List.flatMap_congr
    intro k hk
    have := (List.mem_filter.mp hk).2
    simp at this
    rw [this]
  refine (List.Perm.flatMap_left _ hans).trans ?_
  rw [← List.flatMap_assoc]
  apply List.Perm.flatMap_right
  exact flatMap_filter_perm _ n (keys p) (fun k hk => hash_toNat_lt (hl p hp k hk))

end GridPACK.IndexHash
