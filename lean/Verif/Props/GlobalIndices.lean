import Verif.Model.GlobalIndices
import Verif.Props.IndexHash

/-! Property C14: global numbering of owned components and ghosts. -/
namespace GridPACK.GlobalIndices
open GridPACK.IndexHash

variable {K : Type} [DecidableEq K]

omit [DecidableEq K] in
theorem numberActive_gids (c : Nat) (l : List (Comp K)) :
    ((numberActive c l).filter (·.active)).map (·.gid)
      = (List.range' c (countActive l)).map (fun (i : Nat) => (i : Int)) := by
  induction l generalizing c with
  | nil => simp [numberActive, countActive]
  | cons x l ih =>
    unfold numberActive
    by_cases h : x.active = true
    · rw [if_pos h]
      have hc : countActive (x :: l) = countActive l + 1 := by
        unfold countActive; rw [List.countP_cons, if_pos h]
      rw [hc, List.range'_succ, List.map_cons, ← ih, List.filter_cons, if_pos h, List.map_cons]
    · rw [if_neg h]
      have hc : countActive (x :: l) = countActive l := by
        unfold countActive; rw [List.countP_cons, if_neg h]; omega
      rw [hc, ← ih, List.filter_cons, if_neg h]

omit [DecidableEq K] in
theorem numberActive_frame (c : Nat) (l : List (Comp K)) :
    (numberActive c l).map (fun x => (x.key, x.active)) = l.map (fun x => (x.key, x.active)) := by
  induction l generalizing c with
  | nil => rfl
  | cons x l ih => unfold numberActive; split <;> simp [ih]

theorem assignGhosts_frame (ks : List K) (vs : List Int) (l : List (Comp K)) :
    (assignGhosts ks vs l).map (fun x => (x.key, x.active)) =
      l.map (fun x => (x.key, x.active)) := by
  unfold assignGhosts
  rw [List.map_map]
  apply List.map_congr_left
  intro x _
  simp only [Function.comp]
  split
  · rfl
  · split <;> rfl

theorem assignGhosts_active (ks : List K) (vs : List Int) (l : List (Comp K)) :
    (assignGhosts ks vs l).filter (·.active) = l.filter (·.active) := by
  unfold assignGhosts
  induction l with
  | nil => rfl
  | cons x l ih =>
    rw [List.map_cons]
    by_cases h : x.active = true
    · rw [if_pos h, List.filter_cons, if_pos h, List.filter_cons, if_pos h, ih]
    · rw [if_neg h, List.filter_cons (x := x), if_neg h, List.filter_cons, if_neg, ih]
      split <;> exact h

omit [DecidableEq K] in
theorem range'_flatMap (f : Nat → Nat) (n : Nat) :
    (List.range n).flatMap (fun p => List.range' ((List.range p).map f).sum (f p))
      = List.range ((List.range n).map f).sum := by
  induction n with
  | zero => rfl
  | succ n ih =>
    rw [List.range_succ, List.flatMap_append, ih, List.map_append, List.sum_append]
    simp only [List.flatMap_cons, List.flatMap_nil, List.append_nil, List.map_cons, List.map_nil,
      List.sum_cons, List.sum_nil, Nat.add_zero]
    generalize ((List.range n).map f).sum = m
    rw [List.range_eq_range', List.range_eq_range', ← List.range'_append_1, Nat.zero_add]

omit [DecidableEq K] in
theorem addPairs_total (n : Nat) (hash : K → Int) (s : Sched) (pairs : Nat → List (K × Int))
    (h0 : s.Ok n) (hp : ∀ p, p < n → ∀ kv ∈ pairs p, legal n (hash kv.1) = true) :
    ∃ umap, addPairs n hash s (fun _ => []) pairs = some umap := by
  by_cases hne : ∃ p, p < n ∧ pairs p ≠ []
  · obtain ⟨u, h, _⟩ := addPairs_spec n hash s (fun _ => []) pairs h0.1 h0.2 hp hne
    exact ⟨u, h⟩
  · have he : ∀ p, p < n → pairs p = [] := by
      intro p hp'; by_contra hc; exact hne ⟨p, hp', hc⟩
    unfold addPairs
    rw [if_pos]
    · simp only
      rw [if_pos]
      · exact ⟨_, rfl⟩
      · rw [total_eq_zero_iff n _ _ h0.1]
        intro p d hp' _
        rw [he p hp']; simp [Exchange.packed_eq]
    · rw [List.all_eq_true]
      intro p hp'
      rw [he p (List.mem_range.mp hp')]; rfl

omit [DecidableEq K] in
/-- Active keys after numbering are those before. -/
theorem keys_of_frame {l l' : List (Comp K)} (h : l'.map (fun x => (x.key, x.active)) =
    l.map (fun x => (x.key, x.active))) (b : Bool) :
    (l'.filter (fun x => x.active == b)).map (·.key) =
      (l.filter (fun x => x.active == b)).map (·.key) := by
  have e : ∀ m : List (Comp K), (m.filter (fun x => x.active == b)).map (·.key) =
      ((m.map (fun x => (x.key, x.active))).filter (fun y => y.2 == b)).map (·.1) := by
    intro m
    rw [List.filter_map, List.map_map]; rfl
  rw [e, e, h]

/-- C14 in full generality (any key type and hash).  Suppose owned components have pairwise
different keys across all processes, every ghost's key is the key of some owned component, and
all keys hash to a process.  Then the call succeeds for every interleaving, changes nothing but
global indices, and
* with `flag = true` the global indices of the owned components, listed process by process, are
  exactly `0, 1, ..., N-1`; with `flag = false` they are unchanged;
* every ghost has the global index of the owned component with the same key. -/
theorem reset_spec (n : Nat) (hash : K → Int) (s0 s1 s2 : Sched) (flag : Bool)
    (comps : Nat → List (Comp K)) (h0 : s0.Ok n) (h1 : s1.Ok n) (h2 : s2.Ok n)
    (hlegal : ∀ p, p < n → ∀ x ∈ comps p, legal n (hash x.key) = true)
    (huniq : (((List.range n).flatMap comps).filter (·.active) |>.map (·.key)).Nodup)
    (hghost : ∀ x ∈ (List.range n).flatMap comps, x.active = false →
      ∃ y ∈ (List.range n).flatMap comps, y.active = true ∧ y.key = x.key) :
    ∃ out, resetGlobalIndices n hash s0 s1 s2 flag comps = some out ∧
      (∀ p, (out p).map (fun x => (x.key, x.active)) =
        (comps p).map (fun x => (x.key, x.active))) ∧
      (flag = true → (((List.range n).flatMap out).filter (·.active)).map (·.gid) =
        (List.range (countActive ((List.range n).flatMap comps))).map (fun (i : Nat) => (i : Int))) ∧
      (flag = false → ∀ p, (out p).filter (·.active) = (comps p).filter (·.active)) ∧
      (∀ p, p < n → ∀ x ∈ out p, x.active = false →
        ∃ q, q < n ∧ ∃ y ∈ out q, y.active = true ∧ y.key = x.key ∧ y.gid = x.gid) ∧
      (∀ x ∈ (List.range n).flatMap out, ∀ y ∈ (List.range n).flatMap out,
        x.active = true → y.key = x.key → y.gid = x.gid) := by
  set numbered : Nat → List (Comp K) :=
    fun p => if flag then numberActive (offset comps p) (comps p) else comps p with hnum
  have hframe : ∀ p, (numbered p).map (fun x => (x.key, x.active)) =
      (comps p).map (fun x => (x.key, x.active)) := by
    intro p
    simp only [hnum]
    split
    · exact numberActive_frame _ _
    · rfl
  set pairs : Nat → List (K × Int) := fun p =>
    ((numbered p).filter (fun x => x.active)).map (fun x => (x.key, x.gid)) with hpairs
  set keys : Nat → List K := fun p =>
    ((numbered p).filter (fun x => !x.active)).map (fun x => x.key) with hkeys
  have hlegN : ∀ p, p < n → ∀ x ∈ numbered p, legal n (hash x.key) = true := by
    intro p hp x hx
    have : (x.key, x.active) ∈ (numbered p).map (fun x => (x.key, x.active)) :=
      List.mem_map.mpr ⟨x, hx, rfl⟩
    rw [hframe] at this
    obtain ⟨y, hy, he⟩ := List.mem_map.mp this
    rw [Prod.mk.injEq] at he
    rw [← he.1]; exact hlegal p hp y hy
  have hp : ∀ p, p < n → ∀ kv ∈ pairs p, legal n (hash kv.1) = true := by
    intro p hpn kv hkv
    obtain ⟨x, hx, rfl⟩ := List.mem_map.mp hkv
    exact hlegN p hpn x (List.mem_of_mem_filter hx)
  have hk : ∀ p, p < n → ∀ k ∈ keys p, legal n (hash k) = true := by
    intro p hpn k hk
    obtain ⟨x, hx, rfl⟩ := List.mem_map.mp hk
    exact hlegN p hpn x (List.mem_of_mem_filter hx)
  -- unique pair keys
  have hN : ∀ p, ((numbered p).filter (·.active)).map (·.key) =
      ((comps p).filter (·.active)).map (·.key) := by
    intro p
    have := keys_of_frame (hframe p) true
    simpa using this
  have hpk : ((List.range n).flatMap pairs).map (·.1) =
      (((List.range n).flatMap comps).filter (·.active)).map (·.key) := by
    rw [List.map_flatMap, List.filter_flatMap, List.map_flatMap]
    congr 1; funext p
    rw [← hN]; simp only [hpairs, List.map_map]; rfl
  have hpuniq : (((List.range n).flatMap pairs).map (·.1)).Nodup := by rw [hpk]; exact huniq
  have hmempair : ∀ kv, kv ∈ (List.range n).flatMap pairs ↔
      ∃ q, q < n ∧ ∃ y ∈ numbered q, y.active = true ∧ y.key = kv.1 ∧ y.gid = kv.2 := by
    intro kv
    constructor
    · intro h
      obtain ⟨q, hq, h⟩ := List.mem_flatMap.mp h
      obtain ⟨y, hy, rfl⟩ := List.mem_map.mp h
      have := List.mem_filter.mp hy
      exact ⟨q, List.mem_range.mp hq, y, this.1, this.2, rfl, rfl⟩
    · rintro ⟨q, hq, y, hy, ha, hk1, hk2⟩
      refine List.mem_flatMap.mpr ⟨q, List.mem_range.mpr hq, List.mem_map.mpr ⟨y,
        List.mem_filter.mpr ⟨hy, ha⟩, ?_⟩⟩
      rw [hk1, hk2]
  -- the result of the hash map queries
  have hres : ∃ umap kv, addPairs n hash s0 (fun _ => []) pairs = some umap ∧
      getValues n hash s1 s2 umap keys (fun _ => []) = some kv ∧
      ∀ p, p < n → ∀ x ∈ numbered p, x.active = false →
        ∃ g, lookup (kv p).1 (kv p).2 x.key = some g ∧
          (x.key, g) ∈ (List.range n).flatMap pairs := by
    by_cases hreq : ∃ p, p < n ∧ keys p ≠ []
    · have hghostN : ∀ p, p < n → ∀ x ∈ numbered p, x.active = false →
          ∃ kv ∈ (List.range n).flatMap pairs, kv.1 = x.key := by
        intro p hpn x hx ha
        have : (x.key, x.active) ∈ (numbered p).map (fun x => (x.key, x.active)) :=
          List.mem_map.mpr ⟨x, hx, rfl⟩
        rw [hframe] at this
        obtain ⟨x0, hx0, he⟩ := List.mem_map.mp this
        rw [Prod.mk.injEq] at he
        obtain ⟨y, hy, hya, hyk⟩ := hghost x0
          (List.mem_flatMap.mpr ⟨p, List.mem_range.mpr hpn, hx0⟩) (he.2.trans ha)
        have hm : y.key ∈ (((List.range n).flatMap comps).filter (·.active)).map (·.key) :=
          List.mem_map.mpr ⟨y, List.mem_filter.mpr ⟨hy, hya⟩, rfl⟩
        rw [← hpk] at hm
        obtain ⟨kv, hkv, hk1⟩ := List.mem_map.mp hm
        exact ⟨kv, hkv, by rw [hk1, hyk, he.1]⟩
      have hne : ∃ p, p < n ∧ pairs p ≠ [] := by
        obtain ⟨p, hpn, hkp⟩ := hreq
        obtain ⟨k, hk'⟩ := List.exists_mem_of_ne_nil _ hkp
        obtain ⟨x, hx, rfl⟩ := List.mem_map.mp hk'
        have hx' := List.mem_filter.mp hx
        obtain ⟨kv, hkv, _⟩ := hghostN p hpn x hx'.1 (by simpa using hx'.2)
        obtain ⟨q, hq, h⟩ := List.mem_flatMap.mp hkv
        exact ⟨q, List.mem_range.mp hq, List.ne_nil_of_mem h⟩
      obtain ⟨umap, kv, e1, e2, e3⟩ := lookup_spec n hash s0 s1 s2 (fun _ => []) pairs keys
        (fun _ => []) h0 h1 h2 hp hk hne hreq
      refine ⟨umap, kv, e1, e2, ?_⟩
      intro p hpn x hx ha
      obtain ⟨pr, hpr, hk1⟩ := hghostN p hpn x hx ha
      obtain ⟨_, hperm⟩ := e3 p hpn
      have hkm : x.key ∈ keys p :=
        List.mem_map.mpr ⟨x, List.mem_filter.mpr ⟨hx, by simp [ha]⟩, rfl⟩
      have hin : pr ∈ List.zip (kv p).1 (kv p).2 := by
        rw [hperm.mem_iff]
        exact List.mem_flatMap.mpr ⟨x.key, hkm, List.mem_filter.mpr ⟨hpr, by simpa using hk1⟩⟩
      unfold lookup
      cases hf : (List.zip (kv p).1 (kv p).2).find? (fun z => decide (z.1 = x.key)) with
      | none =>
        rw [List.find?_eq_none] at hf
        exact absurd (by simpa using hk1) (hf pr hin)
      | some z =>
        have hz1 := List.find?_some hf
        have hz2 := List.mem_of_find?_eq_some hf
        rw [hperm.mem_iff] at hz2
        obtain ⟨k, _, hz3⟩ := List.mem_flatMap.mp hz2
        have hz4 := (List.mem_filter.mp hz3).1
        refine ⟨z.2, rfl, ?_⟩
        have : z.1 = x.key := by simpa using hz1
        rw [← this]; exact hz4
    · have he : ∀ p, p < n → keys p = [] := by
        intro p hp'; by_contra hc; exact hreq ⟨p, hp', hc⟩
      obtain ⟨umap, e1⟩ := addPairs_total n hash s0 pairs h0 hp
      refine ⟨umap, _, e1, C09_no_request_unchanged n hash s1 s2 h1 umap keys _ he, ?_⟩
      intro p hpn x hx ha
      have hkm : x.key ∈ keys p :=
        List.mem_map.mpr ⟨x, List.mem_filter.mpr ⟨hx, by simp [ha]⟩, rfl⟩
      rw [he p hpn] at hkm; simp at hkm
  obtain ⟨umap, kv, e1, e2, e3⟩ := hres
  set out : Nat → List (Comp K) := fun p => assignGhosts (kv p).1 (kv p).2 (numbered p) with hout
  have hact : ∀ p, (out p).filter (·.active) = (numbered p).filter (·.active) :=
    fun p => assignGhosts_active _ _ _
  -- ghosts of the result
  have hgh : ∀ p, p < n → ∀ x ∈ out p, (x.key, x.gid) ∈ (List.range n).flatMap pairs := by
    intro p hpn x hx
    by_cases ha : x.active = true
    · have : x ∈ (out p).filter (·.active) := List.mem_filter.mpr ⟨hx, ha⟩
      rw [hact] at this
      rw [hmempair]
      exact ⟨p, hpn, x, List.mem_of_mem_filter this, ha, rfl, rfl⟩
    · obtain ⟨x0, hx0, rfl⟩ := List.mem_map.mp hx
      by_cases ha0 : x0.active = true
      · rw [if_pos ha0] at ha; exact absurd ha0 ha
      · rw [if_neg ha0]
        obtain ⟨g, hg1, hg2⟩ := e3 p hpn x0 hx0 (by simpa using ha0)
        rw [hg1]; exact hg2
  refine ⟨out, ?_, ?_, ?_, ?_, ?_, ?_⟩
  · unfold resetGlobalIndices
    simp only
    rw [e1]; simp only
    rw [e2]
  · intro p
    rw [← hframe p]; exact assignGhosts_frame _ _ _
  · intro hflag
    rw [List.filter_flatMap, List.map_flatMap]
    have : ∀ p, ((out p).filter (·.active)).map (·.gid) =
        (List.range' (offset comps p) (countActive (comps p))).map (fun (i : Nat) => (i : Int)) := by
      intro p
      rw [hact]
      simp only [hnum, hflag, if_true]
      exact numberActive_gids _ _
    simp only [this]
    rw [← List.map_flatMap]
    unfold offset
    rw [range'_flatMap (fun i => countActive (comps i)) n]
    unfold countActive
    rw [List.countP_flatMap]; rfl
  · intro hflag p
    rw [hact]; simp only [hnum, hflag]; rfl
  · intro p hpn x hx ha
    have h := hgh p hpn x hx
    rw [hmempair] at h
    obtain ⟨q, hq, y, hy, hya, hy1, hy2⟩ := h
    refine ⟨q, hq, y, ?_, hya, hy1, hy2⟩
    have : y ∈ (numbered q).filter (·.active) := List.mem_filter.mpr ⟨hy, hya⟩
    rw [← hact] at this
    exact List.mem_of_mem_filter this
  · intro x hx y hy hxa hk
    obtain ⟨p, hp1, hp2⟩ := List.mem_flatMap.mp hx
    obtain ⟨q, hq1, hq2⟩ := List.mem_flatMap.mp hy
    have m1 := hgh p (List.mem_range.mp hp1) x hp2
    have m2 := hgh q (List.mem_range.mp hq1) y hq2
    rw [hk] at m2
    have := List.inj_on_of_nodup_map hpuniq m1 m2 rfl
    rw [Prod.mk.injEq] at this
    exact this.2.symm

/-- C14 (buses).  Keys are the original bus numbers, which must not be negative. -/
theorem C14_bus_numbering (n : Nat) (hn : 0 < n) (s0 s1 s2 : Sched) (comps : Nat → List (Comp Int))
    (h0 : s0.Ok n) (h1 : s1.Ok n) (h2 : s2.Ok n)
    (hpos : ∀ p, p < n → ∀ x ∈ comps p, 0 ≤ x.key)
    (huniq : (((List.range n).flatMap comps).filter (·.active) |>.map (·.key)).Nodup)
    (hghost : ∀ x ∈ (List.range n).flatMap comps, x.active = false →
      ∃ y ∈ (List.range n).flatMap comps, y.active = true ∧ y.key = x.key) :
    ∃ out, resetGlobalIndices n (hashValue n) s0 s1 s2 true comps = some out ∧
      (∀ p, (out p).map (fun x => (x.key, x.active)) =
        (comps p).map (fun x => (x.key, x.active))) ∧
      (((List.range n).flatMap out).filter (·.active)).map (·.gid) =
        (List.range (countActive ((List.range n).flatMap comps))).map (fun (i : Nat) => (i : Int)) ∧
      (∀ p, p < n → ∀ x ∈ out p, x.active = false →
        ∃ q, q < n ∧ ∃ y ∈ out q, y.active = true ∧ y.key = x.key ∧ y.gid = x.gid) := by
  obtain ⟨out, e1, e2, e3, _, e5, _⟩ := reset_spec n (hashValue n) s0 s1 s2 true comps h0 h1 h2
    (by intro p hp x hx
        have := hpos p hp x hx
        have hn' : (0:Int) < n := by exact_mod_cast hn
        rw [legal_iff]; unfold hashValue
        rw [Int.tmod_eq_emod_of_nonneg this]
        exact ⟨Int.emod_nonneg _ (by omega), Int.emod_lt_of_pos _ hn'⟩) huniq hghost
  exact ⟨out, e1, e2, e3 rfl, e5⟩

/-- C14 (branches).  Keys are the pairs of original bus numbers. -/
theorem C14_branch_numbering (n : Nat) (hn : 0 < n) (s0 s1 s2 : Sched)
    (comps : Nat → List (Comp (Int × Int)))
    (h0 : s0.Ok n) (h1 : s1.Ok n) (h2 : s2.Ok n)
    (hpos : ∀ p, p < n → ∀ x ∈ comps p, 0 ≤ x.key.1 ∧ 0 ≤ x.key.2)
    (huniq : (((List.range n).flatMap comps).filter (·.active) |>.map (·.key)).Nodup)
    (hghost : ∀ x ∈ (List.range n).flatMap comps, x.active = false →
      ∃ y ∈ (List.range n).flatMap comps, y.active = true ∧ y.key = x.key) :
    ∃ out, resetGlobalIndices n (pairHashValue n) s0 s1 s2 true comps = some out ∧
      (∀ p, (out p).map (fun x => (x.key, x.active)) =
        (comps p).map (fun x => (x.key, x.active))) ∧
      (((List.range n).flatMap out).filter (·.active)).map (·.gid) =
        (List.range (countActive ((List.range n).flatMap comps))).map (fun (i : Nat) => (i : Int)) ∧
      (∀ p, p < n → ∀ x ∈ out p, x.active = false →
        ∃ q, q < n ∧ ∃ y ∈ out q, y.active = true ∧ y.key = x.key ∧ y.gid = x.gid) := by
  obtain ⟨out, e1, e2, e3, _, e5, _⟩ := reset_spec n (pairHashValue n) s0 s1 s2 true comps h0 h1 h2
    (by intro p hp x hx
        have := hpos p hp x hx
        have hn' : (0:Int) < n := by exact_mod_cast hn
        rw [legal_iff]; unfold pairHashValue
        rw [Int.tmod_eq_emod_of_nonneg (by omega)]
        exact ⟨Int.emod_nonneg _ (by omega), Int.emod_lt_of_pos _ hn'⟩) huniq hghost
  exact ⟨out, e1, e2, e3 rfl, e5⟩

/-- C14 with `flag = false`: indices of owned components are kept, ghosts get their owner's. -/
theorem C14_ghosts_only (n : Nat) (hn : 0 < n) (s0 s1 s2 : Sched) (comps : Nat → List (Comp Int))
    (h0 : s0.Ok n) (h1 : s1.Ok n) (h2 : s2.Ok n)
    (hpos : ∀ p, p < n → ∀ x ∈ comps p, 0 ≤ x.key)
    (huniq : (((List.range n).flatMap comps).filter (·.active) |>.map (·.key)).Nodup)
    (hghost : ∀ x ∈ (List.range n).flatMap comps, x.active = false →
      ∃ y ∈ (List.range n).flatMap comps, y.active = true ∧ y.key = x.key) :
    ∃ out, resetGlobalIndices n (hashValue n) s0 s1 s2 false comps = some out ∧
      (∀ p, (out p).filter (·.active) = (comps p).filter (·.active)) ∧
      (∀ p, p < n → ∀ x ∈ out p, x.active = false →
        ∃ q, q < n ∧ ∃ y ∈ comps q, y.active = true ∧ y.key = x.key ∧ y.gid = x.gid) := by
  obtain ⟨out, e1, e2, _, e4, e5, _⟩ := reset_spec n (hashValue n) s0 s1 s2 false comps h0 h1 h2
    (by intro p hp x hx
        have := hpos p hp x hx
        have hn' : (0:Int) < n := by exact_mod_cast hn
        rw [legal_iff]; unfold hashValue
        rw [Int.tmod_eq_emod_of_nonneg this]
        exact ⟨Int.emod_nonneg _ (by omega), Int.emod_lt_of_pos _ hn'⟩) huniq hghost
  refine ⟨out, e1, e4 rfl, ?_⟩
  intro p hp x hx ha
  obtain ⟨q, hq, y, hy, hya, h3, h4⟩ := e5 p hp x hx ha
  refine ⟨q, hq, y, ?_, hya, h3, h4⟩
  have : y ∈ (out q).filter (·.active) := List.mem_filter.mpr ⟨hy, hya⟩
  rw [e4 rfl] at this
  exact List.mem_of_mem_filter this

/-- Two processes, each owning one bus and holding a ghost of the other's. -/
def exComps : Nat → List (Comp Int) := fun p =>
  if p = 0 then [⟨7, -1, false⟩, ⟨5, -1, true⟩] else if p = 1 then [⟨7, -1, true⟩, ⟨5, -1, false⟩]
  else []

example : (((List.range 2).flatMap exComps).filter (·.active) |>.map (·.key)).Nodup ∧
    ∀ x ∈ (List.range 2).flatMap exComps, x.active = false →
      ∃ y ∈ (List.range 2).flatMap exComps, y.active = true ∧ y.key = x.key := by decide

end GridPACK.GlobalIndices
