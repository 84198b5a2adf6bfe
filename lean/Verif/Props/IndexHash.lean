import Verif.Lemmas.IndexHash

/-! Property C09: distributed key/value lookup returns all and only the stored values. -/
namespace GridPACK.IndexHash
open GridPACK.Exchange

variable {K V : Type} [DecidableEq K]

theorem legal_iff (n : Nat) (h : Int) : legal n h = true ↔ 0 ≤ h ∧ h < n := by
  simp [legal]

/-- Both exchanges of the call order every pair of processes in some way. -/
def Sched.Ok (n : Nat) (s : Sched) : Prop := Complete n s.reserve ∧ Complete n s.write

/-- What a request list has to be answered with: for every requested key, every pair stored under
that key. -/
def answer (stored : List (K × V)) (requests : List K) : List (K × V) :=
  requests.flatMap (fun k => stored.filter (fun kv => decide (kv.1 = k)))

theorem lookup_spec (n : Nat) (hash : K → Int) (s0 s1 s2 : Sched)
    (old pairs : Nat → List (K × V)) (keys : Nat → List K) (vals : Nat → List V)
    (h0 : s0.Ok n) (h1 : s1.Ok n) (h2 : s2.Ok n)
    (hp : ∀ p, p < n → ∀ kv ∈ pairs p, legal n (hash kv.1) = true)
    (hk : ∀ p, p < n → ∀ k ∈ keys p, legal n (hash k) = true)
    (hne : ∃ p, p < n ∧ pairs p ≠ []) (hreq : ∃ p, p < n ∧ keys p ≠ []) :
    ∃ umap out, addPairs n hash s0 old pairs = some umap ∧
      getValues n hash s1 s2 umap keys vals = some out ∧
      ∀ p, p < n → (out p).1.length = (out p).2.length ∧
        (List.zip (out p).1 (out p).2).Perm (answer ((List.range n).flatMap pairs) (keys p)) := by
  obtain ⟨umap, ha, hum⟩ := addPairs_spec n hash s0 old pairs h0.1 h0.2 hp hne
  obtain ⟨out, hg, hout⟩ := getValues_spec n hash s1 s2 umap keys vals h1.1 h1.2 h2.1 h2.2 hk hreq
  refine ⟨umap, _, ha, hg, ?_⟩
  intro p hpn
  refine ⟨by simp, ?_⟩
  have e : List.zip ((out p).map (fun x => x.1)) ((out p).map (fun x => x.2)) = out p := by
    generalize out p = L
    induction L with
    | nil => rfl
    | cons a L ih => simp only [List.map_cons, List.zip_cons_cons, ih]
  rw [e]
  refine (hout p hpn).trans ?_
  unfold answer
  apply List.Perm.flatMap_left
  intro k hkk
  have hlt : (hash k).toNat < n := hash_toNat_lt (hk p hpn k hkk)
  refine ((hum _ hlt).filter _).trans ?_
  rw [List.filter_filter]
  apply List.Perm.of_eq
  apply List.filter_congr
  intro kv _
  by_cases h : kv.1 = k
  · simp [h]
  · simp [h]

/-- C09a (integer keys).  Whatever the maps held before, after one `addPairs` (with at least one
pair on some process) a `getValues` (with at least one key on some process) succeeds and returns
on every process, as a multiset, exactly the pairs stored under the keys it asked for: keys nobody
stored are dropped, nothing else appears, duplicates are kept.  For every interleaving of the
processes' Global Array operations and every placement of pairs and requests; keys are
non-negative. -/
theorem C09_lookup_exact_partial (n : Nat) (hn : 0 < n) (s0 s1 s2 : Sched)
    (old pairs : Nat → List (Int × V)) (keys : Nat → List Int) (vals : Nat → List V)
    (h0 : s0.Ok n) (h1 : s1.Ok n) (h2 : s2.Ok n)
    (hp : ∀ p, p < n → ∀ kv ∈ pairs p, 0 ≤ kv.1) (hk : ∀ p, p < n → ∀ k ∈ keys p, 0 ≤ k)
    (hne : ∃ p, p < n ∧ pairs p ≠ []) (hreq : ∃ p, p < n ∧ keys p ≠ []) :
    ∃ umap out, addPairs n (hashValue n) s0 old pairs = some umap ∧
      getValues n (hashValue n) s1 s2 umap keys vals = some out ∧
      ∀ p, p < n → (out p).1.length = (out p).2.length ∧
        (List.zip (out p).1 (out p).2).Perm (answer ((List.range n).flatMap pairs) (keys p)) := by
  have hl : ∀ k : Int, 0 ≤ k → legal n (hashValue n k) = true := by
    intro k hk
    have hn' : (0:Int) < n := by exact_mod_cast hn
    rw [legal_iff]; unfold hashValue
    rw [Int.tmod_eq_emod_of_nonneg hk]
    exact ⟨Int.emod_nonneg _ (by omega), Int.emod_lt_of_pos _ hn'⟩
  exact lookup_spec n _ s0 s1 s2 old pairs keys vals h0 h1 h2
    (fun p hpn kv h => hl _ (hp p hpn kv h)) (fun p hpn k h => hl _ (hk p hpn k h)) hne hreq

/-- C09b (pair keys). -/
theorem C09_lookup_exact_pairs_partial (n : Nat) (hn : 0 < n) (s0 s1 s2 : Sched)
    (old pairs : Nat → List ((Int × Int) × V)) (keys : Nat → List (Int × Int))
    (vals : Nat → List V) (h0 : s0.Ok n) (h1 : s1.Ok n) (h2 : s2.Ok n)
    (hp : ∀ p, p < n → ∀ kv ∈ pairs p, 0 ≤ kv.1.1 ∧ 0 ≤ kv.1.2)
    (hk : ∀ p, p < n → ∀ k ∈ keys p, 0 ≤ k.1 ∧ 0 ≤ k.2)
    (hne : ∃ p, p < n ∧ pairs p ≠ []) (hreq : ∃ p, p < n ∧ keys p ≠ []) :
    ∃ umap out, addPairs n (pairHashValue n) s0 old pairs = some umap ∧
      getValues n (pairHashValue n) s1 s2 umap keys vals = some out ∧
      ∀ p, p < n → (out p).1.length = (out p).2.length ∧
        (List.zip (out p).1 (out p).2).Perm (answer ((List.range n).flatMap pairs) (keys p)) := by
  have hl : ∀ k : Int × Int, 0 ≤ k.1 ∧ 0 ≤ k.2 → legal n (pairHashValue n k) = true := by
    intro k hk
    have hn' : (0:Int) < n := by exact_mod_cast hn
    rw [legal_iff]; unfold pairHashValue
    rw [Int.tmod_eq_emod_of_nonneg (by omega)]
    exact ⟨Int.emod_nonneg _ (by omega), Int.emod_lt_of_pos _ hn'⟩
  exact lookup_spec n _ s0 s1 s2 old pairs keys vals h0 h1 h2
    (fun p hpn kv h => hl _ (hp p hpn kv h)) (fun p hpn k h => hl _ (hk p hpn k h)) hne hreq

omit [DecidableEq K] in
/-- C09d. If no process adds anything, the stored pairs stay. -/
theorem C09_empty_add_keeps (n : Nat) (hash : K → Int) (sch : Sched) (h : sch.Ok n)
    (old pairs : Nat → List (K × V)) (he : ∀ p, p < n → pairs p = []) :
    addPairs n hash sch old pairs = some old := by
  unfold addPairs
  have hall : (List.range n).all
      (fun p => (pairs p).all (fun kv => legal n (hash kv.1))) = true := by
    rw [List.all_eq_true]; intro p hp; rw [he p (List.mem_range.mp hp)]; rfl
  rw [if_pos hall]
  simp only
  rw [if_pos]
  rw [total_eq_zero_iff n _ _ h.1]
  intro p d hp _
  rw [he p hp]; simp [packed_eq]

/-- C09c.  If no process asks for anything, `getValues` leaves both vectors as they are. -/
theorem C09_no_request_unchanged (n : Nat) (hash : K → Int) (s1 s2 : Sched) (h : s1.Ok n)
    (umap : Nat → List (K × V)) (keys : Nat → List K) (vals : Nat → List V)
    (he : ∀ p, p < n → keys p = []) :
    getValues n hash s1 s2 umap keys vals = some (fun p => (keys p, vals p)) := by
  unfold getValues
  have hall : (List.range n).all (fun p => (keys p).all (fun k => legal n (hash k))) = true := by
    rw [List.all_eq_true]; intro p hp; rw [he p (List.mem_range.mp hp)]; rfl
  rw [if_pos hall]
  simp only
  rw [if_pos]
  rw [total_eq_zero_iff n _ _ h.1]
  intro p d hp _
  rw [he p hp]; simp [packed_eq]

/-- All pairs of two processes, in one possible order. -/
def sched2 : Sched := ⟨[(1, 0), (0, 0), (0, 1), (1, 1)], [(0, 1), (1, 1), (1, 0), (0, 0)]⟩

theorem sched2_ok : sched2.Ok 2 := by
  have h : ∀ p d : Nat, (p < 2 ∧ d < 2) ↔
      (p = 0 ∧ d = 0) ∨ (p = 0 ∧ d = 1) ∨ (p = 1 ∧ d = 0) ∨ (p = 1 ∧ d = 1) := by
    intro p d; omega
  refine ⟨⟨by decide, ?_⟩, by decide, ?_⟩ <;> intro p d <;> rw [h] <;>
    simp [sched2] <;> omega

/-- A full run on two processes: key 7 was stored twice, key 4 once, key 9 never. -/
example :
    ((addPairs 2 (hashValue 2) sched2 (fun _ => []) (fun p => if p = 0 then [(7, 'a'), (4, 'b')]
        else [(7, 'c')])).bind (fun umap =>
      getValues 2 (hashValue 2) sched2 sched2 umap
        (fun p => if p = 0 then [9, 7] else [4]) (fun _ => []))).map
      (fun out => [out 0, out 1]) = some [([7, 7], ['c', 'a']), ([4], ['b'])] := by decide

/-- The full claim "exactly the values that some process added" fails in two ways.
(1) A second `addPairs` replaces the map: values added earlier are no longer found.  (2) When no
process requests anything, stale `values` are kept although no key was requested. -/
theorem C09_violated :
    (∃ m1 m2 out, addPairs 2 (hashValue 2) sched2 (fun _ => []) (fun p => if p = 0 then [(3, 'a')]
          else []) = some m1 ∧
      addPairs 2 (hashValue 2) sched2 m1 (fun p => if p = 0 then [(5, 'b')] else []) = some m2 ∧
      getValues 2 (hashValue 2) sched2 sched2 m2 (fun p => if p = 0 then [3] else [])
        (fun _ => []) = some out ∧ (out 0).2 = ([] : List Char)) ∧
    (∃ out, getValues 2 (hashValue 2) sched2 sched2 (fun _ => []) (fun _ => [])
        (fun _ => ['x']) = some out ∧ (out 0) = ([], ['x'])) := by
  constructor
  · obtain ⟨m1, h1, -⟩ := addPairs_spec 2 (hashValue 2) sched2 (fun _ => [])
      (fun p => if p = 0 then [(3, 'a')] else []) sched2_ok.1 sched2_ok.2
      (by intro p hp; have : p = 0 ∨ p = 1 := by omega
          rcases this with rfl | rfl <;> simp [legal, hashValue]) ⟨0, by simp⟩
    obtain ⟨m2, out, h2, h3, h4⟩ := C09_lookup_exact_partial 2 (by omega) sched2 sched2 sched2 m1
      (fun p => if p = 0 then [(5, 'b')] else []) (fun p => if p = 0 then [3] else [])
      (fun _ => []) sched2_ok sched2_ok sched2_ok
      (by intro p hp; have : p = 0 ∨ p = 1 := by omega
          rcases this with rfl | rfl <;> simp)
      (by intro p hp; have : p = 0 ∨ p = 1 := by omega
          rcases this with rfl | rfl <;> simp) ⟨0, by simp⟩ ⟨0, by simp⟩
    refine ⟨m1, m2, out, h1, h2, h3, ?_⟩
    have := (h4 0 (by omega)).2.length_eq
    have hl := (h4 0 (by omega)).1
    rw [List.length_zip, hl, Nat.min_self] at this
    apply List.length_eq_zero_iff.mp
    rw [this]; decide
  · exact ⟨_, C09_no_request_unchanged 2 _ _ _ sched2_ok _ _ _ (fun _ _ => rfl), rfl⟩

/-- A negative key makes the array index negative: reported as undefined behaviour. -/
example : addPairs 3 (hashValue 3) sched2 (fun _ => []) (fun _ => [(-1, 'a')]) = none := by
  have h : ((List.range 3).all (fun p => ((fun _ : Nat => [((-1 : Int), 'a')]) p).all
      (fun kv => legal 3 (hashValue 3 kv.1)))) = false := by decide
  unfold addPairs
  rw [if_neg (by rw [h]; simp)]

end GridPACK.IndexHash
