import Verif.Model.HashDistr
import Verif.Lemmas.Exchange

/-! Properties C10 and C11: chunked transfer and delivery of keyed data. -/
namespace GridPACK.HashDistr
open GridPACK.Exchange GridPACK.Buckets

variable {K V : Type} [DecidableEq K]

/-- Assumptions on the truncated double products: they start at 0, are non-decreasing, and the
last one used does not exceed the total.  IEEE multiplication by a fixed non-negative `delta`
rounds monotonically and truncation is monotone, so these hold for the real code as long as
`nprocs < 2^50`. -/
structure BoundOk (n total : Nat) (bound : Nat → Nat) : Prop where
  zero : bound 0 = 0
  mono : ∀ i, i + 1 < n → bound i ≤ bound (i + 1)
  last : bound (n - 1) ≤ total

/-- Exact arithmetic satisfies the assumptions. -/
theorem exactBound_ok (n total : Nat) (hn : 0 < n) : BoundOk n total (exactBound n total) where
  zero := by simp [exactBound]
  mono := by
    intro i _
    exact Nat.div_le_div_right (Nat.mul_le_mul_left _ (by omega))
  last := by
    unfold exactBound
    calc total * (n - 1) / n ≤ total * n / n :=
          Nat.div_le_div_right (Nat.mul_le_mul_left _ (by omega))
      _ = total := Nat.mul_div_cancel _ hn

/-- The positions of chunk `idx`. -/
def positions (n total : Nat) (bound : Nat → Nat) (idx : Nat) : List Nat :=
  List.range' (chunk n total bound idx).1
    ((chunk n total bound idx).2 - (chunk n total bound idx).1)

theorem chunks_prefix (n total : Nat) (bound : Nat → Nat) (h : BoundOk n total bound) :
    ∀ m, m + 1 ≤ n → (List.range m).flatMap (positions n total bound) = List.range (bound m) := by
  intro m
  induction m with
  | zero => intro _; simp [h.zero]
  | succ m ih =>
    intro hm
    rw [List.range_succ, List.flatMap_append, ih (by omega)]
    have hmono := h.mono m (by omega)
    simp only [List.flatMap_cons, List.flatMap_nil, List.append_nil, positions, chunk]
    rw [if_pos (by omega), List.range_eq_range', List.range_eq_range']
    have := List.range'_append_1 (s := 0) (m := bound m) (n := bound (m + 1) - bound m)
    rw [Nat.zero_add] at this
    rw [this]; congr 1; omega

/-- C11a.  For every total and every number of processes the chunks, taken in order, list every
position `0,…,total-1` exactly once. -/
theorem C11_chunks_partition (n total : Nat) (hn : 0 < n) (bound : Nat → Nat)
    (h : BoundOk n total bound) :
    (List.range n).flatMap (positions n total bound) = List.range total := by
  obtain ⟨m, rfl⟩ : ∃ m, n = m + 1 := ⟨n - 1, by omega⟩
  rw [List.range_succ, List.flatMap_append, chunks_prefix (m + 1) total bound h m (by omega)]
  have hl : bound m ≤ total := h.last
  simp only [List.flatMap_cons, List.flatMap_nil, List.append_nil, positions, chunk]
  rw [if_neg (by omega), List.range_eq_range', List.range_eq_range']
  have := List.range'_append_1 (s := 0) (m := bound m) (n := total - bound m)
  rw [Nat.zero_add] at this
  rw [this]; congr 1; omega

/-- C11b.  Every process visits every chunk exactly once. -/
theorem C11_every_chunk_visited_once (n me : Nat) (hn : 0 < n) :
    (visitOrder n me).Perm (List.range n) := by
  unfold visitOrder
  have hnd : ((List.range n).map (fun i => (i + me) % n)).Nodup := by
    refine (List.nodup_map_iff_inj_on List.nodup_range).mpr ?_
    intro a ha b hb hab
    have ha := List.mem_range.mp ha
    have hb := List.mem_range.mp hb
    have h1 := Nat.div_add_mod (a + me) n
    have h2 := Nat.div_add_mod (b + me) n
    rw [hab] at h1
    rcases Nat.lt_trichotomy ((a + me) / n) ((b + me) / n) with h | h | h
    · exfalso
      have : n * ((a + me) / n) + n ≤ n * ((b + me) / n) := by
        rw [← Nat.mul_succ]; exact Nat.mul_le_mul_left n h
      omega
    · rw [h] at h1; omega
    · exfalso
      have : n * ((b + me) / n) + n ≤ n * ((a + me) / n) := by
        rw [← Nat.mul_succ]; exact Nat.mul_le_mul_left n h
      omega
  refine (List.subperm_of_subset hnd ?_).perm_of_length_le (by simp)
  intro x hx
  obtain ⟨i, _, rfl⟩ := List.mem_map.mp hx
  exact List.mem_range.mpr (Nat.mod_lt _ hn)

omit [DecidableEq K] in
theorem globalArray_read (n : Nat) (inp : Nat → List (K × V)) (puts : List Nat)
    (hp : puts.Perm (List.range n)) :
    (List.range (base (fun q => (inp q).length) n)).map (globalArray inp puts)
      = ((List.range n).flatMap inp).map some := by
  set num := fun q => (inp q).length with hnum
  have hnd : puts.Nodup := hp.nodup_iff.mpr List.nodup_range
  have hget : ∀ p, p < n → ∀ k, k < (inp p).length →
      globalArray inp puts (base num p + k) = (inp p)[k]? := by
    intro p hpn k hk
    refine fold_put (fun p => base num p) inp puts hnd (fun _ => none) ?_ p
      (hp.mem_iff.mpr (List.mem_range.mpr hpn)) k hk
    intro x _ y _ hxy _ _
    rcases Nat.lt_or_gt_of_ne hxy with h | h
    · left; exact base_mono num h
    · right; exact base_mono num h
  have hpre : ∀ m, m ≤ n → (List.range (base num m)).map (globalArray inp puts)
      = ((List.range m).flatMap inp).map some := by
    intro m
    induction m with
    | zero => intro _; simp [base]
    | succ m ih =>
      intro hm
      rw [base_succ, List.range_add, List.map_append, ih (by omega), List.range_succ,
        List.flatMap_append, List.map_append]
      congr 1
      simp only [List.flatMap_cons, List.flatMap_nil, List.append_nil, List.map_map]
      apply List.ext_getElem?
      intro k
      by_cases hk : k < (inp m).length
      · simp only [List.getElem?_map]
        have hr : (List.range (num m))[k]? = some k := List.getElem?_range hk
        rw [hr]
        simp only [Option.map_some, Function.comp_apply]
        rw [hget m (by omega) k hk, List.getElem?_eq_getElem hk]; rfl
      · rw [List.getElem?_eq_none, List.getElem?_eq_none]
        · simp; omega
        · simp [hnum]; omega
  exact hpre n (Nat.le_refl n)

theorem allSome_of_map {α β : Type} (l : List β) (f : β → Option α) (g : β → α)
    (h : ∀ x ∈ l, f x = some (g x)) : allSome (l.map f) = some (l.map g) := by
  induction l with
  | nil => rfl
  | cons a l ih =>
    simp only [List.map_cons]
    rw [h a (by simp)]
    simp [allSome, ih (fun x hx => h x (by simp [hx]))]

omit [DecidableEq K] in
theorem base_eq_length (n : Nat) (inp : Nat → List (K × V)) :
    base (fun q => (inp q).length) n = ((List.range n).flatMap inp).length := by
  induction n with
  | zero => rfl
  | succ n ih => rw [base_succ, ih, List.range_succ]; simp

/-- C10.  Whatever pairs (key, value) are given on whatever processes, and in whatever order the
processes write to the shared array, process `me` obtains for every pair and every local bus or
branch (owned or ghost) whose original index equals the key exactly one entry
(local index, value), and nothing else. -/
theorem C10_distribute_exact (n : Nat) (hn : 0 < n) (bound : Nat → Nat)
    (inp : Nat → List (K × V)) (puts : List Nat) (hp : puts.Perm (List.range n))
    (hb : BoundOk n ((List.range n).flatMap inp).length bound) (orig : List K) (me : Nat) :
    ∃ out, distribute n bound inp puts orig me = some out ∧
      out.Perm (((List.range n).flatMap inp).flatMap (fun kv =>
        ((List.range orig.length).filter (fun i => decide (orig[i]? = some kv.1))).map
          (fun i => (i, kv.2)))) := by
  unfold distribute
  simp only
  have hlen := base_eq_length n inp
  by_cases h0 : base (fun q => (inp q).length) n = 0
  · rw [if_pos h0]
    refine ⟨[], rfl, ?_⟩
    have : (List.range n).flatMap inp = [] := List.length_eq_zero_iff.mp (by omega)
    rw [this]; simp
  · rw [if_neg h0]
    rw [← hlen] at hb
    set total := base (fun q => (inp q).length) n with htot
    set L := (List.range n).flatMap inp with hL
    have hread := globalArray_read n inp puts hp
    rw [← htot, ← hL] at hread
    have hLne : L ≠ [] := by intro h; rw [h] at hlen; simp at hlen; omega
    obtain ⟨dflt, hdf⟩ := List.exists_mem_of_ne_nil L hLne
    have hg : ∀ i, i < total → globalArray inp puts i = some (L.getD i dflt) := by
      intro i hi
      have h1 : ((List.range total).map (globalArray inp puts))[i]? = (L.map some)[i]? := by
        rw [hread]
      rw [List.getElem?_map, List.getElem?_range hi, List.getElem?_map,
        List.getElem?_eq_getElem (by omega)] at h1
      simp only [Option.map_some, Option.some.injEq] at h1
      rw [h1, List.getD_eq_getElem?_getD, List.getElem?_eq_getElem (by omega)]; rfl
    have hlt : ∀ idx, idx < n → ∀ i ∈ positions n total bound idx, i < total := by
      intro idx hidx i hi
      have : i ∈ (List.range n).flatMap (positions n total bound) :=
        List.mem_flatMap.mpr ⟨idx, List.mem_range.mpr hidx, hi⟩
      rw [C11_chunks_partition n total hn bound hb] at this
      exact List.mem_range.mp this
    set deliver := fun kv : K × V => (localMatches orig kv.1).map (fun i => (i, kv.2)) with hdel
    have hfold : ∀ (vs : List Nat) (acc : List (Nat × V)), (∀ v ∈ vs, v < n) →
        vs.foldl (visit n total bound (globalArray inp puts) orig) (some acc)
        = some (acc ++ vs.flatMap (fun idx =>
            ((positions n total bound idx).map (fun i => L.getD i dflt)).flatMap deliver)) := by
      intro vs
      induction vs with
      | nil => intro acc _; simp
      | cons v vs ih =>
        intro acc hv
        rw [List.foldl_cons]
        have : allSome ((List.range' (chunk n total bound v).1
              ((chunk n total bound v).2 - (chunk n total bound v).1)).map
                (globalArray inp puts))
            = some ((positions n total bound v).map (fun i => L.getD i dflt)) := by
          apply allSome_of_map
          intro i hi
          exact hg i (hlt v (hv v (by simp)) i hi)
        have hv1 : visit n total bound (globalArray inp puts) orig (some acc) v
            = some (acc ++ ((positions n total bound v).map (fun i => L.getD i dflt)).flatMap
                deliver) := by
          unfold visit; rw [this]
        rw [hv1, ih _ (fun x hx => hv x (by simp [hx]))]
        simp
    have hvo := C11_every_chunk_visited_once n me hn
    rw [hfold _ [] (fun v hv => List.mem_range.mp (hvo.mem_iff.mp hv))]
    refine ⟨_, rfl, ?_⟩
    rw [List.nil_append]
    refine (hvo.flatMap_right _).trans ?_
    have e : (List.range n).flatMap (fun idx =>
            ((positions n total bound idx).map (fun i => L.getD i dflt)).flatMap deliver)
        = L.flatMap deliver := by
      rw [← List.flatMap_assoc]
      congr 1
      rw [← List.map_flatMap, C11_chunks_partition n total hn bound hb]
      apply List.ext_getElem?
      intro i
      by_cases hi : i < total
      · rw [List.getElem?_map, List.getElem?_range hi, List.getElem?_eq_getElem (by omega)]
        simp only [Option.map_some, Option.some.injEq]
        rw [List.getD_eq_getElem?_getD, List.getElem?_eq_getElem (by omega)]; rfl
      · rw [List.getElem?_eq_none, List.getElem?_eq_none]
        · omega
        · simp; omega
    rw [e]
    exact List.Perm.refl _

/-- Three processes, five pairs; process 1 holds bus 7 twice (owned and ghost copy). -/
example : distribute 3 (exactBound 3 5)
    (fun p => if p = 0 then [(7, 'a'), (2, 'b')] else if p = 2 then [(9, 'c'), (7, 'd'), (3, 'e')]
      else []) [2, 0, 1] [7, 3, 7] 1 = some [(0, 'd'), (2, 'd'), (1, 'e'), (0, 'a'), (2, 'a')] := by
  decide
example : (List.range 3).map (chunk 3 5 (exactBound 3 5)) = [(0, 1), (1, 3), (3, 5)] := by decide
/-- More processes than data: some chunks are empty. -/
example : (List.range 4).map (chunk 4 2 (exactBound 4 2)) = [(0, 0), (0, 1), (1, 1), (1, 2)] := by
  decide

end GridPACK.HashDistr
