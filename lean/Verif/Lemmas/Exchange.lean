import Verif.Model.Exchange
import Verif.Lemmas.Buckets
import Mathlib.Data.List.Induction
import Mathlib.Data.List.Nodup

/-! Correctness of the exchange idiom, for every interleaving. -/
namespace GridPACK.Exchange
open GridPACK.Buckets

/-! ### Linked list -/

theorem walk_congr (l l' : Nat → Option Nat) (f : Nat) (s : Option Nat)
    (h : ∀ j ∈ walk l f s, l j = l' j) : walk l f s = walk l' f s := by
  induction f generalizing s with
  | zero => cases s <;> rfl
  | succ f ih =>
    cases s with
    | none => rfl
    | some j =>
      simp only [walk]
      have hj := h j (by simp [walk])
      rw [← hj, ih _ (fun k hk => h k (by simp [walk, hk]))]

/-- Positions `< n` of items with destination `d`, in increasing order. -/
def posOf (dests : List Nat) (d : Nat) : List Nat :=
  (List.range dests.length).filter (fun i => decide (dests[i]? = some d))

theorem posOf_append (l : List Nat) (x d : Nat) :
    posOf (l ++ [x]) d = posOf l d ++ (if x = d then [l.length] else []) := by
  unfold posOf
  rw [List.length_append, List.length_singleton, List.range_succ, List.filter_append]
  congr 1
  · apply List.filter_congr
    intro i hi
    have := List.mem_range.mp hi
    rw [List.getElem?_append_left this]
  · by_cases h : x = d <;> simp [h]

theorem build_spec (dests : List Nat) :
    (Links.build dests).len = dests.length ∧
    (∀ d, (Links.build dests).ndest d = dests.count d) ∧
    ∀ d f, dests.length ≤ f →
      walk (Links.build dests).ldest f ((Links.build dests).ltop d) = (posOf dests d).reverse := by
  induction dests using List.reverseRecOn with
  | nil => exact ⟨rfl, fun _ => rfl, fun d f _ => by cases f <;> rfl⟩
  | append_singleton l x ih =>
    obtain ⟨h1, h2, h3⟩ := ih
    have hb : Links.build (l ++ [x]) = (Links.build l).add x := by
      unfold Links.build; rw [List.foldl_append]; rfl
    rw [hb]
    refine ⟨by simp [Links.add, h1], ?_, ?_⟩
    · intro d
      simp only [Links.add, h2, List.count_append, List.count_singleton]
      by_cases hd : d = x
      · subst hd; simp
      · have : ¬ x = d := fun h => hd h.symm
        simp [hd, this]
    · intro d f hf
      rw [List.length_append, List.length_singleton] at hf
      have hcongr : ∀ d' f', l.length ≤ f' →
          walk ((Links.build l).add x).ldest f' ((Links.build l).ltop d')
            = (posOf l d').reverse := by
        intro d' f' hf'
        rw [← h3 d' f' hf']
        symm
        apply walk_congr
        intro j hj
        rw [h3 d' f' hf', List.mem_reverse] at hj
        have hjl : j < l.length := List.mem_range.mp (List.mem_filter.mp hj).1
        show _ = if j = (Links.build l).len then _ else _
        rw [h1, if_neg (by omega)]
      rw [posOf_append]
      by_cases hd : x = d
      · subst hd
        obtain ⟨f', rfl⟩ : ∃ f', f = f' + 1 := ⟨f - 1, by omega⟩
        have ht : ((Links.build l).add x).ltop x = some l.length := by simp [Links.add, h1]
        have hn : ((Links.build l).add x).ldest l.length = (Links.build l).ltop x := by
          simp [Links.add, h1]
        rw [ht]
        simp only [walk, hn, if_true, List.reverse_append, List.reverse_singleton]
        rw [hcongr x f' (by omega)]; rfl
      · have ht : ((Links.build l).add x).ltop d = (Links.build l).ltop d := by
          have : ¬ d = x := fun h => hd h.symm
          simp [Links.add, this]
        rw [ht, hcongr d f (by omega)]
        simp [hd]

theorem packed_eq {α : Type} (dest : α → Nat) (items : List α) (d : Nat) :
    packed dest items d = (items.filter (fun x => decide (dest x = d))).reverse := by
  unfold packed
  have h := (build_spec (items.map dest)).2.2 d items.length (by simp)
  simp only
  rw [h, List.filterMap_reverse]
  congr 1
  unfold posOf
  rw [List.length_map]
  clear h
  induction items using List.reverseRecOn with
  | nil => simp
  | append_singleton l x ih =>
    rw [List.length_append, List.length_singleton, List.range_succ, List.filter_append,
      List.filterMap_append, List.filter_append]
    congr 1
    · rw [← ih]
      have e1 : (List.range l.length).filter
            (fun i => decide (((l ++ [x]).map dest)[i]? = some d))
          = (List.range l.length).filter (fun i => decide ((l.map dest)[i]? = some d)) := by
        apply List.filter_congr
        intro i hi
        have hi := List.mem_range.mp hi
        rw [List.map_append, List.getElem?_append_left (by simpa using hi)]
      rw [e1]
      apply List.filterMap_congr
      intro i hi
      have hi := List.mem_range.mp (List.mem_filter.mp hi).1
      rw [List.getElem?_append_left hi]
    · by_cases h : dest x = d
      · simp [h]
      · simp [h]

/-! ### Reservations -/

section
variable (nd : Nat → Nat → Nat)

/-- Total reserved at `d` by the entries of `l`. -/
def cnt (l : List (Nat × Nat)) (d : Nat) : Nat :=
  ((l.filter (fun pd => decide (pd.2 = d))).map (fun pd => nd pd.1 pd.2)).sum

theorem cnt_append (l l' : List (Nat × Nat)) (d : Nat) :
    cnt nd (l ++ l') d = cnt nd l d + cnt nd l' d := by
  simp [cnt, List.filter_append]

theorem cnt_cons (x : Nat × Nat) (l : List (Nat × Nat)) (d : Nat) :
    cnt nd (x :: l) d = (if x.2 = d then nd x.1 x.2 else 0) + cnt nd l d := by
  by_cases h : x.2 = d <;> simp [cnt, h]

theorem fold_counter (l : List (Nat × Nat)) (s : Off) (d : Nat) :
    (l.foldl (readInc nd) s).counter d = s.counter d + cnt nd l d := by
  induction l generalizing s with
  | nil => simp [cnt]
  | cons x l ih =>
    rw [List.foldl_cons, ih, cnt_cons]
    unfold readInc
    by_cases h : nd x.1 x.2 > 0
    · rw [if_pos h]
      by_cases hd : d = x.2
      · subst hd; simp; omega
      · have : ¬ x.2 = d := fun h => hd h.symm
        simp [hd, this]
    · rw [if_neg h]
      have h0 : nd x.1 x.2 = 0 := by omega
      simp [h0]

theorem fold_off_ne (l : List (Nat × Nat)) (s : Off) (p d : Nat) (h : (p, d) ∉ l) :
    (l.foldl (readInc nd) s).off p d = s.off p d := by
  induction l generalizing s with
  | nil => rfl
  | cons x l ih =>
    rw [List.mem_cons, not_or] at h
    rw [List.foldl_cons, ih _ h.2]
    have hne : ¬ (p = x.1 ∧ d = x.2) := fun e => h.1 (Prod.ext e.1 e.2)
    unfold readInc
    by_cases hn : nd x.1 x.2 > 0
    · rw [if_pos hn]; simp only; rw [if_neg hne]
    · rw [if_neg hn]; simp only; rw [if_neg hne]

theorem offsets_off (l1 l2 : List (Nat × Nat)) (p d : Nat)
    (hnd : (l1 ++ (p, d) :: l2).Nodup) (hpos : 0 < nd p d) :
    (offsets nd (l1 ++ (p, d) :: l2)).off p d = cnt nd l1 d := by
  unfold offsets
  rw [List.foldl_append, List.foldl_cons]
  have hnot : (p, d) ∉ l2 := by
    rw [List.nodup_append] at hnd
    exact (List.nodup_cons.mp hnd.2.1).1
  rw [fold_off_ne nd _ _ _ _ hnot]
  have hstep : ∀ s : Off, (readInc nd s (p, d)).off p d = s.counter d := by
    intro s; unfold readInc; simp [hpos]
  rw [hstep, fold_counter]; simp

theorem offsets_counter (l : List (Nat × Nat)) (d : Nat) :
    (offsets nd l).counter d = cnt nd l d := by
  unfold offsets; rw [fold_counter]; simp

theorem base_succ (num : Nat → Nat) (d : Nat) : base num (d + 1) = base num d + num d := by
  simp [base, List.range_succ]

theorem base_mono (num : Nat → Nat) {d e : Nat} (h : d < e) : base num d + num d ≤ base num e := by
  induction e with
  | zero => omega
  | succ e ih =>
    rw [base_succ]
    by_cases hd : d = e
    · subst hd; omega
    · have := ih (by omega); omega

/-- Reserved intervals of two different (process, destination) pairs do not overlap. -/
theorem disjoint_intervals (sched : List (Nat × Nat)) (hnd : sched.Nodup)
    (p d q e : Nat) (h1 : (p, d) ∈ sched) (h2 : (q, e) ∈ sched) (hne : (p, d) ≠ (q, e))
    (hp : 0 < nd p d) (hq : 0 < nd q e) :
    let o := offsets nd sched
    base o.counter d + o.off p d + nd p d ≤ base o.counter e + o.off q e ∨
    base o.counter e + o.off q e + nd q e ≤ base o.counter d + o.off p d := by
  intro o
  have within : ∀ p d, (p, d) ∈ sched → 0 < nd p d → o.off p d + nd p d ≤ o.counter d := by
    intro p d h hp
    obtain ⟨l1, l2, rfl⟩ := List.append_of_mem h
    have hoff : o.off p d = cnt nd l1 d := offsets_off nd l1 l2 p d hnd hp
    have hcnt : o.counter d = cnt nd (l1 ++ (p, d) :: l2) d := offsets_counter nd _ d
    rw [hoff, hcnt, cnt_append, cnt_cons]; simp
  have w1 := within p d h1 hp
  have w2 := within q e h2 hq
  rcases Nat.lt_trichotomy d e with h | h | h
  · left; have := base_mono o.counter h; omega
  · subst h
    obtain ⟨l1, l2, hs⟩ := List.append_of_mem h1
    have hoff : o.off p d = cnt nd l1 d := by
      show (offsets nd sched).off p d = _
      subst hs; exact offsets_off nd l1 l2 p d hnd hp
    have hmem : (q, d) ∈ l1 ∨ (q, d) ∈ l2 := by
      rw [hs, List.mem_append, List.mem_cons] at h2
      rcases h2 with h | h | h
      · exact .inl h
      · exact absurd h.symm hne
      · exact .inr h
    rcases hmem with hm | hm
    · right
      obtain ⟨a, b, rfl⟩ := List.append_of_mem hm
      have hoff2 : o.off q d = cnt nd a d := by
        show (offsets nd sched).off q d = _
        have : sched = a ++ (q, d) :: (b ++ (p, d) :: l2) := by rw [hs]; simp
        subst this; exact offsets_off nd a _ q d hnd hq
      rw [hoff, hoff2, cnt_append, cnt_cons]; simp; omega
    · left
      obtain ⟨a, b, rfl⟩ := List.append_of_mem hm
      have hoff2 : o.off q d = cnt nd (l1 ++ (p, d) :: a) d := by
        show (offsets nd sched).off q d = _
        have : sched = (l1 ++ (p, d) :: a) ++ (q, d) :: b := by rw [hs]; simp
        subst this; exact offsets_off nd _ b q d hnd hq
      rw [hoff, hoff2, cnt_append, cnt_cons]; simp; omega
  · right; have := base_mono o.counter h; omega

end

/-! ### Memory -/

theorem put_get {α : Type} (mem : Nat → Option α) (lo : Nat) (xs : List α) (k : Nat)
    (hk : k < xs.length) : put mem lo xs (lo + k) = xs[k]? := by
  unfold put
  rw [if_pos (by omega)]; congr 1; omega

theorem put_other {α : Type} (mem : Nat → Option α) (lo : Nat) (xs : List α) (i : Nat)
    (h : i < lo ∨ lo + xs.length ≤ i) : put mem lo xs i = mem i := by
  unfold put
  rw [if_neg (by omega)]

theorem allSome_map_some {α : Type} (l : List α) : allSome (l.map some) = some l := by
  induction l with
  | nil => rfl
  | cons a l ih => simp [allSome, ih]

theorem fold_put {α ι : Type} (lo : ι → Nat) (buf : ι → List α)
    (puts : List ι) (hnd : puts.Nodup) (mem0 : Nat → Option α)
    (hdis : ∀ x ∈ puts, ∀ y ∈ puts, x ≠ y → 0 < (buf x).length → 0 < (buf y).length →
      lo x + (buf x).length ≤ lo y ∨ lo y + (buf y).length ≤ lo x)
    (x : ι) (hx : x ∈ puts) (k : Nat) (hk : k < (buf x).length) :
    (puts.foldl (fun mem pd => if (buf pd).length > 0 then put mem (lo pd) (buf pd) else mem) mem0)
      (lo x + k) = (buf x)[k]? := by
  induction puts using List.reverseRecOn with
  | nil => simp at hx
  | append_singleton l y ih =>
    rw [List.foldl_append, List.foldl_cons, List.foldl_nil]
    rw [List.nodup_append] at hnd
    by_cases hxy : x = y
    · subst hxy
      rw [if_pos (by omega)]
      exact put_get _ _ _ _ hk
    · have hxl : x ∈ l := by
        rcases List.mem_append.mp hx with h | h
        · exact h
        · exact absurd (List.mem_singleton.mp h) hxy
      have hrec := ih hnd.1 (fun a ha b hb => hdis a (by simp [ha]) b (by simp [hb])) hxl
      by_cases hy : (buf y).length > 0
      · rw [if_pos hy, put_other]
        · exact hrec
        · have := hdis x hx y (by simp) hxy (by omega) hy
          omega
      · rw [if_neg hy]; exact hrec

/-- Every (process, destination) pair exactly once, in some order. -/
def Complete (n : Nat) (sched : List (Nat × Nat)) : Prop :=
  sched.Nodup ∧ ∀ p d, (p, d) ∈ sched ↔ p < n ∧ d < n

theorem filter_complete_perm (n d : Nat) (hd : d < n) (sched : List (Nat × Nat))
    (hc : Complete n sched) :
    (sched.filter (fun pd => decide (pd.2 = d))).Perm ((List.range n).map (fun p => (p, d))) := by
  rw [List.perm_ext_iff_of_nodup (hc.1.filter _)]
  · rintro ⟨a, b⟩
    simp only [List.mem_filter, decide_eq_true_eq, List.mem_map, List.mem_range, Prod.mk.injEq,
      hc.2]
    constructor
    · rintro ⟨⟨h1, h2⟩, h3⟩; exact ⟨a, h1, rfl, h3.symm⟩
    · rintro ⟨p, h1, h2, h3⟩; subst h2 h3; exact ⟨⟨h1, hd⟩, rfl⟩
  · refine List.Nodup.map (fun a b h => ?_) List.nodup_range
    exact (Prod.mk.injEq _ _ _ _ ▸ h).1

/-- The exchange never reads uninitialised memory, and every destination receives exactly the
items sent to it, for every interleaving of reservations and every interleaving of writes. -/
theorem exchange_spec {α : Type} (n : Nat) (send : Nat → Nat → List α)
    (sched puts : List (Nat × Nat)) (hs : Complete n sched) (hp : Complete n puts) :
    ∃ out, exchange n send sched puts = some out ∧
      ∀ d, d < n → (out d).Perm ((List.range n).flatMap (fun p => send p d)) := by
  have hmain : ∀ d, d < n →
      allSome ((List.range ((offsets (fun p d => (send p d).length) sched).counter d)).map
        (fun i => (puts.foldl (fun mem pd =>
          if (send pd.1 pd.2).length > 0 then
            put mem (base (offsets (fun p d => (send p d).length) sched).counter pd.2
              + (offsets (fun p d => (send p d).length) sched).off pd.1 pd.2) (send pd.1 pd.2)
          else mem) (fun _ => none))
          (base (offsets (fun p d => (send p d).length) sched).counter d + i)))
      = some ((sched.filter (fun pd => decide (pd.2 = d))).flatMap
          (fun pd => send pd.1 pd.2)) := by
    intro d hd
    set nd := fun p d => (send p d).length with hnd
    set o := offsets nd sched with ho
    set mem := puts.foldl (fun mem pd =>
          if (send pd.1 pd.2).length > 0 then
            put mem (base o.counter pd.2 + o.off pd.1 pd.2) (send pd.1 pd.2)
          else mem) (fun _ => none) with hmem
    have hget : ∀ p, (p, d) ∈ sched → ∀ k, k < (send p d).length →
        mem (base o.counter d + o.off p d + k) = (send p d)[k]? := by
      intro p hpd k hk
      have hpp : (p, d) ∈ puts := (hp.2 p d).mpr ((hs.2 p d).mp hpd)
      refine fold_put (fun pd => base o.counter pd.2 + o.off pd.1 pd.2)
        (fun pd => send pd.1 pd.2) puts hp.1 (fun _ => none) ?_ (p, d) hpp k hk
      rintro ⟨p1, d1⟩ h1 ⟨p2, d2⟩ h2 hne l1 l2
      have m1 : (p1, d1) ∈ sched := (hs.2 _ _).mpr ((hp.2 _ _).mp h1)
      have m2 : (p2, d2) ∈ sched := (hs.2 _ _).mpr ((hp.2 _ _).mp h2)
      exact disjoint_intervals nd sched hs.1 p1 d1 p2 d2 m1 m2 hne l1 l2
    have hpre : ∀ l1 l2, sched = l1 ++ l2 →
        (List.range (cnt nd l1 d)).map (fun i => mem (base o.counter d + i))
        = ((l1.filter (fun pd => decide (pd.2 = d))).flatMap
            (fun pd => send pd.1 pd.2)).map some := by
      intro l1
      induction l1 using List.reverseRecOn with
      | nil => intro l2 _; simp [cnt]
      | append_singleton l x ih =>
        intro l2 hl
        have hl' : sched = l ++ x :: l2 := by rw [hl]; simp
        have ih' := ih (x :: l2) hl'
        rw [cnt_append, List.filter_append, List.flatMap_append, List.map_append, ← ih',
          List.range_add, List.map_append]
        congr 1
        obtain ⟨p, e⟩ := x
        by_cases he : e = d
        · subst he
          have hmem' : (p, e) ∈ sched := by rw [hl']; simp
          have hc1 : cnt nd [(p, e)] e = (send p e).length := by simp [cnt, hnd]
          rw [hc1]
          simp only [decide_true, List.filter_cons_of_pos, List.filter_nil, List.flatMap_cons,
            List.flatMap_nil, List.append_nil, List.map_map]
          apply List.ext_getElem?
          intro k
          by_cases hk : k < (send p e).length
          · have hoff : o.off p e = cnt nd l e := by
              rw [ho, hl']; rw [hl'] at hs
              exact offsets_off nd l l2 p e hs.1 (by show 0 < (send p e).length; omega)
            have := hget p hmem' k hk
            rw [hoff] at this
            simp only [List.getElem?_map, List.getElem?_range hk, Option.map_some,
              Function.comp_apply]
            rw [← Nat.add_assoc, this, List.getElem?_eq_getElem hk]
            rfl
          · rw [List.getElem?_eq_none (by simp; omega), List.getElem?_eq_none (by simp; omega)]
        · simp [cnt, he]
    have := hpre sched [] (by simp)
    rw [ho, offsets_counter] 
    rw [this, allSome_map_some]
  unfold exchange
  have hall : (List.range n).all (fun d => (allSome
      ((List.range ((offsets (fun p d => (send p d).length) sched).counter d)).map
        (fun i => (puts.foldl (fun mem pd =>
          if (send pd.1 pd.2).length > 0 then
            put mem (base (offsets (fun p d => (send p d).length) sched).counter pd.2
              + (offsets (fun p d => (send p d).length) sched).off pd.1 pd.2) (send pd.1 pd.2)
          else mem) (fun _ => none))
          (base (offsets (fun p d => (send p d).length) sched).counter d + i)))).isSome) = true := by
    rw [List.all_eq_true]
    intro d hd
    rw [hmain d (List.mem_range.mp hd)]; rfl
  simp only
  rw [if_pos hall]
  refine ⟨_, rfl, ?_⟩
  intro d hd
  rw [hmain d hd]
  simp only [Option.getD_some]
  refine ((filter_complete_perm n d hd sched hs).flatMap_right _).trans ?_
  rw [List.flatMap_map]

end GridPACK.Exchange
