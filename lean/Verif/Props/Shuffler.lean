import Verif.Model.Shuffler
import Verif.Lemmas.Buckets
import Mathlib.Data.List.Induction

/-! Property C08: shuffling delivers every item exactly once, to its destination. -/
namespace GridPACK.Shuffler
open GridPACK.Buckets

variable {α : Type}

/-- The items of a list addressed to process `p`, in order. -/
def addressed (p : Nat) (items : List (α × Int)) : List α :=
  (items.filter (fun it => decide (it.2 = (p : Int)))).map (·.1)

theorem sortOut_spec (nprocs me : Nat) (items : List (α × Int))
    (h : ∀ it ∈ items, 0 ≤ it.2 ∧ it.2 < (nprocs : Int)) :
    ∃ ts, sortOut nprocs me items = some (addressed me items, ts) ∧
      ∀ d, ts d = if d = me then [] else addressed d items := by
  unfold sortOut
  induction items using List.reverseRecOn with
  | nil => exact ⟨fun _ => [], rfl, by intro d; simp [addressed]⟩
  | append_singleton l x ih =>
    obtain ⟨ts, h1, h2⟩ := ih (fun it hit => h it (by simp [hit]))
    have hx := h x (by simp)
    rw [List.foldl_append, h1]
    simp only [List.foldl_cons, List.foldl_nil]
    by_cases hm : x.2 = (me : Int)
    · rw [if_pos hm]
      refine ⟨ts, ?_, ?_⟩
      · simp [addressed, List.filter_append, hm]
      · intro d; rw [h2]
        by_cases hd : d = me
        · simp [hd]
        · have hne : ¬ ((me : Int) = (d : Int)) := by omega
          simp [hd, addressed, List.filter_append, hm, hne]
    · rw [if_neg hm, if_pos hx]
      refine ⟨fun d => if d = x.2.toNat then ts d ++ [x.1] else ts d, ?_, ?_⟩
      · simp [addressed, List.filter_append, hm]
      · intro d
        simp only [h2]
        by_cases hd : d = x.2.toNat
        · have hxd : x.2 = (d : Int) := by omega
          have hdm : ¬ d = me := by omega
          rw [if_pos hd, if_neg hdm, if_neg hdm]
          simp [addressed, List.filter_append, hxd]
        · rw [if_neg hd]
          have hxd : ¬ x.2 = (d : Int) := by omega
          by_cases hdm : d = me
          · simp [hdm]
          · simp [hdm, addressed, List.filter_append, hxd]

theorem tsizes_eq (nprocs src : Nat) (hs : src < nprocs) (tosend : Nat → Nat → List α) (i : Nat) :
    tsizes nprocs src tosend i = (tosend src i).length := by
  unfold tsizes
  have : ∀ n, ((List.range n).map (fun p => if src = p then (tosend p i).length else 0)).sum
      = if src < n then (tosend src i).length else 0 := by
    intro n
    induction n with
    | zero => simp
    | succ n ih =>
      rw [List.range_succ, List.map_append, List.sum_append, ih]
      by_cases h : src = n
      · subst h; simp
      · by_cases h2 : src < n
        · have : src < n + 1 := by omega
          simp [h, h2, this]
        · have : ¬ src < n + 1 := by omega
          simp [h, h2, this]
  rw [this, if_pos hs]

theorem receive_eq (nprocs me : Nat) (tosend : Nat → Nat → List α) (loc : List α) :
    receive nprocs me tosend loc = loc ++ (List.range nprocs).flatMap (fun src => tosend src me) := by
  unfold receive
  have key : ∀ (l : List Nat) (acc : List α), (∀ s ∈ l, s < nprocs) →
      l.foldl (fun loc src =>
        let tmp := if me = src then tosend src me
          else if tsizes nprocs src tosend me > 0 then tosend src me else []
        loc ++ tmp) acc = acc ++ l.flatMap (fun src => tosend src me) := by
    intro l
    induction l with
    | nil => simp
    | cons s l ih =>
      intro acc hl
      rw [List.foldl_cons, ih _ (fun x hx => hl x (by simp [hx]))]
      have hsz := tsizes_eq nprocs s (hl s (by simp)) tosend me
      simp only [List.flatMap_cons]
      by_cases h : me = s
      · simp [h]
      · rw [if_neg h, hsz]
        by_cases h0 : (tosend s me).length > 0
        · rw [if_pos h0]; simp
        · have : tosend s me = [] := List.length_eq_zero_iff.mp (by omega)
          simp [this]
  exact key _ _ (fun s hs => List.mem_range.mp hs)

theorem shuffle_eq (nprocs : Nat) (hn : 2 ≤ nprocs) (inp : Nat → List (α × Int))
    (h : ∀ p, p < nprocs → ∀ it ∈ inp p, 0 ≤ it.2 ∧ it.2 < (nprocs : Int))
    (htot : ((List.range nprocs).map (fun p => (inp p).length)).sum ≠ 0) :
    ∃ out, shuffle nprocs inp = some out ∧ ∀ p, p < nprocs → out p = addressed p (inp p) ++
      (List.range nprocs).flatMap (fun src => if p = src then [] else addressed p (inp src)) := by
  unfold shuffle
  rw [if_neg (by omega), if_neg htot]
  have hall : (List.range nprocs).all (fun p => (sortOut nprocs p (inp p)).isSome) = true := by
    rw [List.all_eq_true]
    intro p hp
    obtain ⟨ts, h1, _⟩ := sortOut_spec nprocs p (inp p) (h p (List.mem_range.mp hp))
    simp [h1]
  rw [if_pos hall]
  refine ⟨_, rfl, ?_⟩
  intro p hp
  show receive _ _ _ _ = _
  rw [receive_eq]
  obtain ⟨ts, h1, _⟩ := sortOut_spec nprocs p (inp p) (h p hp)
  congr 1
  · simp [h1]
  · apply List.flatMap_congr
    intro s hs
    obtain ⟨ts, h1, h2⟩ := sortOut_spec nprocs s (inp s) (h s (List.mem_range.mp hs))
    simp [h1, h2]

theorem own_first_perm (n p : Nat) (hp : p < n) (g : Nat → List α) :
    (g p ++ (List.range n).flatMap (fun s => if p = s then [] else g s)).Perm
      ((List.range n).flatMap g) := by
  induction n with
  | zero => omega
  | succ n ih =>
    rw [List.range_succ, List.flatMap_append, List.flatMap_append]
    by_cases h : p = n
    · subst h
      have e : (List.range p).flatMap (fun s => if p = s then [] else g s)
          = (List.range p).flatMap g := by
        apply List.flatMap_congr
        intro s hs
        have := List.mem_range.mp hs
        rw [if_neg (by omega)]
      rw [e]
      simp only [List.flatMap_cons, List.flatMap_nil, if_true, List.append_nil]
      exact List.perm_append_comm
    · simp only [List.flatMap_cons, List.flatMap_nil, if_neg h, List.append_nil]
      rw [← List.append_assoc]
      exact (ih (by omega)).append_right _

/-- C08a.  When all destinations name existing processes the shuffle succeeds and process `p`
ends up with exactly the items addressed to `p` (as a multiset over all processes), and the items
that came from one source appear in their original relative order. -/
theorem C08_shuffle_delivers (nprocs : Nat) (inp : Nat → List (α × Int))
    (h : ∀ p, p < nprocs → ∀ it ∈ inp p, 0 ≤ it.2 ∧ it.2 < (nprocs : Int)) :
    ∃ out, shuffle nprocs inp = some out ∧ ∀ p, p < nprocs →
      (out p).Perm (addressed p ((List.range nprocs).flatMap inp)) ∧
      ∀ src, src < nprocs → (addressed p (inp src)).Sublist (out p) := by
  have hadd : ∀ p, addressed p ((List.range nprocs).flatMap inp)
      = (List.range nprocs).flatMap (fun s => addressed p (inp s)) := by
    intro p; unfold addressed; rw [List.filter_flatMap, List.map_flatMap]
  by_cases htot : ((List.range nprocs).map (fun p => (inp p).length)).sum = 0
  · have hz : ∀ p, p < nprocs → inp p = [] := by
      intro p hp
      have := sum_zero_mem _ htot _ (List.mem_map.mpr ⟨p, List.mem_range.mpr hp, rfl⟩)
      exact List.length_eq_zero_iff.mp this
    have hsh : shuffle nprocs inp = some (fun p => (inp p).map (·.1)) := by
      unfold shuffle; simp [htot]
    refine ⟨_, hsh, ?_⟩
    intro p hp
    have hfm : (List.range nprocs).flatMap inp = [] := by
      rw [List.flatMap_eq_nil_iff]; intro q hq; exact hz q (List.mem_range.mp hq)
    rw [hfm]
    refine ⟨by simp [hz p hp, addressed], ?_⟩
    intro s hs; simp [hz s hs, addressed]
  · by_cases hn : 2 ≤ nprocs
    · obtain ⟨out, h1, h2⟩ := shuffle_eq nprocs hn inp h htot
      refine ⟨out, h1, ?_⟩
      intro p hp
      rw [h2 p hp, hadd]
      refine ⟨own_first_perm nprocs p hp (fun s => addressed p (inp s)), ?_⟩
      intro s hs
      by_cases hps : p = s
      · subst hps; exact List.sublist_append_left _ _
      · refine List.Sublist.trans ?_ (List.sublist_append_right _ _)
        have := List.sublist_flatten_of_mem (L := (List.range nprocs).map
          (fun src => if p = src then [] else addressed p (inp src)))
          (l := addressed p (inp s))
          (List.mem_map.mpr ⟨s, List.mem_range.mpr hs, by simp [hps]⟩)
        rwa [← List.flatMap_def] at this
    · have hsh : shuffle nprocs inp = some (fun p => (inp p).map (·.1)) := by
        unfold shuffle; rw [if_pos (by omega)]
      refine ⟨_, hsh, ?_⟩
      intro p hp
      have hn1 : nprocs = 1 := by omega
      subst hn1
      have hp0 : p = 0 := by omega
      subst hp0
      have hall : addressed 0 (inp 0) = (inp 0).map (·.1) := by
        unfold addressed
        rw [List.filter_eq_self.mpr]
        intro it hit
        have := h 0 (by omega) it hit
        simp; omega
      rw [hadd]
      refine ⟨by simp [hall], ?_⟩
      intro s hs
      have : s = 0 := by omega
      subst this
      rw [hall]

/-- C08b.  Nothing is lost or duplicated: all items held after the shuffle are a rearrangement of
all items held before. -/
theorem C08_shuffle_conserves (nprocs : Nat) (inp : Nat → List (α × Int))
    (h : ∀ p, p < nprocs → ∀ it ∈ inp p, 0 ≤ it.2 ∧ it.2 < (nprocs : Int)) :
    ∃ out, shuffle nprocs inp = some out ∧
      ((List.range nprocs).flatMap out).Perm
        (((List.range nprocs).flatMap inp).map (·.1)) := by
  obtain ⟨out, h1, h2⟩ := C08_shuffle_delivers nprocs inp h
  refine ⟨out, h1, ?_⟩
  set L := (List.range nprocs).flatMap inp with hL
  have hLb : ∀ it ∈ L, it.2.toNat < nprocs ∧ 0 ≤ it.2 := by
    intro it hit
    obtain ⟨p, hp, hi⟩ := List.mem_flatMap.mp hit
    have := h p (List.mem_range.mp hp) it hi
    omega
  have e1 : ((List.range nprocs).flatMap out).Perm
      ((List.range nprocs).flatMap (fun p => addressed p L)) :=
    List.Perm.flatMap_left _ (fun p hp => (h2 p (List.mem_range.mp hp)).1)
  refine e1.trans ?_
  have e2 : (List.range nprocs).flatMap (fun p => addressed p L)
      = ((List.range nprocs).flatMap (fun p => L.filter (fun x => decide (x.2.toNat = p)))).map
          (·.1) := by
    rw [List.map_flatMap]
    apply List.flatMap_congr
    intro p _
    unfold addressed
    congr 1
    apply List.filter_congr
    intro it hit
    have := (hLb it hit).2
    rw [decide_eq_decide]; omega
  rw [e2]
  exact (flatMap_filter_perm _ nprocs L (fun x hx => (hLb x hx).1)).map _

/-- Three processes; process 1 keeps one item and sends two. -/
example : (shuffle 3 (fun p => if p = 0 then [("a", 1), ("b", 2)]
      else if p = 1 then [("c", 1), ("d", 0), ("e", 0)] else [("f", 1)])).map
        (fun out => (List.range 3).map out) = some [["d", "e"], ["c", "a", "f"], ["b"]] := by
  decide
/-- A destination that is no process is undefined behaviour, which the model reports. -/
example : (shuffle 2 (fun p => if p = 0 then [("a", 5)] else [])).isNone = true := by decide

end GridPACK.Shuffler
