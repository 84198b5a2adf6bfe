import Verif.Model.Export
import Mathlib.Data.List.Sort
import Mathlib.Data.List.Perm.Subperm
import Mathlib.Tactic.Ring

/-! Auxiliary facts for writing blocks of texts. -/
namespace GridPACK.Export

variable {α β : Type}

theorem pieces_flatten (dist : List Nat) (l : List β) (h : dist.sum = l.length) :
    (pieces dist l).flatten = l := by
  induction dist generalizing l with
  | nil =>
    simp at h
    have : l = [] := List.eq_nil_of_length_eq_zero h.symm
    simp [pieces, this]
  | cons n ns ih =>
    simp only [List.sum_cons] at h
    rw [pieces, List.flatten_cons, ih (l.drop n) (by rw [List.length_drop]; omega)]
    exact List.take_append_drop n l

theorem localOffsets_shift (s k : Nat) (cs : List Nat) :
    (localOffsets s cs).map (fun o => o + k) = localOffsets (s + k) cs := by
  induction cs generalizing s with
  | nil => rfl
  | cons c cs ih =>
    simp only [localOffsets, List.map_cons, ih]
    congr 2
    omega

theorem localOffsets_append (s : Nat) (xs ys : List Nat) :
    localOffsets s (xs ++ ys) = localOffsets s xs ++ localOffsets (s + xs.sum) ys := by
  induction xs generalizing s with
  | nil => simp [localOffsets]
  | cons x xs ih =>
    simp only [List.cons_append, localOffsets, ih, List.sum_cons]
    congr 3
    omega

theorem globalOffsets_eq (s : Nat) (bs : List (List Nat)) :
    globalOffsets s bs = localOffsets s bs.flatten := by
  induction bs generalizing s with
  | nil => rfl
  | cons b bs ih =>
    rw [globalOffsets, localOffsets_shift, ih, List.flatten_cons, localOffsets_append, Nat.zero_add]

theorem localOffsets_get (s : Nat) (cs : List Nat) (g : Nat) (h : g < cs.length) :
    (localOffsets s cs)[g]? = some (s + (cs.take g).sum) := by
  induction cs generalizing s g with
  | nil => simp at h
  | cons c cs ih =>
    cases g with
    | zero => simp [localOffsets]
    | succ g =>
      simp only [localOffsets, List.getElem?_cons_succ, List.take_succ_cons, List.sum_cons]
      rw [ih _ _ (by simpa using h)]
      congr 1
      omega

/-- Number of texts before those of index `g`. -/
def before (all : List (TextLine α)) (g : Nat) : Nat := all.countP (fun t => t.glob < g)

/-- Number of texts of index `g`. -/
def here (all : List (TextLine α)) (g : Nat) : Nat := all.countP (fun t => t.glob = g)

theorem before_succ (all : List (TextLine α)) (g : Nat) :
    before all (g + 1) = before all g + here all g := by
  unfold before here
  induction all with
  | nil => rfl
  | cons t ts ih =>
    simp only [List.countP_cons, ih, decide_eq_true_eq]
    split_ifs <;> omega

theorem before_mono (all : List (TextLine α)) {g h : Nat} (hgh : g ≤ h) : before all g ≤ before all h := by
  induction hgh with
  | refl => exact le_refl _
  | step _ ih => rw [Nat.succ_eq_add_one, before_succ]; omega

theorem counts_take (all : List (TextLine α)) (n g : Nat) (h : g ≤ n) :
    ((counts n all).take g).sum = before all g := by
  induction g with
  | zero => simp [before]
  | succ g ih =>
    have hl : g < (counts n all).length := by simp [counts]; omega
    rw [List.take_add_one, List.sum_append, ih (by omega), before_succ]
    congr 1
    simp [counts, here, List.getElem?_range (show g < n by omega)]

theorem localMax_ge (ts : List (TextLine α)) : ∀ m, m ≤ ts.foldl (fun m t =>
    if t.glob + 1 > m then t.glob + 1 else m) m ∧ ∀ t ∈ ts, t.glob < ts.foldl (fun m t =>
    if t.glob + 1 > m then t.glob + 1 else m) m := by
  induction ts with
  | nil => intro m; simp
  | cons x xs ih =>
    intro m
    obtain ⟨h1, h2⟩ := ih (if x.glob + 1 > m then x.glob + 1 else m)
    simp only [List.foldl_cons]
    have h3 : m ≤ (if x.glob + 1 > m then x.glob + 1 else m) := by split_ifs <;> omega
    have h4 : x.glob < (if x.glob + 1 > m then x.glob + 1 else m) := by split_ifs <;> omega
    refine ⟨le_trans h3 h1, ?_⟩
    intro t ht
    rcases List.mem_cons.mp ht with rfl | ht
    · exact lt_of_lt_of_le h4 h1
    · exact h2 t ht

theorem gmax_ge (procs : List (List (TextLine α))) : ∀ m, m ≤ procs.foldl (fun m ts => max m (localMax ts)) m ∧
    ∀ ts ∈ procs, localMax ts ≤ procs.foldl (fun m ts => max m (localMax ts)) m := by
  induction procs with
  | nil => intro m; simp
  | cons x xs ih =>
    intro m
    obtain ⟨h1, h2⟩ := ih (max m (localMax x))
    simp only [List.foldl_cons]
    refine ⟨le_trans (le_max_left _ _) h1, ?_⟩
    intro t ht
    rcases List.mem_cons.mp ht with rfl | ht
    · exact le_trans (le_max_right _ _) h1
    · exact h2 t ht

theorem glob_lt_gmax (procs : List (List (TextLine α))) (t : TextLine α) (h : t ∈ procs.flatten) :
    t.glob < gmax procs := by
  obtain ⟨ts, hts, ht⟩ := List.mem_flatten.mp h
  exact lt_of_lt_of_le ((localMax_ge ts 0).2 t ht) ((gmax_ge procs 0).2 ts hts)

theorem before_gmax (procs : List (List (TextLine α))) :
    before procs.flatten (gmax procs) = procs.flatten.length := by
  unfold before
  rw [List.countP_eq_length]
  intro t ht
  simpa using glob_lt_gmax procs t ht

/-- Where a text goes. -/
def pos (all : List (TextLine α)) (t : TextLine α) : Nat := before all t.glob + t.dev

theorem sum_sum (bs : List (List Nat)) : (bs.map List.sum).sum = bs.flatten.sum := by
  induction bs with
  | nil => rfl
  | cons b bs ih => rw [List.map_cons, List.sum_cons, List.flatten_cons, List.sum_append, ih]

/-- `writeDataBlock` puts every text at `pos`, for every distribution. -/
theorem writeDataBlock_eq (dist dist' : List Nat) (order : List (TextLine α))
    (procs : List (List (TextLine α))) (h1 : dist.sum = gmax procs)
    (h2 : dist'.sum = procs.flatten.length) (ho : order.Perm procs.flatten) :
    writeDataBlock dist dist' order procs =
      scatter (List.replicate procs.flatten.length none)
        (order.map (fun t => (pos procs.flatten t, t.text))) := by
  have scatter_length : ∀ (ws : List (Nat × α)) (a a' : List (Option α)), scatter a ws = some a' →
      a'.length = a.length := by
    intro ws
    induction ws with
    | nil => intro a a' h; simp only [scatter, Option.some.injEq] at h; rw [← h]
    | cons w ws ih =>
      intro a a' h
      obtain ⟨p, t⟩ := w
      simp only [scatter] at h
      split_ifs at h with hp
      simpa using ih _ _ h
  unfold writeDataBlock
  by_cases hn : gmax procs = 0
  · have hall : procs.flatten = [] := by
      rw [List.eq_nil_iff_forall_not_mem]
      intro t ht
      have := glob_lt_gmax procs t ht
      omega
    have hord : order = [] := by rw [hall] at ho; exact ho.eq_nil
    simp [hn, hall, hord, scatter]
  · simp only [hn, if_false]
    have hlen : (counts (gmax procs) procs.flatten).length = gmax procs := by simp [counts]
    have hf := pieces_flatten dist (counts (gmax procs) procs.flatten) (by rw [hlen, h1])
    have htot : ((pieces dist (counts (gmax procs) procs.flatten)).map List.sum).sum =
        procs.flatten.length := by
      rw [sum_sum, hf, ← before_gmax procs, ← counts_take procs.flatten (gmax procs) (gmax procs) le_rfl,
        List.take_of_length_le (by rw [hlen])]
    rw [htot, globalOffsets_eq, hf]
    have hmap : order.map (fun t => ((localOffsets 0 (counts (gmax procs) procs.flatten)).getD t.glob 0 + t.dev,
        t.text)) = order.map (fun t => (pos procs.flatten t, t.text)) := by
      apply List.map_congr_left
      intro t ht
      have hg := glob_lt_gmax procs t (ho.mem_iff.mp ht)
      rw [List.getD_eq_getElem?_getD, localOffsets_get 0 _ _ (by rw [hlen]; exact hg),
        counts_take _ _ _ (le_of_lt hg)]
      simp [pos]
    rw [hmap]
    cases hs : scatter (List.replicate procs.flatten.length none)
        (order.map (fun t => (pos procs.flatten t, t.text))) with
    | none => rfl
    | some a =>
      have := scatter_length _ _ _ hs
      rw [Option.map_some, pieces_flatten _ _ (by rw [this, h2]; simp)]

/-- A place nobody writes to keeps its content. -/
theorem scatter_keep (ws : List (Nat × α)) : ∀ (a a' : List (Option α)) (p : Nat), scatter a ws = some a' →
    (∀ w ∈ ws, w.1 ≠ p) → a'[p]? = a[p]? := by
  induction ws with
  | nil => intro a a' p h _; simp only [scatter, Option.some.injEq] at h; rw [← h]
  | cons w ws ih =>
    intro a a' p h hw
    obtain ⟨q, t⟩ := w
    simp only [scatter] at h
    split_ifs at h with hp
    rw [ih _ _ p h (fun w hw' => hw w (List.mem_cons_of_mem _ hw'))]
    have : q ≠ p := hw (q, t) List.mem_cons_self
    rw [List.getElem?_set_ne this]

/-- Different places inside the array: everything is stored. -/
theorem scatter_all (ws : List (Nat × α)) : ∀ (a : List (Option α)), (ws.map Prod.fst).Nodup →
    (∀ w ∈ ws, w.1 < a.length) → ∃ a', scatter a ws = some a' ∧ a'.length = a.length ∧
      ∀ w ∈ ws, a'[w.1]? = some (some w.2) := by
  induction ws with
  | nil => intro a _ _; exact ⟨a, rfl, rfl, by simp⟩
  | cons w ws ih =>
    intro a hnd hlt
    obtain ⟨p, t⟩ := w
    simp only [List.map_cons, List.nodup_cons] at hnd
    have hp := hlt (p, t) List.mem_cons_self
    simp only at hp
    obtain ⟨a', h1, h2, h3⟩ := ih (a.set p (some t)) hnd.2
      (fun w hw => by rw [List.length_set]; exact hlt w (List.mem_cons_of_mem _ hw))
    refine ⟨a', by simp only [scatter, hp, if_true, h1], by rw [h2, List.length_set], ?_⟩
    intro w hw
    rcases List.mem_cons.mp hw with rfl | hw
    · simp only
      rw [scatter_keep ws _ _ p h1, List.getElem?_set_self hp]
      intro w hw heq
      apply hnd.1
      rw [← heq]
      exact List.mem_map_of_mem hw
    · exact h3 w hw

theorem exists_slot (all : List (TextLine α)) (n p : Nat) (h : p < before all n) :
    ∃ g, before all g ≤ p ∧ p < before all (g + 1) := by
  induction n with
  | zero => simp [before] at h
  | succ n ih =>
    by_cases hp : p < before all n
    · exact ih hp
    · exact ⟨n, by omega, h⟩

end GridPACK.Export
