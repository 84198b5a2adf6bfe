import Verif.Spec.NetworkAnalytics
import Mathlib.Algebra.BigOperators.Group.List.Basic

/-! Lemmas for the network analytics. -/
namespace GridPACK.NetworkAnalytics
variable {V : Type} {α β : Type}

theorem foldl_sum (act : α → Bool) (f : α → Int) (l : List α) (r : Int) :
    l.foldl (fun r x => if act x then r + f x else r) r = r + ((l.filter act).map f).sum := by
  induction l generalizing r with
  | nil => simp
  | cons a l ih =>
    simp only [List.foldl_cons, List.filter_cons, ih]
    split <;> simp [add_assoc]

theorem total_eq (act : α → Bool) (f : α → Int) (parts : List (List α)) :
    total act f parts = ((parts.flatMap (fun l => l.filter act)).map f).sum := by
  unfold total
  induction parts with
  | nil => simp
  | cons l parts ih =>
    rw [List.map_cons, List.sum_cons, ih, foldl_sum, List.flatMap_cons, List.map_append,
      List.sum_append, zero_add]

theorem countUnits_spec (num stat : String) (d : Data V) :
    UnitsInService num stat d (countUnits num stat d) := by
  classical
  have key : ∀ (l : List Nat) (r : Int), l.foldl (countUnit stat d) r = r + ((l.filter (fun i => decide (InService stat d i))).length : Int) := by
    intro l
    induction l with
    | nil => intro r; simp
    | cons a l ih =>
      intro r
      rw [List.foldl_cons, ih]
      unfold countUnit
      cases h : d.int stat (some (a : Int)) with
      | none =>
        have : InService stat d a := by intro s hs; rw [h] at hs; cases hs
        simp [List.filter_cons, this]; omega
      | some s =>
        by_cases hs : 0 < s
        · have : InService stat d a := by
            intro s' hs'; rw [h] at hs'; cases hs'; exact hs
          simp [List.filter_cons, this, hs]; omega
        · have : ¬ InService stat d a := by
            intro hc; exact hs (hc s h)
          simp [List.filter_cons, this, hs]
  refine ⟨(List.range ((d.int num none).getD 0).toNat).filter (fun i => decide (InService stat d i)),
    List.nodup_range.filter _, ?_, ?_⟩
  · unfold countUnits
    rw [key]; simp
  · intro i
    simp only [List.mem_filter, List.mem_range, decide_eq_true_eq]
    constructor
    · rintro ⟨h1, h2⟩; exact ⟨by omega, h2⟩
    · rintro ⟨h1, h2⟩; exact ⟨by omega, h2⟩

theorem lfg_fold (act : α → Bool) (gid : α → Int) (g : Int) (l : List α) (k : Nat) (r : Option Nat)
    (h : ∀ x ∈ l, act x = true → gid x ≠ g) :
    (l.zipIdx k).foldl (fun r x => if gid x.1 = g then (if act x.1 then some x.2 else r) else r) r
      = r := by
  induction l generalizing k r with
  | nil => rfl
  | cons a l ih =>
    rw [List.zipIdx_cons, List.foldl_cons, ih _ _ (fun x hx => h x (List.mem_cons_of_mem _ hx))]
    have := h a (by simp)
    by_cases h1 : gid a = g
    · have h2 : act a = false := by
        cases hh : act a with
        | false => rfl
        | true => exact absurd h1 (this hh)
      simp [h2]
    · simp [h1]

theorem lfg_none (act : α → Bool) (gid : α → Int) (g : Int) (l : List α)
    (h : ∀ x ∈ l, act x = true → gid x ≠ g) : localFromGlobal act gid l g = none :=
  lfg_fold act gid g l 0 none h

theorem lfg_some (act : α → Bool) (gid : α → Int) (P Q : List α) (x : α) (hx : act x = true)
    (hQ : ∀ y ∈ Q, act y = true → gid y ≠ gid x) :
    localFromGlobal act gid (P ++ x :: Q) (gid x) = some P.length := by
  unfold localFromGlobal
  rw [List.zipIdx_append, List.foldl_append, List.zipIdx_cons, List.foldl_cons, lfg_fold _ _ _ _ _ _ hQ]
  simp [hx]

/-- Where a component with a given global number is active. -/
structure Split (act : α → Bool) (gid : α → Int) (parts : List (List α)) (x : α) where
  A : List (List α)
  B : List (List α)
  P : List α
  Q : List α
  eq : parts = A ++ (P ++ x :: Q) :: B
  hx : act x = true
  hA : ∀ l ∈ A, ∀ y ∈ l, act y = true → gid y ≠ gid x
  hB : ∀ l ∈ B, ∀ y ∈ l, act y = true → gid y ≠ gid x
  hP : ∀ y ∈ P, act y = true → gid y ≠ gid x
  hQ : ∀ y ∈ Q, act y = true → gid y ≠ gid x

theorem split_of_nodup (act : α → Bool) (gid : α → Int) (parts : List (List α))
    (hn : ((parts.flatMap (fun l => l.filter act)).map gid).Nodup) {l : List α} (hl : l ∈ parts)
    {x : α} (hx : x ∈ l) (ha : act x = true) : Nonempty (Split act gid parts x) := by
  obtain ⟨A, B, rfl⟩ := List.append_of_mem hl
  obtain ⟨P, Q, rfl⟩ := List.append_of_mem hx
  simp only [List.flatMap_append, List.flatMap_cons, List.filter_append, List.filter_cons, ha, if_true,
    List.map_append, List.map_cons] at hn
  refine ⟨⟨A, B, P, Q, rfl, ha, ?_, ?_, ?_, ?_⟩⟩
  · intro l hl y hy hay he
    have := (List.nodup_append.1 hn).2.2 (gid y)
      (List.mem_map_of_mem (List.mem_flatMap.2 ⟨l, hl, List.mem_filter.2 ⟨hy, hay⟩⟩)) (gid x)
      (by simp)
    exact this he
  · intro l hl y hy hay he
    have h2 := (List.nodup_append.1 hn).2.1
    rw [List.append_assoc] at h2
    have h3 := (List.nodup_append.1 h2).2.1
    rw [List.cons_append, List.nodup_cons] at h3
    apply h3.1
    rw [← he]
    exact List.mem_append_right _ (List.mem_map_of_mem
      (List.mem_flatMap.2 ⟨l, hl, List.mem_filter.2 ⟨hy, hay⟩⟩))
  · intro y hy hay he
    have h2 := (List.nodup_append.1 hn).2.1
    rw [List.append_assoc] at h2
    exact (List.nodup_append.1 h2).2.2 (gid y) (List.mem_map_of_mem (List.mem_filter.2 ⟨hy, hay⟩))
      (gid x) (by simp) he
  · intro y hy hay he
    have h2 := (List.nodup_append.1 hn).2.1
    rw [List.append_assoc] at h2
    have h3 := (List.nodup_append.1 h2).2.1
    rw [List.cons_append, List.nodup_cons] at h3
    apply h3.1
    rw [← he]
    exact List.mem_append_left _ (List.mem_map_of_mem (List.mem_filter.2 ⟨hy, hay⟩))

theorem sum_map_zero (f : List α → Int) (A : List (List α)) (h : ∀ l ∈ A, f l = 0) :
    (A.map f).sum = 0 := by
  induction A with
  | nil => rfl
  | cons a A ih =>
    simp [h a (by simp), ih (fun l hl => h l (List.mem_cons_of_mem _ hl))]

theorem countAt_split (act : α → Bool) (gid : α → Int) (f : α → Int) (parts : List (List α)) (x : α)
    (s : Split act gid parts x) : countAt act gid f parts (gid x) = f x := by
  have e := s.eq
  unfold countAt
  rw [e, List.map_append, List.map_cons, List.sum_append, List.sum_cons,
    sum_map_zero _ s.A (fun l hl => by rw [lfg_none _ _ _ _ (s.hA l hl)]),
    sum_map_zero _ s.B (fun l hl => by rw [lfg_none _ _ _ _ (s.hB l hl)]),
    lfg_some _ _ _ _ _ s.hx s.hQ]
  simp

theorem countAt_absent (act : α → Bool) (gid : α → Int) (f : α → Int) (parts : List (List α)) (g : Int)
    (h : ∀ l ∈ parts, ∀ y ∈ l, act y = true → gid y ≠ g) : countAt act gid f parts g = 0 := by
  unfold countAt
  exact sum_map_zero _ _ (fun l hl => by rw [lfg_none _ _ _ _ (h l hl)])

theorem rootSum_none (r : List (Option β)) (k : Nat) (h : ∀ x ∈ r, x = none) :
    ((r.zipIdx k).map fun x => if x.1.isSome then (x.2 : Int) else 0).sum = 0 := by
  induction r generalizing k with
  | nil => rfl
  | cons a r ih =>
    have ha := h a (by simp)
    subst ha
    rw [List.zipIdx_cons, List.map_cons, List.sum_cons, ih _ (fun x hx => h x (List.mem_cons_of_mem _ hx))]
    simp

theorem rootSum_one (A B : List (Option β)) (v : β) (hA : ∀ x ∈ A, x = none)
    (hB : ∀ x ∈ B, x = none) :
    (((A ++ some v :: B).zipIdx).map fun x => if x.1.isSome then (x.2 : Int) else 0).sum
      = (A.length : Int) := by
  rw [List.zipIdx_append, List.map_append, List.sum_append, rootSum_none _ _ hA, List.zipIdx_cons,
    List.map_cons, List.sum_cons, rootSum_none _ _ hB]
  simp

theorem info_split (act : α → Bool) (gid : α → Int) (data : α → Data V) (parts : List (List α)) (x : α)
    (s : Split act gid parts x) (field : String) (dev : Int) :
    info act gid data parts (gid x) field dev
      = some (if dev < 0 then (data x).val field none else (data x).val field (some dev)) := by
  have e := s.eq
  have hA : ∀ y ∈ s.A.map (fun l => infoOnRank act gid data l (gid x) field dev), y = none := by
    intro y hy
    obtain ⟨l, hl, rfl⟩ := List.mem_map.1 hy
    simp [infoOnRank, lfg_none _ _ _ _ (s.hA l hl)]
  have hB : ∀ y ∈ s.B.map (fun l => infoOnRank act gid data l (gid x) field dev), y = none := by
    intro y hy
    obtain ⟨l, hl, rfl⟩ := List.mem_map.1 hy
    simp [infoOnRank, lfg_none _ _ _ _ (s.hB l hl)]
  have hx : infoOnRank act gid data (s.P ++ x :: s.Q) (gid x) field dev
      = if dev < 0 then (data x).val field none else (data x).val field (some dev) := by
    simp [infoOnRank, lfg_some _ _ _ _ _ s.hx s.hQ]
  unfold info
  rw [e, List.map_append, List.map_cons, hx]
  cases hv : (if dev < 0 then (data x).val field none else (data x).val field (some dev)) with
  | none =>
    have : (List.map (fun l => infoOnRank act gid data l (gid x) field dev) s.A ++
        none :: List.map (fun l => infoOnRank act gid data l (gid x) field dev) s.B).any (·.isSome)
        = false := by
      rw [List.any_eq_false]
      intro y hy
      rcases List.mem_append.1 hy with hy | hy
      · simp [hA y hy]
      · rcases List.mem_cons.1 hy with rfl | hy
        · simp
        · simp [hB y hy]
    simp only [this]; simp
  | some v =>
    have : (List.map (fun l => infoOnRank act gid data l (gid x) field dev) s.A ++
        some v :: List.map (fun l => infoOnRank act gid data l (gid x) field dev) s.B).any (·.isSome)
        = true := by simp
    simp only [this, if_true, rootSum_one _ _ v hA hB]
    simp

theorem info_absent (act : α → Bool) (gid : α → Int) (data : α → Data V) (parts : List (List α))
    (g : Int) (field : String) (dev : Int)
    (h : ∀ l ∈ parts, ∀ y ∈ l, act y = true → gid y ≠ g) :
    info act gid data parts g field dev = some none := by
  unfold info
  have : (parts.map fun l => infoOnRank act gid data l g field dev).any (·.isSome) = false := by
    rw [List.any_eq_false]
    intro y hy
    obtain ⟨l, hl, rfl⟩ := List.mem_map.1 hy
    simp [infoOnRank, lfg_none _ _ _ _ (h l hl)]
  simp only [this]; simp

theorem mapM_append_some {γ δ : Type} (f : γ → Option δ) (A : List γ) (c : δ) (h : ∀ l ∈ A, f l = some c) :
    A.mapM f = some (A.map fun _ => c) := by
  induction A with
  | nil => rfl
  | cons a A ih =>
    simp [List.mapM_cons, h a (by simp), ih (fun l hl => h l (List.mem_cons_of_mem _ hl))]

theorem mapM_none_of_mem {γ δ : Type} (f : γ → Option δ) (l : List γ) {a : γ} (ha : a ∈ l)
    (h : f a = none) : l.mapM f = none := by
  induction l with
  | nil => cases ha
  | cons b l ih =>
    rw [List.mapM_cons]
    rcases List.mem_cons.1 ha with rfl | ha
    · simp [h]
    · cases f b with
      | none => rfl
      | some c => simp [ih ha]

theorem mapM_some_of {γ δ : Type} (f : γ → Option δ) (l : List γ) (h : ∀ a ∈ l, (f a).isSome) :
    ∃ r, l.mapM f = some r ∧ ∀ y, y ∈ r ↔ ∃ a ∈ l, f a = some y := by
  induction l with
  | nil => exact ⟨[], rfl, by simp⟩
  | cons b l ih =>
    obtain ⟨r, hr, hm⟩ := ih (fun a ha => h a (List.mem_cons_of_mem _ ha))
    obtain ⟨c, hc⟩ := Option.isSome_iff_exists.1 (h b (by simp))
    refine ⟨c :: r, by simp [List.mapM_cons, hc, hr], ?_⟩
    intro y
    simp [hm, hc, eq_comm]

end GridPACK.NetworkAnalytics
