import Verif.Lemmas.Export
import Mathlib.Data.List.Nodup
import Mathlib.Tactic.Tauto
import Mathlib.Tactic.CongrExclamation

/-! Properties C173 and C174: what is written to a RAW file. -/
namespace GridPACK.Export

variable {α β : Type}

/-! ### Specification -/

/-- The device numbers of the texts with one global index are 0, 1, ... without a gap. -/
def Numbered (all : List (TextLine α)) : Prop :=
  ∀ g, let ds := (all.filter (fun t => t.glob = g)).map TextLine.dev
    ds.Perm (List.range ds.length)

/-- The order of the texts in the file. -/
def Before (t u : TextLine α) : Prop := t.glob < u.glob ∨ t.glob = u.glob ∧ t.dev < u.dev

/-- A distribution of the arrays and an order of arrival that an execution can have. -/
structure Run (dist dist' : List Nat) (order : List (TextLine α)) (procs : List (List (TextLine α))) :
    Prop where
  offsets : dist.sum = gmax procs
  texts : dist'.sum = procs.flatten.length
  arrival : order.Perm procs.flatten

theorem numbered_lt {all : List (TextLine α)} (h : Numbered all) (t : TextLine α) (ht : t ∈ all) :
    t.dev < here all t.glob := by
  have h1 := h t.glob
  simp only at h1
  have h2 : t.dev ∈ (all.filter (fun u => u.glob = t.glob)).map TextLine.dev :=
    List.mem_map_of_mem (List.mem_filter.mpr ⟨ht, by simp⟩)
  have h3 := h1.mem_iff.mp h2
  rw [List.mem_range, List.length_map] at h3
  rw [here, List.countP_eq_length_filter]
  exact h3

theorem numbered_pos {all : List (TextLine α)} (h : Numbered all) (n : Nat)
    (hn : before all n = all.length) : (all.map (pos all)).Perm (List.range all.length) := by
  have hsub : List.range all.length ⊆ all.map (pos all) := by
    intro p hp
    rw [List.mem_range, ← hn] at hp
    obtain ⟨g, h1, h2⟩ := exists_slot all n p hp
    rw [before_succ] at h2
    have h3 := h g
    simp only at h3
    have h4 : p - before all g ∈ (all.filter (fun u => u.glob = g)).map TextLine.dev := by
      rw [h3.mem_iff, List.mem_range, List.length_map]
      rw [here, List.countP_eq_length_filter] at h2
      omega
    obtain ⟨t, ht, hd⟩ := List.mem_map.mp h4
    rw [List.mem_filter] at ht
    have hg : t.glob = g := by simpa using ht.2
    refine List.mem_map.mpr ⟨t, ht.1, ?_⟩
    rw [pos, hg, hd]
    omega
  have hsp := List.subperm_of_subset List.nodup_range hsub
  exact (hsp.perm_of_length_le (by simp)).symm

/-- C173: if the devices of every bus (branch) that are written are numbered without a gap, the block has
every text once, in the order of the buses and devices, however the network and the arrays are distributed
and in whatever order the processes write. -/
theorem C173_block_partial (dist dist' : List Nat) (order : List (TextLine α))
    (procs : List (List (TextLine α))) (hr : Run dist dist' order procs) (hn : Numbered procs.flatten) :
    ∃ ts : List (TextLine α), ts.Perm procs.flatten ∧ ts.Pairwise Before ∧
      writeDataBlock dist dist' order procs = some (ts.map (fun t => some t.text)) := by
  rw [writeDataBlock_eq dist dist' order procs hr.offsets hr.texts hr.arrival]
  have ho := hr.arrival
  have hpos := numbered_pos hn _ (before_gmax procs)
  have hdev := fun t ht => numbered_lt hn t ht
  generalize procs.flatten = all at *
  obtain ⟨ts, hts⟩ : ∃ ts : List (TextLine α), ts = all.mergeSort (fun a b => decide (pos all a ≤ pos all b)) :=
    ⟨_, rfl⟩
  have hperm : ts.Perm all := by rw [hts]; exact List.mergeSort_perm _ _
  have hsort : ts.Pairwise (fun a b => pos all a ≤ pos all b) := by
    have := List.pairwise_mergeSort (le := fun a b : TextLine α => decide (pos all a ≤ pos all b))
      (by intro a b c; simp only [decide_eq_true_eq]; omega)
      (by intro a b; simp only [Bool.or_eq_true, decide_eq_true_eq]; omega) all
    rw [← hts] at this
    exact this.imp (fun h => by simpa using h)
  have hrange : ts.map (pos all) = List.range all.length := by
    apply List.Perm.eq_of_pairwise (le := (· ≤ ·))
    · intro a b _ _ h1 h2; omega
    · rw [List.pairwise_map]; exact hsort
    · exact List.pairwise_le_range
    · exact (hperm.map _).trans hpos
  have hlt : ts.Pairwise (fun a b => pos all a < pos all b) := by
    have : (ts.map (pos all)).Pairwise (· < ·) := by rw [hrange]; exact List.pairwise_lt_range
    rwa [List.pairwise_map] at this
  refine ⟨ts, hperm, ?_, ?_⟩
  · refine List.Pairwise.imp_of_mem ?_ hlt
    intro t u ht hu h
    have d1 := hdev t (hperm.mem_iff.mp ht)
    have d2 := hdev u (hperm.mem_iff.mp hu)
    unfold pos at h
    rcases Nat.lt_trichotomy t.glob u.glob with hg | hg | hg
    · exact Or.inl hg
    · rw [hg] at h; exact Or.inr ⟨hg, by omega⟩
    · have := before_mono all (show u.glob + 1 ≤ t.glob from hg)
      rw [before_succ] at this
      omega
  · have hnd : ((order.map (fun t => (pos all t, t.text))).map Prod.fst).Nodup := by
      rw [List.map_map]
      have : (order.map (pos all)).Perm (List.range all.length) := (ho.map _).trans hpos
      exact this.nodup_iff.mpr List.nodup_range
    have hin : ∀ w ∈ order.map (fun t => (pos all t, t.text)),
        w.1 < (List.replicate all.length (none : Option α)).length := by
      intro w hw
      obtain ⟨t, ht, rfl⟩ := List.mem_map.mp hw
      have : pos all t ∈ List.range all.length := hpos.mem_iff.mp (List.mem_map_of_mem (ho.mem_iff.mp ht))
      rw [List.length_replicate]
      exact List.mem_range.mp this
    obtain ⟨a, h1, h2, h3⟩ := scatter_all _ _ hnd hin
    rw [h1]
    congr 1
    rw [List.length_replicate] at h2
    apply List.ext_getElem?
    intro i
    by_cases hi : i < ts.length
    · have hti := List.getElem_mem hi
      have hp : pos all ts[i] = i := by
        have h4 : (ts.map (pos all))[i]? = some i := by
          rw [hrange, List.getElem?_range (by rw [← hperm.length_eq]; exact hi)]
        rw [List.getElem?_map, List.getElem?_eq_getElem hi] at h4
        simpa using h4
      have hmem : (pos all ts[i], ts[i].text) ∈ order.map (fun t => (pos all t, t.text)) :=
        List.mem_map.mpr ⟨ts[i], ho.mem_iff.mpr (hperm.mem_iff.mp hti), rfl⟩
      have h5 := h3 _ hmem
      simp only [hp] at h5
      rw [h5, List.getElem?_map, List.getElem?_eq_getElem hi]
      rfl
    · rw [List.getElem?_eq_none (by rw [h2, ← hperm.length_eq]; omega),
        List.getElem?_eq_none (by simpa using hi)]

/-- C173: if a bus (branch) has a text but none for its device 0, because that device is not written, then a
place of the block is never written to; the block is not the list of the texts. -/
theorem C173_gap_violated (dist dist' : List Nat) (order : List (TextLine α))
    (procs : List (List (TextLine α))) (hr : Run dist dist' order procs) (t : TextLine α)
    (ht : t ∈ procs.flatten) (hgap : ∀ u ∈ procs.flatten, u.glob = t.glob → u.dev ≠ 0)
    (hbefore : ∀ u ∈ procs.flatten, u.glob < t.glob →
      u.dev < (procs.flatten.filter (fun v => v.glob = u.glob)).length)
    (out : List (Option α)) (ho : writeDataBlock dist dist' order procs = some out) :
    none ∈ out ∧ ¬ out.Perm (procs.flatten.map (fun u => some u.text)) := by
  have hnone : none ∈ out := by
    rw [writeDataBlock_eq dist dist' order procs hr.offsets hr.texts hr.arrival] at ho
    have hlen := before_gmax procs
    have hlt := glob_lt_gmax procs t ht
    have harr := hr.arrival
    generalize procs.flatten = all at *
    have hpos1 : 0 < here all t.glob := by
      rw [here, List.countP_pos_iff]
      exact ⟨t, ht, by simp⟩
    have hkeep := scatter_keep _ _ _ (before all t.glob) ho (by
      intro w hw
      obtain ⟨u, hu, rfl⟩ := List.mem_map.mp hw
      have hu' := harr.mem_iff.mp hu
      simp only [pos]
      rcases Nat.lt_trichotomy u.glob t.glob with hg | hg | hg
      · have h1 := hbefore u hu' hg
        rw [← List.countP_eq_length_filter] at h1
        have h2 := before_mono all (show u.glob + 1 ≤ t.glob from hg)
        rw [before_succ, here] at h2
        omega
      · have := hgap u hu' hg
        rw [hg]
        omega
      · have h2 := before_mono all (show t.glob + 1 ≤ u.glob from hg)
        rw [before_succ] at h2
        omega)
    have hin : before all t.glob < all.length := by
      have h2 := before_mono all (show t.glob + 1 ≤ gmax procs from hlt)
      rw [before_succ] at h2
      omega
    rw [List.getElem?_replicate, if_pos hin] at hkeep
    exact List.mem_of_getElem? hkeep
  refine ⟨hnone, ?_⟩
  intro hp
  have := hp.mem_iff.mp hnone
  simp at this

/-! ### Which blocks are numbered -/

theorem devTexts_mem (g : Nat) (f : β → Option α) (l : List β) : ∀ (j : Nat) (t : TextLine α),
    t ∈ devTexts g f j l → t.glob = g ∧ j ≤ t.dev ∧ ∃ x, l[t.dev - j]? = some x ∧ f x = some t.text := by
  induction l with
  | nil => intro j t h; simp [devTexts] at h
  | cons x xs ih =>
    intro j t h
    have step : t ∈ devTexts g f (j + 1) xs →
        t.glob = g ∧ j ≤ t.dev ∧ ∃ y, (x :: xs)[t.dev - j]? = some y ∧ f y = some t.text := by
      intro h
      obtain ⟨h1, h2, y, h3, h4⟩ := ih (j + 1) t h
      refine ⟨h1, by omega, y, ?_, h4⟩
      have : t.dev - j = (t.dev - (j + 1)) + 1 := by omega
      rw [this, List.getElem?_cons_succ, h3]
    cases hf : f x with
    | none =>
      simp only [devTexts, hf] at h
      exact step h
    | some v =>
      simp only [devTexts, hf, List.mem_cons] at h
      rcases h with h | h
      · subst h
        exact ⟨rfl, le_refl _, x, by simp, hf⟩
      · exact step h

theorem devTexts_of (g : Nat) (f : β → Option α) (l : List β) : ∀ (j k : Nat) (x : β) (v : α),
    l[k]? = some x → f x = some v → (⟨g, j + k, v⟩ : TextLine α) ∈ devTexts g f j l := by
  induction l with
  | nil => intro j k x v h; simp at h
  | cons y ys ih =>
    intro j k x v h hf
    cases k with
    | zero =>
      simp only [List.getElem?_cons_zero, Option.some.injEq] at h
      subst h
      simp [devTexts, hf]
    | succ k =>
      rw [List.getElem?_cons_succ] at h
      have := ih (j + 1) k x v h hf
      have e : j + 1 + k = j + (k + 1) := by omega
      rw [e] at this
      cases hy : f y with
      | none => simpa only [devTexts, hy] using this
      | some w => simp only [devTexts, hy]; exact List.mem_cons_of_mem _ this

/-- The devices that are written come before those that are not. -/
def WrittenFirst (f : β → Option α) (l : List β) : Prop :=
  ∃ p q, l = p ++ q ∧ (∀ x ∈ p, (f x).isSome) ∧ ∀ x ∈ q, f x = none

theorem devTexts_none (g : Nat) (f : β → Option α) (l : List β) (h : ∀ x ∈ l, f x = none) :
    ∀ j, devTexts g f j l = [] := by
  induction l with
  | nil => intro j; rfl
  | cons x xs ih =>
    intro j
    simp only [devTexts, h x List.mem_cons_self]
    exact ih (fun y hy => h y (List.mem_cons_of_mem _ hy)) _

theorem devTexts_devs (g : Nat) (f : β → Option α) (p q : List β) (hp : ∀ x ∈ p, (f x).isSome)
    (hq : ∀ x ∈ q, f x = none) : ∀ j, (devTexts g f j (p ++ q)).map TextLine.dev = List.range' j p.length := by
  induction p with
  | nil => intro j; simp [devTexts_none g f q hq]
  | cons x xs ih =>
    intro j
    obtain ⟨v, hv⟩ := Option.isSome_iff_exists.mp (hp x List.mem_cons_self)
    simp only [List.cons_append, devTexts, hv, List.map_cons, List.length_cons, List.range'_succ]
    rw [ih (fun y hy => hp y (List.mem_cons_of_mem _ hy))]

/-- Texts of a list of buses (branches). -/
def blockTexts {γ : Type} (G : γ → Nat) (F : γ → β → Option α) (D : γ → List β) (bs : List γ) :
    List (TextLine α) := bs.flatMap (fun b => devTexts (G b) (F b) 0 (D b))

theorem blockTexts_mem {γ : Type} (G : γ → Nat) (F : γ → β → Option α) (D : γ → List β) (bs : List γ)
    (t : TextLine α) (h : t ∈ blockTexts G F D bs) :
    ∃ b ∈ bs, t.glob = G b ∧ ∃ x, (D b)[t.dev]? = some x ∧ F b x = some t.text := by
  obtain ⟨b, hb, ht⟩ := List.mem_flatMap.mp h
  obtain ⟨h1, _, x, h2, h3⟩ := devTexts_mem _ _ _ _ _ ht
  exact ⟨b, hb, h1, x, by simpa using h2, h3⟩

theorem blockTexts_filter {γ : Type} (G : γ → Nat) (F : γ → β → Option α) (D : γ → List β) (bs : List γ)
    (hnd : (bs.map G).Nodup) (b : γ) (hb : b ∈ bs) :
    (blockTexts G F D bs).filter (fun t => t.glob = G b) = devTexts (G b) (F b) 0 (D b) := by
  induction bs with
  | nil => simp at hb
  | cons c cs ih =>
    simp only [List.map_cons, List.nodup_cons] at hnd
    have hself : ∀ c : γ, ∀ g, (G c = g → (devTexts (G c) (F c) 0 (D c)).filter (fun t => t.glob = g) =
        devTexts (G c) (F c) 0 (D c)) ∧ (G c ≠ g →
        (devTexts (G c) (F c) 0 (D c)).filter (fun t => t.glob = g) = []) := by
      intro c g
      constructor
      · intro hg
        rw [List.filter_eq_self]
        intro t ht
        simp [(devTexts_mem _ _ _ _ _ ht).1, hg]
      · intro hg
        rw [List.filter_eq_nil_iff]
        intro t ht
        simp [(devTexts_mem _ _ _ _ _ ht).1, hg]
    rw [blockTexts, List.flatMap_cons, List.filter_append]
    rcases List.mem_cons.mp hb with rfl | hb
    · rw [(hself b (G b)).1 rfl]
      have : (cs.flatMap (fun b => devTexts (G b) (F b) 0 (D b))).filter (fun t => t.glob = G b) = [] := by
        rw [List.filter_eq_nil_iff]
        intro t ht
        obtain ⟨c, hc, h1, _⟩ := blockTexts_mem G F D cs t ht
        simp only [decide_eq_true_eq]
        intro h2
        exact hnd.1 (by rw [← h2, h1]; exact List.mem_map_of_mem hc)
      rw [this, List.append_nil]
    · have hne : G c ≠ G b := fun h => hnd.1 (by rw [h]; exact List.mem_map_of_mem hb)
      rw [(hself c (G b)).2 hne, List.nil_append]
      exact ih hnd.2 hb

theorem blockTexts_numbered {γ : Type} (G : γ → Nat) (F : γ → β → Option α) (D : γ → List β) (bs : List γ)
    (hnd : (bs.map G).Nodup) (h : ∀ b ∈ bs, WrittenFirst (F b) (D b)) : Numbered (blockTexts G F D bs) := by
  intro g
  simp only
  by_cases hg : g ∈ bs.map G
  · obtain ⟨b, hb, rfl⟩ := List.mem_map.mp hg
    obtain ⟨p, q, h1, h2, h3⟩ := h b hb
    rw [blockTexts_filter G F D bs hnd b hb, h1, devTexts_devs _ _ p q h2 h3, List.length_range',
      List.range_eq_range']
  · have : (blockTexts G F D bs).filter (fun t => t.glob = g) = [] := by
      rw [List.filter_eq_nil_iff]
      intro t ht
      obtain ⟨c, hc, h1, _⟩ := blockTexts_mem G F D bs t ht
      simp only [decide_eq_true_eq]
      intro h2
      exact hg (by rw [← h2, h1]; exact List.mem_map_of_mem hc)
    rw [this]
    exact List.Perm.refl _

theorem blockTexts_flatten {γ : Type} (G : γ → Nat) (F : γ → β → Option α) (D : γ → List β)
    (procs : List (List γ)) :
    (procs.map (blockTexts G F D)).flatten = blockTexts G F D procs.flatten := by
  induction procs with
  | nil => rfl
  | cons b bs ih => simp [blockTexts] at ih ⊢; rw [ih]

/-- A block in which the first device of a bus is left out and a later one is not. -/
theorem blockTexts_gap {γ : Type} (G : γ → Nat) (F : γ → β → Option α) (D : γ → List β)
    (procs : List (List γ)) (hnd : (procs.flatten.map G).Nodup) (dist dist' : List Nat)
    (order : List (TextLine α)) (hr : Run dist dist' order (procs.map (blockTexts G F D)))
    (hbad : ∃ b ∈ procs.flatten, ¬ WrittenFirst (F b) (D b))
    (hfirst : ∀ b ∈ procs.flatten, WrittenFirst (F b) (D b) ∨ ∃ x, (D b).head? = some x ∧ F b x = none)
    (out : List (Option α))
    (ho : writeDataBlock dist dist' order (procs.map (blockTexts G F D)) = some out) :
    none ∈ out ∧ ¬ out.Perm ((procs.map (blockTexts G F D)).flatten.map (fun u => some u.text)) := by
  -- the first bad one
  obtain ⟨b, hb, hbb, hmin⟩ : ∃ b ∈ procs.flatten, ¬ WrittenFirst (F b) (D b) ∧
      ∀ c ∈ procs.flatten, G c < G b → WrittenFirst (F c) (D c) := by
    classical
    have hex : ∃ n, ∃ b ∈ procs.flatten, ¬ WrittenFirst (F b) (D b) ∧ G b = n := by
      obtain ⟨b, hb, hbb⟩ := hbad
      exact ⟨_, b, hb, hbb, rfl⟩
    obtain ⟨b, hb, hbb, hg⟩ := Nat.find_spec hex
    refine ⟨b, hb, hbb, ?_⟩
    intro c hc hlt
    by_contra hcon
    rw [hg] at hlt
    exact Nat.find_min hex hlt ⟨c, hc, hcon, rfl⟩
  have hex : ∃ (k : Nat) (x : β) (v : α), (D b)[k]? = some x ∧ F b x = some v := by
    by_contra hcon
    apply hbb
    refine ⟨[], D b, rfl, by simp, ?_⟩
    intro x hx
    obtain ⟨k, hk, hk'⟩ := List.getElem_of_mem hx
    by_contra hne
    obtain ⟨v, hv⟩ := Option.ne_none_iff_exists'.mp hne
    exact hcon ⟨k, x, v, by rw [List.getElem?_eq_getElem hk, hk'], hv⟩
  obtain ⟨k, x, v, hk, hv⟩ := hex
  have ht : (⟨G b, 0 + k, v⟩ : TextLine α) ∈ (procs.map (blockTexts G F D)).flatten := by
    rw [blockTexts_flatten]
    exact List.mem_flatMap.mpr ⟨b, hb, devTexts_of _ _ _ 0 k x v hk hv⟩
  refine C173_gap_violated dist dist' order _ hr _ ht ?_ ?_ out ho
  · intro u hu hg
    rw [blockTexts_flatten] at hu
    have hu' : u ∈ (blockTexts G F D procs.flatten).filter (fun t => t.glob = G b) :=
      List.mem_filter.mpr ⟨hu, by simpa using hg⟩
    rw [blockTexts_filter G F D _ hnd b hb] at hu'
    obtain ⟨_, _, y, h1, h2⟩ := devTexts_mem _ _ _ _ _ hu'
    intro h0
    rcases hfirst b hb with h | ⟨z, hz, hz'⟩
    · exact hbb h
    · rw [h0, Nat.sub_zero, ← List.head?_eq_getElem?, hz, Option.some.injEq] at h1
      rw [← h1, hz'] at h2
      simp at h2
  · intro u hu hg
    rw [blockTexts_flatten] at hu ⊢
    obtain ⟨c, hc, h1, y, h2, h3⟩ := blockTexts_mem G F D _ u hu
    have hu' : u ∈ (blockTexts G F D procs.flatten).filter (fun t => t.glob = G c) :=
      List.mem_filter.mpr ⟨hu, by simpa using h1⟩
    rw [h1, blockTexts_filter G F D _ hnd c hc]
    rw [blockTexts_filter G F D _ hnd c hc] at hu'
    simp only at hg
    rw [h1] at hg
    obtain ⟨p, q, e1, e2, e3⟩ := hmin c hc hg
    have hd := devTexts_devs (G c) (F c) p q e2 e3 0
    rw [← e1] at hd
    have hm : u.dev ∈ (devTexts (G c) (F c) 0 (D c)).map TextLine.dev := List.mem_map_of_mem hu'
    have hl : (devTexts (G c) (F c) 0 (D c)).length = p.length := by
      rw [← List.length_map (f := TextLine.dev), hd, List.length_range']
    rw [hd, List.mem_range'_1] at hm
    omega

/-! ### The blocks of the file -/

/-- C173: a block that writes every device of every bus (buses, fixed shunts, generators) has every device
once, ordered by bus and device, for every distribution of the network. -/
theorem C173_devices (f : Int → β → α) (procs : List (List (XBus β)))
    (hnd : (procs.flatten.map XBus.glob).Nodup) (dist dist' : List Nat) (order : List (TextLine α))
    (hr : Run dist dist' order (procs.map (allTexts f))) :
    ∃ ts : List (TextLine α), ts.Perm (allTexts f procs.flatten) ∧ ts.Pairwise Before ∧
      writeDataBlock dist dist' order (procs.map (allTexts f)) = some (ts.map (fun t => some t.text)) := by
  have e : allTexts f = blockTexts XBus.glob (fun b x => some (f b.number x)) XBus.devs := rfl
  rw [e] at hr ⊢
  rw [← blockTexts_flatten]
  refine C173_block_partial dist dist' order _ hr ?_
  rw [blockTexts_flatten]
  exact blockTexts_numbered _ _ _ _ hnd (fun b _ => ⟨b.devs, [], by simp, by simp, by simp⟩)

/-- The lines of a branch come before its transformers. -/
def LinesFirst (es : List XEl) : Prop :=
  ∃ p q, es = p ++ q ∧ (∀ e ∈ p, e.isXf = false) ∧ ∀ e ∈ q, e.isXf = true

/-- C173: the block of lines has every line once when the lines of each branch come first (as they do after
reading a RAW file). -/
theorem C173_lines_partial (procs : List (List XBr)) (hnd : (procs.flatten.map XBr.glob).Nodup)
    (hl : ∀ b ∈ procs.flatten, LinesFirst b.elems) (dist dist' : List Nat)
    (order : List (TextLine RawBranch.LineRec)) (hr : Run dist dist' order (procs.map lineTexts)) :
    ∃ ts : List (TextLine RawBranch.LineRec), ts.Perm (lineTexts procs.flatten) ∧ ts.Pairwise Before ∧
      writeDataBlock dist dist' order (procs.map lineTexts) = some (ts.map (fun t => some t.text)) := by
  have e : lineTexts = blockTexts XBr.glob (fun b e => if e.isXf then none else some (lineRec b e))
    XBr.elems := rfl
  rw [e] at hr ⊢
  rw [← blockTexts_flatten]
  refine C173_block_partial dist dist' order _ hr ?_
  rw [blockTexts_flatten]
  refine blockTexts_numbered _ _ _ _ hnd ?_
  intro b hb
  obtain ⟨p, q, h1, h2, h3⟩ := hl b hb
  exact ⟨p, q, h1, fun x hx => by simp [h2 x hx], fun x hx => by simp [h3 x hx]⟩

/-- C173: the block of transformers has every transformer once when no branch has both. -/
theorem C173_transformers_partial (sbase : ℝ) (procs : List (List XBr))
    (hnd : (procs.flatten.map XBr.glob).Nodup)
    (hl : ∀ b ∈ procs.flatten, (∀ e ∈ b.elems, e.isXf = false) ∨ ∀ e ∈ b.elems, e.isXf = true)
    (dist dist' : List Nat) (order : List (TextLine RawBranch.Xf2Rec))
    (hr : Run dist dist' order (procs.map (xfTexts sbase))) :
    ∃ ts : List (TextLine RawBranch.Xf2Rec), ts.Perm (xfTexts sbase procs.flatten) ∧ ts.Pairwise Before ∧
      writeDataBlock dist dist' order (procs.map (xfTexts sbase)) = some (ts.map (fun t => some t.text)) := by
  have e : xfTexts sbase = blockTexts XBr.glob (fun b e => if e.isXf then some (xfRec sbase b e) else none)
    XBr.elems := rfl
  rw [e] at hr ⊢
  rw [← blockTexts_flatten]
  refine C173_block_partial dist dist' order _ hr ?_
  rw [blockTexts_flatten]
  refine blockTexts_numbered _ _ _ _ hnd ?_
  intro b hb
  rcases hl b hb with h | h
  · exact ⟨[], b.elems, rfl, by simp, fun x hx => by simp [h x hx]⟩
  · exact ⟨b.elems, [], by simp, fun x hx => by simp [h x hx], by simp⟩

/-- C173: a transformer in parallel with a line spoils the block of transformers in every execution: some
place of the block is never written to. -/
theorem C173_parallel_violated (sbase : ℝ) (procs : List (List XBr))
    (hnd : (procs.flatten.map XBr.glob).Nodup) (hl : ∀ b ∈ procs.flatten, LinesFirst b.elems)
    (b : XBr) (hb : b ∈ procs.flatten) (hline : ∃ e ∈ b.elems, e.isXf = false)
    (hxf : ∃ e ∈ b.elems, e.isXf = true) (dist dist' : List Nat)
    (order : List (TextLine RawBranch.Xf2Rec)) (hr : Run dist dist' order (procs.map (xfTexts sbase)))
    (out : List (Option RawBranch.Xf2Rec))
    (ho : writeDataBlock dist dist' order (procs.map (xfTexts sbase)) = some out) :
    none ∈ out ∧ ¬ out.Perm ((xfTexts sbase procs.flatten).map (fun u => some u.text)) := by
  have e : xfTexts sbase = blockTexts XBr.glob (fun b e => if e.isXf then some (xfRec sbase b e) else none)
    XBr.elems := rfl
  rw [e] at hr ho ⊢
  rw [← blockTexts_flatten]
  refine blockTexts_gap _ _ _ procs hnd dist dist' order hr ⟨b, hb, ?_⟩ ?_ out ho
  · rintro ⟨p, q, h1, h2, h3⟩
    obtain ⟨p', q', k1, k2, k3⟩ := hl b hb
    obtain ⟨x, hx, hx'⟩ := hline
    obtain ⟨y, hy, hy'⟩ := hxf
    cases p with
    | nil =>
      rw [h1, List.nil_append] at hy
      have := h3 y hy
      simp [hy'] at this
    | cons z zs =>
      have hz := h2 z List.mem_cons_self
      cases p' with
      | nil =>
        rw [k1, List.nil_append] at hx
        have := k3 x hx
        rw [hx'] at this
        simp at this
      | cons w ws =>
        have hw := k2 w List.mem_cons_self
        rw [k1] at h1
        simp only [List.cons_append, List.cons.injEq] at h1
        rw [← h1.1] at hz
        simp [hw] at hz
  · intro c hc
    obtain ⟨p, q, k1, k2, k3⟩ := hl c hc
    cases p with
    | nil => exact Or.inl ⟨c.elems, [], by simp, fun x hx => by
        rw [k1, List.nil_append] at hx
        simp [k3 x hx], by simp⟩
    | cons w ws =>
      right
      refine ⟨w, by rw [k1]; rfl, ?_⟩
      have hw := k2 w List.mem_cons_self
      simp [hw]

/-! ### Loads -/

/-- C174: when every load has constant power, the block of loads has every load once, with its bus and all its
values as the format of the numbers gives them. -/
theorem C174_loads_partial (procs : List (List (XBus Load))) (hnd : (procs.flatten.map XBus.glob).Nodup)
    (hl : ∀ b ∈ procs.flatten, ∀ l ∈ b.devs, l.pl ≠ 0 ∨ l.ql ≠ 0) (dist dist' : List Nat)
    (order : List (TextLine (Int × Load))) (hr : Run dist dist' order (procs.map loadTexts)) :
    ∃ ts : List (TextLine (Int × Load)), ts.Perm (allTexts (fun n (l : Load) =>
        (n, Load.mk l.id l.status (fmt l.pl) (fmt l.ql) (fmt l.ip) (fmt l.iq) (fmt l.yp) (fmt l.yq)))
      procs.flatten) ∧ ts.Pairwise Before ∧
      writeDataBlock dist dist' order (procs.map loadTexts) = some (ts.map (fun t => some t.text)) := by
  classical
  have hdev : ∀ (g : Nat) (n : Int) (ls : List Load), (∀ l ∈ ls, l.pl ≠ 0 ∨ l.ql ≠ 0) → ∀ j,
      devTexts g (fun l => if l.pl = 0 ∧ l.ql = 0 then none else some (loadRec n l)) j ls =
      devTexts g (fun l => some (loadRec n l)) j ls := by
    intro g n ls
    induction ls with
    | nil => intro _ j; rfl
    | cons x xs ih =>
      intro h j
      have hx : ¬ (x.pl = 0 ∧ x.ql = 0) := by
        have := h x List.mem_cons_self
        tauto
      simp only [devTexts, hx, if_false]
      rw [ih (fun y hy => h y (List.mem_cons_of_mem _ hy))]
  have heq : ∀ bs : List (XBus Load), (∀ b ∈ bs, ∀ l ∈ b.devs, l.pl ≠ 0 ∨ l.ql ≠ 0) →
      loadTexts bs = allTexts loadRec bs := by
    intro bs h
    unfold loadTexts allTexts
    induction bs with
    | nil => rfl
    | cons b bs ih =>
      rw [List.flatMap_cons, List.flatMap_cons, ih (fun c hc => h c (List.mem_cons_of_mem _ hc))]
      congr 1
      have := hdev b.glob b.number b.devs (h b List.mem_cons_self) 0
      convert this
  have hmap : procs.map loadTexts = procs.map (allTexts loadRec) := by
    apply List.map_congr_left
    intro bs hbs
    exact heq bs (fun b hb => hl b (List.mem_flatten.mpr ⟨bs, hbs, hb⟩))
  rw [hmap] at hr ⊢
  exact C173_devices loadRec procs hnd dist dist' order hr

/-- C174: a load without constant power before another load of its bus spoils the block of loads. -/
theorem C174_gap_violated (procs : List (List (XBus Load))) (hnd : (procs.flatten.map XBus.glob).Nodup)
    (b : XBus Load) (hb : b ∈ procs.flatten) (l l' : Load) (ls : List Load) (hd : b.devs = l :: ls)
    (h0 : l.pl = 0 ∧ l.ql = 0) (hl' : l' ∈ ls) (h1 : l'.pl ≠ 0)
    (hrest : ∀ c ∈ procs.flatten, c.glob ≠ b.glob → ∀ k ∈ c.devs, k.pl ≠ 0 ∨ k.ql ≠ 0)
    (dist dist' : List Nat) (order : List (TextLine (Int × Load)))
    (hr : Run dist dist' order (procs.map loadTexts)) (out : List (Option (Int × Load)))
    (ho : writeDataBlock dist dist' order (procs.map loadTexts) = some out) :
    none ∈ out ∧ ¬ out.Perm ((loadTexts procs.flatten).map (fun u => some u.text)) := by
  classical
  have e : loadTexts = blockTexts XBus.glob
      (fun b l => if l.pl = 0 ∧ l.ql = 0 then none else some (loadRec b.number l)) XBus.devs := by
    unfold loadTexts blockTexts
    funext bs
    congr!
  rw [e] at hr ho ⊢
  rw [← blockTexts_flatten]
  refine blockTexts_gap _ _ _ procs hnd dist dist' order hr ⟨b, hb, ?_⟩ ?_ out ho
  · rintro ⟨p, q, k1, k2, k3⟩
    cases p with
    | nil =>
      have := k3 l' (by rw [← List.nil_append q, ← k1, hd]; exact List.mem_cons_of_mem _ hl')
      simp [h1] at this
    | cons z zs =>
      have hz := k2 z List.mem_cons_self
      rw [hd] at k1
      simp only [List.cons_append, List.cons.injEq] at k1
      rw [← k1.1] at hz
      simp [h0.1, h0.2] at hz
  · intro c hc
    by_cases hcb : c.glob = b.glob
    · have : c = b := List.inj_on_of_nodup_map hnd hc hb hcb
      right
      exact ⟨l, by rw [this, hd]; rfl, by simp [h0.1, h0.2]⟩
    · left
      refine ⟨c.devs, [], by simp, ?_, by simp⟩
      intro k hk
      have : ¬ (k.pl = 0 ∧ k.ql = 0) := by
        have := hrest c hc hcb k hk
        tauto
      simp [this]

/-- C174: loads of constant current or constant admittance are left out: a bus whose loads all have no
constant power does not occur in the block, whatever currents and admittances they have. -/
theorem C174_current_violated (procs : List (List (XBus Load))) (n : Int)
    (hn : ∀ b ∈ procs.flatten, b.number = n → ∀ l ∈ b.devs, l.pl = 0 ∧ l.ql = 0) :
    ∀ t ∈ loadTexts procs.flatten, t.text.1 ≠ n := by
  classical
  intro t ht heq
  obtain ⟨b, hb, h⟩ := List.mem_flatMap.mp ht
  obtain ⟨_, _, x, h1, h2⟩ := devTexts_mem _ _ _ _ _ h
  split_ifs at h2 with hx
  simp only [Option.some.injEq] at h2
  rw [← h2] at heq
  exact hx (hn b hb heq x (List.mem_of_getElem? h1))

end GridPACK.Export
