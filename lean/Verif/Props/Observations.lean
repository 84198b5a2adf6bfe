import Verif.Spec.Observations
import Mathlib.Tactic.Common

/-! C265–C269: observations of the dynamic simulation. -/
namespace GridPACK.Observations

open StringUtils (Str)

variable {ο α : Type}

theorem foundAnywhere_iff (np : Nat) (find : Nat → ο → Option Nat) (o : ο) :
    foundAnywhere np find o = true ↔ IsThere np find o := by
  simp [foundAnywhere, IsThere, List.any_eq_true]

theorem sum_found (np : Nat) (find : Nat → ο → Option Nat) (o : ο) :
    (((List.range np).map (fun q => if (find q o).isSome then 1 else 0)).sum ≠ 0) ↔ IsThere np find o := by
  rw [Ne, List.sum_eq_zero_iff]
  unfold IsThere
  constructor
  · intro h
    by_contra hn
    apply h
    intro x hx
    obtain ⟨q, hq, rfl⟩ := List.mem_map.1 hx
    rw [if_neg]
    intro hf
    exact hn ⟨q, List.mem_range.1 hq, hf⟩
  · rintro ⟨q, hq, hf⟩ h
    have := h 1 (List.mem_map.2 ⟨q, List.mem_range.2 hq, by simp [hf]⟩)
    simp at this

theorem mem_foundEntries (find : ο → Option Nat) (names : List ο) (e : Entry ο) :
    e ∈ foundEntries find names ↔
      names[e.pos]? = some e.name ∧ (∃ b, find e.name = some b ∧ e.bus = (b : Int)) ∧ e.dummy = false := by
  unfold foundEntries
  simp only [List.mem_filterMap, Option.map_eq_some_iff, Prod.exists, List.mem_zipIdx_iff_getElem?]
  constructor
  · rintro ⟨o, i, hi, b, hb, rfl⟩
    exact ⟨hi, ⟨b, hb, rfl⟩, rfl⟩
  · rintro ⟨h1, ⟨b, hb, hb'⟩, h3⟩
    refine ⟨e.name, e.pos, h1, b, hb, ?_⟩
    cases e
    simp_all

theorem mem_dummyEntries (np : Nat) (find : Nat → ο → Option Nat) (names : List ο) (e : Entry ο) :
    e ∈ dummyEntries np find names.length names ↔
      names[e.pos]? = some e.name ∧ ¬ IsThere np find e.name ∧ e.bus = -1 ∧ e.dummy = true := by
  unfold dummyEntries
  rw [List.take_of_length_le (by simp)]
  simp only [List.mem_filterMap, Prod.exists, List.mem_zipIdx_iff_getElem?]
  constructor
  · rintro ⟨o, i, hi, h⟩
    by_cases hf : foundAnywhere np find o = true
    · simp [hf] at h
    · simp only [hf, Bool.false_eq_true, if_false, Option.some.injEq] at h
      subst h
      exact ⟨hi, fun he => hf ((foundAnywhere_iff np find o).2 he), rfl, rfl⟩
  · rintro ⟨h1, h2, h3, h4⟩
    refine ⟨e.name, e.pos, h1, ?_⟩
    rw [if_neg (fun h => h2 ((foundAnywhere_iff np find e.name).1 h))]
    cases e
    simp_all

/-- The entries of the processes after the first call. -/
theorem mem_entries (flag : Bool) (np : Nat) (find : Nat → ο → Option Nat) (names : List ο) (r : Nat) (e : Entry ο) :
    e ∈ entries flag np find names.length names r ↔
      names[e.pos]? = some e.name ∧
      (((∃ b, find r e.name = some b ∧ e.bus = (b : Int)) ∧ e.dummy = false) ∨
       (r = 0 ∧ flag = true ∧ ¬ IsThere np find e.name ∧ e.bus = -1 ∧ e.dummy = true)) := by
  unfold entries
  rw [List.mem_append, mem_foundEntries]
  by_cases h : r = 0 ∧ flag = true
  · rw [if_pos h, mem_dummyEntries]
    constructor
    · rintro (⟨a, b⟩ | ⟨a, b⟩)
      · exact ⟨a, Or.inl b⟩
      · exact ⟨a, Or.inr ⟨h.1, h.2, b⟩⟩
    · rintro ⟨a, b | ⟨-, -, b⟩⟩
      · exact Or.inl ⟨a, b⟩
      · exact Or.inr ⟨a, b⟩
  · rw [if_neg h]
    simp only [List.not_mem_nil, or_false]
    constructor
    · rintro ⟨a, b⟩
      exact ⟨a, Or.inl b⟩
    · rintro ⟨a, b | ⟨b1, b2, -⟩⟩
      · exact ⟨a, b⟩
      · exact absurd ⟨b1, b2⟩ h

theorem numElems_spec (np : Nat) (es : Nat → List (Entry ο)) (n : Nat) (h : numElems np es = some n) :
    (∀ q e, q < np → e ∈ es q → e.pos < n) ∧ ∃ q e, q < np ∧ e ∈ es q ∧ e.pos + 1 = n := by
  unfold numElems at h
  have key : ∀ (ps : List Nat) (p : Nat), (∀ x ∈ p :: ps, x ≤ ps.foldl max p) ∧ ps.foldl max p ∈ p :: ps := by
    intro ps
    induction ps with
    | nil => intro p; simp
    | cons x ps ih =>
      intro p
      obtain ⟨h1, h2⟩ := ih (max p x)
      rw [List.foldl_cons]
      refine ⟨?_, ?_⟩
      · intro y hy
        have hm := h1 (max p x) (by simp)
        rcases List.mem_cons.1 hy with rfl | hy
        · exact le_trans (Nat.le_max_left _ _) hm
        · rcases List.mem_cons.1 hy with rfl | hy
          · exact le_trans (Nat.le_max_right _ _) hm
          · exact h1 y (by simp [hy])
      · rcases List.mem_cons.1 h2 with h2 | h2
        · rw [h2]
          rcases Nat.le_total p x with hpx | hpx
          · simp [Nat.max_eq_right hpx]
          · simp [Nat.max_eq_left hpx]
        · simp [h2]
  split at h
  · simp at h
  · rename_i p ps hp
    obtain ⟨k1, k2⟩ := key ps p
    simp only [Option.some.injEq] at h
    rw [← hp] at k1 k2
    refine ⟨?_, ?_⟩
    · intro q e hq he
      have := k1 e.pos (List.mem_map.2 ⟨e, List.mem_flatMap.2 ⟨q, List.mem_range.2 hq, he⟩, rfl⟩)
      omega
    · obtain ⟨e, he, hep⟩ := List.mem_map.1 k2
      obtain ⟨q, hq, he⟩ := List.mem_flatMap.1 he
      exact ⟨q, e, List.mem_range.1 hq, he, by omega⟩

/-- The state after the first call, spelled out. -/
theorem setKind_first (kn ku flag : Bool) (np : Nat) (find : Nat → ο → Option Nat) (new : List ο) (hnew : new ≠ [])
    (s : Nat → St ο) (n : Nat) (h : setKind kn ku flag np find new (fun _ => St.new) = some (s, n)) :
    numElems np (fun r => entries flag np find new.length new r) = some n ∧
    ∀ r, r < np → np ≤ new.length ∧
      s r = ⟨new,
        new.zipIdx.map (fun x => if x.2 < np then
          ((List.range np).map (fun q => if (find q x.1).isSome then 1 else 0)).sum
          else if (find r x.1).isSome then 1 else 0),
        (entries flag np find new.length new r).map Entry.pos,
        (entries flag np find new.length new r).map Entry.name,
        (entries flag np find new.length new r).map Entry.dummy,
        (entries flag np find new.length new r).map Entry.bus⟩ := by
  unfold setKind at h
  have hn : (if kn = true then (St.new : St ο).names ++ new else new) = new := by
    cases kn <;> simp [St.new]
  simp only [hn] at h
  rw [if_neg hnew, if_neg (by simp)] at h
  cases hne : numElems np (fun r => entries flag np find new.length new r) with
  | none => rw [hne] at h; simp at h
  | some m =>
    rw [hne] at h
    simp only at h
    split at h
    · simp at h
    · rename_i hsum
      simp only [Option.some.injEq, Prod.mk.injEq] at h
      obtain ⟨hs, rfl⟩ := h
      refine ⟨rfl, ?_⟩
      intro r hr
      have hle : np ≤ new.length := by
        by_contra hlt
        apply hsum
        rw [List.any_eq_true]
        refine ⟨r, List.mem_range.2 hr, ?_⟩
        unfold sumActive
        rw [if_pos (by simpa using hlt)]
        rfl
      refine ⟨hle, ?_⟩
      rw [← hs]
      have e2 : (if ku = true then ((fun _ => St.new : Nat → St ο) r).use else []) = [] := by
        cases ku <;> simp [St.new]
      simp only [e2, List.nil_append, St.mk.injEq, true_and]
      refine ⟨?_, by simp [St.new]⟩
      unfold sumActive
      rw [if_neg (by simpa using hle)]
      simp only [Option.getD_some]
      apply List.ext_getElem?
      intro i
      simp only [List.getElem?_map, List.getElem?_zipIdx, Option.map_map]
      cases hi : new[i]? with
      | none => rfl
      | some o =>
        simp only [Option.map_some, Function.comp_def, Nat.zero_add, Option.some.injEq]
        by_cases hip : i < np
        · simp only [if_pos hip]
          congr 1
          apply List.map_congr_left
          intro q _
          rw [List.getD_eq_getElem?_getD]
          simp [hi]
        · simp only [if_neg hip]

/-- What is reported after the first call. -/
theorem used_first (kn ku flag : Bool) (np : Nat) (find : Nat → ο → Option Nat) (new : List ο) (hnew : new ≠ [])
    (s : Nat → St ο) (n : Nat) (h : setKind kn ku flag np find new (fun _ => St.new) = some (s, n))
    (r : Nat) (hr : r < np) (i : Nat) (o : ο) (hi : new[i]? = some o) :
    used flag (s r) i = true ↔ flag = true ∨ (if i < np then IsThere np find o else (find r o).isSome) := by
  obtain ⟨-, h2⟩ := setKind_first kn ku flag np find new hnew s n h
  obtain ⟨-, hs⟩ := h2 r hr
  unfold used
  rw [hs]
  simp only [Bool.or_eq_true, decide_eq_true_eq]
  have : (new.zipIdx.map (fun x => if x.2 < np then
          ((List.range np).map (fun q => if (find q x.1).isSome then 1 else 0)).sum
          else if (find r x.1).isSome then 1 else 0)).getD i 0 =
      if i < np then ((List.range np).map (fun q => if (find q o).isSome then 1 else 0)).sum
          else if (find r o).isSome then 1 else 0 := by
    rw [List.getD_eq_getElem?_getD]
    simp [hi]
  rw [this]
  by_cases hip : i < np
  · simp only [if_pos hip]
    rw [sum_found]
  · simp only [if_neg hip]
    by_cases hf : (find r o).isSome = true
    · simp [hf]
    · simp [hf]

/-- C265, exactly.  After the first call process `r` lists, in the order of the configuration, all elements if
non-existing ones are to be reported; otherwise an element among the first `np` names if it exists anywhere, and a
later one if it belongs to process `r` itself. -/
theorem C265_lists_exact (kn ku flag : Bool) (np : Nat) (find : Nat → ο → Option Nat) (new : List ο) (hnew : new ≠ [])
    (s : Nat → St ο) (n : Nat) (h : setKind kn ku flag np find new (fun _ => St.new) = some (s, n))
    (r : Nat) (hr : r < np) (given : List ο) :
    ∃ rep : Nat → ο → Bool,
      getList flag (s r) false given = new.zipIdx.filterMap (fun x => if rep x.2 x.1 then some x.1 else none) ∧
      ∀ i o, rep i o = true ↔ (flag = true ∨ (if i < np then IsThere np find o else (find r o).isSome)) := by
  classical
  refine ⟨fun i o => decide (flag = true ∨ (if i < np then IsThere np find o else (find r o).isSome)), ?_,
    fun i o => by simp⟩
  unfold getList
  have hnames : (s r).names = new := by
    obtain ⟨-, h2⟩ := setKind_first kn ku flag np find new hnew s n h
    rw [(h2 r hr).2]
  simp only [Bool.false_eq_true, if_false, List.nil_append]
  rw [hnames]
  apply List.filterMap_congr
  rintro ⟨o, i⟩ hx
  rw [List.mem_zipIdx_iff_getElem?] at hx
  have := used_first kn ku flag np find new hnew s n h r hr i o hx
  by_cases hu : used flag (s r) i = true
  · rw [if_pos hu, if_pos]
    simpa using this.1 hu
  · rw [if_neg hu, if_neg]
    intro hc
    exact hu (this.2 (by simpa using hc))

/-- C265 (part).  If non-existing elements are to be reported, every process lists all elements; otherwise, on one
process or with as many observations as processes, every process lists exactly the existing elements in the order
of the configuration. -/
theorem C265_lists_partial (kn ku flag : Bool) (np : Nat) (find : Nat → ο → Option Nat) (new : List ο) (hnew : new ≠ [])
    (s : Nat → St ο) (n : Nat) (h : setKind kn ku flag np find new (fun _ => St.new) = some (s, n))
    (r : Nat) (hr : r < np) (given : List ο) (hcase : flag = true ∨ np = 1 ∨ new.length = np)
    (ex : ο → Bool) (hex : ∀ o, ex o = true ↔ IsThere np find o) :
    getList flag (s r) false given = if flag then new else new.filter ex := by
  obtain ⟨rep, h1, h2⟩ := C265_lists_exact kn ku flag np find new hnew s n h r hr given
  rw [h1]
  have key : ∀ (l : List ο) (k : Nat) (f : ο → Bool), (∀ i o, l[i]? = some o → rep (k + i) o = f o) →
      (l.zipIdx k).filterMap (fun x => if rep x.2 x.1 then some x.1 else none) = l.filter f := by
    intro l
    induction l with
    | nil => intro k f _; rfl
    | cons a l ih =>
      intro k f hf
      have h0 := hf 0 a rfl
      rw [List.zipIdx_cons, List.filterMap_cons, List.filter_cons]
      have ht := ih (k + 1) f (fun i o hi => by
        have := hf (i + 1) o (by simpa using hi)
        rw [← this]
        congr 1
        omega)
      simp only [Nat.add_zero] at h0
      rw [h0]
      cases f a <;> simp [ht]
  cases flag with
  | true =>
    rw [key new 0 (fun _ => true)]
    · simp
    · intro i o _
      exact (h2 _ o).2 (Or.inl rfl)
  | false =>
    rw [key new 0 ex]
    · simp
    · intro i o hi
      rw [Nat.zero_add, Bool.eq_iff_iff, h2, hex]
      simp only [Bool.false_eq_true, false_or]
      split
      · exact Iff.rfl
      · rename_i hip
        rcases hcase with hc | hc | hc
        · simp at hc
        · subst hc
          have : r = 0 := by omega
          subst this
          unfold IsThere
          constructor
          · intro hf; exact ⟨0, hr, hf⟩
          · rintro ⟨q, hq, hf⟩
            have : q = 0 := by omega
            subst this
            exact hf
        · have := (List.getElem?_eq_some_iff.1 hi).1
          omega

/-- C265 fails on several processes: an existing element whose position in the configuration is not below the number
of processes is listed by its own process only. -/
theorem C265_lists_violated (kn ku : Bool) (np : Nat) (find : Nat → ο → Option Nat) (new : List ο) (hnew : new ≠ [])
    (hnd : new.Nodup) (howner : OneOwner np find)
    (s : Nat → St ο) (n : Nat) (h : setKind kn ku false np find new (fun _ => St.new) = some (s, n))
    (i : Nat) (o : ο) (hi : new[i]? = some o) (hip : np ≤ i) (q : Nat) (hq : q < np) (hf : (find q o).isSome) :
    o ∈ getList false (s q) false [] ∧ ∀ r, r < np → r ≠ q → o ∉ getList false (s r) false [] := by
  constructor
  · obtain ⟨rep, h1, h2⟩ := C265_lists_exact kn ku false np find new hnew s n h q hq []
    rw [h1, List.mem_filterMap]
    refine ⟨(o, i), List.mem_zipIdx_iff_getElem?.2 hi, ?_⟩
    rw [if_pos]
    rw [h2, if_neg (by omega)]
    exact Or.inr hf
  · intro r hr hrq hmem
    obtain ⟨rep, h1, h2⟩ := C265_lists_exact kn ku false np find new hnew s n h r hr []
    rw [h1, List.mem_filterMap] at hmem
    obtain ⟨⟨o', j⟩, hj, hrep⟩ := hmem
    rw [List.mem_zipIdx_iff_getElem?] at hj
    split at hrep
    · rename_i hr'
      simp only [Option.some.injEq] at hrep
      subst hrep
      have hij : j = i := by
        have hjl := (List.getElem?_eq_some_iff.1 hj)
        have hil := (List.getElem?_eq_some_iff.1 hi)
        exact (List.Nodup.getElem_inj_iff hnd).1 (hjl.2.trans hil.2.symm)
      subst hij
      have := (h2 j o').1 hr'
      rw [if_neg (by omega)] at this
      rcases this with this | this
      · simp at this
      · exact hrq (howner o' r q hr hq this hf)
    · simp at hrep

/-- C265 fails if there are fewer observations of a kind than processes: `setObservations` reads and writes outside its
vectors.  It also fails (with an exception) if none of the observed elements exists. -/
theorem C265_undefined_violated (kn ku flag : Bool) (np : Nat) (find : Nat → ο → Option Nat) (new : List ο)
    (hnew : new ≠ []) (hnp : 0 < np) :
    (new.length < np → setKind kn ku flag np find new (fun _ => St.new) = none) ∧
    ((∀ o ∈ new, ¬ IsThere np find o) → setKind kn ku false np find new (fun _ => St.new) = none) := by
  constructor
  · intro hlt
    cases h : setKind kn ku flag np find new (fun _ => St.new) with
    | none => rfl
    | some p =>
      have := (setKind_first kn ku flag np find new hnew p.1 p.2 h).2 0 hnp
      omega
  · intro hno
    cases h : setKind kn ku false np find new (fun _ => St.new) with
    | none => rfl
    | some p =>
      have h1 := (setKind_first kn ku false np find new hnew p.1 p.2 h).1
      obtain ⟨q, e, hq, he, -⟩ := (numElems_spec np _ _ h1).2
      rw [mem_entries] at he
      obtain ⟨hpos, hc⟩ := he
      have hmem : e.name ∈ new := List.mem_of_getElem? hpos
      rcases hc with ⟨⟨b, hb, -⟩, -⟩ | ⟨-, hf, -⟩
      · exact absurd ⟨q, hq, by rw [hb]; rfl⟩ (hno _ hmem)
      · simp at hf

/-- Otherwise the first call succeeds. -/
theorem C265_defined (kn ku flag : Bool) (np : Nat) (find : Nat → ο → Option Nat) (new : List ο) (hnp : 0 < np)
    (hle : np ≤ new.length) (hsome : flag = true ∨ ∃ o ∈ new, IsThere np find o) :
    ∃ s n, setKind kn ku flag np find new (fun _ => St.new) = some (s, n) := by
  have hnew : new ≠ [] := by
    intro h; subst h; simp at hle; omega
  unfold setKind
  have hn : (if kn = true then (St.new : St ο).names ++ new else new) = new := by
    cases kn <;> simp [St.new]
  simp only [hn]
  rw [if_neg hnew, if_neg (by simp)]
  have hne : ∃ m, numElems np (fun r => entries flag np find new.length new r) = some m := by
    obtain ⟨q, e, hq, he⟩ : ∃ q e, q < np ∧ e ∈ entries flag np find new.length new q := by
      by_cases hex : ∃ o ∈ new, IsThere np find o
      · obtain ⟨o, ho, q, hq, hf⟩ := hex
        obtain ⟨i, hi⟩ := List.mem_iff_getElem?.1 ho
        obtain ⟨b, hb⟩ := Option.isSome_iff_exists.1 hf
        exact ⟨q, ⟨i, o, (b : Int), false⟩, hq,
          (mem_entries flag np find new q _).2 ⟨hi, Or.inl ⟨⟨b, hb, rfl⟩, rfl⟩⟩⟩
      · have hfl : flag = true := by
          rcases hsome with h | h
          · exact h
          · exact absurd h hex
        obtain ⟨o, ho⟩ := List.exists_mem_of_ne_nil new hnew
        obtain ⟨i, hi⟩ := List.mem_iff_getElem?.1 ho
        exact ⟨0, ⟨i, o, -1, true⟩, hnp,
          (mem_entries flag np find new 0 _).2 ⟨hi, Or.inr ⟨rfl, hfl, fun h => hex ⟨o, ho, h⟩, rfl, rfl⟩⟩⟩
    unfold numElems
    split
    · rename_i hnil
      have : e.pos ∈ ((List.range np).flatMap (fun r => entries flag np find new.length new r)).map Entry.pos :=
        List.mem_map.2 ⟨e, List.mem_flatMap.2 ⟨q, List.mem_range.2 hq, he⟩, rfl⟩
      rw [hnil] at this
      simp at this
    · exact ⟨_, rfl⟩
  obtain ⟨m, hm⟩ := hne
  rw [hm]
  simp only
  rw [if_neg]
  · exact ⟨_, _, rfl⟩
  · rw [List.any_eq_true]
    rintro ⟨r, -, hr⟩
    unfold sumActive at hr
    rw [if_neg (by simpa using hle)] at hr
    simp at hr

theorem foldl_write (ws : List (Nat × α)) (i : Nat) (v : α) : ∀ g : Nat → α,
    (∀ x ∈ ws, x.1 = i → x.2 = v) → ((∃ x ∈ ws, x.1 = i) ∨ g i = v) →
    ws.foldl (fun g x => fun j => if j = x.1 then x.2 else g j) g i = v := by
  induction ws with
  | nil =>
    intro g _ h
    rcases h with ⟨x, hx, -⟩ | h
    · simp at hx
    · exact h
  | cons x ws ih =>
    intro g hall h
    rw [List.foldl_cons]
    apply ih
    · exact fun y hy => hall y (by simp [hy])
    · by_cases hx : x.1 = i
      · right
        simp [hx, hall x (by simp) hx]
      · rcases h with ⟨y, hy, hyi⟩ | h
        · rcases List.mem_cons.1 hy with rfl | hy
          · exact absurd hyi hx
          · exact Or.inl ⟨y, hy, hyi⟩
        · right
          simp [Ne.symm hx, h]

/-- The values of one process after the first call. -/
theorem localVals_entries (val : Int → ο → Option α) (dflt : α) (es : List (Entry ο)) (names : List ο) (act : List Nat)
    (hval : ∀ e ∈ es, e.dummy = false → (val e.bus e.name).isSome) :
    localVals val dflt ⟨names, act, es.map Entry.pos, es.map Entry.name, es.map Entry.dummy, es.map Entry.bus⟩ =
      es.map (fun e => if e.dummy then dflt else (val e.bus e.name).getD dflt) := by
  unfold localVals
  simp only
  have key : ∀ (l : List (Entry ο)) (k : Nat), (∀ i e, l[i]? = some e → es[k + i]? = some e) →
      ((l.map Entry.name).zipIdx k).filterMap (fun x =>
        if (es.map Entry.dummy).getD x.2 false then some dflt else val ((es.map Entry.bus).getD x.2 (-1)) x.1) =
      l.map (fun e => if e.dummy then dflt else (val e.bus e.name).getD dflt) := by
    intro l
    induction l with
    | nil => intro k _; rfl
    | cons a l ih =>
      intro k hk
      have h0 := hk 0 a rfl
      rw [Nat.add_zero] at h0
      rw [List.map_cons, List.zipIdx_cons, List.filterMap_cons, List.map_cons]
      have ht := ih (k + 1) (fun i e hi => by
        have := hk (i + 1) e (by simpa using hi)
        rw [← this]
        congr 1
        omega)
      rw [ht]
      have hd : (es.map Entry.dummy).getD k false = a.dummy := by
        rw [List.getD_eq_getElem?_getD]; simp [h0]
      have hb : (es.map Entry.bus).getD k (-1) = a.bus := by
        rw [List.getD_eq_getElem?_getD]; simp [h0]
      simp only [hd, hb]
      cases hda : a.dummy with
      | true => simp
      | false =>
        obtain ⟨v, hv⟩ := Option.isSome_iff_exists.1 (hval a (List.mem_of_getElem? h0) hda)
        simp [hv]
  exact key es 0 (fun i e h => by simpa using h)

/-- C266.  On every process the values returned belong, one by one, to the elements listed on that process: each is
the present value of the element itself, wherever it is, and the value for missing elements if there is no such
element. -/
theorem C266_values (kn ku flag : Bool) (np : Nat) (find : Nat → ο → Option Nat) (new : List ο) (hnew : new ≠ [])
    (howner : OneOwner np find) (val : Nat → Int → ο → Option α) (dflt : α)
    (hval : ∀ q o b, q < np → find q o = some b → (val q b o).isSome)
    (s : Nat → St ο) (n : Nat) (h : setKind kn ku flag np find new (fun _ => St.new) = some (s, n))
    (g : Nat → α) (r : Nat) (hr : r < np) (given : List ο) :
    List.Forall₂ (IsValue np find val dflt) (getList flag (s r) false given)
      (getValues flag np n val dflt s g r) := by
  obtain ⟨hne, hst⟩ := setKind_first kn ku flag np find new hnew s n h
  obtain ⟨hpos, q0, e0, hq0, he0, hn0⟩ := numElems_spec np _ _ hne
  -- every write concerns an existing position and carries the right value
  have hw : ∀ q, q < np → writes (val q) dflt (s q) =
      (entries flag np find new.length new q).map
        (fun e => (e.pos, if e.dummy then dflt else (val q e.bus e.name).getD dflt)) := by
    intro q hq
    have hv : ∀ e ∈ entries flag np find new.length new q, e.dummy = false → (val q e.bus e.name).isSome := by
      intro e he hd
      rw [mem_entries] at he
      rcases he.2 with ⟨⟨b, hb, hb'⟩, -⟩ | ⟨-, -, -, -, hd'⟩
      · rw [hb']; exact hval q _ b hq hb
      · rw [hd] at hd'; simp at hd'
    unfold writes
    rw [(hst q hq).2]
    rw [localVals_entries (val q) dflt _ _ _ hv]
    simp only
    rw [if_pos (by simp), List.zip_map']
  have hwrite : ∀ i o v, new[i]? = some o → IsValue np find val dflt o v →
      (IsThere np find o ∨ flag = true) → reload np val dflt s g i = v := by
    intro i o v hi hv hex
    unfold reload
    apply foldl_write
    · intro x hx hxi
      obtain ⟨q, hq, hx⟩ := List.mem_flatMap.1 hx
      rw [hw q (List.mem_range.1 hq)] at hx
      obtain ⟨e, he, rfl⟩ := List.mem_map.1 hx
      simp only at hxi ⊢
      rw [mem_entries] at he
      obtain ⟨hp, hc⟩ := he
      rw [hxi, hi] at hp
      simp only [Option.some.injEq] at hp
      rcases hc with ⟨⟨b, hb, hb'⟩, hd⟩ | ⟨-, -, hne', -, hd⟩
      · rw [hd, ← hp, hb', hv.1 q b (List.mem_range.1 hq) (by rw [hp]; exact hb)]
        simp
      · rw [hd]
        simp only [if_true]
        exact (hv.2 (by rw [hp]; exact hne')).symm
    · left
      by_cases hE : IsThere np find o
      · obtain ⟨q, hq, hf⟩ := hE
        obtain ⟨b, hb⟩ := Option.isSome_iff_exists.1 hf
        refine ⟨(i, if (false : Bool) then dflt else (val q b o).getD dflt),
          List.mem_flatMap.2 ⟨q, List.mem_range.2 hq, ?_⟩, rfl⟩
        rw [hw q hq]
        exact List.mem_map.2 ⟨⟨i, o, (b : Int), false⟩,
          (mem_entries flag np find new q _).2 ⟨hi, Or.inl ⟨⟨b, hb, rfl⟩, rfl⟩⟩, rfl⟩
      · have hfl : flag = true := by tauto
        refine ⟨(i, dflt), List.mem_flatMap.2 ⟨0, List.mem_range.2 (by omega), ?_⟩, rfl⟩
        rw [hw 0 (by omega)]
        exact List.mem_map.2 ⟨⟨i, o, -1, true⟩,
          (mem_entries flag np find new 0 _).2 ⟨hi, Or.inr ⟨rfl, hfl, hE, rfl, rfl⟩⟩, by simp⟩
  -- every element has a value
  have hvalue : ∀ o, ∃ v, IsValue np find val dflt o v := by
    intro o
    by_cases hE : IsThere np find o
    · obtain ⟨q, hq, hf⟩ := hE
      obtain ⟨b, hb⟩ := Option.isSome_iff_exists.1 hf
      obtain ⟨v, hv⟩ := Option.isSome_iff_exists.1 (hval q o b hq hb)
      refine ⟨v, ?_, fun hn => absurd ⟨q, hq, hf⟩ hn⟩
      intro q' b' hq' hb'
      have := howner o q' q hq' hq (by rw [hb']; rfl) hf
      subst this
      rw [hb] at hb'
      cases hb'
      exact hv
    · exact ⟨dflt, fun q b hq hb => absurd ⟨q, hq, by rw [hb]; rfl⟩ hE, fun _ => rfl⟩
  -- a reported position lies inside the global vector
  have hinside : ∀ i o, new[i]? = some o → used flag (s r) i = true →
      i < n ∧ (IsThere np find o ∨ flag = true) := by
    intro i o hi hu
    rw [used_first kn ku flag np find new hnew s n h r hr i o hi] at hu
    have hex : IsThere np find o ∨ flag = true := by
      rcases hu with hu | hu
      · exact Or.inr hu
      · split at hu
        · exact Or.inl hu
        · exact Or.inl ⟨r, hr, hu⟩
    refine ⟨?_, hex⟩
    by_cases hE : IsThere np find o
    · obtain ⟨q, hq, hf⟩ := hE
      obtain ⟨b, hb⟩ := Option.isSome_iff_exists.1 hf
      exact hpos q ⟨i, o, (b : Int), false⟩ hq
        ((mem_entries flag np find new q _).2 ⟨hi, Or.inl ⟨⟨b, hb, rfl⟩, rfl⟩⟩)
    · have hfl : flag = true := by tauto
      exact hpos 0 ⟨i, o, -1, true⟩ (by omega)
        ((mem_entries flag np find new 0 _).2 ⟨hi, Or.inr ⟨rfl, hfl, hE, rfl, rfl⟩⟩)
  have hnlen : n ≤ new.length := by
    rw [mem_entries] at he0
    have := (List.getElem?_eq_some_iff.1 he0.1).1
    omega
  -- both lists run through the positions
  have hlist : getList flag (s r) false given =
      (List.range new.length).filterMap (fun i => if used flag (s r) i then new[i]? else none) := by
    unfold getList
    simp only [Bool.false_eq_true, if_false, List.nil_append]
    rw [(hst r hr).2]
    simp only
    generalize used flag _ = u
    have key : ∀ (l : List ο) (k : Nat), (∀ i, l[i]? = new[k + i]?) →
        (l.zipIdx k).filterMap (fun x => if u x.2 then some x.1 else none) =
        (List.range' k l.length).filterMap (fun i => if u i then new[i]? else none) := by
      intro l
      induction l with
      | nil => intro k _; rfl
      | cons a l ih =>
        intro k hk
        have h0 := hk 0
        simp only [List.getElem?_cons_zero, Nat.add_zero] at h0
        rw [List.zipIdx_cons, List.filterMap_cons, List.length_cons, List.range'_succ, List.filterMap_cons,
          ih (k + 1) (fun i => by
            have := hk (i + 1)
            simp only [List.getElem?_cons_succ] at this
            rw [this]
            congr 1
            omega)]
        simp only [← h0]
    rw [key new 0 (by simp), List.range_eq_range']
  rw [hlist]
  unfold getValues
  have hsplit : (List.range new.length).filterMap (fun i => if used flag (s r) i then new[i]? else none) =
      (List.range n).filterMap (fun i => if used flag (s r) i then new[i]? else none) := by
    obtain ⟨m, hm⟩ := Nat.exists_eq_add_of_le hnlen
    rw [hm, List.range_add, List.filterMap_append]
    rw [show List.filterMap (fun i => if used flag (s r) i then new[i]? else none)
      ((List.range m).map (fun x => n + x)) = [] from ?_, List.append_nil]
    rw [List.filterMap_eq_nil_iff]
    intro i hi
    obtain ⟨j, hj, rfl⟩ := List.mem_map.1 hi
    by_cases hu : used flag (s r) (n + j) = true
    · exfalso
      have hlt : n + j < new.length := by
        have := List.mem_range.1 hj
        omega
      have := (hinside (n + j) new[n + j] (List.getElem?_eq_getElem hlt) hu).1
      omega
    · simp [hu]
  rw [hsplit]
  have hall : ∀ i ∈ List.range n, i < new.length := fun i hi => by
    have := List.mem_range.1 hi
    omega
  revert hall
  generalize List.range n = ns
  intro hall
  induction ns with
  | nil => exact List.Forall₂.nil
  | cons i ns ih =>
    have ih' := ih (fun j hj => hall j (by simp [hj]))
    rw [List.filterMap_cons, List.filterMap_cons]
    by_cases hu : used flag (s r) i = true
    · obtain ⟨o, hi⟩ : ∃ o, new[i]? = some o := ⟨_, List.getElem?_eq_getElem (hall i (by simp))⟩
      simp only [hu, if_true, hi]
      obtain ⟨v, hv⟩ := hvalue o
      refine List.Forall₂.cons ?_ ih'
      rw [hwrite i o v hi hv (hinside i _ hi hu).2]
      exact hv
    · simp only [hu, Bool.false_eq_true, if_false]
      exact ih'

/-- C267 fails: when the observations are set a second time, the `k`-th value of a process is read from the bus of its
`k`-th observation of the first time, for as many observations as there were the first time. -/
theorem C267_second_violated (ku flag : Bool) (np : Nat) (find : Nat → ο → Option Nat) (new1 new2 : List ο)
    (h1 : new1 ≠ []) (h2 : new2 ≠ []) (s1 s2 : Nat → St ο) (n1 n2 : Nat)
    (e1 : setKind false false flag np find new1 (fun _ => St.new) = some (s1, n1))
    (e2 : setKind false ku flag np find new2 s1 = some (s2, n2))
    (r : Nat) (hr : r < np) (k : Nat) (hk : k < (s1 r).lIdx.length) :
    (s2 r).bus.getD k (-1) = (s1 r).bus.getD k (-1) ∧ (s2 r).names = new2 := by
  have hs1 := ((setKind_first false false flag np find new1 h1 s1 n1 e1).2 r hr).2
  have hlen : (s1 r).lIdx.length = (s1 r).bus.length := by rw [hs1]; simp
  unfold setKind at e2
  simp only [Bool.false_eq_true, if_false] at e2
  rw [if_neg h2, if_neg (by simp)] at e2
  split at e2
  · simp at e2
  · split at e2
    · simp at e2
    · simp only [Option.some.injEq, Prod.mk.injEq] at e2
      rw [← e2.1]
      refine ⟨?_, rfl⟩
      simp only
      rw [List.getD_eq_getElem?_getD, List.getD_eq_getElem?_getD, List.getElem?_append_left (by omega)]

/-- C267 as far as it holds: whatever was set before, setting generators or buses (kinds whose names and marks are cleared)
gives the lists, the positions, the names and the marks of the new configuration alone, and only the local bus indices
of before stay in front; without such indices nothing of before is left. -/
theorem C267_lists_partial (flag : Bool) (np : Nat) (find : Nat → ο → Option Nat) (new : List ο) (hnew : new ≠ [])
    (old : Nat → St ο) (s : Nat → St ο) (n : Nat)
    (h : setKind false false flag np find new (fun _ => St.new) = some (s, n)) :
    ∃ s2, setKind false false flag np find new old = some (s2, n) ∧
      (∀ r keep given, getList flag (s2 r) keep given = getList flag (s r) keep given) ∧
      (∀ r, s2 r = { s r with bus := (old r).bus ++ (s r).bus }) ∧
      ((∀ r, (old r).bus = []) → s2 = s) := by
  unfold setKind at h ⊢
  simp only [Bool.false_eq_true, if_false] at h ⊢
  rw [if_neg hnew, if_neg (by simp)] at h ⊢
  split at h
  · simp at h
  · rename_i n' hn'
    split at h
    · simp at h
    · rename_i hs
      simp only [Option.some.injEq, Prod.mk.injEq] at h
      obtain ⟨rfl, rfl⟩ := h
      simp only [if_neg hs]
      refine ⟨_, rfl, fun r keep given => rfl, fun r => ?_, fun hb => ?_⟩
      · simp [St.new]
      · funext r
        simp [hb r, St.new]

/-- C267 fails, as seen by the caller: on one process first `a` and then `b` is observed; the list is `b`, but the value
is what the bus of `a` says. -/
theorem C267_value_violated (flag : Bool) (find : Nat → ο → Option Nat) (a b : ο) (ja jb : Nat)
    (ha : find 0 a = some ja) (hb : find 0 b = some jb) (val : Nat → Int → ο → Option α) (dflt v : α)
    (hv : val 0 ja b = some v) (g : Nat → α) :
    ∃ s1 n1 s2 n2, setKind false false flag 1 find [a] (fun _ => St.new) = some (s1, n1) ∧
      setKind false false flag 1 find [b] s1 = some (s2, n2) ∧
      getList flag (s2 0) false [] = [b] ∧ getValues flag 1 n2 val dflt s2 g 0 = [v] := by
  cases flag <;>
  simp [setKind, St.new, numElems, entries, foundEntries, dummyEntries, foundAnywhere, sumActive, getList, getValues,
    used, reload, writes, localVals, ha, hb, hv, List.range_succ]

/-- C267 fails for loads altogether: the names of the first time are still there, and if one of those old names that
now come after the positions of the new block belongs to a process, memory outside a vector is written. -/
theorem C267_loads_violated (ku flag : Bool) (np : Nat) (find : Nat → ο → Option Nat) (new : List ο)
    (old : Nat → St ο) (r : Nat) (hr : r < np) (o : ο) (ho : o ∈ ((old r).names ++ new).drop new.length)
    (hf : (find r o).isSome) (hne : (old 0).names ++ new ≠ []) :
    setKind true ku flag np find new old = none := by
  unfold setKind
  simp only [if_true]
  rw [if_neg hne, if_pos]
  rw [List.any_eq_true]
  exact ⟨r, List.mem_range.2 hr, List.any_eq_true.2 ⟨o, ho, hf⟩⟩

/-- C268 fails for loads: the list given by the caller is not cleared, so a second call with the same vector gives
every load twice. -/
theorem C268_lists_violated (flag : Bool) (s : St ο) :
    getList flag s true (getList flag s true []) = getList flag s true [] ++ getList flag s true [] := by
  simp [getList]

/-- C268 (part).  For generators and buses the previous content of the vectors does not matter. -/
theorem C268_lists_partial (flag : Bool) (s : St ο) (given : List ο) :
    getList flag s false given = getList flag s false [] := by
  simp [getList]

/-- C269.  Voltage magnitude and angle are the polar form of the voltage of the bus. -/
theorem C269_polar (v : ℂ) (hv : v ≠ 0) : polar v = (‖v‖, v.arg) := by
  unfold polar
  have hn : Real.sqrt (v.re * v.re + v.im * v.im) = ‖v‖ := by
    rw [Complex.norm_def, Complex.normSq_apply]
  simp only [hn]
  rw [Prod.mk.injEq]
  refine ⟨rfl, ?_⟩
  split
  · rename_i h
    rw [Complex.arg_of_im_neg h]
  · rename_i h
    rw [Complex.arg_of_im_nonneg_of_ne_zero (not_lt.1 h) hv]

/-- Each number belongs to an active bus of one process only. -/
def ActiveOnce (np : Nat) (buses : Nat → List LBus) : Prop :=
  ∀ q q' b b', q < np → q' < np → b ∈ buses q → b' ∈ buses q' → b.active = true → b'.active = true →
    b.orig = b'.orig → q = q'

theorem find_range_isSome (buses : List LBus) (p : LBus → Bool) (l : List Nat) (hl : ∀ j, j < buses.length → j ∈ l) :
    (l.find? (fun j => (buses[j]?).any p)).isSome ↔ ∃ b ∈ buses, p b = true := by
  rw [List.find?_isSome]
  constructor
  · rintro ⟨j, -, h⟩
    cases hb : buses[j]? with
    | none => rw [hb] at h; simp at h
    | some b => rw [hb] at h; exact ⟨b, List.mem_of_getElem? hb, h⟩
  · rintro ⟨b, hb, hp⟩
    obtain ⟨j, hj⟩ := List.mem_iff_getElem?.1 hb
    exact ⟨j, hl j (List.getElem?_eq_some_iff.1 hj).1, by rw [hj]; exact hp⟩

/-- C265, the searches: a generator (a load, a bus) is found on a process exactly if an active bus there has the number
and a device of that name; and if each number is active on one process only, it is found on one process only. -/
theorem C265_search (np : Nat) (buses : Nat → List LBus) (hone : ActiveOnce np buses) :
    (∀ q o, (findGen (buses q) o).isSome ↔ ∃ b ∈ buses q, b.orig = o.1 ∧ b.active = true ∧ o.2 ∈ b.gens) ∧
    (∀ q o, (findLoad (buses q) o).isSome ↔
      ∃ b ∈ buses q, b.orig = o.1 ∧ b.active = true ∧ (o.2 ∈ b.loads ∨ o.2 ∈ b.dyn)) ∧
    (∀ q o, (findBus (buses q) o).isSome ↔ ∃ b ∈ buses q, b.orig = o ∧ b.active = true) ∧
    OneOwner np (fun q => findGen (buses q)) ∧ OneOwner np (fun q => findLoad (buses q)) ∧
    OneOwner np (fun q => findBus (buses q)) := by
  have g : ∀ q o, (findGen (buses q) o).isSome ↔ ∃ b ∈ buses q, b.orig = o.1 ∧ b.active = true ∧ o.2 ∈ b.gens := by
    intro q o
    unfold findGen
    rw [find_range_isSome (buses q) (fun b => decide (b.orig = o.1) && b.active && decide (o.2 ∈ b.gens)) _
      (by simp)]
    simp [and_assoc]
  have l : ∀ q o, (findLoad (buses q) o).isSome ↔
      ∃ b ∈ buses q, b.orig = o.1 ∧ b.active = true ∧ (o.2 ∈ b.loads ∨ o.2 ∈ b.dyn) := by
    intro q o
    unfold findLoad
    rw [find_range_isSome (buses q)
      (fun b => decide (b.orig = o.1) && b.active && (decide (o.2 ∈ b.loads) || decide (o.2 ∈ b.dyn))) _ (by simp)]
    simp [and_assoc]
  have u : ∀ q o, (findBus (buses q) o).isSome ↔ ∃ b ∈ buses q, b.orig = o ∧ b.active = true := by
    intro q o
    unfold findBus
    rw [find_range_isSome (buses q) (fun b => decide (b.orig = o) && b.active) _ (by simp)]
    simp
  refine ⟨g, l, u, ?_, ?_, ?_⟩
  · intro o q q' hq hq' h h'
    obtain ⟨b, hb, e, a, -⟩ := (g q o).1 h
    obtain ⟨b', hb', e', a', -⟩ := (g q' o).1 h'
    exact hone q q' b b' hq hq' hb hb' a a' (e.trans e'.symm)
  · intro o q q' hq hq' h h'
    obtain ⟨b, hb, e, a, -⟩ := (l q o).1 h
    obtain ⟨b', hb', e', a', -⟩ := (l q' o).1 h'
    exact hone q q' b b' hq hq' hb hb' a a' (e.trans e'.symm)
  · intro o q q' hq hq' h h'
    obtain ⟨b, hb, e, a⟩ := (u q o).1 h
    obtain ⟨b', hb', e', a'⟩ := (u q' o).1 h'
    exact hone q q' b b' hq hq' hb hb' a a' (e.trans e'.symm)

/-! Examples: three buses on two processes, bus 2 of the first process is also a ghost on the second. -/

/-- Process 0 holds buses 1 and 2, process 1 bus 3 and a ghost of 2. -/
def exFind : Nat → Int → Option Nat := fun q =>
  findBus (if q = 0 then [⟨1, true, [], [], []⟩, ⟨2, true, [], [], []⟩]
    else [⟨2, false, [], [], []⟩, ⟨3, true, [], [], []⟩])

example : OneOwner 2 exFind := by
  intro o q q' hq hq' h h'
  have e : ∀ q, exFind q = findBus (if q = 0 then [⟨1, true, [], [], []⟩, ⟨2, true, [], [], []⟩]
    else [⟨2, false, [], [], []⟩, ⟨3, true, [], [], []⟩]) := fun _ => rfl
  have hone : ActiveOnce 2 (fun q => if q = 0 then [⟨1, true, [], [], []⟩, ⟨2, true, [], [], []⟩]
    else [⟨2, false, [], [], []⟩, ⟨3, true, [], [], []⟩]) := by
    intro q q' b b' hq hq' hb hb' ha ha' he
    have c : q = 0 ∨ q = 1 := by omega
    have c' : q' = 0 ∨ q' = 1 := by omega
    rcases c with rfl | rfl <;> rcases c' with rfl | rfl <;> simp at hb hb' ⊢ <;>
      rcases hb with rfl | rfl <;> rcases hb' with rfl | rfl <;> simp_all
  exact (C265_search 2 _ hone).2.2.2.2.2 o q q' hq hq' h h'

/-- With the names 1, 2, 3, 9 on two processes: bus 3, in third place, is missing on process 0. -/
example : (setKind false false false 2 exFind [1, 2, 3, 9] (fun _ => St.new)).map
    (fun x => ((x.1 0).active, (x.1 1).active, getList false (x.1 0) false [], getList false (x.1 1) false [])) =
    some ([1, 1, 0, 0], [1, 1, 1, 0], [1, 2], [1, 2, 3]) := by decide

example : (setKind false false true 2 exFind [1, 2, 3, 9] (fun _ => St.new)).map
    (fun x => (getList true (x.1 0) false [],
      getValues true 2 x.2 (fun _ b o => some (10 * o + b)) 77 x.1 (fun _ => 0) 1)) =
    some ([1, 2, 3, 9], [10, 21, 31, 77]) := by decide

/-- One name on two processes: outside the vector. -/
example : (setKind false false true 2 exFind [1] (fun _ => St.new)).isNone := by decide

/-- Two configurations one after the other: bus 2 is reported with what bus 1 says. -/
example : ((setKind false false true 1 exFind [1] (fun _ => St.new)).bind
    (fun x => setKind false false true 1 exFind [2] x.1)).map
    (fun x => (getList true (x.1 0) false [],
      getValues true 1 x.2 (fun _ b _ => some (100 + b)) 77 x.1 (fun _ => 0) 0)) =
    some ([2], [100]) := by decide

example : polar (-2) = (‖(-2 : ℂ)‖, (-2 : ℂ).arg) := C269_polar _ (by norm_num)

end GridPACK.Observations
