import Verif.Lemmas.DyrNet

/-! Lemmas about reading .dyr files: the distribution of the structs. -/
namespace GridPACK.Dyr
open StringUtils DataCollection
open RawBus (Val Data get idxOk intVal getInt intVal_get getValue_get)
open DyrSpec (Par Complete Rest IsDevice Describes Gives Proper Unknown Place externalErrors)
open HashDistr (BoundOk)

/-- One step after the other. -/
def runList {σ : Type} (f : σ → Data → Option Data) : List σ → Data → Option Data
  | [], c => some c
  | s :: ss, c => (f s c).bind (runList f ss)

theorem runList_append {σ : Type} (f : σ → Data → Option Data) (l l' : List σ) (c : Data) :
    runList f (l ++ l') c = (runList f l c).bind (runList f l') := by
  induction l generalizing c with
  | nil => rfl
  | cons s l ih =>
    simp only [List.cons_append, runList]
    cases f s c with
    | none => rfl
    | some d => simp [ih]

theorem runList_map {σ τ : Type} (f : σ → Data → Option Data) (g : τ → σ) (l : List τ) (c : Data) :
    runList f (l.map g) c = runList (fun x => f (g x)) l c := by
  induction l generalizing c with
  | nil => rfl
  | cons s l ih =>
    simp only [List.map_cons, runList]
    cases f (g s) c with
    | none => rfl
    | some d => simp [ih]

theorem modifyAt_some {α : Type} {f : α → Option α} : ∀ {n : Nat} {l : List α} {a b : α}, l[n]? = some a → f a = some b →
    modifyAt f n l = some (l.set n b) := by
  intro n l
  induction l generalizing n with
  | nil => simp
  | cons x l ih =>
    intro a b ha hb
    cases n with
    | zero =>
      simp only [List.getElem?_cons_zero, Option.some.injEq] at ha
      subst ha
      simp [modifyAt, hb]
    | succ n =>
      simp only [List.getElem?_cons_succ] at ha
      simp [modifyAt, ih ha hb]

/-- The values for one index. -/
def sel {σ : Type} (i : Nat) (l : List (Nat × σ)) : List σ := (l.filter (fun x => decide (x.1 = i))).map (·.2)

theorem sel_cons {σ : Type} (i : Nat) (p : Nat × σ) (l : List (Nat × σ)) :
    sel i (p :: l) = if p.1 = i then p.2 :: sel i l else sel i l := by
  unfold sel
  rw [List.filter_cons]
  by_cases h : p.1 = i <;> simp [h]

theorem putAll_ok (f : Struct → Data → Option Data) : ∀ (out : List (Nat × Struct)) (cs : List Data),
    (∀ p ∈ out, p.1 < cs.length) → (∀ i c, cs[i]? = some c → ∃ c', runList f (sel i out) c = some c') →
    ∃ cs', putAll f out cs = some cs' ∧ cs'.length = cs.length ∧
      ∀ i c, cs[i]? = some c → ∃ c', cs'[i]? = some c' ∧ runList f (sel i out) c = some c' := by
  intro out
  induction out with
  | nil => intro cs _ _; exact ⟨cs, rfl, rfl, fun i c h => ⟨c, h, rfl⟩⟩
  | cons p out ih =>
    intro cs hlt hrun
    have hp := hlt p (by simp)
    obtain ⟨d, hd⟩ := hrun p.1 cs[p.1] (List.getElem?_eq_getElem hp)
    rw [sel_cons, if_pos rfl] at hd
    simp only [runList, Option.bind_eq_some_iff] at hd
    obtain ⟨b, hb, hd⟩ := hd
    obtain ⟨cs', h1, h2, h3⟩ := ih (cs.set p.1 b) (by
        intro q hq
        rw [List.length_set]
        exact hlt q (by simp [hq])) (by
        intro i c hi
        by_cases hip : p.1 = i
        · subst hip
          rw [List.getElem?_set_self hp] at hi
          obtain rfl := Option.some.inj hi
          exact ⟨d, hd⟩
        · rw [List.getElem?_set_ne hip] at hi
          obtain ⟨c', hc'⟩ := hrun i c hi
          rw [sel_cons, if_neg hip] at hc'
          exact ⟨c', hc'⟩)
    refine ⟨cs', by simp [putAll, modifyAt_some (List.getElem?_eq_getElem hp) hb, h1], by rw [h2, List.length_set], ?_⟩
    intro i c hi
    by_cases hip : p.1 = i
    · subst hip
      rw [List.getElem?_eq_getElem hp] at hi
      obtain rfl := Option.some.inj hi
      obtain ⟨c', hc', hr⟩ := h3 p.1 b (List.getElem?_set_self hp)
      refine ⟨c', hc', ?_⟩
      rw [sel_cons, if_pos rfl]
      simp [runList, hb, hr]
    · obtain ⟨c', hc', hr⟩ := h3 i c (by rw [List.getElem?_set_ne hip]; exact hi)
      refine ⟨c', hc', ?_⟩
      rw [sel_cons, if_neg hip]
      exact hr

/-- A permutation of the images comes from a permutation. -/
theorem perm_map_lift {σ τ : Type} (f : σ → τ) {l : List τ} : ∀ {m : List σ}, l.Perm (m.map f) →
    ∃ m' : List σ, m'.Perm m ∧ m'.map f = l := by
  suffices ∀ {a b : List τ}, a.Perm b → ∀ m : List σ, b = m.map f → ∃ m' : List σ, m'.Perm m ∧ m'.map f = a from
    fun {m} h => this h m rfl
  intro a b h
  induction h with
  | nil => intro m hm; exact ⟨m, .refl _, hm.symm⟩
  | cons x h ih =>
    intro m hm
    cases m with
    | nil => simp at hm
    | cons y m =>
      simp only [List.map_cons, List.cons.injEq] at hm
      obtain ⟨m', h1, h2⟩ := ih m hm.2
      exact ⟨y :: m', h1.cons y, by simp [h2, hm.1]⟩
  | swap x y l =>
    intro m hm
    cases m with
    | nil => simp at hm
    | cons u m =>
      cases m with
      | nil => simp at hm
      | cons v m =>
        simp only [List.map_cons, List.cons.injEq] at hm
        exact ⟨v :: u :: m, .swap _ _ _, by simp [hm.1, hm.2.1, hm.2.2]⟩
  | trans _ _ ih1 ih2 =>
    intro m hm
    obtain ⟨m', h1, h2⟩ := ih2 m hm
    obtain ⟨m'', h3, h4⟩ := ih1 m' h2.symm
    exact ⟨m'', h3.trans h1, h4⟩

theorem sel_perm {σ : Type} {i : Nat} {l l' : List (Nat × σ)} (h : l.Perm l') : (sel i l).Perm (sel i l') :=
  (h.filter _).map _

theorem sel_append {σ : Type} (i : Nat) (l l' : List (Nat × σ)) : sel i (l ++ l') = sel i l ++ sel i l' := by
  simp [sel]

/-- What arrives for a component: everything with its number. -/
theorem sel_delivered {K σ : Type} [DecidableEq K] (orig : List K) (i : Nat) (b : K) (hb : orig[i]? = some b)
    (recs : List (K × σ)) :
    sel i (recs.flatMap (fun kv => ((List.range orig.length).filter (fun j => decide (orig[j]? = some kv.1))).map
      (fun j => (j, kv.2)))) = (recs.filter (fun kv => decide (kv.1 = b))).map (·.2) := by
  induction recs with
  | nil => rfl
  | cons r recs ih =>
    rw [List.flatMap_cons, sel_append, ih, List.filter_cons]
    have hi : i < orig.length := (List.getElem?_eq_some_iff.mp hb).1
    have : sel i (((List.range orig.length).filter (fun j => decide (orig[j]? = some r.1))).map (fun j => (j, r.2))) =
        if r.1 = b then [r.2] else [] := by
      unfold sel
      rw [List.filter_map, List.map_map]
      have hcomp : ((fun x : Nat × σ => decide (x.1 = i)) ∘ fun j => (j, r.2)) = fun j => decide (j = i) := rfl
      rw [hcomp, List.filter_filter]
      have hf : (List.range orig.length).filter (fun a => decide (a = i) && decide (orig[a]? = some r.1)) =
          if r.1 = b then [i] else [] := by
        by_cases hrb : r.1 = b
        · rw [if_pos hrb]
          have : (fun a => decide (a = i) && decide (orig[a]? = some r.1)) = fun a => a == i := by
            funext a
            by_cases ha : a = i
            · subst ha; simp [hb, hrb]
            · simp [ha]
          rw [this]
          rw [List.filter_beq, List.count_eq_one_of_mem List.nodup_range (List.mem_range.mpr hi)]
          rfl
        · rw [if_neg hrb, List.filter_eq_nil_iff]
          intro a _
          by_cases ha : a = i
          · subst ha; simp [hb, Ne.symm hrb]
          · simp [ha]
      rw [hf]
      split <;> rfl
    rw [this]
    by_cases hrb : r.1 = b <;> simp [hrb]

/-- The distribution of structs: each component gets the structs with its number, in some order. -/
theorem spread_ok {K : Type} [DecidableEq K] {n : Nat} (hn : 0 < n) {bound : Nat → Nat → Nat}
    (hb : ∀ total, BoundOk n total (bound total)) {puts : List Nat} (hp : puts.Perm (List.range n)) (me : Nat)
    (f : Struct → Data → Option Data) (zs : List (K × (List Str × Struct))) (orig : List K) (cs : List Data)
    (hlen : orig.length = cs.length)
    (hrun : ∀ (i : Nat) (b : K) (c : Data), orig[i]? = some b → cs[i]? = some c → ∀ l : List (List Str × Struct),
      l.Perm ((zs.filter (fun kv => decide (kv.1 = b))).map (·.2)) → ∃ c', runList (fun x => f x.2) l c = some c') :
    ∃ cs', spread n bound puts me f (zs.map (fun kv => (kv.1, kv.2.2))) orig cs = some cs' ∧ cs'.length = cs.length ∧
      ∀ (i : Nat) (b : K) (c : Data), orig[i]? = some b → cs[i]? = some c → ∃ c' l, cs'[i]? = some c' ∧
        l.Perm ((zs.filter (fun kv => decide (kv.1 = b))).map (·.2)) ∧ runList (fun x => f x.2) l c = some c' := by
  set recs := zs.map (fun kv => (kv.1, kv.2.2)) with hrecs
  have hall : (List.range n).flatMap (fun p => if p = 0 then recs else []) = recs := by
    obtain ⟨k, rfl⟩ : ∃ k, n = k + 1 := ⟨n - 1, by omega⟩
    rw [List.range_succ_eq_map, List.flatMap_cons, if_pos rfl]
    have : ((List.range k).map Nat.succ).flatMap (fun p => if p = 0 then recs else []) = [] := by
      rw [List.flatMap_eq_nil_iff]
      intro x hx
      obtain ⟨y, _, rfl⟩ := List.mem_map.mp hx
      simp
    rw [this, List.append_nil]
  obtain ⟨out, hout, hperm⟩ := HashDistr.C10_distribute_exact n hn (bound recs.length)
    (fun p => if p = 0 then recs else []) puts hp (by rw [hall]; exact hb _) orig me
  rw [hall] at hperm
  have hsel : ∀ (i : Nat) (b : K), orig[i]? = some b → ∃ l : List (List Str × Struct), l.Perm ((zs.filter (fun kv => decide (kv.1 = b))).map (·.2)) ∧
      l.map (·.2) = sel i out := by
    intro i b hib
    have h1 := sel_perm (i := i) hperm
    rw [sel_delivered orig i b hib] at h1
    refine perm_map_lift (fun x : List Str × Struct => x.2) ?_
    have : ((zs.filter (fun kv => decide (kv.1 = b))).map (·.2)).map (fun x : List Str × Struct => x.2) =
        (recs.filter (fun kv => decide (kv.1 = b))).map (·.2) := by
      rw [hrecs, List.filter_map, List.map_map, List.map_map]
      rfl
    rw [this]
    exact h1
  have hrun' : ∀ (i : Nat) (b : K) (c : Data) (l : List (List Str × Struct)), l.map (·.2) = sel i out → orig[i]? = some b → cs[i]? = some c →
      runList f (sel i out) c = runList (fun x : List Str × Struct => f x.2) l c := by
    intro i b c l hl _ _
    rw [← hl, runList_map]
  obtain ⟨cs', h1, h2, h3⟩ := putAll_ok f out cs (by
      intro p hpo
      have := hperm.mem_iff.mp hpo
      rw [List.mem_flatMap] at this
      obtain ⟨kv, _, hkv⟩ := this
      obtain ⟨j, hj, rfl⟩ := List.mem_map.mp hkv
      rw [← hlen]
      exact List.mem_range.mp (List.mem_filter.mp hj).1) (by
      intro i c hi
      have hi' : i < orig.length := by rw [hlen]; exact (List.getElem?_eq_some_iff.mp hi).1
      obtain ⟨l, hl, hm⟩ := hsel i orig[i] (List.getElem?_eq_getElem hi')
      rw [hrun' i orig[i] c l hm (List.getElem?_eq_getElem hi') hi]
      exact hrun i orig[i] c (List.getElem?_eq_getElem hi') hi l hl)
  refine ⟨cs', by unfold spread; rw [hout]; exact h1, h2, ?_⟩
  intro i b c hib hic
  obtain ⟨c', hc', hr⟩ := h3 i c hic
  obtain ⟨l, hl, hm⟩ := hsel i b hib
  exact ⟨c', l, hc', hl, by rw [← hrun' i b c l hm hib hic]; exact hr⟩

end GridPACK.Dyr
