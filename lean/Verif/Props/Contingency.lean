import Verif.Model.Contingency
import Verif.Props.FactoryChecks
import Mathlib.Data.List.Nodup

/-! C49: applying and undoing a contingency. -/
namespace GridPACK.Contingency

/-! ### One component -/

/-- A generator or line as loading leaves it: in service with its own values or out of service with zeros. -/
def Elem.Regular (e : Elem) : Prop := (e.status = 1 ∧ e.val = e.orig) ∨ (e.status = 0 ∧ e.val = (0, 0, 0))

theorem set_tag (e : Elem) (s : Bool) : (e.set s).tag = e.tag := by
  unfold Elem.set; cases s <;> rfl

theorem set_set (e : Elem) (a b : Bool) : (e.set a).set b = e.set b := by
  unfold Elem.set; cases a <;> cases b <;> rfl

theorem set_regular (e : Elem) (h : e.Regular) : e.set (decide (e.status ≠ 0)) = e := by
  obtain ⟨tag, status, val, orig⟩ := e
  rcases h with ⟨h1, h2⟩ | ⟨h1, h2⟩
  · simp only at h1 h2; subst h1; subst h2; simp [Elem.set]
  · simp only at h1 h2; subst h1; subst h2; simp [Elem.set]

theorem setStatus_comm (t t' : String) (h : t ≠ t') (a b : Bool) (l : List Elem) :
    setStatus t a (setStatus t' b l) = setStatus t' b (setStatus t a l) := by
  induction l with
  | nil => rfl
  | cons e l ih =>
    by_cases h1 : t = e.tag
    · have h2 : t' ≠ e.tag := fun h2 => h (h1.trans h2.symm)
      simp [setStatus, h1, h2, set_tag]
    · by_cases h2 : t' = e.tag
      · simp [setStatus, h1, h2, set_tag]
      · simp [setStatus, h1, h2, ih]

theorem getStatus_set (t t' : String) (h : t ≠ t') (b : Bool) (l : List Elem) :
    getStatus t (setStatus t' b l) = getStatus t l := by
  induction l with
  | nil => rfl
  | cons e l ih =>
    by_cases h2 : t' = e.tag
    · have h1 : t ≠ e.tag := fun h1 => h (h1.trans h2.symm)
      simp [setStatus, getStatus, h1, h2, set_tag]
    · simp [setStatus, getStatus, h2, ih]

theorem setStatus_set (t : String) (a b : Bool) (l : List Elem) :
    setStatus t b (setStatus t a l) = setStatus t b l := by
  induction l with
  | nil => rfl
  | cons e l ih =>
    by_cases h : t = e.tag
    · simp [setStatus, h, set_tag, set_set]
    · simp [setStatus, h, ih]

theorem setStatus_own (t : String) (l : List Elem) (h : ∀ e ∈ l, e.Regular) :
    setStatus t (getStatus t l) l = l := by
  induction l with
  | nil => rfl
  | cons e l ih =>
    by_cases h' : t = e.tag
    · simp only [setStatus, getStatus, h', if_true]
      rw [set_regular e (h e (by simp))]
    · simp only [setStatus, getStatus, h', if_false]
      rw [ih (fun x hx => h x (by simp [hx]))]

/-! ### All components -/

section
variable {κ : Type} [DecidableEq κ]

/-- All components with the key have this status for the tag. -/
def Agree (k : κ) (t : String) (cs : List (Comp κ)) : Prop :=
  ∀ c ∈ cs, ∀ c' ∈ cs, c.key = k → c'.key = k → getStatus t c.elems = getStatus t c'.elems

theorem applyEntry_fst (k : κ) (t : String) (cs : List (Comp κ)) (s : Bool) :
    (applyEntry k t cs s).1 = restoreEntry k t false cs := by
  induction cs generalizing s with
  | nil => rfl
  | cons c cs ih =>
    unfold restoreEntry at *
    by_cases h : c.key = k
    · simp only [applyEntry, h, if_true, List.map_cons, ih]
    · simp only [applyEntry, h, if_false, List.map_cons, ih]

/-- The saved status depends only on the statuses of the components with the key. -/
theorem applyEntry_snd_congr (k : κ) (t : String) (f : Comp κ → Comp κ) (hk : ∀ c, (f c).key = c.key)
    (hg : ∀ c, c.key = k → getStatus t (f c).elems = getStatus t c.elems) (cs : List (Comp κ)) (s : Bool) :
    (applyEntry k t (cs.map f) s).2 = (applyEntry k t cs s).2 := by
  induction cs generalizing s with
  | nil => rfl
  | cons c cs ih =>
    by_cases h : c.key = k
    · simp only [List.map_cons, applyEntry, hk, h, if_true, hg c h, ih]
    · simp only [List.map_cons, applyEntry, hk, h, if_false, ih]

theorem applyEntry_snd_agree (k : κ) (t : String) (cs : List (Comp κ)) (h : Agree k t cs) (s : Bool)
    (c : Comp κ) (hc : c ∈ cs) (hk : c.key = k) : (applyEntry k t cs s).2 = getStatus t c.elems := by
  have gen : ∀ (l : List (Comp κ)) (s v : Bool), (∀ x ∈ l, x.key = k → getStatus t x.elems = v) →
      (s = v ∨ ∃ x ∈ l, x.key = k) → (applyEntry k t l s).2 = v := by
    intro l
    induction l with
    | nil => intro s v _ h; simpa [applyEntry] using h
    | cons x l ih =>
      intro s v hv h
      by_cases hx : x.key = k
      · simp only [applyEntry, hx, if_true]
        exact ih _ v (fun y hy => hv y (by simp [hy])) (Or.inl (hv x (by simp) hx))
      · simp only [applyEntry, hx, if_false]
        refine ih s v (fun y hy => hv y (by simp [hy])) ?_
        rcases h with h | ⟨y, hy, hyk⟩
        · exact Or.inl h
        · rcases List.mem_cons.mp hy with rfl | hy
          · exact absurd hyk hx
          · exact Or.inr ⟨y, hy, hyk⟩
  exact gen cs s _ (fun x hx hxk => h x hx c hc hxk hk) (Or.inr ⟨c, hc, hk⟩)

theorem restoreEntry_comm (k k' : κ) (t t' : String) (h : (k, t) ≠ (k', t')) (a b : Bool)
    (cs : List (Comp κ)) :
    restoreEntry k t a (restoreEntry k' t' b cs) = restoreEntry k' t' b (restoreEntry k t a cs) := by
  unfold restoreEntry
  rw [List.map_map, List.map_map]
  apply List.map_congr_left
  intro c _
  simp only [Function.comp]
  by_cases h1 : c.key = k <;> by_cases h2 : c.key = k'
  · have ht : t ≠ t' := fun ht => h (by rw [← h1, ← h2, ht])
    simp only [h1, if_true]
    have : k' = k := h2.symm.trans h1
    subst this
    simp only [if_true]
    rw [setStatus_comm t t' ht]
  · have h3 : k ≠ k' := fun e => h2 (h1.trans e)
    simp [h1, h3]
  · have h3 : k' ≠ k := fun e => h1 (h2.trans e)
    simp [h2, h3]
  · simp [h1, h2]

theorem restoreEntry_restoreEntry (k : κ) (t : String) (a b : Bool) (cs : List (Comp κ)) :
    restoreEntry k t b (restoreEntry k t a cs) = restoreEntry k t b cs := by
  unfold restoreEntry
  rw [List.map_map]
  apply List.map_congr_left
  intro c _
  simp only [Function.comp]
  by_cases h : c.key = k
  · simp [h, setStatus_set]
  · simp [h]

theorem restoreEntry_saved (k : κ) (t : String) (cs : List (Comp κ)) (s : Bool) (ha : Agree k t cs)
    (hr : ∀ c ∈ cs, ∀ e ∈ c.elems, e.Regular) :
    restoreEntry k t (applyEntry k t cs s).2 cs = cs := by
  unfold restoreEntry
  conv_rhs => rw [← List.map_id cs]
  apply List.map_congr_left
  intro c hc
  by_cases h : c.key = k
  · simp only [h, if_true, id]
    rw [applyEntry_snd_agree k t cs ha s c hc h, setStatus_own t c.elems (hr c hc)]
    cases c; simp_all
  · simp [h]

theorem applyAll_saves_congr (es : List (Entry κ)) (k : κ) (t : String) (v : Bool)
    (h : ∀ e ∈ es, (e.key, e.tag) ≠ (k, t)) (cs : List (Comp κ)) :
    applyAll es (restoreEntry k t v cs) =
      (restoreEntry k t v (applyAll es cs).1, (applyAll es cs).2) := by
  induction es generalizing cs with
  | nil => rfl
  | cons e es ih =>
    have he := h e (by simp)
    have h2 : (applyEntry e.key e.tag (restoreEntry k t v cs) e.save).2 =
        (applyEntry e.key e.tag cs e.save).2 := by
      unfold restoreEntry
      refine applyEntry_snd_congr _ _ _ (fun c => by split <;> rfl) ?_ cs _
      intro c hc
      by_cases hk : c.key = k
      · have : e.tag ≠ t := fun ht => he (by rw [← hc, hk, ht])
        simp [hk, getStatus_set _ _ this]
      · simp [hk]
    have h1 : (applyEntry e.key e.tag (restoreEntry k t v cs) e.save).1 =
        restoreEntry k t v (applyEntry e.key e.tag cs e.save).1 := by
      rw [applyEntry_fst, applyEntry_fst, restoreEntry_comm _ _ _ _ he]
    simp only [applyAll, h1, h2]
    rw [ih (fun x hx => h x (by simp [hx]))]

/-- Undoing the saved statuses restores all components. -/
theorem restore_apply (es : List (Entry κ)) (cs : List (Comp κ))
    (hn : (es.map (fun e => (e.key, e.tag))).Nodup)
    (ha : ∀ e ∈ es, Agree e.key e.tag cs)
    (hr : ∀ c ∈ cs, ∀ e ∈ c.elems, e.Regular) :
    restoreAll (applyAll es cs).2 (applyAll es cs).1 = cs := by
  induction es with
  | nil => rfl
  | cons e es ih =>
    rw [List.map_cons, List.nodup_cons] at hn
    have hne : ∀ x ∈ es, (x.key, x.tag) ≠ (e.key, e.tag) := by
      intro x hx he
      exact hn.1 (List.mem_map.mpr ⟨x, hx, he⟩)
    simp only [applyAll, applyEntry_fst]
    rw [applyAll_saves_congr es e.key e.tag false hne cs]
    simp only [restoreAll]
    rw [restoreEntry_restoreEntry]
    have e2 : restoreEntry e.key e.tag (applyEntry e.key e.tag cs e.save).2 (applyAll es cs).1 =
        (applyAll es cs).1 := by
      have := applyAll_saves_congr es e.key e.tag (applyEntry e.key e.tag cs e.save).2 hne cs
      rw [restoreEntry_saved e.key e.tag cs e.save (ha e (by simp)) hr] at this
      exact (congrArg Prod.fst this).symm
    rw [e2]
    exact ih hn.2 (fun x hx => ha x (by simp [hx]))

end

/-! ### Lone buses -/

theorem writeBack_view (lines : List (Comp (Int × Int))) (bs : List NBus) :
    writeBack bs (bs.map (view lines)) = bs := by
  unfold writeBack
  induction bs with
  | nil => rfl
  | cons b bs ih => simp only [List.map_cons, List.zipWith_cons_cons, ih]; rfl

theorem writeBack_writeBack (bs : List NBus) (l1 l2 : List FactoryChecks.LBus) (h : l1.length = bs.length) :
    writeBack (writeBack bs l1) l2 = writeBack bs l2 := by
  unfold writeBack
  induction bs generalizing l1 l2 with
  | nil => rfl
  | cons b bs ih =>
    cases l1 with
    | nil => simp at h
    | cons x l1 =>
      cases l2 with
      | nil => simp
      | cons y l2 => simp only [List.zipWith_cons_cons]; rw [ih l1 l2 (by simpa using h)]

theorem view_writeBack (lines : List (Comp (Int × Int))) (bs : List NBus) (ls : List FactoryChecks.LBus)
    (h : ls.length = bs.length)
    (h' : ∀ (i : Nat) (b : FactoryChecks.LBus) (l : FactoryChecks.LBus), (bs.map (view lines))[i]? = some b →
      ls[i]? = some l → l.active = b.active ∧ l.lines = b.lines) :
    (writeBack bs ls).map (view lines) = ls := by
  unfold writeBack
  induction bs generalizing ls with
  | nil => simpa using (List.length_eq_zero_iff.mp (by simpa using h)).symm
  | cons b bs ih =>
    cases ls with
    | nil => simp at h
    | cons l ls =>
      simp only [List.zipWith_cons_cons, List.map_cons]
      rw [ih ls (by simpa using h) (fun i b' l' h1 h2 => h' (i+1) b' l' (by simpa using h1) (by simpa using h2))]
      have := h' 0 (view lines b) l (by simp) (by simp)
      unfold view at this ⊢
      cases l
      simp_all

/-- The check followed by the clearing gives back all isolated flags. -/
theorem clearLone_checkLone (st : State) :
    ∃ sv, clearLone (checkLone st) = some { st with saved := sv } := by
  refine ⟨(checkLone st).saved, ?_⟩
  unfold clearLone checkLone
  simp only
  have hm := FactoryChecks.C50_marks_partial (st.buses.map (view st.lines))
  rw [view_writeBack st.lines st.buses _ (by simpa using hm.1)
    (fun i b l h1 h2 => (hm.2 i b l h1 h2).1)]
  rw [FactoryChecks.C86_clear_restores]
  simp only [Option.map_some]
  rw [writeBack_writeBack _ _ _ (by simpa using hm.1), writeBack_view]

/-! ### C49 -/

/-- What an event needs for the round trip: no element is named twice, the components with a named key agree on
the status of the named element, and all elements are as loading leaves them. -/
def Fits (st : State) : Event → Prop
  | .generator es => (es.map (fun e => (e.key, e.tag))).Nodup ∧ (∀ e ∈ es, Agree e.key e.tag st.gens) ∧
      ∀ c ∈ st.gens, ∀ e ∈ c.elems, e.Regular
  | .branch es => (es.map (fun e => (e.key, e.tag))).Nodup ∧ (∀ e ∈ es, Agree e.key e.tag st.lines) ∧
      ∀ c ∈ st.lines, ∀ e ∈ c.elems, e.Regular
  | .unknown => True

/-- C49, with the conditions of `Fits`: undoing a contingency directly after setting it restores all generators,
all lines and the isolated flag of every bus, for every network and every contingency.  (Missing: contingencies
naming an element twice, several branches between two buses, irregular elements.) -/
theorem C49_round_trip_partial (st : State) (ev : Event) (h : Fits st ev) :
    ∃ st', unSetContingency (setContingency st ev).1 (setContingency st ev).2.1 = some st' ∧
      st'.gens = st.gens ∧ st'.lines = st.lines ∧ st'.buses = st.buses := by
  cases ev with
  | generator es =>
    obtain ⟨hn, ha, hr⟩ := h
    obtain ⟨sv, hc⟩ := clearLone_checkLone { st with gens := (applyAll es st.gens).1 }
    refine ⟨{ st with saved := sv }, ?_, rfl, rfl, rfl⟩
    simp only [setContingency, unSetContingency, hc]
    rw [restore_apply es st.gens hn ha hr]
  | branch es =>
    obtain ⟨hn, ha, hr⟩ := h
    obtain ⟨sv, hc⟩ := clearLone_checkLone { st with lines := (applyAll es st.lines).1 }
    refine ⟨{ st with saved := sv }, ?_, rfl, rfl, rfl⟩
    simp only [setContingency, unSetContingency, hc]
    rw [restore_apply es st.lines hn ha hr]
  | unknown =>
    obtain ⟨sv, hc⟩ := clearLone_checkLone st
    exact ⟨{ st with saved := sv }, by simp only [setContingency, unSetContingency, hc], rfl, rfl, rfl⟩

/-- Two lines on a branch and a bus connected by it alone: the outage of both makes the bus lone. -/
example : let st : State := ⟨[], [⟨(1, 2), [⟨"1", 1, (0, 0, 0), (0, 0, 0)⟩, ⟨"2", 1, (0, 0, 0), (0, 0, 0)⟩]⟩],
      [⟨true, false, [0]⟩], []⟩
    let ev : Event := .branch [⟨(1, 2), "1", true⟩, ⟨(1, 2), "2", true⟩]
    Fits st ev ∧ (setContingency st ev).1.buses.map NBus.isolated = [true] := by
  refine ⟨⟨by simp, ?_, ?_⟩, ?_⟩
  · intro e _ c hc c' hc' _ _
    simp only [List.mem_singleton] at hc hc'
    subst hc; subst hc'; rfl
  · intro c hc e he
    simp only [List.mem_singleton] at hc
    subst hc
    simp only [List.mem_cons, List.not_mem_nil, or_false] at he
    rcases he with rfl | rfl <;> exact Or.inl ⟨rfl, rfl⟩
  · simp [setContingency, checkLone, applyAll, applyEntry, setStatus, Elem.set, FactoryChecks.loneLoop,
      FactoryChecks.lineOk, view, statuses, writeBack]

/-- C49 fails for a contingency naming an element twice: for every generator or line in service that is named
twice in a row, the status stays off after undoing. -/
theorem C49_twice_violated (k : Int × Int) (t : String) (s : Bool) (e : Elem) (ht : e.tag = t)
    (st : State) (hst : st.lines = [⟨k, [e]⟩]) (hs : e.status ≠ 0) :
    ∃ st', unSetContingency (setContingency st (.branch [⟨k, t, s⟩, ⟨k, t, s⟩])).1
        (setContingency st (.branch [⟨k, t, s⟩, ⟨k, t, s⟩])).2.1 = some st' ∧
      st'.lines.map (fun c => c.elems.map Elem.status) = [[0]] ∧
      st.lines.map (fun c => c.elems.map Elem.status) ≠ [[0]] := by
  subst ht
  obtain ⟨sv, hc⟩ := clearLone_checkLone
    { st with lines := (applyAll [⟨k, e.tag, s⟩, ⟨k, e.tag, s⟩] st.lines).1 }
  refine ⟨_, by simp only [setContingency, unSetContingency, hc]; rfl, ?_, by simp [hst, hs]⟩
  simp [hst, hs, applyAll, applyEntry, restoreAll, restoreEntry, getStatus, setStatus, Elem.set]

/-- C49 fails for two branches between the same buses: if the first has the named line in service and the last
has it out of service (or has no such line), the first stays out of service after undoing. -/
theorem C49_two_branches_violated (k : Int × Int) (t : String) (s : Bool) (e : Elem) (ht : e.tag = t)
    (c : Comp (Int × Int)) (hck : c.key = k) (hc0 : getStatus t c.elems = false)
    (st : State) (hst : st.lines = [⟨k, [e]⟩, c]) (hs : e.status ≠ 0) :
    ∃ st', unSetContingency (setContingency st (.branch [⟨k, t, s⟩])).1
        (setContingency st (.branch [⟨k, t, s⟩])).2.1 = some st' ∧
      (st'.lines.map (fun c => c.elems.map Elem.status)).head? = some [0] ∧
      (st.lines.map (fun c => c.elems.map Elem.status)).head? ≠ some [0] := by
  subst ht
  obtain ⟨sv, hc⟩ := clearLone_checkLone { st with lines := (applyAll [⟨k, e.tag, s⟩] st.lines).1 }
  refine ⟨_, by simp only [setContingency, unSetContingency, hc]; rfl, ?_, by simp [hst, hs]⟩
  simp [hst, hck, hc0, applyAll, applyEntry, restoreAll, restoreEntry, setStatus, Elem.set]

/-- C49 fails for values: a single generator that is out of service is loaded with participation factor 1
(pf_components.cpp 536); after setting and undoing its outage the factor is 0. -/
theorem C49_out_of_service_violated (k : Int) (t : String) (s : Bool) (st : State) (orig : ℝ × ℝ × ℝ)
    (hst : st.gens = [⟨k, [⟨t, 0, (1, 0, 0), orig⟩]⟩]) :
    ∃ st', unSetContingency (setContingency st (.generator [⟨k, t, s⟩])).1
        (setContingency st (.generator [⟨k, t, s⟩])).2.1 = some st' ∧
      st'.gens.map (fun c => c.elems.map Elem.val) = [[(0, 0, 0)]] := by
  obtain ⟨sv, hc⟩ := clearLone_checkLone { st with gens := (applyAll [⟨k, t, s⟩] st.gens).1 }
  refine ⟨_, by simp only [setContingency, unSetContingency, hc]; rfl, ?_⟩
  simp [hst, applyAll, applyEntry, restoreAll, restoreEntry, getStatus, setStatus, Elem.set]

/-! ### C90: effect of a contingency -/

section
variable {κ : Type} [DecidableEq κ]

theorem restoreEntry_getElem (k : κ) (t : String) (a : Bool) (cs : List (Comp κ)) (i : Nat) (c : Comp κ)
    (h : cs[i]? = some c) : (restoreEntry k t a cs)[i]? =
      some (if c.key = k then { c with elems := setStatus t a c.elems } else c) := by
  unfold restoreEntry
  rw [List.getElem?_map, h]; rfl

theorem getStatus_off (t : String) (l : List Elem) : getStatus t (setStatus t false l) = false := by
  induction l with
  | nil => rfl
  | cons e l ih =>
    by_cases h : t = e.tag
    · simp only [setStatus, h, if_true, getStatus, set_tag]
      simp [Elem.set]
    · simp [setStatus, h, getStatus, ih]

/-- After the entries are applied each component keeps its key, named elements are off and the status of any
element not named is as before. -/
theorem applyAll_status (es : List (Entry κ)) (cs : List (Comp κ)) (i : Nat) (c : Comp κ)
    (h : cs[i]? = some c) : ∃ c', (applyAll es cs).1[i]? = some c' ∧ c'.key = c.key ∧
      ∀ t, getStatus t c'.elems =
        (getStatus t c.elems && !(es.any (fun e => decide (e.key = c.key ∧ e.tag = t)))) := by
  induction es generalizing cs c with
  | nil => exact ⟨c, h, rfl, by simp⟩
  | cons e es ih =>
    simp only [applyAll]
    have h1 := restoreEntry_getElem e.key e.tag false cs i c h
    rw [← applyEntry_fst e.key e.tag cs e.save] at h1
    obtain ⟨c', hc', hk, hs⟩ := ih _ _ h1
    refine ⟨c', hc', ?_, ?_⟩
    · rw [hk]; split <;> rfl
    · intro t
      rw [hs t]
      by_cases hck : c.key = e.key
      · simp only [hck, if_true, List.any_cons]
        by_cases ht : e.tag = t
        · subst ht; simp [getStatus_off]
        · rw [getStatus_set _ _ (fun h => ht h.symm)]
          simp [ht]
      · have : ¬ e.key = c.key := fun h => hck h.symm
        simp [hck, this]

end

/-- C90: after setting a line contingency, each line named in it is out of service in every local branch between
the two buses, and the status of every line not named is unchanged; a bus is isolated exactly if it was before
or it is owned and has no line in service any more. -/
theorem C90_effect (st : State) (es : List (Entry (Int × Int))) :
    (∀ (i : Nat) (c : Comp (Int × Int)), st.lines[i]? = some c →
      ∃ c', (setContingency st (.branch es)).1.lines[i]? = some c' ∧ c'.key = c.key ∧
        (∀ t, (∃ e ∈ es, e.key = c.key ∧ e.tag = t) → getStatus t c'.elems = false) ∧
        (∀ t, (¬ ∃ e ∈ es, e.key = c.key ∧ e.tag = t) → getStatus t c'.elems = getStatus t c.elems)) ∧
    (∀ (i : Nat) (b b' : NBus), st.buses[i]? = some b →
      (setContingency st (.branch es)).1.buses[i]? = some b' →
      (b'.isolated = true ↔ b.isolated = true ∨ (b.active = true ∧
        ¬ ∃ j ∈ b.nbrs, true ∈ statuses (setContingency st (.branch es)).1.lines j))) := by
  constructor
  · intro i c h
    obtain ⟨c', hc', hk, hs⟩ := applyAll_status es st.lines i c h
    refine ⟨c', hc', hk, ?_, ?_⟩
    · rintro t ⟨e, he, h1⟩
      rw [hs t]
      have : es.any (fun e => decide (e.key = c.key ∧ e.tag = t)) = true :=
        List.any_eq_true.mpr ⟨e, he, by simpa using h1⟩
      rw [this]; simp
    · intro t hn
      rw [hs t]
      have : es.any (fun e => decide (e.key = c.key ∧ e.tag = t)) = false := by
        rw [List.any_eq_false]
        intro e he h1
        exact hn ⟨e, he, by simpa using h1⟩
      rw [this]; simp
  · intro i b b' hb hb'
    have hl : (setContingency st (.branch es)).1.lines = (applyAll es st.lines).1 := rfl
    rw [hl]
    set L := (applyAll es st.lines).1 with hL
    have hm := FactoryChecks.C50_marks_partial (st.buses.map (view L))
    simp only [setContingency, checkLone, ← hL, writeBack] at hb'
    rw [List.getElem?_zipWith, hb] at hb'
    cases hx : (FactoryChecks.loneLoop (st.buses.map (view L))).1[i]? with
    | none => rw [hx] at hb'; simp at hb'
    | some x =>
      rw [hx] at hb'
      simp only [Option.some.injEq] at hb'
      subst hb'
      have := (hm.2 i (view L b) x (by rw [List.getElem?_map, hb]; rfl) hx).2
      simp only
      rw [this]
      unfold view FactoryChecks.LBus.Lone
      simp

/-- C90, returned value: setting a contingency reports success exactly if every component it names is present
on the process; an event of another kind is reported as not set and changes no status. -/
theorem C90_returned (st : State) :
    (∀ es, (setContingency st (.branch es)).2.2 = true ↔ ∀ e ∈ es, ∃ c ∈ st.lines, c.key = e.key) ∧
    (∀ es, (setContingency st (.generator es)).2.2 = true ↔ ∀ e ∈ es, ∃ c ∈ st.gens, c.key = e.key) ∧
    (setContingency st .unknown).2.2 = false ∧
    (setContingency st .unknown).1.lines = st.lines ∧ (setContingency st .unknown).1.gens = st.gens := by
  refine ⟨fun es => ?_, fun es => ?_, rfl, rfl, rfl⟩
  · simp [setContingency, found]
  · simp [setContingency, found]

example : (∃ e ∈ [(⟨(1, 2), "BL", true⟩ : Entry (Int × Int)), ⟨(3, 4), "BL", true⟩],
    ¬ ∃ c ∈ [(⟨(1, 2), []⟩ : Comp (Int × Int))], c.key = e.key) := ⟨⟨(3, 4), "BL", true⟩, by simp, by simp⟩

end GridPACK.Contingency
