import Verif.Lemmas.Actions

/-! Properties C222 (circuits named in commands), C223 (trip at a bus), C224 (commands during the fault), C225 (relays after a
command). -/
namespace GridPACK.Actions

open Complex YMatrix

theorem dsElem_ratio_sq (e : Elem) :
    (starRingEnd ℂ) (dsElem e).ratio * (dsElem e).ratio = e.ratio * (starRingEnd ℂ) e.ratio := by
  unfold dsElem Elem.ratio
  apply Complex.ext <;> simp <;> ring

/-- What is taken off a diagonal entry is the two-port of the circuit. -/
theorem forBus_port (e : Elem) (s : Side) :
    forBus s (dsElem e) =
      -(match s with
        | .bus1 => ({ e with status := true } : Elem).port11
        | .bus2 => ({ e with status := true } : Elem).port22) := by
  unfold forBus Elem.port11 Elem.port22 Elem.port twoPort
  simp only [if_true]
  rw [dsElem_ratio_sq]
  have hz : (dsElem e).z = e.z := rfl
  have hc : (dsElem e).charging = e.charging := rfl
  have hx : (dsElem e).xform = e.xform := rfl
  have hw : (dsElem e).switched = e.switched := rfl
  have hz2 : ({ e with status := true } : Elem).z = e.z := rfl
  have hr2 : ({ e with status := true } : Elem).ratio = e.ratio := rfl
  rw [hz, hc, hx, hw, hz2, hr2, mk_half]
  cases hx' : e.xform <;> cases hw' : e.switched <;> cases s <;> simp [neg_div] <;> ring

theorem forward_port (e : Elem) (h : e.xform = true → e.phase = 0) :
    forward (dsElem e) = ({ e with status := true } : Elem).port12 := by
  rw [← frwd_eq_port]
  unfold forward Elem.frwd Elem.a Elem.ratio dsElem Elem.z
  cases hx : e.xform
  · simp
  · have := h hx
    simp [this]

theorem reverse_port (e : Elem) (h : e.xform = true → e.phase = 0) :
    reverse (dsElem e) = ({ e with status := true } : Elem).port21 := by
  rw [← rvrs_eq_port]
  unfold reverse Elem.rvrs Elem.a Elem.ratio dsElem Elem.z
  cases hx : e.xform
  · simp
  · have := h hx
    simp [this]

/-- For circuits of different branches, without end shunts and phase shifts, the change of the matrix is what the circuits
had contributed. -/
theorem laws_plain (n : Net) (hn : n.Good) (ts : List (Nat × Nat)) (hd : (ts.map Prod.fst).Nodup)
    (hv : ∀ t ∈ ts, ∃ b e, n.branches[t.1]? = some b ∧ b.elems[t.2]? = some e) (hp : ∀ t ∈ ts, Plain n t) (i j : Nat) :
    (if i = j then diagLaw n ts i else 0) + offLaw n ts i j = -(ts.map (fun t => contribution n t i j)).sum := by
  have hdiag : (if i = j then diagLaw n ts i else 0) =
      (ts.map (fun u => if i = j ∧ n.at i u.1 = true then val n u (forBus ((n.branch u.1).side i)) else 0)).sum := by
    by_cases hij : i = j
    · rw [if_pos hij]
      unfold diagLaw
      congr 1
      apply List.map_congr_left
      intro u hu
      by_cases ha : n.at i u.1 = true
      · rw [if_pos ha, if_pos ⟨hij, ha⟩]
        exact sum_own ts Prod.fst hd (fun t => val n t (forBus ((n.branch t.1).side i))) u hu
      · rw [if_neg ha, if_neg (fun h => ha h.2)]
    · rw [if_neg hij]
      simp [hij, sum_zero]
  rw [hdiag]
  unfold offLaw
  rw [← sum_add, ← sum_neg']
  congr 1
  apply List.map_congr_left
  intro t ht
  obtain ⟨b, e, hb, he⟩ := hv t ht
  have hbr := branch_some n t.1 b hb
  have hends := hn.ends t.1 b hb
  obtain ⟨hph, hsh⟩ := hp t ht b e hb he
  unfold contribution
  rw [hb]
  simp only [he]
  have hval : ∀ f, val n t f = f (dsElem e) := by
    intro f; unfold val; rw [hbr, he]
  have hat : n.at i t.1 = true ↔ (i = b.bus1 ∨ i = b.bus2) := by unfold Net.at; rw [hbr]; simp
  have hes : ∀ s, ({ e with status := true } : Elem).endShunt s = 0 := by
    intro s
    unfold Elem.endShunt
    cases hs : e.shunt
    · simp
    · obtain ⟨h1, h2, h3, h4⟩ := hsh hs
      cases s
      · simp only [Bool.and_self, if_true]; rw [h1, h2]; rfl
      · simp only [Bool.and_self, if_true]; rw [h3, h4]; rfl
  rw [hval, hval, hval, hbr, forBus_port, forward_port e hph, reverse_port e hph]
  unfold portAt
  simp only [hes, add_zero, hat]
  by_cases h1 : i = b.bus1
  · have h2 : ¬ b.bus1 = b.bus2 := hends
    have h3 : ¬ b.bus2 = b.bus1 := fun e => hends e.symm
    subst h1
    by_cases hj1 : j = b.bus1
    · subst hj1
      simp [Branch.side, h2, h3]
    · by_cases hj2 : j = b.bus2
      · subst hj2
        simp [h2, h3]
      · have a1 : ¬ b.bus1 = j := fun e => hj1 e.symm
        have a2 : ¬ b.bus2 = j := fun e => hj2 e.symm
        simp [h2, hj1, hj2, a1, a2]
  · by_cases h2 : i = b.bus2
    · have h3 : ¬ b.bus1 = b.bus2 := hends
      have h4 : ¬ b.bus2 = b.bus1 := fun e => hends e.symm
      subst h2
      by_cases hj1 : j = b.bus1
      · subst hj1
        simp [h3, h4]
      · by_cases hj2 : j = b.bus2
        · subst hj2
          simp [Branch.side, h3, h4]
        · have a1 : ¬ b.bus1 = j := fun e => hj1 e.symm
          have a2 : ¬ b.bus2 = j := fun e => hj2 e.symm
          simp [h4, hj1, hj2, a1, a2]
    · have a1 : ¬ b.bus1 = i := fun e => h1 e.symm
      have a2 : ¬ b.bus2 = i := fun e => h2 e.symm
      simp [h1, h2, a1, a2]

theorem interval_hits (n : Net) (st : Nat → List Bool) (acts : List (Nat × Nat × List Char)) (ts : List (Nat × Nat))
    (h : Interval n st acts ts) : ∀ t ∈ ts, ∃ a, Hits n st a t := by
  obtain ⟨os, hos, rfl⟩ := h
  intro t ht
  obtain ⟨o, ho, he⟩ := List.mem_filterMap.1 ht
  obtain ⟨a, _, haa⟩ : ∃ a ∈ acts, ∀ t, o = some t ↔ Hits n st a t := by
    clear ht
    induction hos with
    | nil => simp at ho
    | @cons a o' acts os ha _ ih =>
      rcases List.mem_cons.1 ho with rfl | ho
      · exact ⟨a, by simp, ha⟩
      · obtain ⟨a', h1, h2⟩ := ih ho
        exact ⟨a', List.mem_cons_of_mem _ h1, h2⟩
  exact ⟨a, (haa t).1 he⟩

theorem active_mono (n : Net) (st st' : Nat → List Bool) (ts : List (Nat × Nat)) (h : Active n st)
    (hr : Removed st st' ts) : Active n st' :=
  fun k b c hb hs => h k b c hb ((hr (k, c)).1 hs).1

/-- **C222** (partial).  For every distribution of the network and every history of commands naming circuits, in each interval
circuits of different branches without end shunts and phase shifts, interleaved with steps: the admittance matrix ends as it
was, less the contributions of exactly the circuits that were in service when they were named; commands naming anything else
change nothing; nothing stays pending, and all processes agree on the circuits still in service. -/
theorem C222_trips_partial (n : Net) (hn : n.Good) (ivs : List (List (Nat × Nat × List Char))) (all : List (Nat × Nat))
    (st : Nat → List Bool) (hact : Active n st) (hs : Schedule n st ivs all) :
    ∀ w : World, w.Clean n st →
      (∀ i j, (w.run n ivs).y i j = w.y i j - (all.map (fun t => contribution n t i j)).sum) ∧
      ∃ st', (w.run n ivs).Clean n st' ∧ Removed st st' all := by
  induction hs with
  | nil st =>
    intro w hw
    refine ⟨fun i j => by simp [World.run], st, hw, ?_⟩
    intro t; simp
  | cons st acts ts rest all hits distinct plain next ih =>
    intro w hw
    obtain ⟨h1, _, h3⟩ := interval_exact n hn st hact w hw acts ts hits
    have hrem := after_removed ts st
    obtain ⟨k1, st', k2, k3⟩ := ih (after ts st) hrem (active_mono n st _ ts hact hrem) _ h1
    have hrun : w.run n (acts :: rest) = ((acts.foldl (World.tripNamed n) w).step n).run n rest := rfl
    rw [hrun]
    refine ⟨fun i j => ?_, st', k2, ?_⟩
    · rw [k1, h3, laws_plain n hn ts distinct ?_ plain]
      · rw [List.map_append, List.sum_append]; ring
      · intro t ht
        obtain ⟨a, b, e, hb, _, he, _⟩ := interval_hits n st acts ts hits t ht
        exact ⟨b, e, hb, he⟩
    · intro t
      rw [k3 t, hrem t, List.mem_append, not_or, and_assoc]

/-- C222 fails when two commands before the same step name circuits of one branch (also when they name the same circuit
twice): the branch is noted twice at its end buses, so that the diagonal entries lose every named circuit twice. -/
theorem C222_same_branch_violated (n : Net) (hn : n.Good) (st : Nat → List Bool) (hact : Active n st) (w : World)
    (hw : w.Clean n st) (a₁ a₂ : Nat × Nat × List Char) (k c₁ c₂ : Nat) (h₁ : Hits n st a₁ (k, c₁))
    (h₂ : Hits n st a₂ (k, c₂)) (b : Branch) (e₁ e₂ : Elem) (hb : n.branches[k]? = some b)
    (he₁ : b.elems[c₁]? = some e₁) (he₂ : b.elems[c₂]? = some e₂) :
    (([a₁, a₂].foldl (World.tripNamed n) w).step n).y b.bus1 b.bus1 =
      w.y b.bus1 b.bus1 - 2 * (({ e₁ with status := true } : Elem).port11 + ({ e₂ with status := true } : Elem).port11) := by
  have uniq : ∀ a t, Hits n st a t → ∀ u, some t = some u ↔ Hits n st a u := by
    intro a t ht u
    constructor
    · intro e; cases e; exact ht
    · intro hu
      obtain ⟨b1, e1, hb1, hj1, hel1, htag1, hs1⟩ := ht
      obtain ⟨b2, e2, hb2, hj2, hel2, htag2, hs2⟩ := hu
      have hk : u.1 = t.1 := by
        apply hn.unique t.1 u.1 b1 b2 hb1 hb2
        rcases hj1 with ⟨x, y⟩ | ⟨x, y⟩
        · rw [x, y]; exact hj2
        · rw [x, y]; exact hj2.symm
      have hbb : b1 = b2 := by rw [hk, hb1] at hb2; exact Option.some.inj hb2
      subst hbb
      have hc : u.2 = t.2 := by
        have hd := hn.tags t.1 b1 hb1
        have hlt : u.2 < (b1.elems.map Elem.tag).length := by
          simpa using (List.getElem?_eq_some_iff.1 hel2).1
        apply (List.getElem?_inj hlt hd).1
        rw [List.getElem?_map, List.getElem?_map, hel1, hel2]
        simp [htag1, htag2]
      rw [Prod.ext hk hc]
  have hint : Interval n st [a₁, a₂] [(k, c₁), (k, c₂)] := by
    refine ⟨[some (k, c₁), some (k, c₂)], ?_, rfl⟩
    exact List.Forall₂.cons (uniq a₁ _ h₁) (List.Forall₂.cons (uniq a₂ _ h₂) List.Forall₂.nil)
  obtain ⟨_, _, h⟩ := interval_exact n hn st hact w hw _ _ hint
  rw [h]
  have hbr := branch_some n k b hb
  have hends := hn.ends k b hb
  have h3 : ¬ b.bus2 = b.bus1 := fun e => hends e.symm
  have hv1 : ∀ f, val n (k, c₁) f = f (dsElem e₁) := by intro f; unfold val; simp only; rw [hbr, he₁]
  have hv2 : ∀ f, val n (k, c₂) f = f (dsElem e₂) := by intro f; unfold val; simp only; rw [hbr, he₂]
  have hat : n.at b.bus1 k = true := by unfold Net.at; rw [hbr]; simp
  have hside : b.side b.bus1 = .bus1 := by unfold Branch.side; simp
  unfold diagLaw offLaw
  simp only [if_true, List.map_cons, List.map_nil, List.sum_cons, List.sum_nil, hv1, hv2, hat, hbr, hside,
    forBus_port, h3, hends, and_false, false_and, if_false]
  ring

/-- C222 fails for a circuit with shunts at its ends: they stay in the matrix when it is tripped. -/
theorem C222_end_shunt_violated (n : Net) (hn : n.Good) (st : Nat → List Bool) (hact : Active n st) (w : World)
    (hw : w.Clean n st) (acts : List (Nat × Nat × List Char)) (k c : Nat) (h : Interval n st acts [(k, c)])
    (b : Branch) (e : Elem) (hb : n.branches[k]? = some b) (he : b.elems[c]? = some e) (hsh : e.shunt = true)
    (hg : e.g1 ≠ 0 ∨ e.b1 ≠ 0) :
    ((acts.foldl (World.tripNamed n) w).step n).y b.bus1 b.bus1 ≠
      w.y b.bus1 b.bus1 - contribution n (k, c) b.bus1 b.bus1 := by
  obtain ⟨_, _, h⟩ := interval_exact n hn st hact w hw _ _ h
  rw [h]
  have hbr := branch_some n k b hb
  have hends := hn.ends k b hb
  have h3 : ¬ b.bus2 = b.bus1 := fun e => hends e.symm
  have hv1 : ∀ f, val n (k, c) f = f (dsElem e) := by intro f; unfold val; simp only; rw [hbr, he]
  have hat : n.at b.bus1 k = true := by unfold Net.at; rw [hbr]; simp
  have hside : b.side b.bus1 = .bus1 := by unfold Branch.side; simp
  unfold diagLaw offLaw contribution
  simp only [if_true, List.map_cons, List.map_nil, List.sum_cons, List.sum_nil, hv1, hat, hbr, hside,
    forBus_port, h3, hends, and_false, if_false, hb, he]
  unfold portAt
  simp only [and_self, if_true, hends, if_false, and_false, h3, false_and]
  intro heq
  have hz : ({ e with status := true } : Elem).endShunt .bus1 = 0 := by linear_combination heq
  unfold Elem.endShunt at hz
  simp only [hsh, Bool.and_self, if_true] at hz
  have r1 := congrArg Complex.re hz
  have r2 := congrArg Complex.im hz
  simp at r1 r2
  rcases hg with hg | hg
  · exact hg r1
  · exact hg r2

theorem a_ne_zero (e : Elem) (hx : e.xform = true) (ht : e.tap ≠ 0) (hp : Real.sin e.phase ≠ 0) : e.a ≠ 0 := by
  unfold Elem.a
  rw [if_pos hx]
  have : e.ratio ≠ 0 := by
    unfold Elem.ratio
    refine mul_ne_zero (by exact_mod_cast ht) ?_
    intro h0
    have := congrArg Complex.im h0
    simp at this
    exact hp this
  cases e.switched
  · simpa using this
  · simpa using this

/-- C222 fails for a phase-shifting transformer: its phase shift is read with the opposite sign for the command, so that the
entries between its buses are not the ones that had been entered. -/
theorem C222_phase_violated (n : Net) (hn : n.Good) (st : Nat → List Bool) (hact : Active n st) (w : World)
    (hw : w.Clean n st) (acts : List (Nat × Nat × List Char)) (k c : Nat) (h : Interval n st acts [(k, c)])
    (b : Branch) (e : Elem) (hb : n.branches[k]? = some b) (he : b.elems[c]? = some e) (hx : e.xform = true)
    (hz : e.z ≠ 0) (ht : e.tap ≠ 0) (hp : Real.sin e.phase ≠ 0) :
    ((acts.foldl (World.tripNamed n) w).step n).y b.bus1 b.bus2 ≠
      w.y b.bus1 b.bus2 - contribution n (k, c) b.bus1 b.bus2 := by
  obtain ⟨_, _, h⟩ := interval_exact n hn st hact w hw _ _ h
  rw [h]
  have hbr := branch_some n k b hb
  have hends := hn.ends k b hb
  have h3 : ¬ b.bus2 = b.bus1 := fun e => hends e.symm
  have hv1 : ∀ f, val n (k, c) f = f (dsElem e) := by intro f; unfold val; simp only; rw [hbr, he]
  unfold offLaw contribution
  simp only [List.map_cons, List.map_nil, List.sum_cons, List.sum_nil, hv1, hbr,
    h3, hends, and_false, if_false, hb, he, and_self, if_true]
  unfold portAt
  simp only [and_self, if_true, hends, if_false, and_false, h3, false_and]
  intro heq
  have h12 : forward (dsElem e) = ({ e with status := true } : Elem).port12 := by linear_combination -heq
  rw [← frwd_eq_port] at h12
  have hx' : (dsElem e).xform = true := hx
  have f1 : forward (dsElem e) = (-1 / e.z) / (starRingEnd ℂ) (dsElem e).a := by
    unfold forward; rw [if_pos hx']; rfl
  have f2 : ({ e with status := true } : Elem).frwd =
      (-1 / e.z) / (starRingEnd ℂ) ({ e with status := true } : Elem).a := by
    unfold Elem.frwd; rw [if_pos rfl, if_pos hx]; rfl
  rw [f1, f2] at h12
  have hzn : -1 / e.z ≠ 0 := div_ne_zero (by norm_num) hz
  have ha1 : (dsElem e).a ≠ 0 := a_ne_zero _ hx' ht (by simpa [dsElem] using hp)
  have ha2 : ({ e with status := true } : Elem).a ≠ 0 := a_ne_zero _ hx ht hp
  have hc1 : (starRingEnd ℂ) (dsElem e).a ≠ 0 := by simpa using ha1
  have hc2 : (starRingEnd ℂ) ({ e with status := true } : Elem).a ≠ 0 := by simpa using ha2
  have heq2 : (starRingEnd ℂ) ({ e with status := true } : Elem).a = (starRingEnd ℂ) (dsElem e).a := by
    rw [div_eq_div_iff hc1 hc2] at h12
    exact mul_left_cancel₀ hzn h12
  have him := congrArg Complex.im heq2
  unfold Elem.a Elem.ratio dsElem at him
  cases hw : e.switched
  · simp [hx, hw] at him
    have : e.tap * Real.sin e.phase = 0 := by linarith
    rcases mul_eq_zero.1 this with h | h
    · exact ht h
    · exact hp h
  · simp [hx, hw] at him
    have : e.tap * Real.sin e.phase = 0 := by linarith
    rcases mul_eq_zero.1 this with h | h
    · exact ht h
    · exact hp h

/-- C222 fails for commands given during the fault: only the matrix of the unfaulted network is changed, so that as long as the
fault lasts the network equations still contain the circuits. -/
theorem C222_fault_violated (n : Net) (hn : n.Good) (st : Nat → List Bool) (hact : Active n st) (w : World)
    (hw : w.Clean n st) (acts : List (Nat × Nat × List Char)) (k c : Nat) (h : Interval n st acts [(k, c)]) (i j : Nat)
    (hne : contribution n (k, c) i j ≠ 0) :
    ((acts.foldl (World.tripNamed n) w).step n).inForce 1 i j ≠ w.inForce 1 i j - contribution n (k, c) i j := by
  obtain ⟨_, h, _⟩ := interval_exact n hn st hact w hw _ _ h
  unfold World.inForce
  simp only [if_true, h]
  intro e
  apply hne
  linear_combination e

/-! ### C223 -/

theorem pickLine_some (es : List Elem) (st : List Bool) (c : Nat) (h : pickLine es st = some c) :
    ∃ e, es[c]? = some e ∧ e.xform = false ∧ st[c]? = some true := by
  unfold pickLine at h
  have h1 := List.find?_some h
  rw [Bool.and_eq_true] at h1
  obtain ⟨e, he, ht⟩ := (Option.any_eq_true _ _).1 h1.1
  refine ⟨e, he, by simpa using ht, ?_⟩
  cases hs : st[c]? with
  | none => rw [hs] at h1; simp at h1
  | some v => rw [hs] at h1; simp at h1; rw [h1.2]

theorem pickLine_none (es : List Elem) (st : List Bool) (h : pickLine es st = none) (c : Nat) (e : Elem)
    (he : es[c]? = some e) (hx : e.xform = false) : st[c]? ≠ some true := by
  unfold pickLine at h
  intro hs
  have hc : c < es.length := (List.getElem?_eq_some_iff.1 he).1
  have := List.find?_eq_none.1 h c (List.mem_range.2 hc)
  apply this
  rw [he, hs]
  simp [hx]

/-- Circuit `t` is a line (no transformer) in service at bus `i`. -/
def LineAt (n : Net) (st : Nat → List Bool) (i : Nat) (t : Nat × Nat) : Prop :=
  ∃ (b : Branch) (e : Elem), n.branches[t.1]? = some b ∧ (b.bus1 = i ∨ b.bus2 = i) ∧ b.elems[t.2]? = some e ∧
    e.xform = false ∧ InService st t

/-- **C223** (partial).  On one process, the command to trip some line at a bus, followed by a step: if a line is in service at
the bus, exactly one such line goes out of service and the matrix loses just its contribution (it must have no end shunts); if
there is none, nothing changes. -/
theorem C223_one_process_partial (n : Net) (hn : n.Good) (hnp : n.np = 1) (hloc : ∀ p, p ≠ 0 → n.loc p = [])
    (st : Nat → List Bool) (hact : Active n st) (w : World) (hw : w.Clean n st) (i : Nat)
    (hplain : ∀ t, LineAt n st i t → Plain n t) :
    ((∀ t, ¬ LineAt n st i t) ∧ (w.tripAt n i).step n = w) ∨
    ∃ t, LineAt n st i t ∧ (∀ a b, ((w.tripAt n i).step n).y a b = w.y a b - contribution n t a b) ∧
      ∃ st', ((w.tripAt n i).step n).Clean n st' ∧ Removed st st' [t] := by
  have howner : ∀ i, n.owner i = 0 := fun i => by have := hn.ranks i; omega
  have hnb : ∀ k b, n.branches[k]? = some b → (b.bus1 = i ∨ b.bus2 = i) → k ∈ n.neighbours 0 i := by
    intro k b hb hi
    unfold Net.neighbours
    rw [List.mem_filter, hb]
    refine ⟨?_, by simpa using hi⟩
    have := (hn.held k b hb).1
    rwa [howner] at this
  have hother : ∀ p, p ≠ 0 → (w.procs p).tripFirst n pickLine (n.neighbours p i) = (w.procs p, false) := by
    intro p hp
    unfold Net.neighbours
    rw [hloc p hp]
    rfl
  cases hf : (n.neighbours 0 i).findSome? (fun k => (n.branches[k]?).bind (fun b =>
      (pickLine b.elems ((w.procs 0).status k)).map (fun c => (k, b, c)))) with
  | none =>
    left
    constructor
    · rintro ⟨k, c⟩ ⟨b, e, hb, hi, he, hx, hs⟩
      have hk := hnb k b hb hi
      have := (List.findSome?_eq_none_iff.1 hf) k hk
      rw [hb] at this
      simp only [Option.bind_some, Option.map_eq_none_iff] at this
      have hkl : k ∈ n.loc 0 := (List.mem_filter.1 hk).1
      apply pickLine_none _ _ this c e he hx
      rw [hw.status 0 k hkl]
      exact hs
    · have hr : ∀ p, (w.procs p).tripFirst n pickLine (n.neighbours p i) = (w.procs p, false) := by
        intro p
        by_cases hp : p = 0
        · subst hp
          unfold Proc.tripFirst
          rw [hf]
        · exact hother p hp
      have hw1 : w.tripAt n i = w := by
        unfold World.tripAt
        simp only [hr]
        cases w
        simp
      rw [hw1]
      unfold World.step
      rw [hw.apply]
      simp
  | some r =>
    right
    obtain ⟨k, b, c⟩ := r
    obtain ⟨k', hk', hr⟩ := List.exists_of_findSome?_eq_some hf
    obtain ⟨b', hb', hr⟩ := Option.bind_eq_some_iff.1 hr
    obtain ⟨c', hc', hr⟩ := Option.map_eq_some_iff.1 hr
    obtain ⟨rfl, rfl, rfl⟩ : k' = k ∧ b' = b ∧ c' = c := by
      have := Prod.ext_iff.1 hr
      exact ⟨this.1, (Prod.ext_iff.1 this.2).1, (Prod.ext_iff.1 this.2).2⟩
    obtain ⟨e, he, hx, hs⟩ := pickLine_some _ _ _ hc'
    obtain ⟨hkl, hki⟩ := List.mem_filter.1 hk'
    rw [hb'] at hki
    rw [hw.status 0 k' hkl] at hs
    have hi : b'.bus1 = i ∨ b'.bus2 = i := by simpa using hki
    have hline : LineAt n st i (k', c') := ⟨b', e, hb', hi, he, hx, hs⟩
    refine ⟨(k', c'), hline, ?_⟩
    have hbr := branch_some n k' b' hb'
    have hr : ∀ p, (w.procs p).tripFirst n pickLine (n.neighbours p i) =
        (markOne n p (w.procs p) (k', c'), decide (k' ∈ n.loc p)) := by
      intro p
      by_cases hp : p = 0
      · subst hp
        unfold Proc.tripFirst
        rw [hf]
        unfold markOne
        simp [hkl, hbr]
      · rw [hother p hp]
        unfold markOne
        rw [hloc p hp]
        simp
    have e1 : ∀ p, (w.tripAt n i).procs p = [(k', c')].foldl (markOne n p) (w.procs p) := by
      intro p
      unfold World.tripAt
      simp only [hr]
      rfl
    have e4 : (w.tripAt n i).apply = (w.apply || [(k', c')].any (fun t =>
        (List.range n.np).any (fun p => decide (t.1 ∈ n.loc p)))) := by
      unfold World.tripAt
      simp only [hr]
      simp
    obtain ⟨g1, _, g3⟩ := step_marks n hn st hact w hw [(k', c')]
      (by intro t ht; rw [List.mem_singleton] at ht; subst ht; exact hs)
      (by intro t ht; rw [List.mem_singleton] at ht; subst ht; exact ⟨b', hb'⟩) (w.tripAt n i) e1 rfl rfl e4
    refine ⟨fun a d => ?_, _, g1, after_removed _ _⟩
    rw [g3, laws_plain n hn [(k', c')] (by simp)
      (by intro t ht; rw [List.mem_singleton] at ht; subst ht; exact ⟨b', e, hb', he⟩)
      (by intro t ht; rw [List.mem_singleton] at ht; subst ht; exact hplain _ hline)]
    simp
    ring

/-- Bus 0 with a line to bus 1 and a line to bus 2; the first process owns buses 0 and 1, the second bus 2. -/
def star (e0 e1 : Elem) : Net where
  branches := [⟨0, 1, [e0], true⟩, ⟨0, 2, [e1], true⟩]
  np := 2
  owner := fun i => if i = 2 then 1 else 0
  loc := fun p => if p = 0 then [0, 1] else if p = 1 then [1] else []

/-- C223 fails on two processes, whatever the lines: the owner of the bus trips its first line, the other process trips the first
line it knows of, which is another one.  The row of bus 0 loses the line to bus 1, that of bus 2 loses the line to bus 0, and
the rest of both lines stays. -/
theorem C223_two_processes_violated (e0 e1 : Elem) (h0 : e0.xform = false) (h1 : e1.xform = false) (w : World)
    (hw : w.Clean (star e0 e1) (fun _ => [true])) :
    let w' := (w.tripAt (star e0 e1) 0).step (star e0 e1)
    w'.y 0 0 = w.y 0 0 - ({ e0 with status := true } : Elem).port11 ∧ w'.y 1 1 = w.y 1 1 - ({ e0 with status := true } : Elem).port22 ∧
    w'.y 0 2 = w.y 0 2 ∧ w'.y 2 0 = w.y 2 0 - ({ e1 with status := true } : Elem).port21 ∧
    w'.y 2 2 = w.y 2 2 - ({ e1 with status := true } : Elem).port22 := by
  have s0 : ∀ k ∈ [0, 1], (w.procs 0).status k = [true] := fun k hk => hw.status 0 k hk
  have s1 : (w.procs 1).status 1 = [true] := hw.status 1 1 (by simp [star])
  have n0 : (star e0 e1).neighbours 0 0 = [0, 1] := rfl
  have n1 : (star e0 e1).neighbours 1 0 = [1] := rfl
  have p0 : (w.procs 0).tripFirst (star e0 e1) pickLine [0, 1] =
      ((w.procs 0).mark 0 ⟨0, 1, [e0], true⟩ 0, true) := by
    unfold Proc.tripFirst
    have : pickLine [e0] ((w.procs 0).status 0) = some 0 := by
      rw [s0 0 (by simp)]; unfold pickLine; simp [List.range_succ, h0]
    simp [star, this]
  have p1 : (w.procs 1).tripFirst (star e0 e1) pickLine [1] =
      ((w.procs 1).mark 1 ⟨0, 2, [e1], true⟩ 0, true) := by
    unfold Proc.tripFirst
    have : pickLine [e1] ((w.procs 1).status 1) = some 0 := by
      rw [s1]; unfold pickLine; simp [List.range_succ, h1]
    simp [star, this]
  have q0 : (w.tripAt (star e0 e1) 0).procs 0 = (w.procs 0).mark 0 ⟨0, 1, [e0], true⟩ 0 := by
    unfold World.tripAt; simp only [n0, p0]
  have q1 : (w.tripAt (star e0 e1) 0).procs 1 = (w.procs 1).mark 1 ⟨0, 2, [e1], true⟩ 0 := by
    unfold World.tripAt; simp only [n1, p1]
  have qa : (w.tripAt (star e0 e1) 0).apply = true := by
    unfold World.tripAt
    have : (star e0 e1).np = 2 := rfl
    simp [this, List.range_succ, n0, n1, p0, p1]
  have qy : (w.tripAt (star e0 e1) 0).y = w.y := rfl
  have hfp : ∀ e : Elem, e.xform = false → reverse (dsElem e) = ({ e with status := true } : Elem).port21 :=
    fun e he => reverse_port e (fun h => by rw [he] at h; cases h)
  have fac : ∀ (e : Elem) (f : Elem → ℂ), factor [e] [true] [0] f = f (dsElem e) := by
    intro e f; simp [factor]
  have fb := forBus_port
  generalize w.tripAt (star e0 e1) 0 = w1 at q0 q1 qa qy
  unfold World.step
  simp only [qa, if_true, qy]
  unfold World.diagInc World.offInc
  have o0 : (star e0 e1).owner 0 = 0 := rfl
  have o1 : (star e0 e1).owner 1 = 0 := rfl
  have o2 : (star e0 e1).owner 2 = 1 := rfl
  have l0 : (star e0 e1).loc 0 = [0, 1] := rfl
  have l1 : (star e0 e1).loc 1 = [1] := rfl
  have b0 : (star e0 e1).branches[0]? = some ⟨0, 1, [e0], true⟩ := rfl
  have b1 : (star e0 e1).branches[1]? = some ⟨0, 2, [e1], true⟩ := rfl
  simp only [o0, o1, o2, l0, l1, q0, q1, Proc.mark, hw.pend, hw.trips, hw.flag]
  refine ⟨?_, ?_, ?_, ?_, ?_⟩
  all_goals simp [b0, b1, s0, s1, fac, fb, Branch.side, hfp e1 h1, hw.flag]
  all_goals ring

/-! ### C224 -/

/-- **C224** (partial).  A bus relay that trips leaves all other entries of the matrix, and with them the effect of commands
there, as they are. -/
theorem C224_elsewhere_partial (w : World) (i : Nat) (pybus : ℂ) (a b : Nat) (h : ¬ (a = i ∧ b = i)) :
    (w.busRelay i pybus).y a b = w.y a b := by
  unfold World.busRelay
  simp [h]

/-- C224 fails at the bus itself: the bus keeps its own record of its diagonal entry, in which commands are not entered; when
a relay at the bus trips and changes the record by `d`, the entry becomes the record, and what the command had removed is back.
Here the record agreed with the matrix before the command. -/
theorem C224_relay_violated (n : Net) (hn : n.Good) (st : Nat → List Bool) (hact : Active n st) (w : World)
    (hw : w.Clean n st) (acts : List (Nat × Nat × List Char)) (ts : List (Nat × Nat)) (h : Interval n st acts ts)
    (hd : (ts.map Prod.fst).Nodup) (hp : ∀ t ∈ ts, Plain n t) (i : Nat) (d : ℂ)
    (hne : (ts.map (fun t => contribution n t i i)).sum ≠ 0) :
    let w' := (acts.foldl (World.tripNamed n) w).step n
    w'.y i i = w.y i i - (ts.map (fun t => contribution n t i i)).sum ∧
    (w'.busRelay i (w.y i i + d)).y i i ≠ w'.y i i + d := by
  obtain ⟨_, _, hy⟩ := interval_exact n hn st hact w hw _ _ h
  have hyi := hy i i
  rw [laws_plain n hn ts hd ?_ hp] at hyi
  · refine ⟨by rw [hyi]; ring, ?_⟩
    rw [hyi]
    unfold World.busRelay
    simp only [and_self, if_true]
    intro e
    apply hne
    linear_combination e
  · intro t ht
    obtain ⟨a, b, e, hb, _, he, _⟩ := interval_hits n st acts ts h t ht
    exact ⟨b, e, hb, he⟩

/-! ### An example -/

/-- A line between buses 0 and 1 and a transformer between 1 and 2, on two processes: bus 0 belongs to the first. -/
noncomputable def line1 : Elem := ⟨0, 1, 0, 0, 1, 0, 0, 0, 0, false, true, true, false, ['1', ' ']⟩
noncomputable def xfmr1 : Elem := ⟨0, 1 / 2, 1, 0, 0, 0, 0, 0, 0, true, true, true, false, ['T', '1']⟩

noncomputable def net1 : Net where
  branches := [⟨0, 1, [line1], true⟩, ⟨1, 2, [xfmr1], true⟩]
  np := 2
  owner := fun i => if i = 0 then 0 else 1
  loc := fun p => if p = 0 then [0] else [1, 0]

theorem net1_good : net1.Good := by
  have two : ∀ (k : Nat) (b : Branch), net1.branches[k]? = some b →
      (k = 0 ∧ b = ⟨0, 1, [line1], true⟩) ∨ (k = 1 ∧ b = ⟨1, 2, [xfmr1], true⟩) := by
    intro k b h
    match k, h with
    | 0, h => left; exact ⟨rfl, (Option.some.inj h).symm⟩
    | 1, h => right; exact ⟨rfl, (Option.some.inj h).symm⟩
    | k + 2, h => simp [net1] at h
  constructor
  · intro k b h
    rcases two k b h with ⟨rfl, rfl⟩ | ⟨rfl, rfl⟩ <;> simp
  · intro k l b c hb hc hj
    rcases two k b hb with ⟨rfl, rfl⟩ | ⟨rfl, rfl⟩ <;> rcases two l c hc with ⟨rfl, rfl⟩ | ⟨rfl, rfl⟩ <;>
      simp [Joins] at hj ⊢
  · intro k b h
    rcases two k b h with ⟨rfl, rfl⟩ | ⟨rfl, rfl⟩ <;> simp
  · intro p
    unfold net1
    by_cases h : p = 0 <;> simp [h]
  · intro k b h
    rcases two k b h with ⟨rfl, rfl⟩ | ⟨rfl, rfl⟩ <;> simp [net1]
  · intro i
    unfold net1
    simp only
    split <;> omega

def st1 : Nat → List Bool := fun _ => [true]

theorem hits1 : Hits net1 st1 (0, 1, ['1', ' ']) (0, 0) :=
  ⟨⟨0, 1, [line1], true⟩, line1, rfl, Or.inl ⟨rfl, rfl⟩, rfl, rfl, rfl⟩

theorem interval1 : Interval net1 st1 [(1, 0, ['1', ' ']), (0, 1, ['2', ' '])] [(0, 0)] := by
  have two : ∀ (k : Nat) (b : Branch), net1.branches[k]? = some b →
      (k = 0 ∧ b = ⟨0, 1, [line1], true⟩) ∨ (k = 1 ∧ b = ⟨1, 2, [xfmr1], true⟩) := by
    intro k b h
    match k, h with
    | 0, h => left; exact ⟨rfl, (Option.some.inj h).symm⟩
    | 1, h => right; exact ⟨rfl, (Option.some.inj h).symm⟩
    | k + 2, h => simp [net1] at h
  refine ⟨[some (0, 0), none], List.Forall₂.cons ?_ (List.Forall₂.cons ?_ List.Forall₂.nil), rfl⟩
  · intro t
    constructor
    · intro e
      cases e
      exact ⟨⟨0, 1, [line1], true⟩, line1, rfl, Or.inr ⟨rfl, rfl⟩, rfl, rfl, rfl⟩
    · rintro ⟨b, e, hb, hj, he, htag, hs⟩
      obtain ⟨k, c⟩ := t
      rcases two k b hb with ⟨rfl, rfl⟩ | ⟨rfl, rfl⟩
      · match c, he with
        | 0, _ => rfl
        | c + 1, he => simp at he
      · simp [Joins] at hj
  · intro t
    constructor
    · intro e; cases e
    · rintro ⟨b, e, hb, hj, he, htag, hs⟩
      exfalso
      obtain ⟨k, c⟩ := t
      rcases two k b hb with ⟨rfl, rfl⟩ | ⟨rfl, rfl⟩
      · match c, he with
        | 0, he =>
          cases he
          revert htag
          simp [line1]
        | c + 1, he => simp at he
      · simp [Joins] at hj

/-- Tripping the line of the example, named against its direction, with another command that names nothing; then a step
without commands. -/
example : Schedule net1 st1 [[(1, 0, ['1', ' ']), (0, 1, ['2', ' '])], []] ([(0, 0)] ++ ([] ++ [])) := by
  refine Schedule.cons _ _ _ _ _ interval1 (by simp) ?_ ?_
  · intro t ht b e hb he
    rw [List.mem_singleton] at ht
    subst ht
    cases (Option.some.inj hb)
    cases (Option.some.inj he)
    simp [line1]
  · intro st' _
    exact Schedule.cons _ _ _ _ _ ⟨[], List.Forall₂.nil, rfl⟩ (by simp) (by simp) (fun st'' _ => Schedule.nil st'')

example : Active net1 st1 := by
  intro k b c hb _
  match k, hb with
  | 0, h => cases (Option.some.inj h); rfl
  | 1, h => cases (Option.some.inj h); rfl
  | k + 2, h => simp [net1] at h

/-- The contribution of the example's line to its first bus is not zero. -/
example : contribution net1 (0, 0) 0 0 = 0 → False := by
  intro h
  have : contribution net1 (0, 0) 0 0 = portAt ⟨0, 1, [line1], true⟩ line1 0 0 := rfl
  rw [this] at h
  unfold portAt Elem.port11 Elem.endShunt Elem.port twoPort line1 Elem.z at h
  have h12 := congrArg Complex.im h
  simp [Complex.normSq_apply] at h12
  norm_num at h12

/-- The example on one process meets the hypotheses of C223. -/
noncomputable def net2 : Net := { net1 with np := 1, owner := fun _ => 0, loc := fun p => if p = 0 then [1, 0] else [] }

example : LineAt net2 st1 1 (0, 0) :=
  ⟨⟨0, 1, [line1], true⟩, line1, rfl, Or.inr rfl, rfl, rfl, rfl⟩

example : net2.Good := by
  have g := net1_good
  constructor
  · exact g.ends
  · exact g.unique
  · exact g.tags
  · intro p
    unfold net2
    by_cases h : p = 0 <;> simp [h]
  · intro k b h
    match k, h with
    | 0, h => cases (Option.some.inj h); simp [net2]
    | 1, h => cases (Option.some.inj h); simp [net2]
    | k + 2, h => simp [net2, net1] at h
  · intro i
    simp [net2]

end GridPACK.Actions
