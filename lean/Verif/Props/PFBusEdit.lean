import Verif.Props.PFBusData

/-! C141 (voltage reset), C142 (flag of held voltage), C143 (edits reach the data collection), C144 (results written
over the input data); concrete cases for C134, C135, C139 and C140. -/
namespace GridPACK.PFBusData

/-! ### C141: voltage reset -/

/-- All values needed for a generator are there. -/
def GenRec.complete (r : GenRec) : Bool :=
  r.pg.isSome && r.qg.isSome && r.vs.isSome && r.stat.isSome && r.qmax.isSome && r.qmin.isSome

/-- The set voltage of the last complete generator in service (status 1). -/
def setVoltage (d : Data) : Option ℝ :=
  (((d.gens.getD []).filter (fun r => r.complete && decide (r.stat = some 1))).getLast?).bind (·.vs)

theorem genOf_eq_none {r : GenRec} : genOf r = none ↔ r.complete = false := by
  unfold genOf GenRec.complete
  constructor
  · intro h
    split at h
    · simp at h
    · next hn =>
      by_contra hc
      simp only [Bool.not_eq_false, Bool.and_eq_true, Option.isSome_iff_exists] at hc
      obtain ⟨⟨⟨⟨⟨⟨a, ha⟩, ⟨b, hb⟩⟩, ⟨c, hc⟩⟩, ⟨e, he⟩⟩, ⟨f, hf⟩⟩, ⟨g, hg⟩⟩ := hc
      exact hn a b c e f g ha hb hc he hf hg
  · intro h
    split
    · next h1 h2 h3 h4 h5 h6 => simp [h1, h2, h3, h4, h5, h6] at h
    · rfl

theorem genOf_eq_some {r : GenRec} {x : Gen × ℝ} (h : genOf r = some x) :
    r.complete = true ∧ r.vs = some x.2 ∧ r.stat = some x.1.status ∧ x.1.id = r.id.getD "-1" ∧
    (x.1.status ≠ 0 → r.pg = some x.1.pg) ∧ x.1.pt = r.pmax.getD 0 ∧ x.1.pb = r.pmin.getD 0 := by
  have hc : r.complete = true := by
    cases hc : r.complete with
    | true => rfl
    | false => rw [genOf_eq_none.mpr hc] at h; simp at h
  refine ⟨hc, ?_⟩
  unfold genOf at h
  split at h
  · next h1 h2 h3 h4 h5 h6 =>
    simp only [Option.some.injEq] at h
    subst h
    refine ⟨h3, h4, rfl, fun hs => ?_, rfl, rfl⟩
    simp only at hs
    simp [h1, hs]
  · simp at h

/-- C141: a loaded bus starts from the set voltage of its last generator in service, and from the voltage of the bus
record if it has none. -/
theorem C141_start (d : Data) (b₀ b : Bus) (h : load d b₀ = some b) : b.v = (setVoltage d).getD d.vmag := by
  rw [(load_some h).2.2.2.2.2.2.1]
  unfold setVoltage
  generalize d.gens.getD [] = l
  have key : ∀ (l : List GenRec) (v : ℝ),
      (l.filterMap genOf).foldl (fun v g => if g.1.status = 1 then g.2 else v) v =
      ((((l.filter (fun r => r.complete && decide (r.stat = some 1))).getLast?).bind (·.vs)).getD v) := by
    intro l
    induction l with
    | nil => intro v; rfl
    | cons r l ih =>
      intro v
      cases hr : genOf r with
      | none =>
        have hc := genOf_eq_none.mp hr
        rw [List.filterMap_cons_none hr, List.filter_cons_of_neg (by simp [hc]), ih]
      | some x =>
        obtain ⟨hc, hv, hst, -⟩ := genOf_eq_some hr
        rw [List.filterMap_cons_some hr, List.foldl_cons, ih]
        by_cases h1 : x.1.status = 1
        · rw [List.filter_cons_of_pos (by simp [hc, hst, h1]), if_pos h1]
          have hall : ∀ z ∈ l.filter (fun r => r.complete && decide (r.stat = some 1)), z.vs.isSome := by
            intro z hz
            have := (List.mem_filter.mp hz).2
            simp only [GenRec.complete, Bool.and_eq_true] at this
            exact this.1.1.1.1.2
          generalize l.filter (fun r => r.complete && decide (r.stat = some 1)) = m at hall
          cases m with
          | nil => simp [hv]
          | cons a m =>
            rw [List.getLast?_cons_cons]
            cases hl : (a :: m).getLast? with
            | none => simp at hl
            | some z =>
              cases hz : z.vs with
              | none =>
                have := hall z (List.mem_of_getLast? hl)
                rw [hz] at this
                simp at this
              | some w => simp [hz]
        · rw [List.filter_cons_of_neg (by simp [hst, h1]), if_neg h1]
  exact key l d.vmag

/-- C141: resetting the voltage after any history gives back the voltage the bus started from, if that is the one of
the bus record.

Partial: see `C141_set_voltage_violated` for the other buses. -/
theorem C141_reset_partial (d : Data) (b₀ b : Bus) (h : load d b₀ = some b)
    (hv : setVoltage d = none ∨ setVoltage d = some d.vmag) (ops : List Op) (e : Data) :
    (resetVoltage (run ops (b, e)).1).v = b.v := by
  have hk := run_kept ops (b, e)
  simp only [kept, Prod.mk.injEq] at hk
  have e1 : (resetVoltage (run ops (b, e)).1).v = b.voltage := hk.2.2.2.2.2
  rw [e1, (load_some h).2.2.2.2.2.2.2.1, C141_start d b₀ b h]
  rcases hv with hv | hv <;> simp [hv]

/-- C141 violated: a bus whose last generator in service has a set voltage different from the voltage in the bus record
does not get back the voltage it started from, neither by resetting the voltage nor by resetting the power nor by
setting the flag of the held voltage. -/
theorem C141_set_voltage_violated (d : Data) (b₀ b : Bus) (h : load d b₀ = some b) (vs : ℝ)
    (hv : setVoltage d = some vs) (hne : vs ≠ d.vmag) :
    b.v = vs ∧ (resetVoltage b).v = d.vmag ∧ (resetPower b).v = d.vmag ∧ (resetVoltage b).v ≠ b.v ∧
    ∀ s, (setIsPV s b).v = d.vmag := by
  have e0 : b.voltage = d.vmag := (load_some h).2.2.2.2.2.2.2.1
  have e1 : b.v = vs := by rw [C141_start d b₀ b h, hv]; rfl
  refine ⟨e1, e0, e0, ?_, fun s => e0⟩
  show b.voltage ≠ b.v
  rw [e0, e1]
  exact fun h => hne h.symm

/-! ### C142: the flag of the held voltage -/

/-- Calls that are not meant to change the flag. -/
def Op.keepsFlag : Op → Bool
  | .setIsPV _ | .resetIsPV | .setGeneratorStatus _ _ => false
  | _ => true

theorem step_flag (s : Bus × Data) (op : Op) (h : op.keepsFlag = true) :
    (step s op).1.isPV = s.1.isPV ∧ (step s op).1.saveIsPV = s.1.saveIsPV := by
  cases op with
  | setIsPV x => simp [Op.keepsFlag] at h
  | resetIsPV => simp [Op.keepsFlag] at h
  | setGeneratorStatus t x => simp [Op.keepsFlag] at h
  | setGeneratorRealPower t x =>
    simp only [step, setGeneratorRealPower]
    cases genIndex t s.1 <;> simp
  | setLoadRealPower t x =>
    simp only [step, setLoadRealPower]
    cases s.1.loads.findIdx? (fun l => decide (l.id = t)) <;> simp
  | _ => exact ⟨rfl, rfl⟩

/-- C142: setting the flag and resetting it later, after any calls that are not about the flag or a generator status,
gives back the old flag; and none of these calls changes the flag that was set.

Partial: one change only, see `C142_twice_violated`; and the change must not be a change of a generator status, see
`C142_status_violated`. -/
theorem C142_reset_partial (f : Bool) (b : Bus) (ops : List Op) (h : ∀ op ∈ ops, op.keepsFlag = true) (e : Data) :
    (run ops (setIsPV f b, e)).1.isPV = f ∧ (resetIsPV (run ops (setIsPV f b, e)).1).isPV = b.isPV := by
  have key : ∀ (ops : List Op), (∀ op ∈ ops, op.keepsFlag = true) → ∀ s : Bus × Data,
      (run ops s).1.isPV = s.1.isPV ∧ (run ops s).1.saveIsPV = s.1.saveIsPV := by
    intro ops
    induction ops with
    | nil => intro _ s; exact ⟨rfl, rfl⟩
    | cons op ops ih =>
      intro h s
      have h1 := step_flag s op (h op (List.mem_cons_self ..))
      have h2 := ih (fun op ho => h op (List.mem_cons_of_mem _ ho)) (step s op)
      exact ⟨h2.1.trans h1.1, h2.2.trans h1.2⟩
  exact ⟨(key ops h (setIsPV f b, e)).1, (key ops h (setIsPV f b, e)).2⟩

/-- C142 violated: after two changes the flag of the first change comes back, not the original one. -/
theorem C142_twice_violated (s t : Bool) (b : Bus) (h : s ≠ b.isPV) :
    (resetIsPV (setIsPV t (setIsPV s b))).isPV ≠ b.isPV := h

/-- C142 violated: after switching a generator the old flag is lost.  Whatever the bus was, the flag now says whether
some generator is in service, and resetting keeps it so; in particular a load bus with a generator becomes a bus with a
held voltage. -/
theorem C142_status_violated (tag : String) (s : Int) (b : Bus) (d : Data) (i : Nat) (hi : genIndex tag b = some i) :
    (setGeneratorStatus tag s b d).1.isPV =
      (setGeneratorStatus tag s b d).1.gens.any (fun g => decide (g.status ≠ 0)) ∧
    (resetIsPV (setGeneratorStatus tag s b d).1).isPV = (setGeneratorStatus tag s b d).1.isPV ∧
    (s ≠ 0 → b.isPV = false → (resetIsPV (setGeneratorStatus tag s b d).1).isPV ≠ b.isPV) := by
  have e : (setGeneratorStatus tag s b d).1.isPV =
      (setGeneratorStatus tag s b d).1.gens.any (fun g => decide (g.status ≠ 0)) := by
    unfold setGeneratorStatus
    rw [hi]
    rfl
  have e2 : (resetIsPV (setGeneratorStatus tag s b d).1).isPV = (setGeneratorStatus tag s b d).1.isPV := by
    unfold setGeneratorStatus
    rw [hi]
    rfl
  refine ⟨e, e2, fun hs hb => ?_⟩
  rw [e2, e, hb]
  have hg : (setGeneratorStatus tag s b d).1.gens = b.gens.modify i (fun g => { g with status := s }) := by
    unfold setGeneratorStatus
    rw [hi]
    simp [hs, setIsPV]
  rw [hg]
  have hlt : i < b.gens.length := by
    have := List.findIdx?_eq_some_iff_getElem.mp hi
    exact this.1
  simp only [ne_eq, Bool.not_eq_false, List.any_eq_true, decide_eq_true_eq]
  refine ⟨{ b.gens[i] with status := s }, ?_, hs⟩
  rw [List.mem_iff_getElem?]
  exact ⟨i, by simp [List.getElem?_modify, hlt]⟩

/-! ### C143: edits reach the data collection -/

theorem filterMap_getElem? {α β : Type} (f : α → Option β) : ∀ (l : List α), (∀ a ∈ l, (f a).isSome) → ∀ i : Nat,
    (l.filterMap f)[i]? = (l[i]?).bind f := by
  intro l
  induction l with
  | nil => intro _ i; simp
  | cons a l ih =>
    intro h i
    obtain ⟨x, hx⟩ := Option.isSome_iff_exists.mp (h a (List.mem_cons_self ..))
    rw [List.filterMap_cons_some hx]
    cases i with
    | zero => simp [hx]
    | succ i => simpa using ih (fun a ha => h a (List.mem_cons_of_mem _ ha)) i

/-- C143: on a bus all of whose generator records are complete, setting the real power of a generator in service is seen
alike on the bus and by a bus loaded from the data collection afterwards.

Partial: the records must be complete, see `C143_shifted_violated`. -/
theorem C143_generator_partial (tag : String) (x : ℝ) (d : Data) (b₀ b : Bus) (h : load d b₀ = some b)
    (hc : ∀ r ∈ d.gens.getD [], r.complete = true)
    (hs : ∀ g ∈ b.gens, g.id = tag → g.status ≠ 0) (b₁ b₂ : Bus)
    (h2 : load (setGeneratorRealPower tag x b d).2 b₁ = some b₂) :
    b₂.gens.map (fun g => (g.id, g.status, g.pg)) =
      (setGeneratorRealPower tag x b d).1.gens.map (fun g => (g.id, g.status, g.pg)) := by
  have l1 := load_gens h (fun g => (g.id, g.status, g.pg)) (fun _ _ _ => rfl)
  have l2 := load_gens h2 (fun g => (g.id, g.status, g.pg)) (fun _ _ _ => rfl)
  cases hi : genIndex tag b with
  | none =>
    have e : setGeneratorRealPower tag x b d = (b, d) := by unfold setGeneratorRealPower; rw [hi]
    rw [e] at l2 ⊢
    exact l2.trans l1.symm
  | some i =>
    have e : setGeneratorRealPower tag x b d = ({ b with gens := b.gens.modify i (fun g => { g with pg := x }) },
        { d with gens := d.gens.map (fun l => l.modify i (fun r => { r with pg := some x })) }) := by
      unfold setGeneratorRealPower; rw [hi]
    rw [e] at l2 ⊢
    obtain ⟨hlt, hid, -⟩ := List.findIdx?_eq_some_iff_getElem.mp hi
    have hst := hs b.gens[i] (List.getElem_mem hlt) (by simpa using hid)
    have hsome : ∀ l : List GenRec, (∀ r ∈ l, r.complete = true) → ∀ r ∈ l, (genOf r).isSome := by
      intro l hl r hr
      cases hg : genOf r with
      | some x => rfl
      | none => have := genOf_eq_none.mp hg; rw [hl r hr] at this; simp at this
    have hmap : (d.gens.map (fun l => l.modify i (fun r : GenRec => { r with pg := some x }))).getD [] =
        (d.gens.getD []).modify i (fun r : GenRec => { r with pg := some x }) := by
      cases d.gens <;> simp
    simp only [hmap] at l2
    generalize d.gens.getD [] = l at hc l1 l2
    have hcm : ∀ r ∈ l.modify i (fun r : GenRec => { r with pg := some x }), r.complete = true := by
      intro r hr
      obtain ⟨j, hj⟩ := List.mem_iff_getElem?.mp hr
      rw [List.getElem?_modify] at hj
      cases hlj : l[j]? with
      | none => rw [hlj] at hj; simp at hj
      | some s =>
        rw [hlj] at hj
        have hsc := hc s (List.mem_of_getElem? hlj)
        by_cases hij : i = j
        · simp only [hij, if_true, Option.map_eq_map, Option.map_some, Option.some.injEq] at hj
          subst hj
          unfold GenRec.complete at hsc ⊢
          simp only [Bool.and_eq_true] at hsc ⊢
          simp [hsc]
        · simp only [hij, if_false, Option.map_eq_map, Option.map_some, Option.some.injEq] at hj
          subst hj
          exact hsc
    rw [l2]
    apply List.ext_getElem?
    intro j
    have l1j := congrArg (fun m => m[j]?) l1
    simp only [List.getElem?_map, filterMap_getElem? genOf l (hsome l hc)] at l1j
    rw [List.getElem?_map, filterMap_getElem? genOf _ (hsome _ hcm), List.getElem?_map, List.getElem?_modify,
      List.getElem?_modify]
    by_cases hij : i = j
    · subst hij
      simp only [if_true]
      cases hl : l[i]? with
      | none =>
        rw [hl] at l1j
        rw [List.getElem?_eq_getElem hlt] at l1j
        simp at l1j
      | some r =>
        rw [hl, List.getElem?_eq_getElem hlt] at l1j
        rw [List.getElem?_eq_getElem hlt]
        simp only [Option.map_eq_map, Option.bind_some, Option.map_some] at l1j ⊢
        cases hr : genOf r with
        | none => rw [hr] at l1j; simp at l1j
        | some y =>
          rw [hr] at l1j
          simp only [Option.map_some, Option.some.injEq, Prod.mk.injEq] at l1j
          have hy : y.1.status ≠ 0 := by rw [← l1j.2.1]; exact hst
          have hr' : genOf { r with pg := some x } = some ({ y.1 with pg := x }, y.2) := by
            unfold genOf at hr ⊢
            split at hr
            · next h1 h2 h3 h4 h5 h6 =>
              simp only [Option.some.injEq] at hr
              subst hr
              simp only at hy
              simp only [h2, h3, h4, h5, h6, hy, if_false]
            · simp at hr
          rw [hr']
          simp [l1j.1, l1j.2.1]
    · simp only [hij, if_false]
      simp only [Option.map_eq_map, Option.map_id', id_eq]
      exact l1j.symm

/-- C143 violated: if the first generator record is incomplete (and the others complete), setting the real power of a
generator of the bus changes the record before its own; its own record keeps the old power. -/
theorem C143_shifted_violated (tag : String) (x : ℝ) (d : Data) (r₀ : GenRec) (l : List GenRec)
    (hd : d.gens = some (r₀ :: l)) (h0 : r₀.complete = false) (hc : ∀ r ∈ l, r.complete = true) (b₀ b : Bus)
    (h : load d b₀ = some b) (i : Nat) (hi : genIndex tag b = some i) :
    ∃ r, (r₀ :: l)[i + 1]? = some r ∧ r.id.getD "-1" = tag ∧
      ((setGeneratorRealPower tag x b d).2.gens.getD [])[i + 1]? = some r ∧
      (((setGeneratorRealPower tag x b d).2.gens.getD [])[i]?).bind (·.pg) = some x := by
  have l1 := load_gens h (fun g => g.id) (fun _ _ _ => rfl)
  obtain ⟨hlt, hid, -⟩ := List.findIdx?_eq_some_iff_getElem.mp hi
  have hid' : b.gens[i].id = tag := by simpa using hid
  rw [hd, Option.getD_some, List.filterMap_cons_none (genOf_eq_none.mpr h0)] at l1
  have hsome : ∀ r ∈ l, (genOf r).isSome := by
    intro r hr
    cases hg : genOf r with
    | some x => rfl
    | none => have := genOf_eq_none.mp hg; rw [hc r hr] at this; simp at this
  have l1j := congrArg (fun m => m[i]?) l1
  simp only [List.getElem?_map, filterMap_getElem? genOf l hsome, List.getElem?_eq_getElem hlt] at l1j
  cases hl : l[i]? with
  | none => rw [hl] at l1j; simp at l1j
  | some r =>
    rw [hl] at l1j
    simp only [Option.bind_some, Option.map_some] at l1j
    cases hr : genOf r with
    | none => rw [hr] at l1j; simp at l1j
    | some y =>
      rw [hr] at l1j
      simp only [Option.map_some, Option.some.injEq] at l1j
      have e : (setGeneratorRealPower tag x b d).2.gens =
          some ((r₀ :: l).modify i (fun r => { r with pg := some x })) := by
        unfold setGeneratorRealPower; rw [hi]; simp [hd]
      refine ⟨r, by simpa using hl, ?_, ?_, ?_⟩
      · rw [← (genOf_eq_some hr).2.2.2.1, ← l1j, hid']
      · rw [e, Option.getD_some, List.getElem?_modify]
        simpa using hl
      · rw [e, Option.getD_some, List.getElem?_modify]
        have hlen : i < (r₀ :: l).length := by
          have := (List.getElem?_eq_some_iff.mp hl).1
          simp; omega
        rw [List.getElem?_eq_getElem hlen]
        simp

/-- C143 violated for loads: a load with a constant-current or constant-admittance part does not keep the real power
that was set: a bus loaded from the data collection afterwards adds these parts to the new value. -/
theorem C143_load_violated (x pl ql ip iq yp yq : ℝ) (st : Int) (tag : String) (d : Data)
    (hd : d.loads = some [⟨some pl, some ql, some ip, some iq, some yp, some yq, some st, some tag⟩]) (b₀ b : Bus)
    (h : load d b₀ = some b) (b₁ b₂ : Bus) (h2 : load (setLoadRealPower tag x b d).2 b₁ = some b₂) :
    (setLoadRealPower tag x b d).1.loads.map (·.pl) = [x] ∧ b₂.loads.map (·.pl) = [x + ip + yp] := by
  have e1 := (load_some h).2.2.1
  rw [hd] at e1
  have e1' : b.loads = [⟨tag, st, pl + ip + yp, ql - iq - yq⟩] := by
    rw [e1]; simp [loadOf]
  have e2 : setLoadRealPower tag x b d = ({ b with loads := [⟨tag, st, x, ql - iq - yq⟩] },
      { d with loads := some [⟨some x, some ql, some ip, some iq, some yp, some yq, some st, some tag⟩] }) := by
    unfold setLoadRealPower
    simp [e1', hd]
  rw [e2] at h2 ⊢
  have e3 := (load_some h2).2.2.1
  refine ⟨rfl, ?_⟩
  rw [e3]
  simp [loadOf]

/-! ### C144: results over the input data -/

theorem overwrite_getElem? {α β : Type} (f : α → β → α) : ∀ (as : List α) (bs : List β) (i : Nat) (a : α) (b : β),
    as[i]? = some a → bs[i]? = some b → (overwrite f as bs)[i]? = some (f a b) := by
  intro as
  induction as with
  | nil => intro bs i a b h; simp at h
  | cons x as ih =>
    intro bs i a b h1 h2
    cases bs with
    | nil => simp at h2
    | cons y bs =>
      cases i with
      | zero => simp only [List.getElem?_cons_zero, Option.some.injEq] at h1 h2; subst h1 h2; rfl
      | succ i => exact ih bs i a b (by simpa using h1) (by simpa using h2)

theorem saveGenOrg_pg (pinj qinj : ℝ) (b : Bus) (d : Data) (l : List GenRec) (hd : d.gens = some l) (i : Nat) (g : Gen)
    (r : GenRec) (hg : b.gens[i]? = some g) (hr : l[i]? = some r) (hp : r.pg.isSome) :
    (((saveGenOrg pinj qinj b d).gens.getD [])[i]?).bind (·.pg) =
      some (g.pFac * (pinj + loadSum Load.pl b / b.sbase) * 100) := by
  obtain ⟨p, hp⟩ := Option.isSome_iff_exists.mp hp
  unfold saveGenOrg
  simp only [hd, Option.map_some, Option.getD_some]
  rw [overwrite_getElem? _ _ _ i r (g.pFac * (pinj + loadSum Load.pl b / b.sbase),
    g.pFac * (qinj + loadSum Load.ql b / b.sbase)) hr (by rw [List.getElem?_map, hg]; rfl)]
  simp [hp]

/-- C144: on a reference bus of a system with a base of 100 MVA, the real power written over the input of a generator is
the generator's saved result (per unit) in MW.

Partial: for other bases see `C144_base_violated`, for other buses `C144_schedule_violated`. -/
theorem C144_reference_partial (pinj qinj : ℝ) (b : Bus) (d : Data) (l : List GenRec) (hd : d.gens = some l)
    (hb : b.sbase = 100) (hr : b.ref = true) (i : Nat) (x : ℝ × ℝ) (hx : (saveGen pinj qinj b)[i]? = some x)
    (r : GenRec) (hl : l[i]? = some r) (hp : r.pg.isSome) :
    (((saveGenOrg pinj qinj b d).gens.getD [])[i]?).bind (·.pg) = some (x.1 * b.sbase) := by
  unfold saveGen at hx
  simp only [List.getElem?_map] at hx
  cases hg : b.gens[i]? with
  | none => rw [hg] at hx; simp at hx
  | some g =>
    rw [hg] at hx
    simp only [hr, if_true, Option.map_some, Option.some.injEq] at hx
    rw [saveGenOrg_pg pinj qinj b d l hd i g r hg hl hp, ← hx, hb]

/-- C144 violated: with another base than 100 MVA, a generator of the reference bus with a result different from zero gets
a wrong power. -/
theorem C144_base_violated (pinj qinj : ℝ) (b : Bus) (d : Data) (l : List GenRec) (hd : d.gens = some l)
    (hb : b.sbase ≠ 100) (hr : b.ref = true) (i : Nat) (x : ℝ × ℝ) (hx : (saveGen pinj qinj b)[i]? = some x)
    (hx0 : x.1 ≠ 0) (r : GenRec) (hl : l[i]? = some r) (hp : r.pg.isSome) :
    (((saveGenOrg pinj qinj b d).gens.getD [])[i]?).bind (·.pg) ≠ some (x.1 * b.sbase) := by
  unfold saveGen at hx
  simp only [List.getElem?_map] at hx
  cases hg : b.gens[i]? with
  | none => rw [hg] at hx; simp at hx
  | some g =>
    rw [hg] at hx
    simp only [hr, if_true, Option.map_some, Option.some.injEq] at hx
    rw [saveGenOrg_pg pinj qinj b d l hd i g r hg hl hp]
    rw [← hx] at hx0 ⊢
    intro he
    simp only [Option.some.injEq] at he
    exact hb (mul_left_cancel₀ hx0 he).symm

/-- C144 violated: on a bus that is not the reference bus the scheduled power of a generator is overwritten by its share
of the total, also with a base of 100 MVA; the result is wrong for every generator whose schedule is not its share. -/
theorem C144_schedule_violated (pinj qinj : ℝ) (b : Bus) (d : Data) (l : List GenRec) (hd : d.gens = some l)
    (hb : b.sbase = 100) (hr : b.ref = false) (i : Nat) (g : Gen) (hg : b.gens[i]? = some g)
    (hne : g.pFac * (pinj * b.sbase + loadSum Load.pl b) ≠ g.pg) (r : GenRec) (hl : l[i]? = some r)
    (hp : r.pg.isSome) :
    ((saveGen pinj qinj b)[i]?).map (fun x => x.1 * b.sbase) = some g.pg ∧
    (((saveGenOrg pinj qinj b d).gens.getD [])[i]?).bind (·.pg) ≠ some g.pg := by
  constructor
  · unfold saveGen
    simp only [List.getElem?_map, hg, Option.map_some, hr, Bool.false_eq_true, if_false]
    cases b.isPV <;> simp [hb]
  · rw [saveGenOrg_pg pinj qinj b d l hd i g r hg hl hp]
    intro he
    simp only [Option.some.injEq] at he
    apply hne
    rw [← he, hb]
    ring

/-! ### Concrete cases -/

/-- A bus with two generators in service and a third one out of service, and a load with a constant-current part. -/
noncomputable def sampleData : Data :=
  ⟨100, 1, 2, some 7, none,
   some [⟨some 10, some 1, some (21/20), some 1, some 5, some (-5), some 20, some 0, some "1"⟩,
         ⟨some 30, some 2, some (51/50), some 1, some 9, some (-9), some 60, some 0, some "2"⟩,
         ⟨some 40, some 3, some 1, some 0, some 8, some (-8), some 50, some 0, some "3"⟩],
   some [⟨some 50, some 20, some 4, some 0, some 0, some 0, some 1, some "1"⟩]⟩

/-- The bus it makes. -/
noncomputable def sampleBus : Bus :=
  ⟨[⟨"1", 1, 10, 1, 5, -5, 5, -5, 20, 0, 1/4, 1/4⟩, ⟨"2", 1, 30, 2, 9, -9, 9, -9, 60, 0, 3/4, 3/4⟩,
    ⟨"3", 0, 0, 0, 0, 0, 0, 0, 50, 0, 0, 0⟩],
   [10, 30, 0], [⟨"1", 1, 54, 20⟩], [54], [20], 100, 51/50, 1, false, true, true, 7, 1⟩

theorem sample_load : load sampleData fresh = some sampleBus := by
  unfold load
  simp only [sampleData, sampleBus, Option.getD_some, genOf, List.filterMap_cons, List.filterMap_nil, List.map_cons,
    List.map_nil, normalise, loadOf, List.sum_cons, List.sum_nil, List.length_cons, List.length_nil]
  norm_num [fresh]

/-- C134: scale, switch, overwrite and switch on again, then reset. -/
example : (resetPower (run [.scaleGen "1" (1/2), .scaleLoad "1" 3, .setGeneratorStatus "2" 0, .addPg "1" 100]
      (sampleBus, sampleData)).1).gens.map (fun g => (g.id, g.pg)) = [("1", 10), ("2", 30), ("3", 0)] := by
  rw [(C134_restored_partial sampleData sampleBus sample_load _ sampleData).1]
  simp [sampleBus]

/-- C134: the history does change the powers. -/
example : (run [.scaleGen "1" (1/2), .addPg "1" 100] (sampleBus, sampleData)).1.gens.map (·.pg) = [115, 30, 0] := by
  simp [run, step, scaleGen, addPg, sampleBus, scaleGenL]
  norm_num

/-- C135: half of the way up, then the whole way down. -/
example : ([("1", (1 / 2 : ℝ)), ("2", -1)].foldl (fun b c => scaleGen c.1 c.2 b) sampleBus).gens.map (·.pg) =
    [15, 0, 0] := by
  simp [scaleGen, sampleBus, scaleGenL]
  norm_num

/-- C135: the hypothesis on the powers is met. -/
example : ∀ g ∈ sampleBus.gens, g.pb ≤ g.pg ∧ g.pg ≤ g.pt := by
  intro g hg
  simp only [sampleBus, List.mem_cons, List.not_mem_nil, or_false] at hg
  rcases hg with rfl | rfl | rfl <;> norm_num

/-- C139: the shares of the sample bus. -/
example : sampleBus.gens.map (·.pFac) = [1/4, 3/4, 0] ∧ (sampleBus.gens.map (·.pFac)).sum = 1 := by
  refine ⟨by simp [sampleBus], (C139_shares sampleData fresh sampleBus sample_load (by simp [sampleBus]) ?_).2⟩
  norm_num [sampleBus]

example := C139_records sampleData fresh sampleBus sample_load _ rfl (by simp [sampleData])

/-- C139: after the outage of generator 2 only a quarter of the reactive power is saved. -/
example : ((saveGen 0 (1/5) (setGenStatus "2" false sampleBus)).map (·.2)).sum = 1/4 * (1/5 + 20/100) := by
  rw [C139_outage_violated "2" 0 (1/5) sampleBus ⟨"2", 1, 30, 2, 9, -9, 9, -9, 60, 0, 3/4, 3/4⟩ (by simp [sampleBus])
    (by norm_num [sampleBus]) (Or.inr rfl)]
  norm_num [sampleBus, demand]

/-- C140: two outages in a row and back. -/
example : [("1", false), ("2", false), ("1", true), ("2", true)].foldl (fun b c => setGenStatus c.1 c.2 b) sampleBus =
    sampleBus := by
  refine C140_return_partial sampleData fresh sampleBus sample_load ?_ _ ?_
  · intro g hg
    simp only [sampleBus, List.mem_cons, List.not_mem_nil, or_false] at hg
    rcases hg with rfl | rfl | rfl <;> simp
  · simp [setGenStatus, setGenStatusL, sampleBus]

/-- C140: generator 3 in service, without any effect. -/
example : ∃ g', (setGenStatus "3" true sampleBus).gens.find? (fun g => decide ("3" = g.id)) = some g' ∧
      g'.status = 1 ∧ g'.pg = 0 ∧ g'.qg = 0 ∧ g'.qmax = 0 ∧ g'.qmin = 0 ∧ g'.pFac = 0 :=
  C140_switch_on_violated sampleData fresh sampleBus sample_load (by simp [sampleBus]) (by norm_num [sampleBus])
    ⟨"3", 0, 0, 0, 0, 0, 0, 0, 50, 0, 0, 0⟩ "3" (by simp [sampleBus]) rfl

/-- C141: the sample bus starts from 1.02 and is reset to 1. -/
example : sampleBus.v = 51/50 ∧ (resetVoltage sampleBus).v = 1 ∧ setVoltage sampleData = some (51/50) := by
  refine ⟨rfl, rfl, ?_⟩
  simp [setVoltage, sampleData, GenRec.complete]

/-- C143: the new power of generator 1 is found again after loading from the data. -/
example (b₂ : Bus) (h : load (setGeneratorRealPower "1" 17 sampleBus sampleData).2 fresh = some b₂) :
    b₂.gens.map (fun g => (g.id, g.status, g.pg)) = [("1", 1, 17), ("2", 1, 30), ("3", 0, 0)] := by
  rw [C143_generator_partial "1" 17 sampleData fresh sampleBus sample_load ?_ ?_ fresh b₂ h]
  · simp [setGeneratorRealPower, genIndex, sampleBus, List.findIdx?_cons]
  · intro r hr
    simp only [sampleData, Option.getD_some, List.mem_cons, List.not_mem_nil, or_false] at hr
    rcases hr with rfl | rfl | rfl <;> rfl
  · intro g hg
    simp only [sampleBus, List.mem_cons, List.not_mem_nil, or_false] at hg
    rcases hg with rfl | rfl | rfl <;> simp

/-- C144: the schedule 10/30 of the sample bus becomes the shares of the total of 40, which are the same; with an
injection of 1 per unit the first generator gets 38.5. -/
example : (((saveGenOrg 1 0 sampleBus sampleData).gens.getD [])[0]?).bind (·.pg) ≠ some 10 :=
  (C144_schedule_violated 1 0 sampleBus sampleData _ rfl rfl rfl 0 ⟨"1", 1, 10, 1, 5, -5, 5, -5, 20, 0, 1/4, 1/4⟩ rfl
    (by norm_num [sampleBus, loadSum]) _ rfl rfl).2

end GridPACK.PFBusData
