import Verif.Lemmas.DeviceSlots
import Verif.Props.DyrShared

/-! C203, C204: the devices of a generator work with the parameters of the .dyr file. -/
namespace GridPACK.DeviceLoad
open StringUtils DataCollection Dyr DeviceSpec
open DyrSpec (Par Complete IsDevice Describes Gives Proper Unknown Place count deviceName Usable externalErrors Shared)
open RawBus (Val Data get idxOk mapKey_some getValue_get get_add get_add_other)
open HashDistr (exactBound exactBound_ok)

/-! ### After reading -/

theorem only_stored {cv : Conv} {recs : List (List Str)} {b : Int} {c c' : Data} (h : BusAfter cv recs b c c')
    {tag : Str} {g : Nat} (hg : IsDevice c "GENERATOR_NUMBER" "GENERATOR_ID" g tag) {sl : Slot} {r : List Str}
    {m : String} (ho : Only cv recs b tag sl r m) :
    (m, sl) ∈ kinds ∧ ∃ ps t1, (m, ps) ∈ DyrSpec.gens ∧ r[1]? = some t1 ∧ cv.name t1 = m.toList ∧
      AllStored cv r m ps c' (g : Int) := by
  obtain ⟨pre, post, hr, ⟨ps, hd⟩, hk, hothers⟩ := ho
  have hps := gens_mem rfl hd
  refine ⟨hk, ?_⟩
  have hst : AllStored cv r m ps c' (g : Int) := by
    intro p hp he hw
    refine h.gens pre r post tag m ps p g hr hd hg hp he ?_
    rintro r' hr' ⟨m', ps', hd', hin⟩
    exact others_disjoint hps hk (gens_mem rfl hd') (hothers r' hr' m' ps' hd') hp hw hin
  cases hd with
  | gen _ h0 h1 h2 hn => exact ⟨ps, _, hps, h1, hn, hst⟩

theorem flags_own : DyrSpec.gens.all (fun x => [Slot.exciter, .governor, .pss, .plant, .torque, .pitch, .drivetrain,
    .aero].all (fun sl => match sl.flag with
      | some f => !among (x.2.map Par.key) f || ofKind sl x | none => true)) = true := by decide +kernel

/-- Names that only records of generators have. -/
def plainNames : List String := ["GENERATOR_PG", "HAS_EXCITER", "HAS_GOVERNOR", "HAS_PSS", "HAS_PLANT_CONTROLLER",
  "HAS_WIND_TORQUECONTROL", "HAS_WIND_PITCHCONTROL", "HAS_WIND_DRIVETRAIN", "HAS_WIND_AERODYNAMIC"]

theorem plain_loads : avoids (DyrSpec.loads ++ DyrSpec.userLoads) plainNames = true := by decide +kernel
theorem plain_relays : avoids DyrSpec.relays plainNames = true := by decide +kernel
theorem plain_pg : avoids DyrSpec.gens ["GENERATOR_PG"] = true := by decide +kernel
theorem plain_colon : plainNames.all plainName = true := by decide +kernel
theorem plain_number : plainNames.all (fun x => !same x "RELAY_NUMBER") = true := by decide +kernel

theorem rest_of {cv : Conv} {recs : List (List Str)} {b : Int} {c c' : Data} (h : BusAfter cv recs b c c') {t : Ty}
    {name : String} (hn : name ∈ plainNames) {tag : Str} {g : Nat}
    (hg : IsDevice c "GENERATOR_NUMBER" "GENERATOR_ID" g tag)
    (hno : ∀ r ∈ recs, ¬ Gives cv r (.gen b tag) name) :
    get c' t ⟨name.toList, some (g : Int)⟩ = get c t ⟨name.toList, some (g : Int)⟩ := by
  refine h.rest t _ (noColon_of (List.all_eq_true.mp plain_colon _ hn)) ?_ ?_
  · intro g' name' r he hr
    simp only [Key.mk.injEq, Option.some.injEq, Nat.cast_inj] at he
    obtain ⟨e1, rfl⟩ := he
    have e1 := String.toList_injective e1
    subst e1
    rw [device_name hg]
    refine ⟨hno r hr, ?_⟩
    rintro ⟨m, ps, hd, hin⟩
    obtain ⟨p, hp, he⟩ := List.mem_map.mp hin
    exact avoids_use plain_loads (loads_mem rfl hd) hp (he ▸ hn)
  · intro _
    refine ⟨fun he => ?_, fun _ s hs he => ?_⟩
    · have := List.all_eq_true.mp plain_number _ hn
      rw [String.toList_injective he] at this
      simp [same_iff.mpr] at this
    · have he := String.toList_injective he
      subst he
      obtain ⟨⟨m, ps⟩, hm, hs⟩ := List.mem_flatMap.mp hs
      obtain ⟨p, hp, he⟩ := List.mem_map.mp hs
      exact avoids_use plain_relays hm hp (he ▸ hn)

theorem flag_plain {sl : Slot} {f : String} (h : sl.flag = some f) : f ∈ plainNames := by
  cases sl <;> simp only [Slot.flag, reduceCtorEq, Option.some.injEq] at h <;> subst h <;> simp [plainNames]

theorem flag_kept {cv : Conv} {recs : List (List Str)} {b : Int} {c c' : Data} (h : BusAfter cv recs b c c')
    {sl : Slot} {f : String} (hf : sl.flag = some f) {tag : Str} {g : Nat}
    (hg : IsDevice c "GENERATOR_NUMBER" "GENERATOR_ID" g tag)
    (hno : ∀ r ∈ recs, ∀ m ps, Describes cv r (.gen b tag) m ps → (m, sl) ∉ kinds) :
    get c' .bool ⟨f.toList, some (g : Int)⟩ = get c .bool ⟨f.toList, some (g : Int)⟩ := by
  refine rest_of h (flag_plain hf) hg ?_
  rintro r hr ⟨m, ps, hd, hin⟩
  refine hno r hr m ps hd ?_
  have h1 := List.all_eq_true.mp (List.all_eq_true.mp flags_own _ (gens_mem rfl hd)) sl (by
    cases sl <;> simp [Slot.flag] at hf ⊢)
  rw [hf] at h1
  simp only [among_iff.mpr hin, Bool.not_true, Bool.false_or, ofKind, decide_eq_true_eq] at h1
  exact lookup_mem h1

theorem pg_kept {cv : Conv} {recs : List (List Str)} {b : Int} {c c' : Data} (h : BusAfter cv recs b c c')
    {tag : Str} {g : Nat} (hg : IsDevice c "GENERATOR_NUMBER" "GENERATOR_ID" g tag) :
    get c' .double ⟨"GENERATOR_PG".toList, some (g : Int)⟩ = get c .double ⟨"GENERATOR_PG".toList, some (g : Int)⟩ := by
  refine rest_of h (by simp [plainNames]) hg ?_
  rintro r hr ⟨m, ps, hd, hin⟩
  obtain ⟨p, hp, he⟩ := List.mem_map.mp hin
  exact avoids_use plain_pg (gens_mem rfl hd) hp (by simp [he])

theorem device_at {c : Data} {g : Nat} (hi : idxOk (some (g : Int))) (junk : Struct) {sl : Slot} {f : String}
    (hf : sl.flag = some f) (hv : get c .bool ⟨f.toList, some (g : Int)⟩ = some true) {n : Str}
    (hn : get c .string ⟨sl.model.toList, some (g : Int)⟩ = some n) :
    device c g junk sl = (sl.create n).bind fun x => (load c g x.2 junk).map fun s => some (x.1, s) := by
  rw [device_on hi _ hf hv, hn]
  rfl

/-- The device in a slot. -/
theorem slot_of {c' : Data} {g : Nat} (hi : idxOk (some (g : Int))) {pg : ℝ} {junk : Slot → Struct} {devs : Devices}
    (hl : loadGenerator c' g pg junk = some (some devs)) {sl : Slot} {m : String} {es : List Step} {s : Struct}
    (hc : sl.create m.toList = some (m, es)) (hs : load c' g es (junk sl) = some s)
    (hn : get c' .string ⟨sl.model.toList, some (g : Int)⟩ = some m.toList)
    (hf : ∀ f, sl.flag = some f → get c' .bool ⟨f.toList, some (g : Int)⟩ = some true) : devs sl = some (m, s) := by
  obtain ⟨⟨n, m', es', s', h1, h2, h3, h4⟩, h5⟩ := loadGenerator_slots hi hl
  by_cases hsl : sl = .generator
  · subst hsl
    have e : some n = some m.toList := h1.symm.trans hn
    obtain rfl := Option.some.inj e
    rw [hc] at h2
    obtain ⟨rfl, rfl⟩ := Prod.mk.inj (Option.some.inj h2)
    rw [hs] at h3
    obtain rfl := Option.some.inj h3
    exact h4
  · obtain ⟨f, hfl⟩ : ∃ f, sl.flag = some f := by cases sl <;> simp [Slot.flag] at hsl ⊢
    have := h5 sl hsl
    rw [device_at hi _ hfl (hf f hfl) hn, hc, Option.bind_some, hs] at this
    exact (Option.some.inj this).symm

/-! ### C203 -/

/-- C203 (parameters of devices): after reading a .dyr file of complete records, on any number of processes, the
devices of a generator that the dynamic simulation creates are of the models of the records, and each quantity of a
device has the value in the record, provided there is only one record for a device of this kind of this generator.
Missing: the quantities in `deviceErrors`. -/
theorem C203_parameters_partial {cv : Conv} {n : Nat} {bound : Nat → Nat → Nat} {puts : List Nat}
    {recs : List (Struct × List Str)} {busNo : List Int} {ends : List (Int × Int)} {bus branch : List Data}
    (h : Shared cv n bound puts recs busNo ends bus branch) (me : Nat) :
    ∃ bus' branch', external cv n bound puts me recs busNo ends bus branch = some (bus', branch') ∧
      ∀ (i g : Nat) b tag c, busNo[i]? = some b → bus[i]? = some c →
        IsDevice c "GENERATOR_NUMBER" "GENERATOR_ID" g tag →
        ∃ c', bus'[i]? = some c' ∧ ∀ pg junk devs, loadGenerator c' g pg junk = some (some devs) →
          ∀ m sl qs r, (m, sl, qs) ∈ devices → Only cv (recs.map (·.2)) b tag sl r m →
            ∃ s, devs sl = some (m, s) ∧ ∀ q ∈ qs, (m, q.name) ∉ deviceErrors → q.Holds cv r s := by
  obtain ⟨bus', branch', h1, _, _, h2, _⟩ := Shared.run h me
  refine ⟨bus', branch', h1, fun i g b tag c hb hc hg => ?_⟩
  obtain ⟨c', h3, h4⟩ := h2 i b c hb hc
  refine ⟨c', h3, fun pg junk devs hl m sl qs r hd ho => ?_⟩
  have hi : idxOk (some (g : Int)) := device_ok (h.usableBuses c (List.mem_of_getElem? hc)) hg (Or.inl rfl)
  obtain ⟨hk, ps, t1, hps, ht1, hn, hst⟩ := only_stored h4 hg ho
  obtain ⟨es, s, e1, e2, e3⟩ := device_holds hd hps hi hst (junk sl)
  obtain ⟨e4, e5⟩ := head_stored hk hps hst ht1 hn
  exact ⟨s, slot_of hi hl e1 e2 e4 e5, e3⟩

/-! ### C203: violations -/

/-- The number that a member has in the end by an assignment. -/
def constant (mem : String) : Option ℚ → List Step → Option ℚ
  | a, [] => a
  | a, e :: es => constant mem (if same e.member mem then (match e with | .put _ v => some v | _ => none) else a) es

theorem load_constant {c : Data} {idx : Int} (hi : idxOk (some idx)) {mem : String} {v : ℚ} :
    ∀ (es : List Step) (a : Option ℚ) (s s' : Struct), intos es = [] → noBusInto es = true →
    (a = some v → s .double mem = ((v : ℝ) : Val .double)) → constant mem a es = some v → load c idx es s = some s' →
    s' .double mem = ((v : ℝ) : Val .double) := by
  intro es
  induction es with
  | nil =>
    intro a s s' _ _ h hs hl
    obtain rfl := Option.some.inj hl
    exact h hs
  | cons e es ih =>
    intro a s s' hin hnb h hs hl
    rw [load] at hl
    obtain ⟨s1, h1⟩ := step_some (c := c) hi e s
    rw [h1] at hl
    have hin' : intos es = [] := by
      unfold intos at hin
      split at hin <;> simp_all
    have hnb' : noBusInto es = true := by
      unfold noBusInto at hnb
      split at hnb <;> simp_all
    refine ih _ s1 s' hin' hnb' ?_ hs hl
    intro ha
    by_cases hm : same e.member mem = true
    · rw [if_pos hm] at ha
      rw [same_iff] at hm
      cases e with
      | put m w =>
        simp only [Option.some.injEq] at ha
        subst ha
        simp only [Step.member] at hm
        subst hm
        obtain rfl := Option.some.inj h1
        exact put_same _ _ _
      | get m t' k' d => simp at ha
      | bus m t' k' d => simp at ha
      | whenTiny m o => simp at ha
    · rw [if_neg hm] at ha
      have hne : mem ≠ e.member := fun he => hm (same_iff.mpr he.symm)
      rw [← h ha]
      cases e with
      | get m t' k' d =>
        refine fetch_other (key_some hi _) h1 hne ?_
        rintro ⟨o, w, rfl⟩
        simp [intos] at hin
      | bus m t' k' d =>
        refine fetch_other (bus_some _) h1 hne ?_
        rintro ⟨o, w, rfl⟩
        simp [noBusInto] at hnb
      | put m w =>
        obtain rfl := Option.some.inj h1
        exact put_other _ _ _ hne
      | whenTiny m o =>
        obtain rfl := Option.some.inj h1
        simp only []
        split
        · exact put_other _ _ _ hne
        · rfl

/-- The device of the only record of its kind, in terms of its table. -/
theorem device_table {cv : Conv} {n : Nat} {bound : Nat → Nat → Nat} {puts : List Nat}
    {recs : List (Struct × List Str)} {busNo : List Int} {ends : List (Int × Int)} {bus branch : List Data}
    (h : Shared cv n bound puts recs busNo ends bus branch) (me : Nat) {m : String} {sl : Slot} {es : List Step}
    (hd : (m, es) ∈ sl.classes) :
    ∃ bus' branch', external cv n bound puts me recs busNo ends bus branch = some (bus', branch') ∧
      ∀ (i g : Nat) b tag c, busNo[i]? = some b → bus[i]? = some c →
        IsDevice c "GENERATOR_NUMBER" "GENERATOR_ID" g tag →
        ∃ c', bus'[i]? = some c' ∧ ∀ pg junk devs, loadGenerator c' g pg junk = some (some devs) →
          ∀ r, Only cv (recs.map (·.2)) b tag sl r m → idxOk (some (g : Int)) ∧
            ∃ s ps, devs sl = some (m, s) ∧ load c' g es (junk sl) = some s ∧ (m, ps) ∈ DyrSpec.gens ∧
              AllStored cv r m ps c' g := by
  obtain ⟨bus', branch', h1, _, _, h2, _⟩ := Shared.run h me
  refine ⟨bus', branch', h1, fun i g b tag c hb hc hg => ?_⟩
  obtain ⟨c', h3, h4⟩ := h2 i b c hb hc
  refine ⟨c', h3, fun pg junk devs hl r ho => ?_⟩
  have hi : idxOk (some (g : Int)) := device_ok (h.usableBuses c (List.mem_of_getElem? hc)) hg (Or.inl rfl)
  obtain ⟨hk, ps, t1, hps, ht1, hn, hst⟩ := only_stored h4 hg ho
  obtain ⟨e4, e5⟩ := head_stored hk hps hst ht1 hn
  obtain ⟨s, hs⟩ := load_some (c := c') hi es (junk sl)
  exact ⟨hi, s, ps, slot_of hi hl (create_of hk hd) hs e4 e5, hs, hps, hst⟩

/-- C203 fails for every ESST4B exciter: its gain Kim, token 10, has the value of token 9 (the line that reads it has
the name of Kpm). -/
theorem C203_esst4b_violated {cv : Conv} {n : Nat} {bound : Nat → Nat → Nat} {puts : List Nat}
    {recs : List (Struct × List Str)} {busNo : List Int} {ends : List (Int × Int)} {bus branch : List Data}
    (h : Shared cv n bound puts recs busNo ends bus branch) (me : Nat) :
    ∃ bus' branch', external cv n bound puts me recs busNo ends bus branch = some (bus', branch') ∧
      ∀ (i g : Nat) b tag c, busNo[i]? = some b → bus[i]? = some c →
        IsDevice c "GENERATOR_NUMBER" "GENERATOR_ID" g tag →
        ∃ c', bus'[i]? = some c' ∧ ∀ pg junk devs, loadGenerator c' g pg junk = some (some devs) →
          ∀ r, Only cv (recs.map (·.2)) b tag .exciter r "ESST4B" →
            ∃ s t, devs .exciter = some ("ESST4B", s) ∧ r[9]? = some t ∧ s .double "Kim" = cv.atof t := by
  obtain ⟨bus', branch', h1, h2⟩ := device_table h me (m := "ESST4B") (sl := .exciter) (es := esst4b)
    (by simp [Slot.classes])
  refine ⟨bus', branch', h1, fun i g b tag c hb hc hg => ?_⟩
  obtain ⟨c', h3, h4⟩ := h2 i g b tag c hb hc hg
  refine ⟨c', h3, fun pg junk devs hl r ho => ?_⟩
  obtain ⟨hi, s, ps, e1, e2, e3, e4⟩ := h4 pg junk devs hl r ho
  have hps : ps = DyrSpec.esst4b := Option.some.inj ((lookup_of spec_gens_distinct e3).symm.trans
    (lookup_of spec_gens_distinct (m := "ESST4B") (by simp [DyrSpec.gens])))
  subst hps
  obtain ⟨t, h5, h6⟩ := e4 (.num "EXCITER_KPM" 9) (by simp [DyrSpec.esst4b, DyrSpec.nums])
    (by simp [Par.key, externalErrors]) (by simp [Par.key])
  exact ⟨s, t, e1, h5, load_source hi h6 esst4b none _ _ (by
    intro x hx
    have : intos esst4b = [] := rfl
    rw [this] at hx
    simp at hx) (by decide +kernel) (by simp) (by decide +kernel) e2⟩

/-- C203 fails for every ESST1A exciter and every WSHYGP governor: the switches UEL and VOS are 1 and the time constant
Tt is 0, whatever the record has. -/
theorem C203_fixed_violated {cv : Conv} {n : Nat} {bound : Nat → Nat → Nat} {puts : List Nat}
    {recs : List (Struct × List Str)} {busNo : List Int} {ends : List (Int × Int)} {bus branch : List Data}
    (h : Shared cv n bound puts recs busNo ends bus branch) (me : Nat) {m : String} {sl : Slot} {q : String} {v : ℚ}
    (hm : (m, sl, q, v) ∈ [("ESST1A", Slot.exciter, "UEL", 1), ("ESST1A", .exciter, "VOS", 1),
      ("WSHYGP", .governor, "Tt", 0)]) :
    ∃ bus' branch', external cv n bound puts me recs busNo ends bus branch = some (bus', branch') ∧
      ∀ (i g : Nat) b tag c, busNo[i]? = some b → bus[i]? = some c →
        IsDevice c "GENERATOR_NUMBER" "GENERATOR_ID" g tag →
        ∃ c', bus'[i]? = some c' ∧ ∀ pg junk devs, loadGenerator c' g pg junk = some (some devs) →
          ∀ r, Only cv (recs.map (·.2)) b tag sl r m →
            ∃ s, devs sl = some (m, s) ∧ s .double q = ((v : ℝ) : Val .double) := by
  have key : ∃ es, (m, es) ∈ sl.classes ∧ intos es = [] ∧ noBusInto es = true ∧ constant q none es = some v := by
    simp only [List.mem_cons, Prod.mk.injEq, List.not_mem_nil, or_false] at hm
    rcases hm with ⟨rfl, rfl, rfl, rfl⟩ | ⟨rfl, rfl, rfl, rfl⟩ | ⟨rfl, rfl, rfl, rfl⟩
    · exact ⟨esst1a, by simp [Slot.classes], rfl, rfl, by decide +kernel⟩
    · exact ⟨esst1a, by simp [Slot.classes], rfl, rfl, by decide +kernel⟩
    · exact ⟨wshygp, by simp [Slot.classes], rfl, rfl, by decide +kernel⟩
  obtain ⟨es, k1, k2, k3, k4⟩ := key
  obtain ⟨bus', branch', h1, h2⟩ := device_table h me k1
  refine ⟨bus', branch', h1, fun i g b tag c hb hc hg => ?_⟩
  obtain ⟨c', h3, h4⟩ := h2 i g b tag c hb hc hg
  refine ⟨c', h3, fun pg junk devs hl r ho => ?_⟩
  obtain ⟨hi, s, ps, e1, e2, e3, e4⟩ := h4 pg junk devs hl r ho
  exact ⟨s, e1, load_constant hi es none _ _ k2 k3 (by simp) k4 e2⟩

/-- The values that a device takes from the data collection. -/
def reads : List Step → List (Ty × String)
  | [] => []
  | .get _ t k _ :: es => (t, k) :: reads es
  | .bus _ t k _ :: es => (t, k) :: reads es
  | _ :: es => reads es

theorem load_unread {c d : Data} {idx : Int} (hi : idxOk (some idx)) {t : Ty} {k : String}
    (hcd : ∀ u (x : Key), ':' ∉ x.name → (u, x.name) ≠ (t, k.toList) → get d u x = get c u x) :
    ∀ (es : List Step) (s : Struct), (reads es).all (fun y => plainName y.2) = true → (t, k) ∉ reads es →
      load d idx es s = load c idx es s
  | [], s, _, _ => rfl
  | e :: es, s, hp, hn => by
    have ne : ∀ u x, (u, x) ≠ (t, k) → (u, x.toList) ≠ (t, k.toList) := by
      intro u x hx he
      obtain ⟨rfl, e2⟩ := Prod.mk.inj he
      exact hx (by rw [String.toList_injective e2])
    have hs : e.run d idx s = e.run c idx s := by
      cases e with
      | get m u x f =>
        rw [Step.run, Step.run, fetch_eq (key_some hi _), fetch_eq (key_some hi _), hcd u _ (noColon_of (List.all_eq_true.mp hp (u, x) (by simp [reads]))) (ne u x (by
          intro he; exact hn (by simp [reads, he])))]
      | bus m u x f =>
        rw [Step.run, Step.run, fetch_eq (bus_some _), fetch_eq (bus_some _), hcd u _ (noColon_of (List.all_eq_true.mp hp (u, x) (by simp [reads]))) (ne u x (by
          intro he; exact hn (by simp [reads, he])))]
      | put m v => rfl
      | whenTiny m o => rfl
    rw [load, load, hs]
    congr 1
    funext s1
    refine load_unread hi hcd es s1 ?_ ?_
    · refine List.all_eq_true.mpr fun y hy => List.all_eq_true.mp hp y ?_
      cases e <;> simp [reads, hy]
    · cases e <;> simp_all [reads]

/-- The parameters of records that the devices do not use: the model, the kind, and the type and name under which the
reader stores the value (by `C181_generators_partial`). -/
def unread : List (String × Slot × Ty × String) :=
  [("EXDC1", .exciter, .double, "EXCITER_SWITCH"), ("IEEET1", .exciter, .double, "EXCITER_SWITCH"),
  ("GENCLS", .generator, .double, "GENERATOR_TRANSIENT_REACTANCE"), ("REECA1", .exciter, .int, "GENERATOR_REECA_IREG"),
  ("REPCA1", .plant, .int, "GENERATOR_REPCA_IREG"), ("REPCA1", .plant, .int, "GENERATOR_REPCA_BRCH_BUS_FROM"),
  ("REPCA1", .plant, .int, "GENERATOR_REPCA_BRCH_BUS_TO"), ("REPCTA1", .plant, .int, "GENERATOR_REPCA_IREG"),
  ("REPCTA1", .plant, .int, "GENERATOR_REPCA_BRCH_BUS_FROM"),
  ("REPCTA1", .plant, .int, "GENERATOR_REPCA_BRCH_BUS_TO"), ("WSHYGP", .governor, .double, "GOVERNOR_GV1"),
  ("WSHYGP", .governor, .double, "GOVERNOR_PGV1"), ("WSHYGP", .governor, .double, "GOVERNOR_GV2"),
  ("WSHYGP", .governor, .double, "GOVERNOR_PGV2"), ("WSHYGP", .governor, .double, "GOVERNOR_GV3"),
  ("WSHYGP", .governor, .double, "GOVERNOR_PGV3"), ("WSHYGP", .governor, .double, "GOVERNOR_GV4"),
  ("WSHYGP", .governor, .double, "GOVERNOR_PGV4"), ("WSHYGP", .governor, .double, "GOVERNOR_GV5"),
  ("WSHYGP", .governor, .double, "GOVERNOR_PGV5"), ("WSIEG1", .governor, .int, "GOVERNOR_JBUS"),
  ("WSIEG1", .governor, .int, "GOVERNOR_M"), ("WSIEG1", .governor, .int, "GOVERNOR_IBLOCK")]

theorem unread_ok : unread.all (fun x => match lookup x.2.1.classes x.1 with
    | some es => (reads es).all (fun y => plainName y.2 && !(decide (y.1 = x.2.2.1) && same y.2 x.2.2.2))
    | none => false) = true := by decide +kernel

theorem unread_stored : unread.all (fun x => match lookup DyrSpec.gens x.1 with
    | some ps => ps.any (fun p => same p.key x.2.2.2) | none => false) = true := by decide +kernel

/-- C203 fails for the parameters of `unread`, among them the switch of EXDC1 and IEEET1, the transient reactance of
GENCLS, the controlled bus and branch of REPCA1 (read as real numbers, stored as integers), the gate table of WSHYGP
and Iblock of WSIEG1: every device of the model is the same whatever the reader stored for the parameter. -/
theorem C203_unread_violated {m : String} {sl : Slot} {t : Ty} {k : String} (hu : (m, sl, t, k) ∈ unread) {c d : Data}
    {g : Nat} (hi : idxOk (some (g : Int)))
    (hcd : ∀ u (x : Key), ':' ∉ x.name → (u, x.name) ≠ (t, k.toList) → get d u x = get c u x) :
    (∃ ps, (m, ps) ∈ DyrSpec.gens ∧ ∃ p ∈ ps, p.key = k) ∧
      ∃ es, sl.create m.toList = some (m, es) ∧ ∀ s, load d g es s = load c g es s := by
  have h1 := List.all_eq_true.mp unread_ok _ hu
  have h2 := List.all_eq_true.mp unread_stored _ hu
  constructor
  · cases hl : lookup DyrSpec.gens m with
    | none => rw [hl] at h2; simp at h2
    | some ps =>
      rw [hl] at h2
      obtain ⟨p, hp, he⟩ := List.any_eq_true.mp h2
      exact ⟨ps, lookup_mem hl, p, hp, same_iff.mp he⟩
  · cases hl : lookup sl.classes m with
    | none => rw [hl] at h1; simp at h1
    | some es =>
      rw [hl] at h1
      refine ⟨es, create_of ?_ (lookup_mem hl), fun s => load_unread hi hcd es s ?_ ?_⟩
      · have : unread.all (fun x => ofKind x.2.1 (x.1, [])) = true := by decide +kernel
        have := List.all_eq_true.mp this _ hu
        simp only [ofKind, decide_eq_true_eq] at this
        exact lookup_mem this
      · refine List.all_eq_true.mpr fun y hy => ?_
        have := List.all_eq_true.mp h1 y hy
        rw [Bool.and_eq_true] at this
        exact this.1
      · intro hm
        have := List.all_eq_true.mp h1 _ hm
        simp [same_iff.mpr] at this

/-! ### C204 -/

/-- C204 (devices are created): a generator whose power is not negative, with a record of a generator model and at
most one record for each kind of other device, all of models other than EXDC2 and GGOV1, is loaded without error, with
exactly the devices of its records. -/
theorem C204_devices_partial {cv : Conv} {n : Nat} {bound : Nat → Nat → Nat} {puts : List Nat}
    {recs : List (Struct × List Str)} {busNo : List Int} {ends : List (Int × Int)} {bus branch : List Data}
    (h : Shared cv n bound puts recs busNo ends bus branch) (me : Nat) :
    ∃ bus' branch', external cv n bound puts me recs busNo ends bus branch = some (bus', branch') ∧
      ∀ (i g : Nat) b tag c (p : ℝ) (models : Slot → Option String), busNo[i]? = some b → bus[i]? = some c →
        IsDevice c "GENERATOR_NUMBER" "GENERATOR_ID" g tag →
        get c .double ⟨"GENERATOR_PG".toList, some (g : Int)⟩ = some p → 0 ≤ p →
        (∀ (sl : Slot) (f : String), sl.flag = some f → get c .bool ⟨f.toList, some (g : Int)⟩ = none) →
        (∀ sl m, models sl = some m → m ≠ "EXDC2" ∧ m ≠ "GGOV1" ∧ ∃ r, Only cv (recs.map (·.2)) b tag sl r m) →
        (∀ sl, models sl = none → ∀ r ∈ recs.map (·.2), ∀ m ps, Describes cv r (.gen b tag) m ps → (m, sl) ∉ kinds) →
        models .generator ≠ none →
        ∃ c', bus'[i]? = some c' ∧ ∀ pg junk, ∃ devs, loadGenerator c' g pg junk = some (some devs) ∧
          ∀ sl, (devs sl).map (·.1) = models sl := by
  obtain ⟨bus', branch', h1, _, _, h2, _⟩ := Shared.run h me
  refine ⟨bus', branch', h1, fun i g b tag c p models hb hc hg hp h0 hfl hsome hnone hgen => ?_⟩
  obtain ⟨c', h3, h4⟩ := h2 i b c hb hc
  refine ⟨c', h3, fun pg junk => ?_⟩
  have hi : idxOk (some (g : Int)) := device_ok (h.usableBuses c (List.mem_of_getElem? hc)) hg (Or.inl rfl)
  have hp' := (pg_kept h4 hg).trans hp
  have key : ∀ sl m, models sl = some m → ∃ es s, sl.create m.toList = some (m, es) ∧
      load c' g es (junk sl) = some s ∧ get c' .string ⟨sl.model.toList, some (g : Int)⟩ = some m.toList ∧
      ∀ f, sl.flag = some f → get c' .bool ⟨f.toList, some (g : Int)⟩ = some true := by
    intro sl m hm
    obtain ⟨hx, hy, r, ho⟩ := hsome sl m hm
    obtain ⟨hk, ps, t1, hps, ht1, hn, hst⟩ := only_stored h4 hg ho
    have hd : ∃ qs, (m, sl, qs) ∈ devices := by
      rcases List.mem_append.mp hk with hk' | hk'
      · obtain ⟨d, hd, he⟩ := List.mem_map.mp hk'
        obtain ⟨a, b, qs⟩ := d
        obtain ⟨rfl, rfl⟩ := Prod.mk.inj he
        exact ⟨qs, hd⟩
      · simp only [List.mem_cons, Prod.mk.injEq, List.not_mem_nil, or_false] at hk'
        rcases hk' with ⟨rfl, _⟩ | ⟨rfl, _⟩
        · exact absurd rfl hx
        · exact absurd rfl hy
    obtain ⟨qs, hd⟩ := hd
    obtain ⟨es, s, e1, e2, e3⟩ := device_holds hd hps hi hst (junk sl)
    obtain ⟨e4, e5⟩ := head_stored hk hps hst ht1 hn
    exact ⟨es, s, e1, e2, e4, e5⟩
  have dev : ∀ sl, ∃ d : Option (String × Struct), d.map (·.1) = models sl ∧
      (sl ≠ .generator → device c' g (junk sl) sl = some d) ∧
      (sl = .generator → ∃ m es s, d = some (m, s) ∧ Slot.create .generator m.toList = some (m, es) ∧
        load c' g es (junk .generator) = some s ∧
        get c' .string ⟨"GENERATOR_MODEL".toList, some (g : Int)⟩ = some m.toList) := by
    intro sl
    cases hm : models sl with
    | none =>
      refine ⟨none, rfl, fun hsl => ?_, ?_⟩
      · obtain ⟨f, hf⟩ : ∃ f, sl.flag = some f := by cases sl <;> simp [Slot.flag] at hsl ⊢
        exact device_off hi _ hf ((flag_kept h4 hf hg (hnone sl hm)).trans (hfl sl f hf))
      · rintro rfl; exact absurd hm hgen
    | some m =>
      obtain ⟨es, s, e1, e2, e3, e4⟩ := key sl m hm
      refine ⟨some (m, s), rfl, fun hsl => ?_, ?_⟩
      · obtain ⟨f, hf⟩ : ∃ f, sl.flag = some f := by cases sl <;> simp [Slot.flag] at hsl ⊢
        rw [device_at hi _ hf (e4 f hf) e3, e1, Option.bind_some, e2]
        rfl
      · rintro rfl; exact ⟨m, es, s, rfl, e1, e2, e3⟩
  choose devs d1 d2 d3 using dev
  refine ⟨devs, ?_, d1⟩
  obtain ⟨m, es, s, f1, f2, f3, f4⟩ := d3 .generator rfl
  rw [loadGenerator_run hi pg junk hp' f4 h0, f2, Option.bind_some, allDevices_eq f3 devs f1 d2]
  rfl

/-- C204 fails for the exciter EXDC2 and the governor GGOV1: the reader accepts the records, but the simulation calls a
function of a device that was never created, for every generator with such a record. -/
theorem C204_models_violated {cv : Conv} {n : Nat} {bound : Nat → Nat → Nat} {puts : List Nat}
    {recs : List (Struct × List Str)} {busNo : List Int} {ends : List (Int × Int)} {bus branch : List Data}
    (h : Shared cv n bound puts recs busNo ends bus branch) (me : Nat) {i g : Nat} {b : Int} {tag : Str} {c : Data}
    {p : ℝ} {sl : Slot} {m m0 : String} {r r0 : List Str} (hb : busNo[i]? = some b) (hc : bus[i]? = some c)
    (hg : IsDevice c "GENERATOR_NUMBER" "GENERATOR_ID" g tag)
    (hp : get c .double ⟨"GENERATOR_PG".toList, some (g : Int)⟩ = some p) (h0 : 0 ≤ p)
    (hgen : Only cv (recs.map (·.2)) b tag .generator r0 m0) (ho : Only cv (recs.map (·.2)) b tag sl r m)
    (hm : m = "EXDC2" ∨ m = "GGOV1") :
    ∃ bus' branch' c', external cv n bound puts me recs busNo ends bus branch = some (bus', branch') ∧
      bus'[i]? = some c' ∧ ∀ pg junk, loadGenerator c' g pg junk = none := by
  obtain ⟨bus', branch', h1, _, _, h2, _⟩ := Shared.run h me
  obtain ⟨c', h3, h4⟩ := h2 i b c hb hc
  refine ⟨bus', branch', c', h1, h3, fun pg junk => ?_⟩
  have hi : idxOk (some (g : Int)) := device_ok (h.usableBuses c (List.mem_of_getElem? hc)) hg (Or.inl rfl)
  have hp' := (pg_kept h4 hg).trans hp
  obtain ⟨hk0, ps0, t0, hps0, ht0, hn0, hst0⟩ := only_stored h4 hg hgen
  obtain ⟨hk, ps, t1, hps, ht1, hn, hst⟩ := only_stored h4 hg ho
  obtain ⟨e0, _⟩ := head_stored hk0 hps0 hst0 ht0 hn0
  obtain ⟨e4, e5⟩ := head_stored hk hps hst ht1 hn
  have hsl : sl = .exciter ∧ m = "EXDC2" ∨ sl = .governor ∧ m = "GGOV1" := by
    rcases hm with rfl | rfl
    · left
      refine ⟨?_, rfl⟩
      have e := (lookup_of kinds_distinct hk).symm.trans
        (lookup_of kinds_distinct (m := "EXDC2") (k := Slot.exciter) (by simp [kinds]))
      exact Option.some.inj e
    · right
      refine ⟨?_, rfl⟩
      have e := (lookup_of kinds_distinct hk).symm.trans
        (lookup_of kinds_distinct (m := "GGOV1") (k := Slot.governor) (by simp [kinds]))
      exact Option.some.inj e
  have hcreate : sl.create m.toList = none := by
    rcases hsl with ⟨rfl, rfl⟩ | ⟨rfl, rfl⟩
    · have : (Slot.create .exciter "EXDC2".toList).isNone = true := by decide +kernel
      exact Option.isNone_iff_eq_none.mp this
    · have : (Slot.create .governor "GGOV1".toList).isNone = true := by decide +kernel
      exact Option.isNone_iff_eq_none.mp this
  obtain ⟨f, hf⟩ : ∃ f, sl.flag = some f := by
    rcases hsl with ⟨rfl, _⟩ | ⟨rfl, _⟩ <;> simp [Slot.flag]
  refine loadGenerator_none hi pg junk hp' e0 h0 (sl := sl) ?_
  rw [device_at hi _ hf (e5 f hf) e4, hcreate]
  rfl

/-! ### Examples -/

/-- A bus with one load and one generator that delivers 1. -/
noncomputable def machineBus : Data :=
  (addValue oneOfEach .double ⟨"GENERATOR_PG".toList, some 0⟩ (1 : ℝ)).getD (fun _ => [])

theorem machineBus_add : addValue oneOfEach .double ⟨"GENERATOR_PG".toList, some 0⟩ (1 : ℝ) = some machineBus := by
  obtain ⟨s, hs⟩ := mapKey_some "GENERATOR_PG".toList (some 0) (by simp [idxOk])
  unfold machineBus addValue
  rw [hs]
  rfl

theorem machineBus_other {t : Ty} {l : Key} (hl : ':' ∉ l.name) (h : (t, l) ≠ (.double, ⟨"GENERATOR_PG".toList, some 0⟩)) :
    get machineBus t l = get oneOfEach t l :=
  get_add_other machineBus_add (by decide) hl h

theorem machineBus_pg : get machineBus .double ⟨"GENERATOR_PG".toList, some 0⟩ = some (1 : ℝ) := by
  rw [get_add machineBus_add]
  have : (get oneOfEach .double ⟨"GENERATOR_PG".toList, some 0⟩).isNone = true := by decide +kernel
  rw [Option.isNone_iff_eq_none.mp this]
  rfl

theorem machineBus_gen : IsDevice machineBus "GENERATOR_NUMBER" "GENERATOR_ID" 0 "1 ".toList := by
  refine ⟨1, ?_, by decide, ?_, by simp⟩
  · rw [machineBus_other (by decide) (by simp)]; exact oneOfEach_gens
  · rw [machineBus_other (l := ⟨_, some ((0 : Nat) : Int)⟩) (by decide) (by simp)]; exact oneOfEach_genId

theorem machineBus_usable {n : Nat} (hn : n ≤ 5) : Usable n machineBus := by
  have h : ∀ k : String, ':' ∉ k.toList → count machineBus k = count oneOfEach k := by
    intro k hk
    unfold count
    rw [machineBus_other hk (by simp)]
  unfold Usable
  rw [h _ (by decide), h _ (by decide), h _ (by decide)]
  exact oneOfEach_usable hn

theorem machine_shared {recs : List (Struct × List Str)} (hr : ∀ r ∈ recs, Proper dec r.2) (hn : recs.length ≤ 5) :
    Shared dec 3 (exactBound 3) [2, 0, 1] recs [7, 1] [(1, 2)] [oneOfEach, machineBus] [oneOfEach] where
  procs := by decide
  bounds := fun total => exactBound_ok 3 total (by decide)
  order := by decide
  proper := hr
  buses := rfl
  branches := rfl
  usableBuses := by
    intro c hc
    simp only [List.mem_cons, List.not_mem_nil, or_false] at hc
    rcases hc with rfl | rfl
    · exact oneOfEach_usable hn
    · exact machineBus_usable hn
  usableBranches := by
    intro c hc
    obtain rfl : c = oneOfEach := by simpa using hc
    exact oneOfEach_usable hn

theorem row_kind {m : String} {n : Nat} {m' : String} {ps' : List Par}
    (hm : ∃ ps, (m, ps) ∈ DyrSpec.gens) (hd : Describes dec (row "1" m "1 " n) (.gen 1 "1 ".toList) m' ps') :
    m' = m := by
  obtain ⟨ps, hm⟩ := hm
  exact (gen_unique rfl rfl (row_gen hm n) hd).2.1.symm

/-- The devices of the example: a machine, an exciter and a governor. -/
def machineModels : Slot → Option String
  | .generator => some "GENCLS"
  | .exciter => some "SEXS"
  | .governor => some "TGOV1"
  | _ => none

theorem machine_mem (junk : Struct) {r : List Str} (hr : r ∈ (machineFile junk).map (·.2)) {m : String}
    {ps : List Par} (hd : Describes dec r (.gen 1 "1 ".toList) m ps) : m = "GENCLS" ∨ m = "SEXS" ∨ m = "TGOV1" := by
  simp only [machineFile, List.map_cons, List.map_nil, List.mem_cons, List.not_mem_nil, or_false] at hr
  rcases hr with rfl | rfl | rfl
  · exact Or.inl (row_kind ⟨DyrSpec.gencls, by simp [DyrSpec.gens]⟩ hd)
  · exact Or.inr (Or.inl (row_kind ⟨DyrSpec.sexs, by simp [DyrSpec.gens]⟩ hd))
  · exact Or.inr (Or.inr (row_kind ⟨DyrSpec.tgov1, by simp [DyrSpec.gens]⟩ hd))

theorem kind_of {m : String} {sl sl' : Slot} (h : (m, sl) ∈ kinds) (h' : (m, sl') ∈ kinds) : sl = sl' :=
  Option.some.inj ((lookup_of kinds_distinct h).symm.trans (lookup_of kinds_distinct h'))

theorem gencls_kind : ("GENCLS", Slot.generator) ∈ kinds := lookup_mem (by decide +kernel)
theorem sexs_kind : ("SEXS", Slot.exciter) ∈ kinds := lookup_mem (by decide +kernel)
theorem tgov1_kind : ("TGOV1", Slot.governor) ∈ kinds := lookup_mem (by decide +kernel)

/-- The numbers of parameters in their records. -/
def machineCount : Slot → Nat
  | .generator => 3
  | .exciter => 8
  | .governor => 7
  | _ => 0

theorem machine_only (junk : Struct) {sl : Slot} {m : String} (h : machineModels sl = some m) :
    Only dec ((machineFile junk).map (·.2)) 1 "1 ".toList sl (row "1" m "1 " (machineCount sl)) m := by
  cases sl <;> simp only [machineModels, reduceCtorEq, Option.some.injEq] at h <;> subst h
  · refine ⟨[], [row "1" "SEXS" "1 " 8, row "1" "TGOV1" "1 " 7], rfl,
      ⟨DyrSpec.gencls, row_gen (by simp [DyrSpec.gens]) 3⟩, gencls_kind, ?_⟩
    intro r hr m ps hd hk
    simp only [List.nil_append, List.mem_cons, List.not_mem_nil, or_false] at hr
    rcases hr with rfl | rfl
    · rw [row_kind ⟨DyrSpec.sexs, by simp [DyrSpec.gens]⟩ hd] at hk; cases kind_of hk sexs_kind
    · rw [row_kind ⟨DyrSpec.tgov1, by simp [DyrSpec.gens]⟩ hd] at hk; cases kind_of hk tgov1_kind
  · refine ⟨[row "1" "GENCLS" "1 " 3], [row "1" "TGOV1" "1 " 7], rfl,
      ⟨DyrSpec.sexs, row_gen (by simp [DyrSpec.gens]) 8⟩, sexs_kind, ?_⟩
    intro r hr m ps hd hk
    simp only [List.cons_append, List.nil_append, List.mem_cons, List.not_mem_nil, or_false] at hr
    rcases hr with rfl | rfl
    · rw [row_kind ⟨DyrSpec.gencls, by simp [DyrSpec.gens]⟩ hd] at hk; cases kind_of hk gencls_kind
    · rw [row_kind ⟨DyrSpec.tgov1, by simp [DyrSpec.gens]⟩ hd] at hk; cases kind_of hk tgov1_kind
  · refine ⟨[row "1" "GENCLS" "1 " 3, row "1" "SEXS" "1 " 8], [], rfl,
      ⟨DyrSpec.tgov1, row_gen (by simp [DyrSpec.gens]) 7⟩, tgov1_kind, ?_⟩
    intro r hr m ps hd hk
    simp only [List.append_nil, List.mem_cons, List.not_mem_nil, or_false] at hr
    rcases hr with rfl | rfl
    · rw [row_kind ⟨DyrSpec.gencls, by simp [DyrSpec.gens]⟩ hd] at hk; cases kind_of hk gencls_kind
    · rw [row_kind ⟨DyrSpec.sexs, by simp [DyrSpec.gens]⟩ hd] at hk; cases kind_of hk sexs_kind

/-- C204: the generator at bus 1 gets its machine, exciter and governor, and nothing else. -/
theorem machine_loaded (junk : Struct) (me : Nat) : ∃ bus' branch' c',
    external dec 3 (exactBound 3) [2, 0, 1] me (machineFile junk) [7, 1] [(1, 2)] [oneOfEach, machineBus] [oneOfEach] =
      some (bus', branch') ∧ bus'[1]? = some c' ∧ ∀ pg junk, ∃ devs, loadGenerator c' (0 : Nat) pg junk = some (some devs) ∧
        ∀ sl, (devs sl).map (·.1) = machineModels sl := by
  obtain ⟨bus', branch', h1, h2⟩ :=
    C204_devices_partial (machine_shared (machine_proper junk) (Nat.le_of_ble_eq_true rfl)) me
  obtain ⟨c', h3, h4⟩ := h2 1 0 1 "1 ".toList machineBus 1 machineModels rfl rfl machineBus_gen machineBus_pg zero_le_one
    (by
      intro sl f hf
      rw [machineBus_other (noColon_of (List.all_eq_true.mp plain_colon _ (flag_plain hf))) (by simp)]
      have : [Slot.exciter, .governor, .pss, .plant, .torque, .pitch, .drivetrain, .aero].all (fun sl =>
          match sl.flag with
            | some f => (get oneOfEach .bool ⟨f.toList, some ((0 : Nat) : Int)⟩).isNone
            | none => true) = true := by decide +kernel
      have := List.all_eq_true.mp this sl (by cases sl <;> simp [Slot.flag] at hf ⊢)
      rw [hf] at this
      exact Option.isNone_iff_eq_none.mp this)
    (by
      intro sl m hm
      refine ⟨?_, ?_, _, machine_only junk hm⟩
      · rintro rfl; cases sl <;> simp [machineModels] at hm
      · rintro rfl; cases sl <;> simp [machineModels] at hm)
    (by
      intro sl hm r hr m ps hd hk
      rcases machine_mem junk hr hd with rfl | rfl | rfl
      · cases kind_of hk gencls_kind; simp [machineModels] at hm
      · cases kind_of hk sexs_kind; simp [machineModels] at hm
      · cases kind_of hk tgov1_kind; simp [machineModels] at hm)
    (by simp [machineModels])
  exact ⟨bus', branch', c', h1, h3, h4⟩

/-- C203: its inertia constant is token 3. -/
example (junk : Struct) (me : Nat) : ∃ bus' branch' c',
    external dec 3 (exactBound 3) [2, 0, 1] me (machineFile junk) [7, 1] [(1, 2)] [oneOfEach, machineBus] [oneOfEach] =
      some (bus', branch') ∧ bus'[1]? = some c' ∧ ∀ pg junk, ∃ devs s, loadGenerator c' (0 : Nat) pg junk = some (some devs) ∧
        devs .generator = some ("GENCLS", s) ∧ s .double "p_h" = dec.atof ['0'] := by
  obtain ⟨bus', branch', c', h1, h3, h4⟩ := machine_loaded junk me
  refine ⟨bus', branch', c', h1, h3, fun pg junk' => ?_⟩
  obtain ⟨devs, h5, _⟩ := h4 pg junk'
  obtain ⟨bus'', branch'', h1', h6⟩ :=
    C203_parameters_partial (machine_shared (machine_proper junk) (Nat.le_of_ble_eq_true rfl)) me
  rw [h1] at h1'
  obtain ⟨rfl, rfl⟩ := Prod.mk.inj (Option.some.inj h1')
  obtain ⟨c'', h7, h8⟩ := h6 1 0 1 "1 ".toList machineBus rfl rfl machineBus_gen
  rw [h3] at h7
  obtain rfl := Option.some.inj h7
  obtain ⟨s, h9, h10⟩ := h8 pg junk' devs h5 "GENCLS" .generator DeviceSpec.gencls _ (by simp [devices])
    (machine_only junk rfl)
  obtain ⟨t, ht, hs⟩ := h10 (.num "p_h" 3) (by simp [DeviceSpec.gencls, DeviceSpec.nums]) (by simp [deviceErrors, Quantity.name])
  refine ⟨devs, s, h5, h9, ?_⟩
  obtain rfl : t = ['0'] := by
    have : (row "1" "GENCLS" "1 " 3)[3]? = some ['0'] := by decide +kernel
    exact Option.some.inj (ht.symm.trans this)
  exact hs

theorem bad_proper (junk : Struct) : ∀ r ∈ [(junk, row "1" "GENCLS" "1 " 3), (junk, row "1" "EXDC2" "1 " 16)],
    Proper dec r.2 := by
  intro r hr
  simp only [List.mem_cons, List.not_mem_nil, or_false] at hr
  rcases hr with rfl | rfl
  · exact Or.inl ⟨_, _, _, row_gen (m := "GENCLS") (ps := DyrSpec.gencls) (by simp [DyrSpec.gens]) 3,
      row_complete (by decide +kernel)⟩
  · exact Or.inl ⟨_, _, _, row_gen (m := "EXDC2") (ps := DyrSpec.exdc1) (by simp [DyrSpec.gens]) 16,
      row_complete (by decide +kernel)⟩

/-- A machine with an EXDC2 exciter cannot be simulated. -/
example (junk : Struct) (me : Nat) : ∃ bus' branch' c',
    external dec 3 (exactBound 3) [2, 0, 1] me [(junk, row "1" "GENCLS" "1 " 3), (junk, row "1" "EXDC2" "1 " 16)] [7, 1]
      [(1, 2)] [oneOfEach, machineBus] [oneOfEach] = some (bus', branch') ∧ bus'[1]? = some c' ∧
      ∀ pg junk, loadGenerator c' (0 : Nat) pg junk = none := by
  have hk : ("EXDC2", Slot.exciter) ∈ kinds := by simp [kinds]
  refine C204_models_violated (machine_shared (bad_proper junk) (Nat.le_of_ble_eq_true rfl)) me (i := 1) (b := 1)
    (tag := "1 ".toList) (p := 1) (sl := .exciter) (m := "EXDC2") (m0 := "GENCLS") (r := row "1" "EXDC2" "1 " 16)
    (r0 := row "1" "GENCLS" "1 " 3) rfl rfl machineBus_gen machineBus_pg zero_le_one ?_ ?_ (Or.inl rfl)
  · refine ⟨[], [row "1" "EXDC2" "1 " 16], rfl, ⟨DyrSpec.gencls, row_gen (by simp [DyrSpec.gens]) 3⟩, gencls_kind, ?_⟩
    intro r hr m ps hd hk'
    obtain rfl : r = row "1" "EXDC2" "1 " 16 := by simpa using hr
    rw [row_kind ⟨DyrSpec.exdc1, by simp [DyrSpec.gens]⟩ hd] at hk'; cases kind_of hk' hk
  · refine ⟨[row "1" "GENCLS" "1 " 3], [], rfl, ⟨DyrSpec.exdc1, row_gen (by simp [DyrSpec.gens]) 16⟩, hk, ?_⟩
    intro r hr m ps hd hk'
    obtain rfl : r = row "1" "GENCLS" "1 " 3 := by simpa using hr
    rw [row_kind ⟨DyrSpec.gencls, by simp [DyrSpec.gens]⟩ hd] at hk'; cases kind_of hk' gencls_kind

/-- Whatever the switch of an EXDC1 exciter. -/
example (v : ℝ) : ∃ d, addValue oneOfEach .double ⟨"EXCITER_SWITCH".toList, some 0⟩ v = some d ∧
    get d .double ⟨"EXCITER_SWITCH".toList, some 0⟩ = some v ∧
    ∃ es, Slot.create .exciter "EXDC1".toList = some ("EXDC1", es) ∧
      ∀ s, load d (0 : Nat) es s = load oneOfEach (0 : Nat) es s := by
  obtain ⟨x, hx⟩ := mapKey_some "EXCITER_SWITCH".toList (some 0) (by simp [idxOk])
  have ha : ∃ d, addValue oneOfEach .double ⟨"EXCITER_SWITCH".toList, some 0⟩ v = some d := by
    unfold addValue
    rw [hx]
    exact ⟨_, rfl⟩
  obtain ⟨d, hd⟩ := ha
  refine ⟨d, hd, ?_, (C203_unread_violated (m := "EXDC1") (sl := .exciter) (t := .double) (k := "EXCITER_SWITCH")
    (by simp [unread]) (by simp [idxOk]) ?_).2⟩
  · rw [get_add hd]
    have : (get oneOfEach .double ⟨"EXCITER_SWITCH".toList, some 0⟩).isNone = true := by decide +kernel
    rw [Option.isNone_iff_eq_none.mp this]
    rfl
  · intro u y hy hne
    refine get_add_other hd (by decide) hy ?_
    intro he
    obtain ⟨rfl, rfl⟩ := Prod.mk.inj he
    exact hne rfl

end GridPACK.DeviceLoad
