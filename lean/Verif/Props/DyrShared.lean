import Verif.Lemmas.DyrWrong

/-! C181-C183, C185, C186: .dyr files read by one process and distributed to the others. -/
namespace GridPACK.Dyr
open StringUtils DataCollection
open RawBus (Val Data get idxOk)
open DyrSpec (Par Complete IsDevice Describes Gives Proper Unknown Place count deviceName Usable externalErrors Shared)
open HashDistr (exactBound exactBound_ok)

theorem Shared.run {cv : Conv} {n : Nat} {bound : Nat → Nat → Nat} {puts : List Nat} {recs : List (Struct × List Str)}
    {busNo : List Int} {ends : List (Int × Int)} {bus branch : List Data}
    (h : Shared cv n bound puts recs busNo ends bus branch) (me : Nat) :
    ∃ bus' branch', external cv n bound puts me recs busNo ends bus branch = some (bus', branch') ∧
      bus'.length = bus.length ∧ branch'.length = branch.length ∧
      (∀ (i : Nat) b c, busNo[i]? = some b → bus[i]? = some c →
        ∃ c', bus'[i]? = some c' ∧ BusAfter cv (recs.map (·.2)) b c c') ∧
      (∀ (i : Nat) e c, ends[i]? = some e → branch[i]? = some c →
        ∃ c', branch'[i]? = some c' ∧ BranchAfter cv (recs.map (·.2)) e c c') :=
  external_ok h.procs h.bounds h.order me recs h.proper busNo ends bus branch h.buses h.branches h.usableBuses
    h.usableBranches

/-! ### C181 -/

/-- C181 (generators): whatever the number of processes and the division of the records among them, after reading a
file of complete records each parameter of a record for a generator of a bus held by this process can be read from the
data of that bus, at the index of the generator and with the value in the file, unless another record gives the same
parameter of the same generator.  Missing: the parameters in `externalErrors`. -/
theorem C181_generators_partial {cv : Conv} {n : Nat} {bound : Nat → Nat → Nat} {puts : List Nat}
    {recs : List (Struct × List Str)} {busNo : List Int} {ends : List (Int × Int)} {bus branch : List Data}
    (h : Shared cv n bound puts recs busNo ends bus branch) (me : Nat) :
    ∃ bus' branch', external cv n bound puts me recs busNo ends bus branch = some (bus', branch') ∧
      bus'.length = bus.length ∧
      ∀ (pre post : List (List Str)) (r : List Str), recs.map (·.2) = pre ++ r :: post →
      ∀ (i g : Nat) b tag m ps c, Describes cv r (.gen b tag) m ps → busNo[i]? = some b → bus[i]? = some c →
        IsDevice c "GENERATOR_NUMBER" "GENERATOR_ID" g tag →
        ∃ c', bus'[i]? = some c' ∧ ∀ p ∈ ps, (m, p.key) ∉ externalErrors →
          (∀ r' ∈ pre ++ post, ¬ Gives cv r' (.gen b tag) p.key) → p.Stored cv r c' (some (g : Int)) := by
  obtain ⟨bus', branch', h1, h2, _, h3, _⟩ := Shared.run h me
  refine ⟨bus', branch', h1, h2, ?_⟩
  intro pre post r hr i g b tag m ps c hd hi hc hg
  obtain ⟨c', h4, h5⟩ := h3 i b c hi hc
  exact ⟨c', h4, fun p hp he hu => h5.gens pre r post tag m ps p g hr hd hg hp he hu⟩

/-! ### C182 -/

/-- C182 (loads): the same for the loads of the buses. -/
theorem C182_loads_partial {cv : Conv} {n : Nat} {bound : Nat → Nat → Nat} {puts : List Nat}
    {recs : List (Struct × List Str)} {busNo : List Int} {ends : List (Int × Int)} {bus branch : List Data}
    (h : Shared cv n bound puts recs busNo ends bus branch) (me : Nat) :
    ∃ bus' branch', external cv n bound puts me recs busNo ends bus branch = some (bus', branch') ∧
      bus'.length = bus.length ∧
      ∀ (pre post : List (List Str)) (r : List Str), recs.map (·.2) = pre ++ r :: post →
      ∀ (i g : Nat) b tag m ps c, Describes cv r (.load b tag) m ps → busNo[i]? = some b → bus[i]? = some c →
        IsDevice c "LOAD_NUMBER" "LOAD_ID" g tag →
        ∃ c', bus'[i]? = some c' ∧ ∀ p ∈ ps, (m, p.key) ∉ externalErrors →
          (∀ r' ∈ pre ++ post, ¬ Gives cv r' (.load b tag) p.key) → p.Stored cv r c' (some (g : Int)) := by
  obtain ⟨bus', branch', h1, h2, _, h3, _⟩ := Shared.run h me
  refine ⟨bus', branch', h1, h2, ?_⟩
  intro pre post r hr i g b tag m ps c hd hi hc hg
  obtain ⟨c', h4, h5⟩ := h3 i b c hi hc
  exact ⟨c', h4, fun p hp he hu => h5.loads pre r post tag m ps p g hr hd hg hp he hu⟩

/-! ### C183 -/

open Classical in
/-- C183 (relays of buses): after reading, the relays of a bus are those it had before and one for each record for a
relay of this bus, in some order, with the parameters in the file. -/
theorem C183_bus_relays {cv : Conv} {n : Nat} {bound : Nat → Nat → Nat} {puts : List Nat}
    {recs : List (Struct × List Str)} {busNo : List Int} {ends : List (Int × Int)} {bus branch : List Data}
    (h : Shared cv n bound puts recs busNo ends bus branch) (me : Nat) :
    ∃ bus' branch', external cv n bound puts me recs busNo ends bus branch = some (bus', branch') ∧
      ∀ (i : Nat) b c, busNo[i]? = some b → bus[i]? = some c →
        ∃ c' l, bus'[i]? = some c' ∧
          List.Perm l ((recs.map (·.2)).filter (fun r => decide (∃ m ps, Describes cv r (.relay b) m ps))) ∧
          count c' "RELAY_NUMBER" = count c "RELAY_NUMBER" + l.length ∧
          (∀ (j : Nat) r, l[j]? = some r → ∀ m ps, Describes cv r (.relay b) m ps →
            ∀ p ∈ ps, p.Stored cv r c' (some (count c "RELAY_NUMBER" + j))) ∧
          ∀ t name (j : Int), j < count c "RELAY_NUMBER" → ':' ∉ name →
            name ∈ (DyrSpec.lvshbl ++ DyrSpec.frqtpat).map (fun p => p.key.toList) →
            get c' t ⟨name, some j⟩ = get c t ⟨name, some j⟩ := by
  obtain ⟨bus', branch', h1, h2, _, h3, _⟩ := Shared.run h me
  refine ⟨bus', branch', h1, ?_⟩
  intro i b c hi hc
  obtain ⟨c', h4, h5⟩ := h3 i b c hi hc
  obtain ⟨l, hl, hn, hs⟩ := h5.relays
  refine ⟨c', l, h4, hl, hn, ?_, ?_⟩
  · intro j r hj m ps hd p hp
    refine hs j r hj m ps hd p hp ?_
    cases hd with
    | voltage => exact fun hm => by simp [externalErrors] at hm
    | frequency => exact fun hm => by simp [externalErrors] at hm
  · intro t name j hj hcol hname
    refine h5.rest t ⟨name, some j⟩ hcol ?_ ?_
    · intro g nm r hk _
      have hnm : name = nm.toList := congrArg Key.name hk
      rw [hnm] at hname
      have hin : nm ∈ keysOf DyrSpec.relays := by
        obtain ⟨p, hp, he⟩ := List.mem_map.mp hname
        obtain rfl := String.toList_injective he
        rcases List.mem_append.mp hp with hp | hp
        · exact mem_keysOf (m := "LVSHBL") (ps := DyrSpec.lvshbl) (by simp [DyrSpec.relays]) hp
        · exact mem_keysOf (m := "FRQTPAT") (ps := DyrSpec.frqtpat) (by simp [DyrSpec.relays]) hp
      constructor
      · rintro ⟨m, ps, hd, hm⟩
        obtain ⟨p, hp, rfl⟩ := List.mem_map.mp hm
        generalize hw : Place.gen b (deviceName c "GENERATOR_ID" g) = w at hd
        cases hd with
        | gen hm' => exact avoids_use gens_relays hm' hp hin
        | load => cases hw
        | userLoad => cases hw
        | voltage => cases hw
        | frequency => cases hw
        | line => cases hw
      · rintro ⟨m, ps, hd, hm⟩
        obtain ⟨p, hp, rfl⟩ := List.mem_map.mp hm
        generalize hw : Place.load b (deviceName c "LOAD_ID" g) = w at hd
        cases hd with
        | gen => cases hw
        | load hm' => exact avoids_use loads_relays (List.mem_append_left _ hm') hp hin
        | userLoad hm' => exact avoids_use loads_relays (List.mem_append_right _ hm') hp hin
        | voltage => cases hw
        | frequency => cases hw
        | line => cases hw
    · intro _
      constructor
      · intro hrn
        obtain ⟨p, hp, he⟩ := List.mem_map.mp hname
        have hpk : p.key = "RELAY_NUMBER" := String.toList_injective (he.trans hrn)
        rcases List.mem_append.mp hp with hp | hp
        · exact avoids_use relays_names (m := "LVSHBL") (ps := DyrSpec.lvshbl) (by simp [DyrSpec.relays]) hp
            (by simp [hpk])
        · exact avoids_use relays_names (m := "FRQTPAT") (ps := DyrSpec.frqtpat) (by simp [DyrSpec.relays]) hp
            (by simp [hpk])
      · rintro ⟨j', hj'⟩
        have : j = count c "RELAY_NUMBER" + j' := Option.some.inj hj'
        omega

open Classical in
/-- C183 (relays of branches): the same for the branches.  Missing: the parameter `RELAY_ZONE3_TIME`. -/
theorem C183_branch_relays_partial {cv : Conv} {n : Nat} {bound : Nat → Nat → Nat} {puts : List Nat}
    {recs : List (Struct × List Str)} {busNo : List Int} {ends : List (Int × Int)} {bus branch : List Data}
    (h : Shared cv n bound puts recs busNo ends bus branch) (me : Nat) :
    ∃ bus' branch', external cv n bound puts me recs busNo ends bus branch = some (bus', branch') ∧
      ∀ (i : Nat) e c, ends[i]? = some e → branch[i]? = some c →
        ∃ c' l, branch'[i]? = some c' ∧
          List.Perm l ((recs.map (·.2)).filter (fun r => decide (∃ m ps, Describes cv r (.line e.1 e.2) m ps))) ∧
          count c' "RELAY_NUMBER" = count c "RELAY_NUMBER" + l.length ∧
          (∀ (j : Nat) r, l[j]? = some r → ∀ p ∈ DyrSpec.distr1, p.key ≠ "RELAY_ZONE3_TIME" →
            p.Stored cv r c' (some (count c "RELAY_NUMBER" + j))) ∧
          ∀ t name (j : Int), j < count c "RELAY_NUMBER" → ':' ∉ name → name ≠ "RELAY_NUMBER".toList →
            get c' t ⟨name, some j⟩ = get c t ⟨name, some j⟩ := by
  obtain ⟨bus', branch', h1, _, h2, _, h3⟩ := Shared.run h me
  refine ⟨bus', branch', h1, ?_⟩
  intro i e c hi hc
  obtain ⟨c', h4, h5⟩ := h3 i e c hi hc
  obtain ⟨l, hl, hn, hs⟩ := h5.relays
  refine ⟨c', l, h4, hl, hn, ?_, ?_⟩
  · intro j r hj p hp hne
    have hmem : ∃ m ps, Describes cv r (.line e.1 e.2) m ps := by
      have := (hl.mem_iff.mp (List.mem_of_getElem? hj))
      exact of_decide_eq_true (List.mem_filter.mp this).2
    obtain ⟨m, ps, hd⟩ := hmem
    have hs' := hs j r hj m ps hd
    generalize hw : Place.line e.1 e.2 = w at hd
    cases hd with
    | gen => cases hw
    | load => cases hw
    | userLoad => cases hw
    | voltage => cases hw
    | frequency => cases hw
    | line =>
      refine hs' p hp (fun hm => hne ?_)
      simpa [externalErrors] using hm
  · intro t name j hj hcol hname
    refine h5.rest t ⟨name, some j⟩ hcol (fun _ => ⟨hname, ?_⟩)
    rintro ⟨j', hj'⟩
    have : j = count c "RELAY_NUMBER" + j' := Option.some.inj hj'
    omega

/-! ### C185 -/

/-- C185 (other data): the reading changes nothing that it is not asked for.  Under a name and index of a bus nothing
changes if no record gives a parameter of this name for the generator or load with this index, and the name is not
the number of relays or a parameter of a new relay. -/
theorem C185_bus_data {cv : Conv} {n : Nat} {bound : Nat → Nat → Nat} {puts : List Nat}
    {recs : List (Struct × List Str)} {busNo : List Int} {ends : List (Int × Int)} {bus branch : List Data}
    (h : Shared cv n bound puts recs busNo ends bus branch) (me : Nat) :
    ∃ bus' branch', external cv n bound puts me recs busNo ends bus branch = some (bus', branch') ∧
      ∀ (i : Nat) b c, busNo[i]? = some b → bus[i]? = some c → ∃ c', bus'[i]? = some c' ∧
        ∀ t k, ':' ∉ k.name →
          (∀ (g : Nat) (name : String) r, k = ⟨name.toList, some (g : Int)⟩ → r ∈ recs.map (·.2) →
            ¬ Gives cv r (.gen b (deviceName c "GENERATOR_ID" g)) name ∧
            ¬ Gives cv r (.load b (deviceName c "LOAD_ID" g)) name) →
          ((∃ r ∈ recs.map (·.2), ∃ m ps, Describes cv r (.relay b) m ps) → k.name ≠ "RELAY_NUMBER".toList ∧
            ((∃ j : Nat, k.idx = some (count c "RELAY_NUMBER" + j)) →
              ∀ p ∈ DyrSpec.lvshbl ++ DyrSpec.frqtpat, k.name ≠ p.key.toList)) →
          get c' t k = get c t k := by
  obtain ⟨bus', branch', h1, _, _, h3, _⟩ := Shared.run h me
  refine ⟨bus', branch', h1, ?_⟩
  intro i b c hi hc
  obtain ⟨c', h4, h5⟩ := h3 i b c hi hc
  refine ⟨c', h4, fun t k hk hd hr => h5.rest t k hk hd (fun hex => ?_)⟩
  obtain ⟨h6, h7⟩ := hr hex
  refine ⟨h6, fun hj s hs => ?_⟩
  obtain ⟨⟨m, ps⟩, hm, hs⟩ := List.mem_flatMap.mp hs
  obtain ⟨p, hp, rfl⟩ := List.mem_map.mp hs
  refine h7 hj p ?_
  simp only [DyrSpec.relays, List.mem_cons, Prod.mk.injEq, List.not_mem_nil, or_false] at hm
  rcases hm with ⟨_, rfl⟩ | ⟨_, rfl⟩
  · exact List.mem_append_left _ hp
  · exact List.mem_append_right _ hp

/-- C185 for the buses without records: all their data stay as they are. -/
theorem C185_other_buses {cv : Conv} {n : Nat} {bound : Nat → Nat → Nat} {puts : List Nat}
    {recs : List (Struct × List Str)} {busNo : List Int} {ends : List (Int × Int)} {bus branch : List Data}
    (h : Shared cv n bound puts recs busNo ends bus branch) (me : Nat) :
    ∃ bus' branch', external cv n bound puts me recs busNo ends bus branch = some (bus', branch') ∧
      ∀ (i : Nat) b c, busNo[i]? = some b → bus[i]? = some c →
        (∀ r ∈ recs.map (·.2), ∀ tag m ps, ¬ Describes cv r (.gen b tag) m ps ∧ ¬ Describes cv r (.load b tag) m ps ∧
          ¬ Describes cv r (.relay b) m ps) →
        ∃ c', bus'[i]? = some c' ∧ ∀ t k, ':' ∉ k.name → get c' t k = get c t k := by
  obtain ⟨bus', branch', h1, h2⟩ := C185_bus_data h me
  refine ⟨bus', branch', h1, fun i b c hi hc hno => ?_⟩
  obtain ⟨c', h3, h4⟩ := h2 i b c hi hc
  refine ⟨c', h3, fun t k hk => h4 t k hk ?_ ?_⟩
  · intro g name r _ hr
    exact ⟨fun ⟨m, ps, hd, _⟩ => (hno r hr _ m ps).1 hd, fun ⟨m, ps, hd, _⟩ => (hno r hr _ m ps).2.1 hd⟩
  · rintro ⟨r, hr, m, ps, hd⟩
    exact absurd hd (hno r hr [] m ps).2.2

/-- C185 for the branches without records. -/
theorem C185_other_branches {cv : Conv} {n : Nat} {bound : Nat → Nat → Nat} {puts : List Nat}
    {recs : List (Struct × List Str)} {busNo : List Int} {ends : List (Int × Int)} {bus branch : List Data}
    (h : Shared cv n bound puts recs busNo ends bus branch) (me : Nat) :
    ∃ bus' branch', external cv n bound puts me recs busNo ends bus branch = some (bus', branch') ∧
      ∀ (i : Nat) e c, ends[i]? = some e → branch[i]? = some c →
        (∀ r ∈ recs.map (·.2), ∀ m ps, ¬ Describes cv r (.line e.1 e.2) m ps) →
        ∃ c', branch'[i]? = some c' ∧ ∀ t k, ':' ∉ k.name → get c' t k = get c t k := by
  obtain ⟨bus', branch', h1, _, _, _, h2⟩ := Shared.run h me
  refine ⟨bus', branch', h1, fun i e c hi hc hno => ?_⟩
  obtain ⟨c', h3, h4⟩ := h2 i e c hi hc
  refine ⟨c', h3, fun t k hk => h4.rest t k hk ?_⟩
  rintro ⟨r, hr, m, ps, hd⟩
  exact absurd hd (hno r hr m ps)

/-- C185 fails for the data from the network file: a record of the model GDFORM replaces the largest real power of
the generator, which the other parts of the program read under the same name. -/
theorem C185_gdform_violated {cv : Conv} {n : Nat} {bound : Nat → Nat → Nat} {puts : List Nat}
    {recs : List (Struct × List Str)} {busNo : List Int} {ends : List (Int × Int)} {bus branch : List Data}
    (h : Shared cv n bound puts recs busNo ends bus branch) (me : Nat) {pre post : List (List Str)} {r : List Str}
    (hr : recs.map (·.2) = pre ++ r :: post) {i g : Nat} {b : Int} {tag : Str} {c : Data} {old : ℝ} {t9 : Str}
    (hd : Describes cv r (.gen b tag) "GDFORM" DyrSpec.gdform) (hi : busNo[i]? = some b) (hc : bus[i]? = some c)
    (hg : IsDevice c "GENERATOR_NUMBER" "GENERATOR_ID" g tag)
    (_hold : get c .double ⟨"GENERATOR_PMAX".toList, some (g : Int)⟩ = some old)
    (hu : ∀ r' ∈ pre ++ post, ¬ Gives cv r' (.gen b tag) "GENERATOR_PMAX") (h9 : r[9]? = some t9)
    (hne : cv.atof t9 ≠ old) :
    ∃ bus' branch' c', external cv n bound puts me recs busNo ends bus branch = some (bus', branch') ∧
      bus'[i]? = some c' ∧ get c' .double ⟨"GENERATOR_PMAX".toList, some (g : Int)⟩ ≠ some old := by
  obtain ⟨bus', branch', h1, _, h2⟩ := C181_generators_partial h me
  obtain ⟨c', h3, h4⟩ := h2 pre post r hr i g b tag _ _ c hd hi hc hg
  refine ⟨bus', branch', c', h1, h3, ?_⟩
  obtain ⟨t, ht, hs⟩ := h4 (.num "GENERATOR_PMAX" 9) (by simp [DyrSpec.gdform, DyrSpec.nums])
    (by simp [Par.key, externalErrors]) hu
  rw [h9] at ht
  obtain rfl := Option.some.inj ht
  rw [hs]
  exact fun hh => hne (Option.some.inj hh)

/-! ### Wrong parameters -/

theorem device_ok {extra : Nat} {c : Data} (hu : Usable extra c) {g : Nat} {tag : Str} {num id : String}
    (hg : IsDevice c num id g tag) (hnum : num = "GENERATOR_NUMBER" ∨ num = "LOAD_NUMBER") :
    idxOk (some (g : Int)) := by
  have hd := devIndex_device hg
  rcases hnum with rfl | rfl
  · exact (Usable.sized hu).gen hd
  · exact (Usable.sized hu).load hd

/-- C181 fails for the governor WSIEG1: unless there is one already, the time constant T3 gets the value of T2. -/
theorem C181_wsieg1_violated {cv : Conv} {n : Nat} {bound : Nat → Nat → Nat} {puts : List Nat} {junk : Struct}
    {ts : List Str} {busNo : List Int} {ends : List (Int × Int)} {bus branch : List Data}
    (h : Shared cv n bound puts [(junk, ts)] busNo ends bus branch) (me : Nat) {i g : Nat} {b : Int} {tag : Str}
    {c : Data} (hd : Describes cv ts (.gen b tag) "WSIEG1" DyrSpec.wsieg1) (hc : Complete DyrSpec.wsieg1 ts)
    (hi : busNo[i]? = some b) (hic : bus[i]? = some c) (hg : IsDevice c "GENERATOR_NUMBER" "GENERATOR_ID" g tag)
    (hfresh : get c .double ⟨"GOVERNOR_T3".toList, some (g : Int)⟩ = none) :
    ∃ bus' branch' c' t7, external cv n bound puts me [(junk, ts)] busNo ends bus branch = some (bus', branch') ∧
      bus'[i]? = some c' ∧ ts[7]? = some t7 ∧
      get c' .double ⟨"GOVERNOR_T3".toList, some (g : Int)⟩ = some (cv.atof t7) := by
  obtain ⟨k, s0, s, bus', branch', c', h1, h2, h3, h4, h5⟩ := single_gen h.procs h.bounds h.order me junk hd hc busNo
    ends bus branch h.buses h.branches h.usableBuses h.usableBranches hi hic hg
  have hk : pick genExtract "WSIEG1".toList = some wsieg1 :=
    pick_of genExtract_distinct (List.mem_of_getElem? (i := 10) rfl)
  rw [hk] at h1
  obtain rfl := Option.some.inj h1
  have hok := device_ok (h.usableBuses c (List.mem_of_getElem? hic)) hg (Or.inl rfl)
  have h7 : 7 < ts.length := by
    have h38 : lastPlace DyrSpec.wsieg1 = 38 := by decide +kernel
    have := last_lt wsieg1_format hc
    omega
  obtain ⟨t7, ht7⟩ : ∃ t7, ts[7]? = some t7 := ⟨_, List.getElem?_eq_getElem h7⟩
  refine ⟨bus', branch', c', t7, h3, h4, ht7, ?_⟩
  obtain ⟨s', e1, e2, _⟩ := ext_ok wsieg1_format wsieg1_ext cv hc s0
  rw [h2] at e1
  obtain rfl := Option.some.inj e1
  have hm : s .double "gv_t2" = cv.atof t7 :=
    e2 "gv_t2" (.dbl 7) ⟨.double, cv.atof t7⟩ (by decide +kernel) (by simp [Src.eval, ht7])
  have ho : OnlyStep wsieg1.extract 7 "GOVERNOR_T3" := onlyStep_iff (by decide +kernel)
  have he : wsieg1.extract[7]? = some ⟨none, "GOVERNOR_T3", .double, "GOVERNOR_T3", .field .double "gv_t2",
    "GOVERNOR_T3", .field .double "gv_t3"⟩ := rfl
  rw [Kind.runExtract, split_at he] at h5
  have := (runEntries_at hok ho.plain ho.colonBefore ho.colonAfter ho.before ho.after rfl rfl rfl rfl h5).1 hfresh
    ⟨.double, s .double "gv_t2"⟩ rfl rfl
  rw [Has, hm] at this
  exact this

theorem load_actual {cv : Conv} {n : Nat} {bound : Nat → Nat → Nat} {puts : List Nat} {junk : Struct}
    {ts : List Str} {busNo : List Int} {ends : List (Int × Int)} {bus branch : List Data}
    (h : Shared cv n bound puts [(junk, ts)] busNo ends bus branch) (me : Nat) {i g : Nat} {b : Int} {tag : Str}
    {c : Data} {m : String} {ps ps' : List Par} {bad : List String} {k : Kind} (hd : Describes cv ts (.load b tag) m ps)
    (hc : Complete ps ts) (hi : busNo[i]? = some b) (hic : bus[i]? = some c)
    (hg : IsDevice c "LOAD_NUMBER" "LOAD_ID" g tag) (hk : pick loadExtract m.toList = some k)
    (hf : formatOk ps = true) (hf' : formatOk ps' = true) (hl : lastPlace ps' ≤ lastPlace ps)
    (he : extOk k ps' bad = true) :
    ∃ bus' branch' c', external cv n bound puts me [(junk, ts)] busNo ends bus branch = some (bus', branch') ∧
      bus'[i]? = some c' ∧ ∀ p ∈ ps', p.key ∉ bad → p.Stored cv ts c' (some (g : Int)) := by
  obtain ⟨k', s0, s, bus', branch', c', h1, h2, h3, h4, h5⟩ := single_load h.procs h.bounds h.order me junk hd hc busNo
    ends bus branch h.buses h.branches h.usableBuses h.usableBranches hi hic hg
  rw [hk] at h1
  obtain rfl := Option.some.inj h1
  have hok := device_ok (h.usableBuses c (List.mem_of_getElem? hic)) hg (Or.inr rfl)
  exact ⟨bus', branch', c', h3, h4, actual_ext hf' he (complete_of hf hl hc) h2 hok h5⟩

/-- C182 fails for the model CIM6BL: the reactance X1 gets the value of R1, and E2 the one of S(E2). -/
theorem C182_cim6bl_violated {cv : Conv} {n : Nat} {bound : Nat → Nat → Nat} {puts : List Nat} {junk : Struct}
    {ts : List Str} {busNo : List Int} {ends : List (Int × Int)} {bus branch : List Data}
    (h : Shared cv n bound puts [(junk, ts)] busNo ends bus branch) (me : Nat) {i g : Nat} {b : Int} {tag : Str}
    {c : Data} (hd : Describes cv ts (.load b tag) "CIM6BL" DyrSpec.cim6bl) (hc : Complete DyrSpec.cim6bl ts)
    (hi : busNo[i]? = some b) (hic : bus[i]? = some c) (hg : IsDevice c "LOAD_NUMBER" "LOAD_ID" g tag) :
    ∃ bus' branch' c', external cv n bound puts me [(junk, ts)] busNo ends bus branch = some (bus', branch') ∧
      bus'[i]? = some c' ∧ (Par.num "LOAD_X1" 7).Stored cv ts c' (some (g : Int)) ∧
      (Par.num "LOAD_E2" 14).Stored cv ts c' (some (g : Int)) := by
  obtain ⟨bus', branch', c', h1, h2, h3⟩ := load_actual (k := cim6bl) (bad := [])
    (ps' := replaced (.num "LOAD_X1" 7) (replaced (.num "LOAD_E2" 14) DyrSpec.cim6bl)) h me hd hc hi hic hg
    (pick_of loadExtract_distinct (List.mem_of_getElem? (i := 0) rfl)) cim6bl_format (by decide +kernel)
    (by decide +kernel) (by decide +kernel)
  exact ⟨bus', branch', c', h1, h2, h3 _ (mem_replaced (by decide +kernel)) (by simp),
    h3 _ (mem_replaced_other (mem_replaced (by decide +kernel)) (by decide +kernel)) (by simp)⟩

/-- C182 fails for the model ACMTBLU1: the exponents Nq1 and Nq2 get the values of Kq1 and Kq2. -/
theorem C182_acmtblu1_violated {cv : Conv} {n : Nat} {bound : Nat → Nat → Nat} {puts : List Nat} {junk : Struct}
    {ts : List Str} {busNo : List Int} {ends : List (Int × Int)} {bus branch : List Data}
    (h : Shared cv n bound puts [(junk, ts)] busNo ends bus branch) (me : Nat) {i g : Nat} {b : Int} {tag : Str}
    {c : Data} (hd : Describes cv ts (.load b tag) "ACMTBLU1" DyrSpec.acmtblu1) (hc : Complete DyrSpec.acmtblu1 ts)
    (hi : busNo[i]? = some b) (hic : bus[i]? = some c) (hg : IsDevice c "LOAD_NUMBER" "LOAD_ID" g tag) :
    ∃ bus' branch' c', external cv n bound puts me [(junk, ts)] busNo ends bus branch = some (bus', branch') ∧
      bus'[i]? = some c' ∧ (Par.num "LOAD_NQ1" 23).Stored cv ts c' (some (g : Int)) ∧
      (Par.num "LOAD_NQ2" 27).Stored cv ts c' (some (g : Int)) := by
  obtain ⟨bus', branch', c', h1, h2, h3⟩ := load_actual (k := acmtblu1) (bad := [])
    (ps' := replaced (.num "LOAD_NQ1" 23) (replaced (.num "LOAD_NQ2" 27) DyrSpec.acmtblu1)) h me hd hc hi hic hg
    (pick_of loadExtract_distinct (List.mem_of_getElem? (i := 2) rfl)) acmtblu1_format (by decide +kernel)
    (by decide +kernel) (by decide +kernel)
  exact ⟨bus', branch', c', h1, h2, h3 _ (mem_replaced (by decide +kernel)) (by simp),
    h3 _ (mem_replaced_other (mem_replaced (by decide +kernel)) (by decide +kernel)) (by simp)⟩

/-- C182 fails for the model CMLDBLU1: the time Ttr1 gets the value of Ttr2. -/
theorem C182_cmldblu1_violated {cv : Conv} {n : Nat} {bound : Nat → Nat → Nat} {puts : List Nat} {junk : Struct}
    {ts : List Str} {busNo : List Int} {ends : List (Int × Int)} {bus branch : List Data}
    (h : Shared cv n bound puts [(junk, ts)] busNo ends bus branch) (me : Nat) {i g : Nat} {b : Int} {tag : Str}
    {c : Data} (hd : Describes cv ts (.load b tag) "CMLDBLU1" DyrSpec.cmldblu1) (hc : Complete DyrSpec.cmldblu1 ts)
    (hi : busNo[i]? = some b) (hic : bus[i]? = some c) (hg : IsDevice c "LOAD_NUMBER" "LOAD_ID" g tag) :
    ∃ bus' branch' c', external cv n bound puts me [(junk, ts)] busNo ends bus branch = some (bus', branch') ∧
      bus'[i]? = some c' ∧ (Par.num "LOAD_TTR1" 142).Stored cv ts c' (some (g : Int)) := by
  obtain ⟨bus', branch', c', h1, h2, h3⟩ := load_actual (k := cmldblu1) (bad := ["LOAD_VC2ON", "LOAD_UVTR2"])
    (ps' := replaced (.num "LOAD_TTR1" 142) DyrSpec.cmldblu1) h me hd hc hi hic hg
    (pick_of loadExtract_distinct (List.mem_of_getElem? (i := 3) rfl)) cmldblu1_format (by decide +kernel)
    (by decide +kernel) (by decide +kernel)
  exact ⟨bus', branch', c', h1, h2, h3 _ (mem_replaced (by decide +kernel)) (by simp [Par.key])⟩

/-- C183 fails for the relay DISTR1: the time of zone 3 gets the value for zone 2. -/
theorem C183_distr1_violated {cv : Conv} {n : Nat} {bound : Nat → Nat → Nat} {puts : List Nat} {junk : Struct}
    {ts : List Str} {busNo : List Int} {ends : List (Int × Int)} {bus branch : List Data}
    (h : Shared cv n bound puts [(junk, ts)] busNo ends bus branch) (me : Nat) {i : Nat} {a b : Int}
    {c : Data} (hd : Describes cv ts (.line a b) "DISTR1" DyrSpec.distr1) (hc : Complete DyrSpec.distr1 ts)
    (hi : ends[i]? = some (a, b)) (hic : branch[i]? = some c) :
    ∃ bus' branch' c', external cv n bound puts me [(junk, ts)] busNo ends bus branch = some (bus', branch') ∧
      branch'[i]? = some c' ∧ (Par.num "RELAY_ZONE3_TIME" 20).Stored cv ts c' (some (count c "RELAY_NUMBER")) := by
  obtain ⟨s0, s, bus', branch', c1, c', h2, h3, h4, h5⟩ := single_line h.procs h.bounds h.order me junk hd hc busNo
    ends bus branch h.buses h.branches h.usableBuses h.usableBranches hi hic
  have hok : idxOk (some (count c "RELAY_NUMBER")) := by
    obtain ⟨_, _, u3, u4⟩ := h.usableBranches c (List.mem_of_getElem? hic)
    simp only [List.length_singleton] at u4
    intro j hj
    obtain rfl := Option.some.inj hj
    push_cast at u4
    omega
  refine ⟨bus', branch', c', h3, h4, ?_⟩
  exact actual_ext (k := distr1) (bad := []) (ps' := replaced (.num "RELAY_ZONE3_TIME" 20) DyrSpec.distr1)
    (by decide +kernel) (by decide +kernel) (complete_of distr1_format (by decide +kernel) hc) h2 hok h5 _
    (mem_replaced (by decide +kernel)) (by simp)

/-! ### C186 -/

theorem two_records {V : Type} (b : Int) (s1 s2 : V) :
    HashDistr.distribute 2 (exactBound 2 2) (fun p => if p = 0 then [(b, s1), (b, s2)] else []) [0, 1] [b] 0 =
        some [(0, s1), (0, s2)] ∧
    HashDistr.distribute 2 (exactBound 2 2) (fun p => if p = 0 then [(b, s1), (b, s2)] else []) [0, 1] [b] 1 =
        some [(0, s2), (0, s1)] := by
  constructor <;>
    simp [HashDistr.distribute, exactBound, HashDistr.visitOrder, HashDistr.globalArray, HashDistr.visit,
      HashDistr.chunk, HashDistr.localMatches, List.range, List.range.loop, Exchange.base, Exchange.put,
      Exchange.allSome]

theorem no_records {K V : Type} [DecidableEq K] (bound : Nat → Nat) (orig : List K) (me : Nat) :
    HashDistr.distribute 2 bound (fun p => if p = 0 then ([] : List (K × V)) else []) [0, 1] orig me = some [] := by
  simp [HashDistr.distribute, Exchange.base]

/-- C186 fails when a file is read on several processes: of two records for the same generator process 0 keeps the
second one and process 1 the first, although both hold the same bus. -/
theorem C186_order_violated {cv : Conv} {r1 r2 : List Str} {b : Int} {tag : Str} {m : String} {ps : List Par}
    (hd1 : Describes cv r1 (.gen b tag) m ps) (hd2 : Describes cv r2 (.gen b tag) m ps) (hc1 : Complete ps r1)
    (hc2 : Complete ps r2) (j1 j2 : Struct) {c : Data} {g : Nat}
    (hg : IsDevice c "GENERATOR_NUMBER" "GENERATOR_ID" g tag) (hu : Usable 2 c) :
    ∃ c0 c1, external cv 2 (exactBound 2) [0, 1] 0 [(j1, r1), (j2, r2)] [b] [] [c] [] = some ([c0], []) ∧
      external cv 2 (exactBound 2) [0, 1] 1 [(j1, r1), (j2, r2)] [b] [] [c] [] = some ([c1], []) ∧
      ∀ p ∈ ps, (m, p.key) ∉ externalErrors →
        p.Stored cv r2 c0 (some (g : Int)) ∧ p.Stored cv r1 c1 (some (g : Int)) := by
  obtain ⟨k1, a1, s1, e1, _⟩ := storeRec_gen' j1 hd1 hc1
  obtain ⟨k2, a2, s2, e2, _⟩ := storeRec_gen' j2 hd2 hc2
  have m1 := made_of (Or.inl ⟨_, m, ps, hd1, hc1⟩) e1
  have m2 := made_of (Or.inl ⟨_, m, ps, hd2, hc2⟩) e2
  have hsz := Usable.sized hu
  have st1 := putGen_step hsz m1
  have st2 := putGen_step hsz m2
  obtain ⟨d1, f1, g1, _⟩ := st1 c (.refl c)
  obtain ⟨d2, f2, g2, _⟩ := st2 c (.refl c)
  obtain ⟨c0, f3, _⟩ := st2 d1 g1
  obtain ⟨c1, f4, _⟩ := st1 d2 g2
  have hdev := devIndex_device hg
  have hsp : ∀ (f : Struct → Data → Option Data) (bd : Nat → Nat → Nat) (me : Nat) (cs : List Data),
      spread 2 bd [0, 1] me f ([] : List (Int × Struct)) [b] cs = some cs := by
    intro f bd me cs
    rw [spread, no_records]
    rfl
  have hsp' : ∀ (f : Struct → Data → Option Data) (bd : Nat → Nat → Nat) (me : Nat) (cs : List Data),
      spread 2 bd [0, 1] me f ([] : List ((Int × Int) × Struct)) [] cs = some cs := by
    intro f bd me cs
    rw [spread, no_records]
    rfl
  have hst : storeAll cv [(j1, r1), (j2, r2)] = some [.gen b s1, .gen b s2] := by
    simp [storeAll, e1, e2]
  have main : ∀ me c', spread 2 (exactBound 2) [0, 1] me putGen [(b, s1), (b, s2)] [b] [c] = some [c'] →
      external cv 2 (exactBound 2) [0, 1] me [(j1, r1), (j2, r2)] [b] [] [c] [] = some ([c'], []) := by
    intro me c' h
    simp only [external, hst, Option.bind_some, gensOf, busRelaysOf, branchRelaysOf, loadsOf, List.filterMap_cons,
      List.filterMap_nil, h, hsp, hsp', Option.map_some]
  refine ⟨c0, c1, main 0 c0 ?_, main 1 c1 ?_, fun p hp hne => ⟨?_, ?_⟩⟩
  · rw [spread, show List.length [(b, s1), (b, s2)] = 2 from rfl, (two_records b s1 s2).1]
    simp [putAll, modifyAt, f1, f3]
  · rw [spread, show List.length [(b, s1), (b, s2)] = 2 from rfl, (two_records b s1 s2).2]
    simp [putAll, modifyAt, f2, f4]
  · exact putGen_stored hsz m2 hd2 hdev hp hne g1 f3
  · exact putGen_stored hsz m1 hd1 hdev hp hne g2 f4

/-! ### Examples -/

/-- Decimal numbers. -/
def digits (s : Str) : ℕ := s.foldl (fun n c => 10 * n + (c.toNat - 48)) 0

noncomputable def dec : Conv := ⟨fun s => (digits s : Int), fun s => (digits s : ℝ), id, id, id, fun _ => 0⟩

/-- A record with one-digit tokens from place 3 on: token `i + 3` is the last digit of `i`. -/
def row (bus model tag : String) (n : Nat) : List Str :=
  [bus.toList, model.toList, tag.toList] ++ (List.range n).map (fun i => [Char.ofNat (48 + i % 10)])

/-- A bus with one generator and one load. -/
noncomputable def oneOfEach : Data :=
  ((((addValue (fun _ => []) .int ⟨"GENERATOR_NUMBER".toList, none⟩ (1 : Int)).bind
    (fun c => addValue c .string ⟨"GENERATOR_ID".toList, some 0⟩ "1 ".toList)).bind
    (fun c => addValue c .int ⟨"LOAD_NUMBER".toList, none⟩ (1 : Int))).bind
    (fun c => addValue c .string ⟨"LOAD_ID".toList, some 0⟩ "1 ".toList)).getD (fun _ => [])

instance : DecidableEq (Val .int) := inferInstanceAs (DecidableEq Int)
instance : DecidableEq (Val .string) := inferInstanceAs (DecidableEq Str)

theorem oneOfEach_gens : Eq (get oneOfEach .int ⟨"GENERATOR_NUMBER".toList, none⟩) (some (1 : Int)) := by
  decide +kernel
theorem oneOfEach_genId : Eq (get oneOfEach .string ⟨"GENERATOR_ID".toList, some 0⟩) (some "1 ".toList) := by
  decide +kernel
theorem oneOfEach_loads : Eq (get oneOfEach .int ⟨"LOAD_NUMBER".toList, none⟩) (some (1 : Int)) := by
  decide +kernel
theorem oneOfEach_loadId : Eq (get oneOfEach .string ⟨"LOAD_ID".toList, some 0⟩) (some "1 ".toList) := by
  decide +kernel

theorem oneOfEach_gen : IsDevice oneOfEach "GENERATOR_NUMBER" "GENERATOR_ID" 0 "1 ".toList :=
  ⟨1, oneOfEach_gens, by decide, oneOfEach_genId, by simp⟩

theorem oneOfEach_load : IsDevice oneOfEach "LOAD_NUMBER" "LOAD_ID" 0 "1 ".toList :=
  ⟨1, oneOfEach_loads, by decide, oneOfEach_loadId, by simp⟩

theorem oneOfEach_relays : count oneOfEach "RELAY_NUMBER" = 0 := by decide +kernel

theorem oneOfEach_usable {n : Nat} (hn : n ≤ 5) : Usable n oneOfEach := by
  have h1 : count oneOfEach "GENERATOR_NUMBER" = 1 := by decide +kernel
  have h2 : count oneOfEach "LOAD_NUMBER" = 1 := by decide +kernel
  refine ⟨by rw [h1]; decide, by rw [h2]; decide, by rw [oneOfEach_relays], ?_⟩
  rw [oneOfEach_relays]
  omega

theorem row_bus : dec.atoi "1".toList = 1 := by decide +kernel

theorem row_gen {m : String} {ps : List Par} (hm : (m, ps) ∈ DyrSpec.gens) (n : Nat) :
    Describes dec (row "1" m "1 " n) (.gen 1 "1 ".toList) m ps := by
  have := Describes.gen (cv := dec) (ts := row "1" m "1 " n) hm rfl rfl rfl rfl
  rw [row_bus] at this
  exact this

theorem row_load {m : String} {ps : List Par} (hm : (m, ps) ∈ DyrSpec.loads) (n : Nat) :
    Describes dec (row "1" m "1 " n) (.load 1 "1 ".toList) m ps := by
  have := Describes.load (cv := dec) (ts := row "1" m "1 " n) hm rfl rfl rfl rfl
  rw [row_bus] at this
  exact this

theorem row_relay (n : Nat) : Describes dec (row "1" "LVSHBL" "1 " n) (.relay 1) "LVSHBL" DyrSpec.lvshbl := by
  have := Describes.voltage (cv := dec) (ts := row "1" "LVSHBL" "1 " n) rfl rfl rfl
  rw [row_bus] at this
  exact this

theorem row_line (n : Nat) : Describes dec (row "1" "DISTR1" "2" n) (.line 1 2) "DISTR1" DyrSpec.distr1 := by
  have := Describes.line (cv := dec) (ts := row "1" "DISTR1" "2" n) rfl rfl rfl rfl
  rw [row_bus, show dec.atoi "2".toList = 2 by decide +kernel] at this
  exact this

theorem row_complete {ps : List Par} {bus m tag : String} {n : Nat} (h : lastPlace ps < n + 3) :
    Complete ps (row bus m tag n) := by
  intro p hp k hk
  have := le_lastPlace p hp k hk
  simp only [row, List.length_append, List.length_cons, List.length_nil, List.length_map, List.length_range]
  omega

/-- Two buses with numbers 7 and 1 and a branch between 1 and 2; up to five records on three processes. -/
theorem shared_small {recs : List (Struct × List Str)} (hr : ∀ r ∈ recs, Proper dec r.2) (hn : recs.length ≤ 5) :
    Shared dec 3 (exactBound 3) [2, 0, 1] recs [7, 1] [(1, 2)] [oneOfEach, oneOfEach] [oneOfEach] where
  procs := by decide
  bounds := fun total => exactBound_ok 3 total (by decide)
  order := by decide
  proper := hr
  buses := rfl
  branches := rfl
  usableBuses := by
    intro c hc
    obtain rfl : c = oneOfEach := by simpa using hc
    exact oneOfEach_usable hn
  usableBranches := by
    intro c hc
    obtain rfl : c = oneOfEach := by simpa using hc
    exact oneOfEach_usable hn

/-- The machine, the exciter and the governor of a generator, in one file. -/
noncomputable def machineFile (junk : Struct) : List (Struct × List Str) :=
  [(junk, row "1" "GENCLS" "1 " 3), (junk, row "1" "SEXS" "1 " 8), (junk, row "1" "TGOV1" "1 " 7)]

theorem machine_proper (junk : Struct) : ∀ r ∈ machineFile junk, Proper dec r.2 := by
  intro r hr
  simp only [machineFile, List.mem_cons, List.not_mem_nil, or_false] at hr
  rcases hr with rfl | rfl | rfl
  · exact Or.inl ⟨_, _, _, row_gen (m := "GENCLS") (ps := DyrSpec.gencls) (by simp [DyrSpec.gens]) 3,
      row_complete (by decide +kernel)⟩
  · exact Or.inl ⟨_, _, _, row_gen (m := "SEXS") (ps := DyrSpec.sexs) (by simp [DyrSpec.gens]) 8,
      row_complete (by decide +kernel)⟩
  · exact Or.inl ⟨_, _, _, row_gen (m := "TGOV1") (ps := DyrSpec.tgov1) (by simp [DyrSpec.gens]) 7,
      row_complete (by decide +kernel)⟩

theorem gives_key {cv : Conv} {ts : List Str} {b : Int} {tag : Str} {m : String} {ps : List Par} {name : String}
    (hd : Describes cv ts (.gen b tag) m ps) (hg : Gives cv ts (.gen b tag) name) : among (ps.map Par.key) name = true := by
  obtain ⟨m', ps', hd', hm⟩ := hg
  obtain ⟨_, _, e⟩ := gen_unique rfl rfl hd hd'
  rw [among_iff, e]
  exact hm

/-- On each of three processes the inertia of the generator at bus 1 is the first number of the record, 0, its damping
the second, 1. -/
example (junk : Struct) (me : Nat) : ∃ bus' branch' c',
    external dec 3 (exactBound 3) [2, 0, 1] me (machineFile junk) [7, 1] [(1, 2)] [oneOfEach, oneOfEach] [oneOfEach] =
      some (bus', branch') ∧ bus'[1]? = some c' ∧
    get c' .double ⟨"GENERATOR_DAMPING_COEFFICENT_0".toList, some 0⟩ = some (1 : ℝ) := by
  obtain ⟨bus', branch', h1, _, h2⟩ := C181_generators_partial (shared_small (machine_proper junk) (Nat.le_of_ble_eq_true rfl)) me
  obtain ⟨c', h3, h4⟩ := h2 [] [row "1" "SEXS" "1 " 8, row "1" "TGOV1" "1 " 7] _ rfl 1 0 1 "1 ".toList "GENCLS"
    DyrSpec.gencls oneOfEach (row_gen (by simp [DyrSpec.gens]) 3) rfl rfl oneOfEach_gen
  refine ⟨bus', branch', c', h1, h3, ?_⟩
  obtain ⟨t, ht, hs⟩ := h4 (.num "GENERATOR_DAMPING_COEFFICENT_0" 4) (by simp [DyrSpec.gencls, DyrSpec.nums])
    (by simp [Par.key, externalErrors]) (by
      intro r' hr'
      simp only [List.nil_append, List.mem_cons, List.not_mem_nil, or_false] at hr'
      rcases hr' with rfl | rfl
      · intro hg
        have := gives_key (row_gen (m := "SEXS") (ps := DyrSpec.sexs) (by simp [DyrSpec.gens]) 8) hg
        revert this
        decide +kernel
      · intro hg
        have := gives_key (row_gen (m := "TGOV1") (ps := DyrSpec.tgov1) (by simp [DyrSpec.gens]) 7) hg
        revert this
        decide +kernel)
  obtain rfl : t = ['1'] := by
    have : (row "1" "GENCLS" "1 " 3)[4]? = some ['1'] := by decide +kernel
    rw [this] at ht
    exact (Option.some.inj ht).symm
  exact hs.trans (congrArg some (by simp [dec, digits]))

theorem one_proper {ts : List Str} {w : Place} {m : String} {ps : List Par} (hd : Describes dec ts w m ps)
    (hc : Complete ps ts) (junk : Struct) : ∀ r ∈ [(junk, ts)], Proper dec r.2 := by
  intro r hr
  obtain rfl := List.mem_singleton.mp hr
  exact Or.inl ⟨w, m, ps, hd, hc⟩

theorem stored_num {ts : List Str} {c : Data} {idx : Option Int} {k : String} {n : Nat} {t : Str}
    (h : (Par.num k n).Stored dec ts c idx) (ht : ts[n]? = some t) :
    get c .double ⟨k.toList, idx⟩ = some (digits t : ℝ) := by
  obtain ⟨t', h1, h2⟩ := h
  rw [ht] at h1
  obtain rfl := Option.some.inj h1
  exact h2

theorem cim_row : Describes dec (row "1" "CIM6BL" "1 " 25) (.load 1 "1 ".toList) "CIM6BL" DyrSpec.cim6bl :=
  row_load (by simp [DyrSpec.loads]) 25

theorem cim_complete : Complete DyrSpec.cim6bl (row "1" "CIM6BL" "1 " 25) := row_complete (by decide +kernel)

/-- The resistance R1 of a load is token 7, 4. -/
example (junk : Struct) (me : Nat) : ∃ bus' branch' c',
    external dec 3 (exactBound 3) [2, 0, 1] me [(junk, row "1" "CIM6BL" "1 " 25)] [7, 1] [(1, 2)]
      [oneOfEach, oneOfEach] [oneOfEach] = some (bus', branch') ∧ bus'[1]? = some c' ∧
    get c' .double ⟨"LOAD_R1".toList, some 0⟩ = some (digits ['4'] : ℝ) := by
  obtain ⟨bus', branch', h1, _, h2⟩ := C182_loads_partial (shared_small (one_proper cim_row cim_complete junk)
    (Nat.le_of_ble_eq_true rfl)) me
  obtain ⟨c', h3, h4⟩ := h2 [] [] (row "1" "CIM6BL" "1 " 25) rfl 1 0 1 "1 ".toList "CIM6BL" DyrSpec.cim6bl oneOfEach cim_row rfl rfl
    oneOfEach_load
  exact ⟨bus', branch', c', h1, h3, stored_num (h4 (.num "LOAD_R1" 7) (by simp [DyrSpec.cim6bl, DyrSpec.nums])
    (by simp [Par.key, externalErrors]) (by simp)) (by decide +kernel)⟩

/-- Its reactance X1 should be token 8, 5, but is also 4. -/
example (junk : Struct) (me : Nat) : ∃ bus' branch' c',
    external dec 3 (exactBound 3) [2, 0, 1] me [(junk, row "1" "CIM6BL" "1 " 25)] [7, 1] [(1, 2)]
      [oneOfEach, oneOfEach] [oneOfEach] = some (bus', branch') ∧ bus'[1]? = some c' ∧
    get c' .double ⟨"LOAD_X1".toList, some 0⟩ = some (digits ['4'] : ℝ) := by
  obtain ⟨bus', branch', c', h1, h2, h3, _⟩ := C182_cim6bl_violated (shared_small (one_proper cim_row cim_complete junk)
    (Nat.le_of_ble_eq_true rfl)) me cim_row cim_complete (i := 1) rfl rfl oneOfEach_load
  exact ⟨bus', branch', c', h1, h2, stored_num h3 (by decide +kernel)⟩

/-- A record of a user model. -/
def userRow (m : String) (n : Nat) : List Str :=
  ["1".toList, "USRLOD".toList, "1 ".toList, m.toList] ++ (List.range n).map (fun i => [Char.ofNat (48 + i % 10)])

theorem user_load {m : String} {ps : List Par} (hm : (m, ps) ∈ DyrSpec.userLoads) (n : Nat) :
    Describes dec (userRow m n) (.load 1 "1 ".toList) m ps := by
  have := Describes.userLoad (cv := dec) (ts := userRow m n) hm rfl rfl rfl rfl rfl rfl rfl
  rw [row_bus] at this
  exact this

theorem user_complete {ps : List Par} {m : String} {n : Nat} (h : lastPlace ps < n + 4) :
    Complete ps (userRow m n) := by
  intro p hp k hk
  have := le_lastPlace p hp k hk
  simp only [userRow, List.length_append, List.length_cons, List.length_nil, List.length_map, List.length_range]
  omega

/-- The exponent Nq1 should be token 24, 0, but is 9. -/
example (junk : Struct) (me : Nat) : ∃ bus' branch' c',
    external dec 3 (exactBound 3) [2, 0, 1] me [(junk, userRow "ACMTBLU1" 43)] [7, 1] [(1, 2)]
      [oneOfEach, oneOfEach] [oneOfEach] = some (bus', branch') ∧ bus'[1]? = some c' ∧
    get c' .double ⟨"LOAD_NQ1".toList, some 0⟩ = some (digits ['9'] : ℝ) := by
  have hd := user_load (m := "ACMTBLU1") (ps := DyrSpec.acmtblu1) (by simp [DyrSpec.userLoads]) 43
  have hc : Complete DyrSpec.acmtblu1 (userRow "ACMTBLU1" 43) := user_complete (by decide +kernel)
  obtain ⟨bus', branch', c', h1, h2, h3, _⟩ := C182_acmtblu1_violated (shared_small (one_proper hd hc junk)
    (Nat.le_of_ble_eq_true rfl)) me hd hc (i := 1) rfl rfl oneOfEach_load
  exact ⟨bus', branch', c', h1, h2, stored_num h3 (by decide +kernel)⟩

/-- The time Ttr1 should be token 140, 6, but is 8. -/
example (junk : Struct) (me : Nat) : ∃ bus' branch' c',
    external dec 3 (exactBound 3) [2, 0, 1] me [(junk, userRow "CMLDBLU1" 139)] [7, 1] [(1, 2)]
      [oneOfEach, oneOfEach] [oneOfEach] = some (bus', branch') ∧ bus'[1]? = some c' ∧
    get c' .double ⟨"LOAD_TTR1".toList, some 0⟩ = some (digits ['8'] : ℝ) := by
  have hd := user_load (m := "CMLDBLU1") (ps := DyrSpec.cmldblu1) (by simp [DyrSpec.userLoads]) 139
  have hc : Complete DyrSpec.cmldblu1 (userRow "CMLDBLU1" 139) := user_complete (by decide +kernel)
  obtain ⟨bus', branch', c', h1, h2, h3⟩ := C182_cmldblu1_violated (shared_small (one_proper hd hc junk)
    (Nat.le_of_ble_eq_true rfl)) me hd hc (i := 1) rfl rfl oneOfEach_load
  exact ⟨bus', branch', c', h1, h2, stored_num h3 (by decide +kernel)⟩

/-- The time constant T3 of a governor should be token 8, 5, but is 4. -/
example (junk : Struct) (me : Nat) : ∃ bus' branch' c',
    external dec 3 (exactBound 3) [2, 0, 1] me [(junk, row "1" "WSIEG1" "1 " 36)] [7, 1] [(1, 2)]
      [oneOfEach, oneOfEach] [oneOfEach] = some (bus', branch') ∧ bus'[1]? = some c' ∧
    get c' .double ⟨"GOVERNOR_T3".toList, some 0⟩ = some (digits ['4'] : ℝ) := by
  have hd := row_gen (m := "WSIEG1") (ps := DyrSpec.wsieg1) (by simp [DyrSpec.gens]) 36
  have hc : Complete DyrSpec.wsieg1 (row "1" "WSIEG1" "1 " 36) := row_complete (by decide +kernel)
  obtain ⟨bus', branch', c', t7, h1, h2, h3, h4⟩ := C181_wsieg1_violated (shared_small (one_proper hd hc junk)
    (Nat.le_of_ble_eq_true rfl)) me hd hc (i := 1) rfl rfl oneOfEach_gen (by
      have : (get oneOfEach .double ⟨"GOVERNOR_T3".toList, some ((0 : Nat) : Int)⟩).isNone = true := by decide +kernel
      simpa using this)
  have e : (row "1" "WSIEG1" "1 " 36)[7]? = some ['4'] := by decide +kernel
  rw [e] at h3
  obtain rfl := Option.some.inj h3
  exact ⟨bus', branch', c', h1, h2, h4⟩

open Classical in
/-- A relay of a bus: afterwards there is one more. -/
example (junk : Struct) (me : Nat) : ∃ bus' branch' c',
    external dec 3 (exactBound 3) [2, 0, 1] me [(junk, row "1" "LVSHBL" "1 " 12)] [7, 1] [(1, 2)]
      [oneOfEach, oneOfEach] [oneOfEach] = some (bus', branch') ∧ bus'[1]? = some c' ∧
    count c' "RELAY_NUMBER" = 1 ∧ (DyrSpec.lvshbl.map Par.key).Nodup ∧
    ∀ p ∈ DyrSpec.lvshbl, p.Stored dec (row "1" "LVSHBL" "1 " 12) c' (some 0) := by
  have hc : Complete DyrSpec.lvshbl (row "1" "LVSHBL" "1 " 12) := row_complete (by decide +kernel)
  obtain ⟨bus', branch', h1, h2⟩ := C183_bus_relays (shared_small (one_proper (row_relay 12) hc junk)
    (Nat.le_of_ble_eq_true rfl)) me
  obtain ⟨c', l, h3, h4, h5, h6, _⟩ := h2 1 1 oneOfEach rfl rfl
  have hdec : ∃ m ps, Describes dec (row "1" "LVSHBL" "1 " 12) (.relay 1) m ps := ⟨_, _, row_relay 12⟩
  rw [List.map_singleton, List.filter_singleton, decide_eq_true hdec, cond_true] at h4
  obtain rfl := List.perm_singleton.mp h4
  refine ⟨bus', branch', c', h1, h3, ?_, by decide +kernel, ?_⟩
  · rw [h5, oneOfEach_relays]
    rfl
  · have := h6 0 _ rfl _ _ (row_relay 12)
    rw [oneOfEach_relays] at this
    exact this

/-- The time of zone 3 should be token 24, 1, but is 7. -/
example (junk : Struct) (me : Nat) : ∃ bus' branch' c',
    external dec 3 (exactBound 3) [2, 0, 1] me [(junk, row "1" "DISTR1" "2" 37)] [7, 1] [(1, 2)]
      [oneOfEach, oneOfEach] [oneOfEach] = some (bus', branch') ∧ branch'[0]? = some c' ∧
    get c' .double ⟨"RELAY_ZONE3_TIME".toList, some 0⟩ = some (digits ['7'] : ℝ) := by
  have hc : Complete DyrSpec.distr1 (row "1" "DISTR1" "2" 37) := row_complete (by decide +kernel)
  obtain ⟨bus', branch', c', h1, h2, h3⟩ := C183_distr1_violated (shared_small (one_proper (row_line 37) hc junk)
    (Nat.le_of_ble_eq_true rfl)) me (row_line 37) hc (i := 0) rfl rfl
  rw [oneOfEach_relays] at h3
  exact ⟨bus', branch', c', h1, h2, stored_num h3 (by decide +kernel)⟩

/-- The bus with number 7, for which there is no record, keeps its data. -/
example (junk : Struct) (me : Nat) : ∃ bus' branch' c',
    external dec 3 (exactBound 3) [2, 0, 1] me (machineFile junk) [7, 1] [(1, 2)] [oneOfEach, oneOfEach] [oneOfEach] =
      some (bus', branch') ∧ bus'[0]? = some c' ∧ ∀ t k, ':' ∉ k.name → get c' t k = get oneOfEach t k := by
  obtain ⟨bus', branch', h1, h2⟩ := C185_other_buses (shared_small (machine_proper junk) (Nat.le_of_ble_eq_true rfl)) me
  obtain ⟨c', h3, h4⟩ := h2 0 7 oneOfEach rfl rfl (by
    intro r hr tag m ps
    have hr0 : r[0]? = some "1".toList := by
      simp only [machineFile, List.map_cons, List.map_nil, List.mem_cons, List.not_mem_nil, or_false] at hr
      rcases hr with rfl | rfl | rfl <;> rfl
    have key : ∀ w, Describes dec r w m ps → (w = .gen 7 tag ∨ w = .load 7 tag ∨ w = .relay 7) → False := by
      intro w hd hw
      cases hd with
      | gen _ h0 =>
        rw [hr0] at h0
        obtain rfl := Option.some.inj h0
        rw [row_bus] at hw
        simp at hw
      | load _ h0 =>
        rw [hr0] at h0
        obtain rfl := Option.some.inj h0
        rw [row_bus] at hw
        simp at hw
      | userLoad _ h0 =>
        rw [hr0] at h0
        obtain rfl := Option.some.inj h0
        rw [row_bus] at hw
        simp at hw
      | voltage h0 =>
        rw [hr0] at h0
        obtain rfl := Option.some.inj h0
        rw [row_bus] at hw
        simp at hw
      | frequency _ h1 _ hn =>
        simp only [machineFile, List.map_cons, List.map_nil, List.mem_cons, List.not_mem_nil, or_false] at hr
        rcases hr with rfl | rfl | rfl <;>
          (obtain rfl := Option.some.inj h1; exact absurd hn (by decide +kernel))
      | line => simp at hw
    exact ⟨fun h => key _ h (Or.inl rfl), fun h => key _ h (Or.inr (Or.inl rfl)), fun h => key _ h (Or.inr (Or.inr rfl))⟩)
  exact ⟨bus', branch', c', h1, h3, h4⟩

/-- Two records for a generator, the first with H = 0, the second with H = 5. -/
example (junk : Struct) : ∃ c0 c1,
    external dec 2 (exactBound 2) [0, 1] 0 [(junk, row "1" "GENCLS" "1 " 3),
      (junk, ["1", "GENCLS", "1 ", "5", "1", "2"].map String.toList)] [1] [] [oneOfEach] [] = some ([c0], []) ∧
    external dec 2 (exactBound 2) [0, 1] 1 [(junk, row "1" "GENCLS" "1 " 3),
      (junk, ["1", "GENCLS", "1 ", "5", "1", "2"].map String.toList)] [1] [] [oneOfEach] [] = some ([c1], []) ∧
    get c0 .double ⟨"GENERATOR_INERTIA_CONSTANT_H".toList, some 0⟩ = some (digits ['5'] : ℝ) ∧
    get c1 .double ⟨"GENERATOR_INERTIA_CONSTANT_H".toList, some 0⟩ = some (digits ['0'] : ℝ) := by
  have hd2 : Describes dec (["1", "GENCLS", "1 ", "5", "1", "2"].map String.toList) (.gen 1 "1 ".toList) "GENCLS"
      DyrSpec.gencls := by
    have := Describes.gen (cv := dec) (ts := ["1", "GENCLS", "1 ", "5", "1", "2"].map String.toList) (m := "GENCLS")
      (ps := DyrSpec.gencls) (by simp [DyrSpec.gens]) rfl rfl rfl rfl
    rw [row_bus] at this
    exact this
  have hc2 : Complete DyrSpec.gencls (["1", "GENCLS", "1 ", "5", "1", "2"].map String.toList) := by
    intro p hp k hk
    have := le_lastPlace p hp k hk
    have e : lastPlace DyrSpec.gencls = 5 := by decide +kernel
    simp only [List.length_map, List.length_cons, List.length_nil]
    omega
  obtain ⟨c0, c1, h1, h2, h3⟩ := C186_order_violated (row_gen (m := "GENCLS") (ps := DyrSpec.gencls)
    (by simp [DyrSpec.gens]) 3) hd2 (row_complete (by decide +kernel)) hc2 junk junk oneOfEach_gen
    (oneOfEach_usable (by decide))
  obtain ⟨h4, h5⟩ := h3 (.num "GENERATOR_INERTIA_CONSTANT_H" 3) (by simp [DyrSpec.gencls, DyrSpec.nums])
    (by simp [Par.key, externalErrors])
  exact ⟨c0, c1, h1, h2, stored_num h4 (by decide +kernel), stored_num h5 (by decide +kernel)⟩

end GridPACK.Dyr
