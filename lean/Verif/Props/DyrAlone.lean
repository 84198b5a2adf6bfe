import Verif.Props.DyrShared

/-! C184-C186: .dyr files read directly into the data of the network. -/
namespace GridPACK.Dyr
open StringUtils DataCollection
open RawBus (Val Data get idxOk get_add get_add_other)
open DyrSpec (Par Complete IsDevice Describes Gives Proper Unknown Place count deviceName Usable directErrors Alone
  Shared externalErrors)
open HashDistr (exactBound exactBound_ok)

theorem Alone.run {cv : Conv} {texts : List (List Str)} {net : Net} (h : Alone cv texts net) :
    ∃ net', direct cv texts net = some net' ∧ net'.buses.map (·.1) = net.buses.map (·.1) ∧
      ∀ (i : Nat) b c, net.buses[i]? = some (b, c) → ∃ c', net'.buses[i]? = some (b, c') ∧
        DirectAfter cv texts b c c' :=
  direct_ok texts net h.numbers h.proper (fun r hr e he ⟨m, ps, hd⟩ => h.noLines r hr e he m ps hd) h.usable

/-! ### C184 -/

/-- C184 (generators): after reading a file of complete records directly, each parameter of a record for a generator
can be read from the data of its bus, unless a later record gives the same parameter of the same generator.  Missing:
the model ESST4B and the parameters in `directErrors`. -/
theorem C184_generators_partial {cv : Conv} {texts : List (List Str)} {net : Net} (h : Alone cv texts net) :
    ∃ net', direct cv texts net = some net' ∧
      ∀ (pre post : List (List Str)) (r : List Str), texts = pre ++ r :: post →
      ∀ (i g : Nat) b tag m ps c, Describes cv r (.gen b tag) m ps → net.buses[i]? = some (b, c) →
        IsDevice c "GENERATOR_NUMBER" "GENERATOR_ID" g tag → m ≠ "ESST4B" →
        ∃ c', net'.buses[i]? = some (b, c') ∧ ∀ p ∈ ps, (m, p.key) ∉ directErrors →
          (∀ r' ∈ post, ¬ Gives cv r' (.gen b tag) p.key) → p.Stored cv r c' (some (g : Int)) := by
  obtain ⟨net', h1, _, h2⟩ := Alone.run h
  refine ⟨net', h1, ?_⟩
  intro pre post r hr i g b tag m ps c hd hi hg hm
  obtain ⟨c', h3, h4⟩ := h2 i b c hi
  exact ⟨c', h3, fun p hp he hu => h4.gens pre r post tag m ps p g hr hd hg hp hm he hu⟩

/-- C184 (loads). -/
theorem C184_loads_partial {cv : Conv} {texts : List (List Str)} {net : Net} (h : Alone cv texts net) :
    ∃ net', direct cv texts net = some net' ∧
      ∀ (pre post : List (List Str)) (r : List Str), texts = pre ++ r :: post →
      ∀ (i g : Nat) b tag m ps c, Describes cv r (.load b tag) m ps → net.buses[i]? = some (b, c) →
        IsDevice c "LOAD_NUMBER" "LOAD_ID" g tag →
        ∃ c', net'.buses[i]? = some (b, c') ∧ ∀ p ∈ ps, (m, p.key) ∉ directErrors →
          (∀ r' ∈ post, ¬ Gives cv r' (.load b tag) p.key) → p.Stored cv r c' (some (g : Int)) := by
  obtain ⟨net', h1, _, h2⟩ := Alone.run h
  refine ⟨net', h1, ?_⟩
  intro pre post r hr i g b tag m ps c hd hi hg
  obtain ⟨c', h3, h4⟩ := h2 i b c hi
  exact ⟨c', h3, fun p hp he hu => h4.loads pre r post tag m ps p g hr hd hg hp he hu⟩

open Classical in
/-- C184 (relays of buses): the new relays of a bus are those of the file, in its order. -/
theorem C184_bus_relays {cv : Conv} {texts : List (List Str)} {net : Net} (h : Alone cv texts net) :
    ∃ net', direct cv texts net = some net' ∧
      ∀ (i : Nat) b c, net.buses[i]? = some (b, c) → ∃ c', net'.buses[i]? = some (b, c') ∧
        count c' "RELAY_NUMBER" = count c "RELAY_NUMBER" +
          (texts.filter (fun r => decide (∃ m ps, Describes cv r (.relay b) m ps))).length ∧
        ∀ (j : Nat) r, (texts.filter (fun r => decide (∃ m ps, Describes cv r (.relay b) m ps)))[j]? = some r →
          ∀ m ps, Describes cv r (.relay b) m ps → ∀ p ∈ ps,
            p.Stored cv r c' (some (count c "RELAY_NUMBER" + j)) := by
  obtain ⟨net', h1, _, h2⟩ := Alone.run h
  refine ⟨net', h1, fun i b c hi => ?_⟩
  obtain ⟨c', h3, h4⟩ := h2 i b c hi
  exact ⟨c', h3, h4.relays⟩

/-! ### C185 -/

/-- C185 for direct reading: what no record asks for stays as it is.  Missing: a record for a load that the bus does
not have is stored with index −1. -/
theorem C185_direct_partial {cv : Conv} {texts : List (List Str)} {net : Net} (h : Alone cv texts net) :
    ∃ net', direct cv texts net = some net' ∧ net'.buses.map (·.1) = net.buses.map (·.1) ∧
      ∀ (i : Nat) b c, net.buses[i]? = some (b, c) → ∃ c', net'.buses[i]? = some (b, c') ∧
        ∀ t k, ':' ∉ k.name → k.idx ≠ some (-1) →
          (∀ (g : Nat) (name : String) r, k = ⟨name.toList, some (g : Int)⟩ → r ∈ texts →
            ¬ Gives cv r (.gen b (deviceName c "GENERATOR_ID" g)) name ∧
            ¬ Gives cv r (.load b (deviceName c "LOAD_ID" g)) name) →
          ((∃ r ∈ texts, ∃ m ps, Describes cv r (.relay b) m ps) → k.name ≠ "RELAY_NUMBER".toList ∧
            ((∃ j : Nat, k.idx = some (count c "RELAY_NUMBER" + j)) →
              ∀ p ∈ DyrSpec.lvshbl ++ DyrSpec.frqtpat, k.name ≠ p.key.toList)) →
          get c' t k = get c t k := by
  obtain ⟨net', h1, h0, h2⟩ := Alone.run h
  refine ⟨net', h1, h0, fun i b c hi => ?_⟩
  obtain ⟨c', h3, h4⟩ := h2 i b c hi
  refine ⟨c', h3, fun t k hk hm1 hd hr => h4.rest t k hk hd ?_ (fun hex => ?_)⟩
  · intro name r tag hke
    exact absurd (congrArg Key.idx hke) hm1
  · obtain ⟨h6, h7⟩ := hr hex
    refine ⟨h6, fun hj s hs => ?_⟩
    obtain ⟨⟨m, ps⟩, hm, hs⟩ := List.mem_flatMap.mp hs
    obtain ⟨p, hp, rfl⟩ := List.mem_map.mp hs
    refine h7 hj p ?_
    simp only [DyrSpec.relays, List.mem_cons, Prod.mk.injEq, List.not_mem_nil, or_false] at hm
    rcases hm with ⟨_, rfl⟩ | ⟨_, rfl⟩
    · exact List.mem_append_left _ hp
    · exact List.mem_append_right _ hp

/-! ### C186 -/

/-- C186: read directly, the later of two records for the same parameter of a generator counts.  Missing: as C184. -/
theorem C186_direct_partial {cv : Conv} {pre mid post : List (List Str)} {r1 r2 : List Str} {net : Net}
    (h : Alone cv (pre ++ r1 :: (mid ++ r2 :: post)) net) {i g : Nat} {b : Int} {tag : Str} {m1 m2 : String}
    {ps1 ps2 : List Par} {c : Data} (_hd1 : Describes cv r1 (.gen b tag) m1 ps1)
    (hd2 : Describes cv r2 (.gen b tag) m2 ps2) (hi : net.buses[i]? = some (b, c))
    (hg : IsDevice c "GENERATOR_NUMBER" "GENERATOR_ID" g tag) (hm : m2 ≠ "ESST4B") :
    ∃ net' c', direct cv (pre ++ r1 :: (mid ++ r2 :: post)) net = some net' ∧ net'.buses[i]? = some (b, c') ∧
      ∀ p ∈ ps2, p.key ∈ ps1.map Par.key → (m2, p.key) ∉ directErrors →
        (∀ r' ∈ post, ¬ Gives cv r' (.gen b tag) p.key) → p.Stored cv r2 c' (some (g : Int)) := by
  obtain ⟨net', h1, h2⟩ := C184_generators_partial h
  obtain ⟨c', h3, h4⟩ := h2 (pre ++ r1 :: mid) post r2 (by simp) i g b tag m2 ps2 c hd2 hi hg hm
  exact ⟨net', c', h1, h3, fun p hp _ he hu => h4 p hp he hu⟩

/-! ### Wrong parameters -/

/-- C184 fails for the exciter ESST4B: the record is accepted, but nothing is stored. -/
theorem C184_esst4b_violated {cv : Conv} {ts : List Str} {net : Net} (h : Alone cv [ts] net) {b : Int} {tag : Str}
    (hd : Describes cv ts (.gen b tag) "ESST4B" DyrSpec.esst4b) {i g : Nat} {c : Data}
    (hi : net.buses[i]? = some (b, c)) (hg : IsDevice c "GENERATOR_NUMBER" "GENERATOR_ID" g tag) :
    ∃ net', direct cv [ts] net = some net' ∧ net'.buses[i]? = some (b, c) := by
  obtain ⟨net', c', h1, h2, h3⟩ := single_gen_direct h hd hi hg
  have hk : pick genDirect "ESST4B".toList = none := by
    apply pick_none
    intro x hx he
    have : among (genDirect.map (·.1)) "ESST4B" = false := by decide +kernel
    rw [← Bool.not_eq_true, among_iff] at this
    exact this (List.mem_map.mpr ⟨x, hx, String.toList_injective he⟩)
  rw [hk] at h3
  obtain rfl := Option.some.inj h3
  exact ⟨net', h1, h2⟩

theorem Alone.device_ok {cv : Conv} {ts : List (List Str)} {net : Net} (h : Alone cv ts net) {i g : Nat} {b : Int}
    {c : Data} (hi : net.buses[i]? = some (b, c)) {num id : String} {tag : Str} (hg : IsDevice c num id g tag)
    (hnum : num = "GENERATOR_NUMBER" ∨ num = "LOAD_NUMBER") : idxOk (some (g : Int)) :=
  Dyr.device_ok (h.usable b c (List.mem_of_getElem? hi)) hg hnum

/-- A parameter that is there already is replaced by what the step sets. -/
theorem again {cv : Conv} {ts : List Str} {net : Net} (h : Alone cv [ts] net) {b : Int} {tag : Str}
    {m : String} {ps : List Par} (hd : Describes cv ts (.gen b tag) m ps) {i g : Nat} {c : Data}
    (hi : net.buses[i]? = some (b, c)) (hg : IsDevice c "GENERATOR_NUMBER" "GENERATOR_ID" g tag) {k : Kind}
    (hk : pick genDirect m.toList = some k) {l : Nat} {name : String} (ho : onlyStep k.parse l name = true)
    {guard n n' : Nat} (he : k.parse[l]? = some ⟨some guard, name, .double, name, .dbl n, name, .dbl n'⟩)
    (hlen : guard < ts.length) {t : Str} (ht : ts[n']? = some t)
    (hold : (get c .double ⟨name.toList, some (g : Int)⟩).isSome = true) :
    ∃ net' c', direct cv [ts] net = some net' ∧ net'.buses[i]? = some (b, c') ∧
      get c' .double ⟨name.toList, some (g : Int)⟩ = some (cv.atof t) := by
  obtain ⟨net', c', h1, h2, h3⟩ := single_gen_direct h hd hi hg
  rw [hk] at h3
  have hok := Alone.device_ok h hi hg (Or.inl rfl)
  have ho := onlyStep_iff ho
  refine ⟨net', c', h1, h2, ?_⟩
  simp only [Kind.runParse] at h3
  rw [split_at he] at h3
  exact (runEntries_at hok ho.plain ho.colonBefore ho.colonAfter ho.before ho.after (by simpa [passes] using hlen) rfl
    rfl rfl h3).2 hold ⟨.double, cv.atof t⟩ (by simp [Src.eval, ht]) rfl

/-- C184 fails for the machine GENROU: when a second file is read, the reactance Xq gets the value of Xd. -/
theorem C184_genrou_violated {cv : Conv} {ts : List Str} {net : Net} (h : Alone cv [ts] net) {b : Int} {tag : Str}
    (hd : Describes cv ts (.gen b tag) "GENROU" DyrSpec.genrou) (hc : Complete DyrSpec.genrou ts) {i g : Nat} {c : Data}
    (hi : net.buses[i]? = some (b, c)) (hg : IsDevice c "GENERATOR_NUMBER" "GENERATOR_ID" g tag)
    (hold : (get c .double ⟨"GENERATOR_XQ".toList, some (g : Int)⟩).isSome = true) :
    ∃ net' c', direct cv [ts] net = some net' ∧ net'.buses[i]? = some (b, c') ∧
      (Par.num "GENERATOR_XQ" 9).Stored cv ts c' (some (g : Int)) := by
  have hl := last_lt genrou_format hc
  have e : lastPlace DyrSpec.genrou = 16 := by decide +kernel
  obtain ⟨net', c', h1, h2, h3⟩ := again h hd hi hg (k := genrou)
    (pick_of genDirect_distinct (List.mem_of_getElem? (i := 2) rfl)) (l := 8) (by decide +kernel) rfl (by omega)
    (List.getElem?_eq_getElem (show 9 < ts.length by omega)) hold
  exact ⟨net', c', h1, h2, _, List.getElem?_eq_getElem (show 9 < ts.length by omega), h3⟩

/-- C184 fails for the model REECA1: when a second file is read, the time constant Tiq gets the value of the next
parameter, dPmax. -/
theorem C184_reeca1_violated {cv : Conv} {ts : List Str} {net : Net} (h : Alone cv [ts] net) {b : Int} {tag : Str}
    (hd : Describes cv ts (.gen b tag) "REECA1" DyrSpec.reeca1) (hc : Complete DyrSpec.reeca1 ts) {i g : Nat} {c : Data}
    (hi : net.buses[i]? = some (b, c)) (hg : IsDevice c "GENERATOR_NUMBER" "GENERATOR_ID" g tag)
    (hold : (get c .double ⟨"GENERATOR_REECA_TIQ".toList, some (g : Int)⟩).isSome = true) :
    ∃ net' c', direct cv [ts] net = some net' ∧ net'.buses[i]? = some (b, c') ∧
      (Par.num "GENERATOR_REECA_TIQ" 32).Stored cv ts c' (some (g : Int)) := by
  have hl := last_lt reeca1_format hc
  have e : 32 < lastPlace DyrSpec.reeca1 := by decide +kernel
  obtain ⟨net', c', h1, h2, h3⟩ := again h hd hi hg (k := reeca1)
    (pick_of genDirect_distinct (List.mem_of_getElem? (i := 7) rfl)) (l := 30) (by decide +kernel) rfl (by omega)
    (List.getElem?_eq_getElem (show 32 < ts.length by omega)) hold
  exact ⟨net', c', h1, h2, _, List.getElem?_eq_getElem (show 32 < ts.length by omega), h3⟩

/-- C184 fails for the model REPCA1: when a second file is read, the smallest frequency error gets the value of the
next parameter, Pmax. -/
theorem C184_repca1_violated {cv : Conv} {ts : List Str} {net : Net} (h : Alone cv [ts] net) {b : Int} {tag : Str}
    (hd : Describes cv ts (.gen b tag) "REPCA1" DyrSpec.repca1) (hc : Complete DyrSpec.repca1 ts) {i g : Nat} {c : Data}
    (hi : net.buses[i]? = some (b, c)) (hg : IsDevice c "GENERATOR_NUMBER" "GENERATOR_ID" g tag)
    (hold : (get c .double ⟨"GENERATOR_REPCA_FEMIN".toList, some (g : Int)⟩).isSome = true) :
    ∃ net' c', direct cv [ts] net = some net' ∧ net'.buses[i]? = some (b, c') ∧
      (Par.num "GENERATOR_REPCA_FEMIN" 32).Stored cv ts c' (some (g : Int)) := by
  have hl := last_lt repca1_format hc
  have e : 32 < lastPlace DyrSpec.repca1 := by decide +kernel
  obtain ⟨net', c', h1, h2, h3⟩ := again h hd hi hg (k := repca1)
    (pick_of genDirect_distinct (List.mem_of_getElem? (i := 8) rfl)) (l := 30) (by decide +kernel) rfl (by omega)
    (List.getElem?_eq_getElem (show 32 < ts.length by omega)) hold
  exact ⟨net', c', h1, h2, _, List.getElem?_eq_getElem (show 32 < ts.length by omega), h3⟩

/-- C184 fails for the model GDFORM: when a second file is read, the droop mp gets the value of Pmin. -/
theorem C184_gdform_violated {cv : Conv} {ts : List Str} {net : Net} (h : Alone cv [ts] net) {b : Int} {tag : Str}
    (hd : Describes cv ts (.gen b tag) "GDFORM" DyrSpec.gdform) (hc : Complete DyrSpec.gdform ts) {i g : Nat} {c : Data}
    (hi : net.buses[i]? = some (b, c)) (hg : IsDevice c "GENERATOR_NUMBER" "GENERATOR_ID" g tag)
    (hold : (get c .double ⟨"GENERATOR_MP".toList, some (g : Int)⟩).isSome = true) :
    ∃ net' c', direct cv [ts] net = some net' ∧ net'.buses[i]? = some (b, c') ∧
      (Par.num "GENERATOR_MP" 10).Stored cv ts c' (some (g : Int)) := by
  have hl := last_lt gdform_format hc
  have e : 20 < lastPlace DyrSpec.gdform := by decide +kernel
  obtain ⟨net', c', h1, h2, h3⟩ := again h hd hi hg (k := gdform)
    (pick_of genDirect_distinct (List.mem_of_getElem? (i := 3) rfl)) (l := 4) (by decide +kernel) rfl (by omega)
    (List.getElem?_eq_getElem (show 10 < ts.length by omega)) hold
  exact ⟨net', c', h1, h2, _, List.getElem?_eq_getElem (show 10 < ts.length by omega), h3⟩

/-- C184 fails for the governor WSIEG1: the flag Iblock is not stored. -/
theorem C184_wsieg1_violated {cv : Conv} {ts : List Str} {net : Net} (h : Alone cv [ts] net) {b : Int} {tag : Str}
    (hd : Describes cv ts (.gen b tag) "WSIEG1" DyrSpec.wsieg1) {i g : Nat} {c : Data}
    (hi : net.buses[i]? = some (b, c)) (hg : IsDevice c "GENERATOR_NUMBER" "GENERATOR_ID" g tag)
    (hfresh : get c .int ⟨"GOVERNOR_IBLOCK".toList, some (g : Int)⟩ = none) :
    ∃ net' c', direct cv [ts] net = some net' ∧ net'.buses[i]? = some (b, c') ∧
      get c' .int ⟨"GOVERNOR_IBLOCK".toList, some (g : Int)⟩ = none := by
  obtain ⟨net', c', h1, h2, h3⟩ := single_gen_direct h hd hi hg
  rw [pick_of genDirect_distinct (k := wsieg1) (List.mem_of_getElem? (i := 10) rfl)] at h3
  have hok := Alone.device_ok h hi hg (Or.inl rfl)
  refine ⟨net', c', h1, h2, ?_⟩
  have he : wsieg1.parse[37]? = some ⟨some 38, "GOVERNOR_IBLOCK", .int, "GOVERNOR_PGV5", .int 38, "GOVERNOR_IBLOCK",
    .int 38⟩ := rfl
  have := runEntries_keeps hok (onlyStep_iff (es := wsieg1.parse) (i := 37) (k := "GOVERNOR_IBLOCK") (by decide +kernel))
    he rfl (noColon_of (by decide +kernel)) (noColon_of (by decide +kernel)) (u := .int) (c := c) (c' := c')
    (fun hs => by rw [hfresh] at hs; simp at hs) (fun _ v _ hk => absurd hk (by decide +kernel)) h3
  rw [this, hfresh]

/-- C184 fails for the stabilizer PSSSIM: the code of its input is not stored as an integer. -/
theorem C184_psssim_violated {cv : Conv} {ts : List Str} {net : Net} (h : Alone cv [ts] net) {b : Int} {tag : Str}
    (hd : Describes cv ts (.gen b tag) "PSSSIM" DyrSpec.psssim) {i g : Nat} {c : Data}
    (hi : net.buses[i]? = some (b, c)) (hg : IsDevice c "GENERATOR_NUMBER" "GENERATOR_ID" g tag) :
    ∃ net' c', direct cv [ts] net = some net' ∧ net'.buses[i]? = some (b, c') ∧
      get c' .int ⟨"PSSSIM_INPUTTYPE".toList, some (g : Int)⟩ = get c .int ⟨"PSSSIM_INPUTTYPE".toList, some (g : Int)⟩ := by
  obtain ⟨net', c', h1, h2, h3⟩ := single_gen_direct h hd hi hg
  rw [pick_of genDirect_distinct (k := psssim) (List.mem_of_getElem? (i := 22) rfl)] at h3
  have hok := Alone.device_ok h hi hg (Or.inl rfl)
  refine ⟨net', c', h1, h2, ?_⟩
  have he : psssim.parse[2]? = some ⟨some 3, "PSSSIM_INPUTTYPE", .int, "PSSSIM_INPUTTYPE", .dbl 3, "PSSSIM_INPUTTYPE",
    .dbl 3⟩ := rfl
  have hty : ∀ v, Src.eval cv ts (.dbl 3) = some v → Ty.int ≠ v.1 := by
    intro v hv
    rw [src_ty cv ts _ v hv]
    decide
  exact runEntries_keeps hok (onlyStep_iff (es := psssim.parse) (i := 2) (k := "PSSSIM_INPUTTYPE") (by decide +kernel))
    he rfl (noColon_of (by decide +kernel)) (noColon_of (by decide +kernel)) (u := .int) (c := c) (c' := c')
    (fun _ v hv _ => hty v hv) (fun _ v hv _ => hty v hv) h3

/-- C184 fails for the load model ACMTBLU1: the voltage Uvtr1 gets the value of Uvtr2. -/
theorem C184_acmtblu1_violated {cv : Conv} {ts : List Str} {net : Net} (h : Alone cv [ts] net) {b : Int} {tag : Str}
    (hd : Describes cv ts (.load b tag) "ACMTBLU1" DyrSpec.acmtblu1) (hc : Complete DyrSpec.acmtblu1 ts) {i g : Nat}
    {c : Data} (hi : net.buses[i]? = some (b, c)) (hg : IsDevice c "LOAD_NUMBER" "LOAD_ID" g tag) :
    ∃ net' c', direct cv [ts] net = some net' ∧ net'.buses[i]? = some (b, c') ∧
      (Par.num "LOAD_UVTR1" 44).Stored cv ts c' (some (g : Int)) := by
  obtain ⟨net', c', k, h1, h2, h3, h4⟩ := single_load_direct h hd hi hg
  rw [pick_of loadExtract_distinct (k := acmtblu1) (List.mem_of_getElem? (i := 2) rfl)] at h3
  obtain rfl := Option.some.inj h3
  refine ⟨net', c', h1, h2, ?_⟩
  exact actual_dir (k := acmtblu1) (bad := ["LOAD_UVTR2"]) (ps' := replaced (.num "LOAD_UVTR1" 44) DyrSpec.acmtblu1)
    (by decide +kernel) (by decide +kernel) (complete_of acmtblu1_format (by decide +kernel) hc)
    (Alone.device_ok h hi hg (Or.inr rfl)) h4 _ (mem_replaced (by decide +kernel)) (by simp [Par.key])

/-- C184 fails for relays of branches: a file whose first record is for a relay of a branch of the network uses a
pointer that has no value (`none`: undefined behaviour), whatever follows. -/
theorem C184_distr1_violated {cv : Conv} {r : List Str} {post : List (List Str)} {net : Net} {a b : Int}
    (hd : Describes cv r (.line a b) "DISTR1" DyrSpec.distr1) (he : (a, b) ∈ net.branches) (hp : net.ptr = none) :
    direct cv (r :: post) net = none := by
  cases hd with
  | line h0 h1 h2 hn =>
    obtain ⟨n1, n2, n3, n4, _⟩ := distr1_kind
    simp only [direct, directRec, h0, h1, h2, hn, n1, n2, n3, n4, he, hp, if_true, if_false, Bool.false_eq_true,
      Option.bind_none]

/-- After a record for a bus, the relay of the branch is stored at that bus. -/
theorem C184_distr1_bus_violated {cv : Conv} {r : List Str} {net : Net} {a b : Int}
    (hd : Describes cv r (.line a b) "DISTR1" DyrSpec.distr1) (hc : Complete DyrSpec.distr1 r)
    (he : (a, b) ∈ net.branches) {i : Nat} (hp : net.ptr = some i) {bus : Int} {c : Data}
    (hi : net.buses[i]? = some (bus, c)) (hu : Usable 1 c) :
    ∃ net' c', direct cv [r] net = some net' ∧ net'.buses[i]? = some (bus, c') ∧
      count c' "RELAY_NUMBER" = count c "RELAY_NUMBER" + 1 := by
  cases hd with
  | line h0 h1 h2 hn =>
    obtain ⟨n1, n2, n3, n4, _⟩ := distr1_kind
    have ec : ∀ c : Data, count c "RELAY_NUMBER" = relays c := fun c => (relays_get c).symm
    have h0' := hu.2.2.1
    have h7 := hu.2.2.2
    rw [ec] at h0' h7
    have hidx : idxOk (some (relays c)) := by
      intro i hi
      obtain rfl := Option.some.inj hi
      omega
    obtain ⟨c1, hn1, hr1, hk1⟩ := nextRelay_ok c
    obtain ⟨c2, p1, p2, p3⟩ := parse_ok distr1_format distr1_dir cv hc hidx c1
    have hb1 := modifyAt_some (f := fun b : Int × Data => (parseRelay cv distr1 r b.2).map (fun c => (b.1, c)))
      (b := (bus, c2)) hi (by simp [parseRelay, hn1, p1])
    have hlt := (List.getElem?_eq_some_iff.mp hi).1
    refine ⟨⟨net.buses.set i (bus, c2), net.branches, net.ptr⟩, c2, ?_, by simp [hlt], ?_⟩
    · simp only [direct, directRec, h0, h1, h2, hn, n1, n2, n3, n4, he, hp, if_true, if_false, Bool.false_eq_true, hb1,
        Option.map_some, Option.bind_some]
    · rw [ec, ec, relays_get, p3 .int ⟨"RELAY_NUMBER".toList, none⟩ relayNumber_plain (by intro hi; simp at hi), ← relays_get, hr1]

/-! ### Examples -/

/-- Two buses with numbers 7 and 1 and no branch. -/
noncomputable def twoBuses : Net := ⟨[(7, oneOfEach), (1, oneOfEach)], [], none⟩

theorem alone_small {texts : List (List Str)} (hr : ∀ r ∈ texts, Proper dec r) (hn : texts.length ≤ 5) :
    Alone dec texts twoBuses where
  proper := hr
  numbers := by simp [twoBuses]
  noLines := by intro r _ e he; simp [twoBuses] at he
  usable := by
    intro b c hc
    obtain rfl : c = oneOfEach := by
      simp only [twoBuses, List.mem_cons, Prod.mk.injEq, List.not_mem_nil, or_false] at hc
      rcases hc with ⟨_, rfl⟩ | ⟨_, rfl⟩ <;> rfl
    exact oneOfEach_usable hn

theorem proper_one {ts : List Str} {w : Place} {m : String} {ps : List Par} (hd : Describes dec ts w m ps)
    (hc : Complete ps ts) : ∀ r ∈ [ts], Proper dec r := by
  intro r hr
  obtain rfl := List.mem_singleton.mp hr
  exact Or.inl ⟨w, m, ps, hd, hc⟩

/-- Two records for the same generator: the later one counts (its inertia is 5, that of the first is 0). -/
example : ∃ net' c', direct dec [row "1" "GENCLS" "1 " 3, ["1", "GENCLS", "1 ", "5", "1", "2"].map String.toList]
      twoBuses = some net' ∧ net'.buses[1]? = some (1, c') ∧
    get c' .double ⟨"GENERATOR_INERTIA_CONSTANT_H".toList, some 0⟩ = some (digits ['5'] : ℝ) := by
  have hd2 : Describes dec (["1", "GENCLS", "1 ", "5", "1", "2"].map String.toList) (.gen 1 "1 ".toList) "GENCLS"
      DyrSpec.gencls := by
    have := Describes.gen (cv := dec) (ts := ["1", "GENCLS", "1 ", "5", "1", "2"].map String.toList) (m := "GENCLS")
      (ps := DyrSpec.gencls) (by simp [DyrSpec.gens]) rfl rfl rfl rfl
    rw [row_bus] at this
    exact this
  have hc2 : Complete DyrSpec.gencls (["1", "GENCLS", "1 ", "5", "1", "2"].map String.toList) := by
    intro p hp k hk
    have := le_lastPlace p hp k hk
    have e : lastPlace DyrSpec.gencls = 5 := by decide +kernel
    simp only [List.length_map, List.length_cons, List.length_nil]
    omega
  have hd1 := row_gen (m := "GENCLS") (ps := DyrSpec.gencls) (by simp [DyrSpec.gens]) 3
  obtain ⟨net', c', h1, h2, h3⟩ := C186_direct_partial (pre := []) (mid := []) (post := [])
    (alone_small (texts := [] ++ row "1" "GENCLS" "1 " 3 :: ([] ++
      (["1", "GENCLS", "1 ", "5", "1", "2"].map String.toList) :: [])) (by
        intro r hr
        simp only [List.nil_append, List.mem_cons, List.not_mem_nil, or_false] at hr
        rcases hr with rfl | rfl
        · exact Or.inl ⟨_, _, _, hd1, row_complete (by decide +kernel)⟩
        · exact Or.inl ⟨_, _, _, hd2, hc2⟩) (Nat.le_of_ble_eq_true rfl)) hd1 hd2 (i := 1) rfl oneOfEach_gen
    (by decide)
  have hp : Par.num "GENERATOR_INERTIA_CONSTANT_H" 3 ∈ DyrSpec.gencls := by simp [DyrSpec.gencls, DyrSpec.nums]
  refine ⟨net', c', h1, h2, stored_num (h3 _ hp (List.mem_map_of_mem hp) (by simp [Par.key, directErrors])
    (by intro r' hr'; simp at hr')) (by decide +kernel)⟩

/-- A load: the first parameter of CIM6BL is token 3. -/
example : ∃ net' c', direct dec [row "1" "CIM6BL" "1 " 25] twoBuses = some net' ∧ net'.buses[1]? = some (1, c') ∧
    16 < DyrSpec.cim6bl.length ∧ ∀ p ∈ DyrSpec.cim6bl, ("CIM6BL", p.key) ∉ directErrors →
      p.Stored dec (row "1" "CIM6BL" "1 " 25) c' (some 0) := by
  obtain ⟨net', h1, h2⟩ := C184_loads_partial (alone_small (proper_one cim_row cim_complete) (Nat.le_of_ble_eq_true rfl))
  obtain ⟨c', h3, h4⟩ := h2 [] [] _ rfl 1 0 1 _ _ _ oneOfEach cim_row rfl oneOfEach_load
  exact ⟨net', c', h1, h3, by decide +kernel, fun p hp he => h4 p hp he (by intro r' hr'; simp at hr')⟩

/-- The other bus keeps its data, apart from values with index −1. -/
example : ∃ net' c', direct dec [row "1" "LVSHBL" "1 " 12] twoBuses = some net' ∧ net'.buses[1]? = some (1, c') ∧
    get c' .string ⟨"GENERATOR_ID".toList, some 0⟩ = some "1 ".toList ∧ count c' "RELAY_NUMBER" = 1 := by
  classical
  have hc : Complete DyrSpec.lvshbl (row "1" "LVSHBL" "1 " 12) := row_complete (by decide +kernel)
  have ha := alone_small (proper_one (row_relay 12) hc) (Nat.le_of_ble_eq_true rfl)
  obtain ⟨net', h1, _, h2⟩ := C185_direct_partial ha
  obtain ⟨net2, h1', h2'⟩ := C184_bus_relays ha
  rw [h1] at h1'
  obtain rfl := Option.some.inj h1'
  obtain ⟨c', h3, h4⟩ := h2 1 1 oneOfEach rfl
  obtain ⟨c2, h3', h4', _⟩ := h2' 1 1 oneOfEach rfl
  rw [h3] at h3'
  obtain rfl : c' = c2 := congrArg Prod.snd (Option.some.inj h3')
  refine ⟨net', c', h1, h3, ?_, ?_⟩
  · refine (h4 .string _ (noColon_of (by decide +kernel)) (by simp) ?_ (fun _ => ⟨by decide, fun _ => ?_⟩)).trans
      oneOfEach_genId
    · intro g name r _ hr
      obtain rfl := List.mem_singleton.mp hr
      exact ⟨fun ⟨m, ps, hd, _⟩ => by simpa using (describes_unique (row_relay 12) hd).1,
        fun ⟨m, ps, hd, _⟩ => by simpa using (describes_unique (row_relay 12) hd).1⟩
    · intro p hp e
      have : among ((DyrSpec.lvshbl ++ DyrSpec.frqtpat).map Par.key) "GENERATOR_ID" = false := by decide +kernel
      rw [← Bool.not_eq_true, among_iff] at this
      exact this (List.mem_map.mpr ⟨p, hp, (String.toList_injective e).symm⟩)
  · rw [h4', oneOfEach_relays, List.filter_singleton, decide_eq_true ⟨_, _, row_relay 12⟩]
    rfl

/-- The data of a bus with one generator, one load and a value from an earlier file. -/
noncomputable def withOld (name : String) : Data :=
  (addValue oneOfEach .double ⟨name.toList, some 0⟩ (2 : ℝ)).getD oneOfEach

theorem withOld_add (name : String) :
    addValue oneOfEach .double ⟨name.toList, some 0⟩ (2 : ℝ) = some (withOld name) := by
  obtain ⟨s, hs⟩ := RawBus.mapKey_some name.toList (some 0) (by intro i hi; obtain rfl := Option.some.inj hi; decide)
  unfold withOld addValue
  rw [hs]
  rfl

theorem withOld_other {name : String} (hn : plainName name = true) {t : Ty} {k : Key} (hk : ':' ∉ k.name)
    (ht : t ≠ .double) : get (withOld name) t k = get oneOfEach t k :=
  get_add_other (withOld_add name) (noColon_of hn) hk (fun h => ht (congrArg Prod.fst h))

theorem withOld_get (name : String) : (get (withOld name) .double ⟨name.toList, some 0⟩).isSome = true := by
  rw [get_add (withOld_add name)]
  rfl

theorem withOld_gen {name : String} (hn : plainName name = true) :
    IsDevice (withOld name) "GENERATOR_NUMBER" "GENERATOR_ID" 0 "1 ".toList := by
  obtain ⟨n, h1, h2, h3, _⟩ := oneOfEach_gen
  exact ⟨n, (withOld_other hn (noColon_of (by decide +kernel)) (by decide)).trans h1, h2,
    (withOld_other hn (noColon_of (by decide +kernel)) (by decide)).trans h3, fun j hj => absurd hj (by omega)⟩

theorem withOld_usable {name : String} (hn : plainName name = true) {n : Nat} (h5 : n ≤ 5) :
    Usable n (withOld name) := by
  have e : ∀ s : String, plainName s = true → count (withOld name) s = count oneOfEach s := by
    intro s hs
    unfold count
    rw [withOld_other hn (noColon_of hs) (by decide)]
  have := oneOfEach_usable h5
  unfold Usable at this ⊢
  rw [e _ (by decide +kernel), e _ (by decide +kernel), e _ (by decide +kernel)]
  exact this

theorem alone_old {name : String} (hn : plainName name = true) {texts : List (List Str)}
    (hr : ∀ r ∈ texts, Proper dec r) (h5 : texts.length ≤ 5) :
    Alone dec texts ⟨[(1, withOld name)], [], none⟩ where
  proper := hr
  numbers := by simp
  noLines := by intro r _ e he; simp at he
  usable := by
    intro b c hc
    simp only [List.mem_cons, Prod.mk.injEq, List.not_mem_nil, or_false] at hc
    rw [hc.2]
    exact withOld_usable hn h5

/-- A machine that is read a second time: Xq becomes token 9, 6, not token 10, 7. -/
example : ∃ net' c', direct dec [row "1" "GENROU" "1 " 14] ⟨[(1, withOld "GENERATOR_XQ")], [], none⟩ = some net' ∧
    net'.buses[0]? = some (1, c') ∧ get c' .double ⟨"GENERATOR_XQ".toList, some 0⟩ = some (digits ['6'] : ℝ) := by
  have hd := row_gen (m := "GENROU") (ps := DyrSpec.genrou) (by simp [DyrSpec.gens]) 14
  have hc : Complete DyrSpec.genrou (row "1" "GENROU" "1 " 14) := row_complete (by decide +kernel)
  obtain ⟨net', c', h1, h2, h3⟩ := C184_genrou_violated (alone_old (name := "GENERATOR_XQ") (by decide +kernel)
    (proper_one hd hc) (Nat.le_of_ble_eq_true rfl)) hd hc (i := 0) rfl (withOld_gen (by decide +kernel)) (withOld_get _)
  exact ⟨net', c', h1, h2, stored_num h3 (by decide +kernel)⟩

/-- The same for REECA1, REPCA1 and GDFORM. -/
example : ∃ net' c', direct dec [row "1" "REECA1" "1 " 52] ⟨[(1, withOld "GENERATOR_REECA_TIQ")], [], none⟩ = some net' ∧
    net'.buses[0]? = some (1, c') ∧
      get c' .double ⟨"GENERATOR_REECA_TIQ".toList, some 0⟩ = some (digits ['9'] : ℝ) := by
  have hd := row_gen (m := "REECA1") (ps := DyrSpec.reeca1) (by simp [DyrSpec.gens]) 52
  have hc : Complete DyrSpec.reeca1 (row "1" "REECA1" "1 " 52) := row_complete (by decide +kernel)
  obtain ⟨net', c', h1, h2, h3⟩ := C184_reeca1_violated (alone_old (name := "GENERATOR_REECA_TIQ") (by decide +kernel)
    (proper_one hd hc) (Nat.le_of_ble_eq_true rfl)) hd hc (i := 0) rfl (withOld_gen (by decide +kernel)) (withOld_get _)
  exact ⟨net', c', h1, h2, stored_num h3 (by decide +kernel)⟩

example : ∃ net' c', direct dec [row "1" "REPCA1" "1 " 40] ⟨[(1, withOld "GENERATOR_REPCA_FEMIN")], [], none⟩ = some net' ∧
    net'.buses[0]? = some (1, c') ∧
      get c' .double ⟨"GENERATOR_REPCA_FEMIN".toList, some 0⟩ = some (digits ['9'] : ℝ) := by
  have hd := row_gen (m := "REPCA1") (ps := DyrSpec.repca1) (by simp [DyrSpec.gens]) 40
  have hc : Complete DyrSpec.repca1 (row "1" "REPCA1" "1 " 40) := row_complete (by decide +kernel)
  obtain ⟨net', c', h1, h2, h3⟩ := C184_repca1_violated (alone_old (name := "GENERATOR_REPCA_FEMIN") (by decide +kernel)
    (proper_one hd hc) (Nat.le_of_ble_eq_true rfl)) hd hc (i := 0) rfl (withOld_gen (by decide +kernel)) (withOld_get _)
  exact ⟨net', c', h1, h2, stored_num h3 (by decide +kernel)⟩

example : ∃ net' c', direct dec [row "1" "GDFORM" "1 " 30] ⟨[(1, withOld "GENERATOR_MP")], [], none⟩ = some net' ∧
    net'.buses[0]? = some (1, c') ∧ get c' .double ⟨"GENERATOR_MP".toList, some 0⟩ = some (digits ['7'] : ℝ) := by
  have hd := row_gen (m := "GDFORM") (ps := DyrSpec.gdform) (by simp [DyrSpec.gens]) 30
  have hc : Complete DyrSpec.gdform (row "1" "GDFORM" "1 " 30) := row_complete (by decide +kernel)
  obtain ⟨net', c', h1, h2, h3⟩ := C184_gdform_violated (alone_old (name := "GENERATOR_MP") (by decide +kernel)
    (proper_one hd hc) (Nat.le_of_ble_eq_true rfl)) hd hc (i := 0) rfl (withOld_gen (by decide +kernel)) (withOld_get _)
  exact ⟨net', c', h1, h2, stored_num h3 (by decide +kernel)⟩

/-- An exciter ESST4B: the data of the bus stay as they are. -/
example : ∃ net', direct dec [row "1" "ESST4B" "1 " 20] twoBuses = some net' ∧
    net'.buses[1]? = some (1, oneOfEach) := by
  have hd := row_gen (m := "ESST4B") (ps := DyrSpec.esst4b) (by simp [DyrSpec.gens]) 20
  exact C184_esst4b_violated (alone_small (proper_one hd (row_complete (by decide +kernel)))
    (Nat.le_of_ble_eq_true rfl)) hd (i := 1) rfl oneOfEach_gen

/-- A governor WSIEG1 has no Iblock, a stabilizer no code of its input. -/
example : ∃ net' c', direct dec [row "1" "WSIEG1" "1 " 40] twoBuses = some net' ∧ net'.buses[1]? = some (1, c') ∧
    get c' .int ⟨"GOVERNOR_IBLOCK".toList, some 0⟩ = none := by
  have hd := row_gen (m := "WSIEG1") (ps := DyrSpec.wsieg1) (by simp [DyrSpec.gens]) 40
  exact C184_wsieg1_violated (alone_small (proper_one hd (row_complete (by decide +kernel)))
    (Nat.le_of_ble_eq_true rfl)) hd (i := 1) rfl oneOfEach_gen (by decide +kernel)

example : ∃ net' c', direct dec [row "1" "PSSSIM" "1 " 40] twoBuses = some net' ∧ net'.buses[1]? = some (1, c') ∧
    get c' .int ⟨"PSSSIM_INPUTTYPE".toList, some 0⟩ = none := by
  have hd := row_gen (m := "PSSSIM") (ps := DyrSpec.psssim) (by simp [DyrSpec.gens]) 40
  obtain ⟨net', c', h1, h2, h3⟩ := C184_psssim_violated (alone_small (proper_one hd (row_complete (by decide +kernel)))
    (Nat.le_of_ble_eq_true rfl)) hd (i := 1) rfl oneOfEach_gen
  exact ⟨net', c', h1, h2, h3.trans (by decide +kernel)⟩

/-- The voltage Uvtr1 of a load ACMTBLU1 should be token 42 but is token 44, 0. -/
example : ∃ net' c', direct dec [userRow "ACMTBLU1" 44] twoBuses = some net' ∧ net'.buses[1]? = some (1, c') ∧
    get c' .double ⟨"LOAD_UVTR1".toList, some 0⟩ = some (digits ['0'] : ℝ) := by
  have hd := user_load (m := "ACMTBLU1") (ps := DyrSpec.acmtblu1) (by simp [DyrSpec.userLoads]) 44
  have hc : Complete DyrSpec.acmtblu1 (userRow "ACMTBLU1" 44) := user_complete (by decide +kernel)
  obtain ⟨net', c', h1, h2, h3⟩ := C184_acmtblu1_violated (alone_small (proper_one hd hc)
    (Nat.le_of_ble_eq_true rfl)) hd hc (i := 1) rfl oneOfEach_load
  exact ⟨net', c', h1, h2, stored_num h3 (by decide +kernel)⟩

/-- A relay of the branch between 1 and 2, first in the file and after a record for bus 7. -/
example : direct dec [row "1" "DISTR1" "2" 37] ⟨[(7, oneOfEach)], [(1, 2)], none⟩ = none :=
  C184_distr1_violated (row_line 37) (by simp) rfl

example : ∃ net' c', direct dec [row "1" "DISTR1" "2" 37] ⟨[(7, oneOfEach)], [(1, 2)], some 0⟩ = some net' ∧
    net'.buses[0]? = some (7, c') ∧ count c' "RELAY_NUMBER" = 1 := by
  obtain ⟨net', c', h1, h2, h3⟩ := C184_distr1_bus_violated (row_line 37) (row_complete (by decide +kernel))
    (net := ⟨[(7, oneOfEach)], [(1, 2)], some 0⟩) (by simp) (i := 0) rfl rfl (oneOfEach_usable (by decide))
  exact ⟨net', c', h1, h2, h3.trans (by rw [oneOfEach_relays]; rfl)⟩

open Classical in
/-- C183 for branches: afterwards the branch between 1 and 2 has one relay. -/
example (junk : Struct) (me : Nat) : ∃ bus' branch' c',
    external dec 3 (exactBound 3) [2, 0, 1] me [(junk, row "1" "DISTR1" "2" 37)] [7, 1] [(1, 2)]
      [oneOfEach, oneOfEach] [oneOfEach] = some (bus', branch') ∧ branch'[0]? = some c' ∧
    count c' "RELAY_NUMBER" = 1 ∧ ∀ p ∈ DyrSpec.distr1, p.key ≠ "RELAY_ZONE3_TIME" →
      p.Stored dec (row "1" "DISTR1" "2" 37) c' (some 0) := by
  have hc : Complete DyrSpec.distr1 (row "1" "DISTR1" "2" 37) := row_complete (by decide +kernel)
  obtain ⟨bus', branch', h1, h2⟩ := C183_branch_relays_partial (shared_small (one_proper (row_line 37) hc junk)
    (Nat.le_of_ble_eq_true rfl)) me
  obtain ⟨c', l, h3, h4, h5, h6, _⟩ := h2 0 (1, 2) oneOfEach rfl rfl
  have hdec : ∃ m ps, Describes dec (row "1" "DISTR1" "2" 37) (.line 1 2) m ps := ⟨_, _, row_line 37⟩
  rw [List.map_singleton, List.filter_singleton, decide_eq_true hdec, cond_true] at h4
  obtain rfl := List.perm_singleton.mp h4
  refine ⟨bus', branch', c', h1, h3, ?_, ?_⟩
  · rw [h5, oneOfEach_relays]
    rfl
  · have := h6 0 _ rfl
    rw [oneOfEach_relays] at this
    exact this

/-- C185: the largest real power of the generator was 2 and is replaced by token 9, 6. -/
example (junk : Struct) (me : Nat) : ∃ bus' branch' c',
    external dec 3 (exactBound 3) [2, 0, 1] me [(junk, row "1" "GDFORM" "1 " 30)] [1] [] [withOld "GENERATOR_PMAX"] [] =
      some (bus', branch') ∧ bus'[0]? = some c' ∧ get c' .double ⟨"GENERATOR_PMAX".toList, some 0⟩ ≠ some (2 : ℝ) := by
  have hd := row_gen (m := "GDFORM") (ps := DyrSpec.gdform) (by simp [DyrSpec.gens]) 30
  have hc : Complete DyrSpec.gdform (row "1" "GDFORM" "1 " 30) := row_complete (by decide +kernel)
  have hs : Shared dec 3 (exactBound 3) [2, 0, 1] [(junk, row "1" "GDFORM" "1 " 30)] [1] [] [withOld "GENERATOR_PMAX"] [] :=
    ⟨by decide, fun total => exactBound_ok 3 total (by decide), by decide, one_proper hd hc junk, rfl, rfl, by
      intro c hc
      obtain rfl := List.mem_singleton.mp hc
      exact withOld_usable (by decide +kernel) (Nat.le_of_ble_eq_true rfl), by simp⟩
  refine C185_gdform_violated hs me (pre := []) (post := []) rfl hd (i := 0) (g := 0) rfl rfl
    (withOld_gen (by decide +kernel)) (old := (2 : ℝ)) ?_ (by simp) (t9 := ['6'])
    (show (row "1" "GDFORM" "1 " 30)[9]? = some ['6'] by decide +kernel) ?_
  · have e : get oneOfEach .double ⟨"GENERATOR_PMAX".toList, some 0⟩ = none := by
      have : (get oneOfEach .double ⟨"GENERATOR_PMAX".toList, some 0⟩).isSome = false := by decide +kernel
      simpa using this
    have := get_add (withOld_add "GENERATOR_PMAX")
    rw [e] at this
    exact this
  · simp [dec, digits]

end GridPACK.Dyr
