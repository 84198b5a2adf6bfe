import Verif.Lemmas.DyrChecked
import Verif.Props.HashDistr

/-! Lemmas about reading .dyr files: the structs made from the records and their way into the data collections. -/
namespace GridPACK.Dyr
open StringUtils DataCollection
open RawBus (Val Data get idxOk intVal getInt intVal_get getValue_get)
open DyrSpec (Par Complete Rest IsDevice Describes Gives Proper Unknown Place externalErrors)

/-! ## Devices -/

/-- The names that say which devices a bus has. -/
def reserved : List String := ["GENERATOR_NUMBER", "GENERATOR_ID", "LOAD_NUMBER", "LOAD_ID"]

/-- Two collections have the same devices. -/
def Agree (c0 c : Data) : Prop := ∀ t (k : Key), (∃ n ∈ reserved, k.name = n.toList) → get c t k = get c0 t k

theorem Agree.refl (c : Data) : Agree c c := fun _ _ _ => rfl

theorem Agree.trans {a b c : Data} (h : Agree a b) (h' : Agree b c) : Agree a c :=
  fun t k hk => (h' t k hk).trans (h t k hk)

theorem Agree.symm {a b : Data} (h : Agree a b) : Agree b a := fun t k hk => (h t k hk).symm

theorem strVal_get (c : Data) (name : String) (j : Nat) :
    strVal c name j = (get c .string ⟨name.toList, some (j : Int)⟩).getD ([] : Str) := by
  unfold strVal
  cases h : mapKey ⟨name.toList, some (j : Int)⟩ with
  | none => simp only [getValue, RawBus.get, h, Option.map_none, Option.bind_none]; rfl
  | some s =>
    have e := getValue_get c .string ⟨name.toList, some (j : Int)⟩ ([] : Str) (by rw [h]; rfl)
    rw [show getValue c .string ⟨name.toList, some (j : Int)⟩ ([] : Str) = _ from e]
    cases get c .string ⟨name.toList, some (j : Int)⟩ <;> rfl

theorem devIndex_congr {c0 c : Data} (h : Agree c0 c) {num id : String} (hn : num ∈ reserved) (hid : id ∈ reserved)
    (tag : Str) : devIndex c num id tag = devIndex c0 num id tag := by
  unfold devIndex
  have h1 : intVal c num.toList = intVal c0 num.toList := by
    rw [intVal_get, intVal_get]
    unfold RawBus.getInt
    rw [h .int ⟨num.toList, none⟩ ⟨num, hn, rfl⟩]
  have h2 : ∀ j, strVal c id j = strVal c0 id j := by
    intro j
    rw [strVal_get, strVal_get, h .string ⟨id.toList, some (j : Int)⟩ ⟨id, hid, rfl⟩]
  simp only [h1, h2]

theorem devIndex_device {c : Data} {num id : String} {g : Nat} {tag : Str} (h : IsDevice c num id g tag) :
    devIndex c num id tag = some g := by
  obtain ⟨n, h1, h2, h3, h4⟩ := h
  unfold devIndex
  have hn : (intVal c num.toList).toNat = n := by
    rw [intVal_get]; unfold RawBus.getInt; rw [h1]; simp
  rw [hn, List.find?_range_eq_some]
  refine ⟨?_, by simpa using h2, ?_⟩
  · rw [decide_eq_true_eq, strVal_get, h3]; rfl
  · intro j hj
    obtain ⟨t, ht, hne⟩ := h4 j hj
    have : ¬ strVal c id j = tag := by rw [strVal_get, ht]; exact hne
    simpa using this

theorem devIndex_some {c : Data} {num id : String} {g : Nat} {tag : Str} (h : devIndex c num id tag = some g) :
    g < (intVal c num.toList).toNat ∧ strVal c id g = tag := by
  unfold devIndex at h
  rw [List.find?_range_eq_some] at h
  exact ⟨by simpa using h.2.1, by simpa using h.1⟩

/-- The number of devices is small enough for the keys. -/
def Sized (c : Data) : Prop :=
  intVal c "GENERATOR_NUMBER".toList ≤ 10000000 ∧ intVal c "LOAD_NUMBER".toList ≤ 10000000

theorem Sized.gen {c : Data} (h : Sized c) {id : String} {tag : Str} {g : Nat}
    (hg : devIndex c "GENERATOR_NUMBER" id tag = some g) : idxOk (some (g : Int)) := by
  have := (devIndex_some hg).1
  have := h.1
  intro i hi
  obtain rfl := Option.some.inj hi
  omega

theorem Sized.load {c : Data} (h : Sized c) {id : String} {tag : Str} {g : Nat}
    (hg : devIndex c "LOAD_NUMBER" id tag = some g) : idxOk (some (g : Int)) := by
  have := (devIndex_some hg).1
  have := h.2
  intro i hi
  obtain rfl := Option.some.inj hi
  omega

/-! ## Names -/

/-- No parameter of the formats has one of the names. -/
def avoids (l : List (String × List Par)) (names : List String) : Bool :=
  l.all (fun x => x.2.all (fun p => !among names p.key))

theorem avoids_use {l : List (String × List Par)} {names : List String} (h : avoids l names = true) {m : String}
    {ps : List Par} (hm : (m, ps) ∈ l) {p : Par} (hp : p ∈ ps) : p.key ∉ names := by
  simp only [avoids, List.all_eq_true, Bool.not_eq_true'] at h
  have := h _ hm p hp
  rw [← Bool.not_eq_true, among_iff] at this
  exact this

/-- All names of the formats of a table. -/
def keysOf (l : List (String × List Par)) : List String := l.flatMap (fun x => x.2.map Par.key)

theorem gens_names : avoids DyrSpec.gens ("RELAY_NUMBER" :: reserved) = true := by decide +kernel
theorem loads_names : avoids (DyrSpec.loads ++ DyrSpec.userLoads) ("RELAY_NUMBER" :: reserved) = true := by
  decide +kernel
theorem relays_names : avoids (DyrSpec.relays ++ DyrSpec.lines) ("RELAY_NUMBER" :: reserved) = true := by
  decide +kernel
theorem gens_loads : avoids DyrSpec.gens (keysOf (DyrSpec.loads ++ DyrSpec.userLoads)) = true := by decide +kernel
theorem gens_relays : avoids DyrSpec.gens (keysOf DyrSpec.relays) = true := by decide +kernel
theorem loads_relays : avoids (DyrSpec.loads ++ DyrSpec.userLoads) (keysOf DyrSpec.relays) = true := by
  decide +kernel

/-! ## Structs made from records -/

/-- What `extract` does with the struct made from a record. -/
def Carries (cv : Conv) (ts : List Str) (m : String) (ps : List Par) (k : Kind) (s : Struct) : Prop :=
  ∀ {idx : Option Int}, idxOk idx → ∀ c, ∃ c', k.runExtract s idx c = some c' ∧
    (∀ p ∈ ps, (m, p.key) ∉ externalErrors → p.Stored cv ts c' idx) ∧ Rest ps idx c c'

/-- What becomes of a record in `find_ds_vector`. -/
inductive Made (cv : Conv) (ts : List Str) : Out → Prop where
  | gen {b tag m ps k} {s : Struct} : Describes cv ts (.gen b tag) m ps → Complete ps ts → s .string "gen_id" = tag →
      pick genExtract (s .string "model") = some k → Carries cv ts m ps k s → Made cv ts (.gen b s)
  | load {b tag m ps k} {s : Struct} : Describes cv ts (.load b tag) m ps → Complete ps ts → s .string "id" = tag →
      pick loadExtract (s .string "model") = some k → Carries cv ts m ps k s → Made cv ts (.load b s)
  | relay {b m ps k} {s : Struct} : Describes cv ts (.relay b) m ps → Complete ps ts →
      pick busKinds (s .string "model") = some k → Carries cv ts m ps k s → Made cv ts (.busRelay b s)
  | line {a b m ps} {s : Struct} : Describes cv ts (.line a b) m ps → Complete ps ts →
      isIn ["DISTR1"] (s .string "model") = true → Carries cv ts m ps distr1 s → Made cv ts (.branchRelay (a, b) s)
  | nothing : Unknown cv ts → Made cv ts .nothing

theorem carries_of {cv : Conv} {ts : List Str} {m : String} {ps : List Par} {bad : List String} {k : Kind}
    {s : Struct} (hbad : ∀ b ∈ bad, (m, b) ∈ externalErrors)
    (h : ∀ {idx : Option Int}, idxOk idx → ∀ c, ∃ c', k.runExtract s idx c = some c' ∧
      (∀ p ∈ ps, p.key ∉ bad → p.Stored cv ts c' idx) ∧ Rest ps idx c c') : Carries cv ts m ps k s := by
  intro idx hi c
  obtain ⟨c', h1, h2, h3⟩ := h hi c
  exact ⟨c', h1, fun p hp hne => h2 p hp (fun hb => hne (hbad _ hb)), h3⟩

theorem storeRec_gen {cv : Conv} (junk : Struct) {ts : List Str} {b : Int} {tag : Str} {m : String} {ps : List Par}
    (h : Describes cv ts (.gen b tag) m ps) (hc : Complete ps ts) :
    ∃ o, storeRec cv junk ts = some o ∧ Made cv ts o := by
  have hd := h
  cases h with
  | gen hm h0 h1 h2 hn =>
    rename_i t0 t1 t2
    have hx := gens_ext _ hm
    obtain ⟨k, bad, hst, hex, hok, hbad, hb, hg, hmod⟩ := hx.cls
    simp only at hst hex hok hbad
    obtain ⟨s, hs, hmem, _, hput⟩ := ext_ok hx.format hok cv hc
      (((junk.put "bus_id" ⟨.int, cv.atoi t0⟩).put "gen_id" ⟨.string, cv.tag t2⟩).put "model" ⟨.string, m.toList⟩)
    have hsb := hmem "bus_id" _ ⟨.int, cv.atoi t0⟩ hb (by simp [Src.eval, h0])
    have hsg := hmem "gen_id" _ ⟨.string, cv.tag t2⟩ hg (by simp [Src.eval, h2])
    have hsm := hmem "model" _ ⟨.string, cv.name t1⟩ hmod (by simp [Src.eval, h1])
    refine ⟨.gen (cv.atoi t0) s, ?_, .gen hd hc hsg (k := k) ?_ (carries_of hbad hput)⟩
    · simp only [storeRec, h0, h1, h2, hn, hx.known, if_true, hst, hs, Option.map_some, hsb]
    · rw [hsm, hn]; exact hex

theorem loads_kind : ∀ x ∈ DyrSpec.loads, isIn genModels x.1.toList = false ∧ isIn busModels x.1.toList = false ∧
    isIn loadModels x.1.toList = true ∧ x.1.toList ≠ "USRLOD".toList := by
  unfold DyrSpec.loads
  simp only [List.forall_mem_cons]
  exact ⟨⟨isIn_not (by decide +kernel), isIn_not (by decide +kernel), isIn_of (by decide +kernel), by decide +kernel⟩,
    ⟨isIn_not (by decide +kernel), isIn_not (by decide +kernel), isIn_of (by decide +kernel), by decide +kernel⟩,
    by simp⟩

theorem usrlod_kind : isIn genModels "USRLOD".toList = false ∧ isIn busModels "USRLOD".toList = false ∧
    isIn loadModels "USRLOD".toList = true :=
  ⟨isIn_not (by decide +kernel), isIn_not (by decide +kernel), isIn_of (by decide +kernel)⟩

theorem lvshbl_kind : isIn genModels "LVSHBL".toList = false ∧ isIn busModels "LVSHBL".toList = true ∧
    pick busKinds "LVSHBL".toList = some lvshbl ∧ memberSrc lvshbl.store "bus_id" = some (.int 0) ∧
    memberSrc lvshbl.store "model" = some (.name 1) :=
  ⟨isIn_not (by decide +kernel), isIn_of (by decide +kernel),
    pick_of busKinds_distinct (List.mem_of_getElem? (i := 0) rfl), by decide +kernel, by decide +kernel⟩

theorem frqtpat_kind : isIn genModels "FRQTPAT".toList = false ∧ isIn busModels "FRQTPAT".toList = true ∧
    "FRQTPAT".toList ≠ "LVSHBL".toList ∧
    pick busKinds "FRQTPAT".toList = some frqtpat ∧ memberSrc frqtpat.store "bus_id" = some (.int 3) ∧
    memberSrc frqtpat.store "model" = some (.name 1) :=
  ⟨isIn_not (by decide +kernel), isIn_of (by decide +kernel), by decide +kernel,
    pick_of busKinds_distinct (List.mem_of_getElem? (i := 1) rfl), by decide +kernel, by decide +kernel⟩

theorem distr1_kind : isIn genModels "DISTR1".toList = false ∧ isIn busModels "DISTR1".toList = false ∧
    isIn loadModels "DISTR1".toList = false ∧ isIn branchModels "DISTR1".toList = true ∧
    memberSrc distr1.store "from_bus" = some (.int 0) ∧ memberSrc distr1.store "to_bus" = some (.int 2) ∧
    memberSrc distr1.store "model" = some (.name 1) ∧ 3 ≤ lastPlace DyrSpec.distr1 :=
  ⟨isIn_not (by decide +kernel), isIn_not (by decide +kernel), isIn_not (by decide +kernel),
    isIn_of (by decide +kernel), by decide +kernel, by decide +kernel, by decide +kernel, by decide +kernel⟩

theorem storeRec_load {cv : Conv} (junk : Struct) {ts : List Str} {b : Int} {tag : Str} {m : String} {ps : List Par}
    (h : Describes cv ts (.load b tag) m ps) (hc : Complete ps ts) :
    ∃ o, storeRec cv junk ts = some o ∧ Made cv ts o := by
  have hd := h
  cases h with
  | load hm h0 h1 h2 hn =>
    rename_i t0 t1 t2
    have hx := loads_ext _ hm
    obtain ⟨n1, n2, n3, n4⟩ := loads_kind _ hm
    obtain ⟨k, bad, hst, hex, hok, hbad, hb, hg, hmod⟩ := hx.cls
    simp only at hst hex hok hbad
    obtain ⟨s, hs, hmem, hkeep, hput⟩ := ext_ok hx.format hok cv hc
      ((junk.put "bus_id" ⟨.int, cv.atoi t0⟩).put "id" ⟨.string, cv.tag t2⟩)
    have hsb : s .int "bus_id" = cv.atoi t0 := by
      rw [hkeep .int "bus_id" hb, put_other _ _ _ (by decide)]
      exact put_same junk "bus_id" ⟨.int, cv.atoi t0⟩
    have hsg := hmem "id" _ ⟨.string, cv.tag t2⟩ hg (by simp [Src.eval, h2])
    have hsm := hmem "model" _ ⟨.string, cv.name t1⟩ hmod (by simp [Src.eval, h1])
    refine ⟨.load (cv.atoi t0) s, ?_, .load hd hc hsg (k := k) ?_ (carries_of hbad hput)⟩
    · simp only [storeRec, h0, h1, h2, hn, n1, n2, n3, n4, if_true, if_false, Bool.false_eq_true, hst, hs,
        Option.map_some, hsb]
    · rw [hsm, hn]; exact hex
  | userLoad hm h0 h1 h2 h3 hn hp hp' =>
    rename_i t0 t1 t2 t3
    have hx := userLoads_ext _ hm
    obtain ⟨n1, n2, n3⟩ := usrlod_kind
    obtain ⟨k, bad, hst, hex, hok, hbad, hb, hg, hmod⟩ := hx.cls
    simp only at hst hex hok hbad
    obtain ⟨s, hs, hmem, hkeep, hput⟩ := ext_ok hx.format hok cv hc
      ((junk.put "bus_id" ⟨.int, cv.atoi t0⟩).put "id" ⟨.string, cv.tag t2⟩)
    have hsb : s .int "bus_id" = cv.atoi t0 := by
      rw [hkeep .int "bus_id" hb, put_other _ _ _ (by decide)]
      exact put_same junk "bus_id" ⟨.int, cv.atoi t0⟩
    have hsg := hmem "id" _ ⟨.string, cv.tag t2⟩ hg (by simp [Src.eval, h2])
    have hsm := hmem "model" _ ⟨.string, cv.name t3⟩ hmod (by simp [Src.eval, h3])
    refine ⟨.load (cv.atoi t0) s, ?_, .load hd hc hsg (k := k) ?_ (carries_of hbad hput)⟩
    · simp only [storeRec, h0, h1, h2, h3, hn, hp, n1, n2, n3, if_true, if_false, Bool.false_eq_true, hst, hs,
        Option.map_some, hsb]
    · rw [hsm, hp']; exact hex

theorem storeRec_relay {cv : Conv} (junk : Struct) {ts : List Str} {b : Int} {m : String} {ps : List Par}
    (h : Describes cv ts (.relay b) m ps) (hc : Complete ps ts) :
    ∃ o, storeRec cv junk ts = some o ∧ Made cv ts o := by
  have hd := h
  cases h with
  | voltage h0 h1 hn =>
    rename_i t0 t1
    obtain ⟨n1, n2, n3, hb, hmod⟩ := lvshbl_kind
    obtain ⟨s, hs, hmem, hkeep, hput⟩ := ext_ok lvshbl_format lvshbl_ext cv hc
      (junk.put "bus_id" ⟨.int, cv.atoi t0⟩)
    have hsb := hmem "bus_id" _ ⟨.int, cv.atoi t0⟩ hb (by simp [Src.eval, h0])
    have hsm := hmem "model" _ ⟨.string, cv.name t1⟩ hmod (by simp [Src.eval, h1])
    refine ⟨.busRelay (cv.atoi t0) s, ?_, .relay hd hc (k := lvshbl) ?_ (carries_of (by simp) hput)⟩
    · simp only [storeRec, h0, h1, hn, n1, n2, n3, if_true, if_false, Bool.false_eq_true, hs,
        Option.map_some, hsb]
    · rw [hsm, hn]; exact n3
  | frequency h0 h1 h3 hn =>
    rename_i t0 t1 t3
    obtain ⟨n1, n2, n4, n3, hb, hmod⟩ := frqtpat_kind
    obtain ⟨s, hs, hmem, hkeep, hput⟩ := ext_ok frqtpat_format frqtpat_ext cv hc
      (junk.put "bus_id" ⟨.int, cv.atoi t3⟩)
    have hsb := hmem "bus_id" _ ⟨.int, cv.atoi t3⟩ hb (by simp [Src.eval, h3])
    have hsm := hmem "model" _ ⟨.string, cv.name t1⟩ hmod (by simp [Src.eval, h1])
    refine ⟨.busRelay (cv.atoi t3) s, ?_, .relay hd hc (k := frqtpat) ?_ (carries_of (by simp) hput)⟩
    · simp only [storeRec, h0, h1, h3, hn, n1, n2, n3, n4, if_true, if_false, Bool.false_eq_true, hs,
        Option.map_some, hsb]
    · rw [hsm, hn]; exact n3

theorem storeRec_line {cv : Conv} (junk : Struct) {ts : List Str} {a b : Int} {m : String} {ps : List Par}
    (h : Describes cv ts (.line a b) m ps) (hc : Complete ps ts) :
    ∃ o, storeRec cv junk ts = some o ∧ Made cv ts o := by
  have hd := h
  cases h with
  | line h0 h1 h2 hn =>
    rename_i t0 t1 t2
    obtain ⟨n1, n2, n3, n4, hf, ht, hmod, h3⟩ := distr1_kind
    have h3 : 3 < ts.length := lt_of_le_of_lt h3 (last_lt distr1_format hc)
    obtain ⟨s, hs, hmem, hkeep, hput⟩ := ext_ok distr1_format distr1_ext cv hc
      ((junk.put "from_bus" ⟨.int, cv.atoi t0⟩).put "to_bus" ⟨.int, cv.atoi ts[3]⟩)
    have hsf := hmem "from_bus" _ ⟨.int, cv.atoi t0⟩ hf (by simp [Src.eval, h0])
    have hst := hmem "to_bus" _ ⟨.int, cv.atoi t2⟩ ht (by simp [Src.eval, h2])
    have hsm := hmem "model" _ ⟨.string, cv.name t1⟩ hmod (by simp [Src.eval, h1])
    refine ⟨.branchRelay (cv.atoi t0, cv.atoi t2) s, ?_, .line hd hc ?_ (carries_of (by decide +kernel) hput)⟩
    · simp only [storeRec, h0, h1, List.getElem?_eq_getElem h3, hn, n1, n2, n3, n4, if_true, if_false,
        Bool.false_eq_true, hs, Option.map_some, hsf, hst]
    · rw [hsm, hn]; exact isIn_of (by decide +kernel)

theorem models_known : (genModels ++ busModels ++ loadModels ++ branchModels).all (among DyrSpec.models) = true := by
  decide +kernel

theorem storeRec_unknown {cv : Conv} (junk : Struct) {ts : List Str} (h : Unknown cv ts) :
    ∃ o, storeRec cv junk ts = some o ∧ Made cv ts o := by
  have hd := h
  obtain ⟨t0, t1, h0, h1, hne⟩ := h
  have key : ∀ l : List String, (∀ x ∈ l, x ∈ genModels ++ busModels ++ loadModels ++ branchModels) →
      isIn l (cv.name t1) = false := by
    intro l hl
    rw [← Bool.not_eq_true]
    simp only [isIn, List.any_eq_true, decide_eq_true_eq, not_exists, not_and]
    intro x hx he
    have := models_known
    rw [List.all_eq_true] at this
    exact hne x (among_iff.mp (this x (hl x hx))) he.symm
  refine ⟨.nothing, ?_, .nothing hd⟩
  simp only [storeRec, h0, h1, key genModels (by simp +contextual), key busModels (by simp +contextual),
    key loadModels (by simp +contextual), key branchModels (by simp +contextual), Bool.false_eq_true, if_false]

theorem storeRec_proper {cv : Conv} (junk : Struct) {ts : List Str} (h : Proper cv ts) :
    ∃ o, storeRec cv junk ts = some o ∧ Made cv ts o := by
  rcases h with ⟨w, m, ps, h, hc⟩ | h
  · cases w with
    | gen b tag => exact storeRec_gen junk h hc
    | load b tag => exact storeRec_load junk h hc
    | relay b => exact storeRec_relay junk h hc
    | line a b => exact storeRec_line junk h hc
  · exact storeRec_unknown junk h

/-- All records of a file, each with what becomes of it. -/
theorem storeAll_made (cv : Conv) : ∀ recs : List (Struct × List Str), (∀ r ∈ recs, Proper cv r.2) →
    ∃ z : List (List Str × Out), z.map (·.1) = recs.map (·.2) ∧ storeAll cv recs = some (z.map (·.2)) ∧
      ∀ x ∈ z, Made cv x.1 x.2 := by
  intro recs
  induction recs with
  | nil => intro _; exact ⟨[], rfl, rfl, by simp⟩
  | cons r recs ih =>
    intro h
    obtain ⟨z, h1, h2, h3⟩ := ih (fun x hx => h x (by simp [hx]))
    obtain ⟨o, ho, hm⟩ := storeRec_proper r.1 (h r (by simp))
    refine ⟨(r.2, o) :: z, by simp [h1], by simp [storeAll, ho, h2], ?_⟩
    intro x hx
    rcases List.mem_cons.mp hx with rfl | hx
    · exact hm
    · exact h3 x hx

end GridPACK.Dyr
