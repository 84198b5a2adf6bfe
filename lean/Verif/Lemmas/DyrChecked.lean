import Verif.Lemmas.DyrClasses

/-! Lemmas about reading .dyr files: the classes used for the models. -/
namespace GridPACK.Dyr
open StringUtils DataCollection
open DyrSpec (Par)

/-- The names of a table are different. -/
def distinctNames {β : Type} (tab : List (String × β)) : Bool :=
  match tab with
  | [] => true
  | x :: xs => !(among (xs.map (·.1)) x.1) && distinctNames xs

theorem pick_of {tab : List (String × Kind)} (hd : distinctNames tab = true) {m : String} {k : Kind}
    (h : (m, k) ∈ tab) : pick tab m.toList = some k := by
  induction tab with
  | nil => simp at h
  | cons x xs ih =>
    simp only [distinctNames, Bool.and_eq_true, Bool.not_eq_true'] at hd
    rcases List.mem_cons.mp h with rfl | h
    · simp [pick]
    · have hne : x.1 ≠ m := by
        rintro rfl
        have : among (xs.map (·.1)) x.1 = true := among_iff.mpr (List.mem_map.mpr ⟨_, h, rfl⟩)
        rw [this] at hd
        simp at hd
      unfold pick
      rw [List.find?_cons_of_neg (by simpa using fun h => hne (String.toList_injective h))]
      exact ih hd.2 h

theorem distinct_unique {β : Type} {tab : List (String × β)} (hd : distinctNames tab = true) {m : String} {a b : β}
    (ha : (m, a) ∈ tab) (hb : (m, b) ∈ tab) : a = b := by
  induction tab with
  | nil => simp at ha
  | cons x xs ih =>
    simp only [distinctNames, Bool.and_eq_true, Bool.not_eq_true', ← Bool.not_eq_true, among_iff, List.mem_map,
      not_exists, not_and] at hd
    rcases List.mem_cons.mp ha with rfl | ha'
    · rcases List.mem_cons.mp hb with hb | hb
      · exact (Prod.mk.inj hb).2.symm
      · exact absurd rfl (hd.1 (m, b) hb)
    · rcases List.mem_cons.mp hb with rfl | hb
      · exact absurd rfl (hd.1 (m, a) ha')
      · exact ih hd.2 ha' hb

theorem pick_none {tab : List (String × Kind)} {s : Str} (h : ∀ x ∈ tab, x.1.toList ≠ s) : pick tab s = none := by
  unfold pick
  rw [List.find?_eq_none.mpr (by simpa using fun a b hab => h (a, b) hab)]
  rfl

theorem isIn_of {l : List String} {m : String} (h : among l m = true) : isIn l m.toList = true := by
  rw [among_iff] at h
  simp only [isIn, List.any_eq_true, decide_eq_true_eq]
  exact ⟨m, h, rfl⟩

theorem isIn_not {l : List String} {m : String} (h : among l m = false) : isIn l m.toList = false := by
  rw [← Bool.not_eq_true, among_iff] at h
  rw [← Bool.not_eq_true]
  simp only [isIn, List.any_eq_true, decide_eq_true_eq]
  rintro ⟨x, hx, he⟩
  exact h (String.toList_injective he ▸ hx)

theorem genDirect_distinct : distinctNames genDirect = true := by decide +kernel
theorem genStore_distinct : distinctNames genStore = true := by decide +kernel
theorem genExtract_distinct : distinctNames genExtract = true := by decide +kernel
theorem loadStore_distinct : distinctNames loadStore = true := by decide +kernel
theorem userLoads_distinct : distinctNames userLoads = true := by decide +kernel
theorem loadExtract_distinct : distinctNames loadExtract = true := by decide +kernel
theorem busKinds_distinct : distinctNames busKinds = true := by decide +kernel
theorem spec_gens_distinct : distinctNames DyrSpec.gens = true := by decide +kernel
theorem spec_loads_distinct : distinctNames DyrSpec.loads = true := by decide +kernel
theorem spec_userLoads_distinct : distinctNames DyrSpec.userLoads = true := by decide +kernel

/-- The class for a model at a generator, external. -/
structure GenExt (m : String) (ps : List Par) : Prop where
  known : isIn genModels m.toList = true
  format : formatOk ps = true
  cls : ∃ k bad, pick genStore m.toList = some k ∧ pick genExtract m.toList = some k ∧ extOk k ps bad = true ∧
    (∀ b ∈ bad, (m, b) ∈ DyrSpec.externalErrors) ∧ memberSrc k.store "bus_id" = some (.int 0) ∧
    memberSrc k.store "gen_id" = some (.tag 2) ∧ memberSrc k.store "model" = some (.name 1)

/-- The class for a model at a generator, direct. -/
structure GenDir (m : String) (ps : List Par) : Prop where
  known : isIn genModels m.toList = true
  format : formatOk ps = true
  cls : ∃ k bad, pick genDirect m.toList = some k ∧ dirOk k ps bad = true ∧
    (∀ b ∈ bad, (m, b) ∈ DyrSpec.directErrors)

/-- The class for a model of a load, external. -/
structure LoadExt (tab : List (String × Kind)) (place : Nat) (m : String) (ps : List Par) : Prop where
  format : formatOk ps = true
  cls : ∃ k bad, pick tab m.toList = some k ∧ pick loadExtract m.toList = some k ∧ extOk k ps bad = true ∧
    (∀ b ∈ bad, (m, b) ∈ DyrSpec.externalErrors) ∧ memberSrc k.store "bus_id" = none ∧
    memberSrc k.store "id" = some (.tag 2) ∧ memberSrc k.store "model" = some (.name place)

/-- The class for a model of a load, direct. -/
structure LoadDir (tab : List (String × Kind)) (m : String) (ps : List Par) : Prop where
  format : formatOk ps = true
  cls : ∃ k bad, pick tab m.toList = some k ∧ dirOk k ps bad = true ∧
    (∀ b ∈ bad, (m, b) ∈ DyrSpec.directErrors)

theorem ext_ESST1A : GenExt "ESST1A" DyrSpec.esst1a where
  known := isIn_of (by decide +kernel)
  format := esst1a_format
  cls := ⟨esst1a, [], pick_of genStore_distinct (List.mem_of_getElem? (i := 15) rfl),
    pick_of genExtract_distinct (List.mem_of_getElem? (i := 14) rfl), esst1a_ext, (by simp),
    by decide +kernel, by decide +kernel, by decide +kernel⟩

theorem dir_ESST1A : GenDir "ESST1A" DyrSpec.esst1a where
  known := isIn_of (by decide +kernel)
  format := esst1a_format
  cls := ⟨esst1a, [], pick_of genDirect_distinct (List.mem_of_getElem? (i := 15) rfl), esst1a_dir, (by simp)⟩

theorem ext_ESST4B : GenExt "ESST4B" DyrSpec.esst4b where
  known := isIn_of (by decide +kernel)
  format := esst4b_format
  cls := ⟨esst4b, [], pick_of genStore_distinct (List.mem_of_getElem? (i := 16) rfl),
    pick_of genExtract_distinct (List.mem_of_getElem? (i := 15) rfl), esst4b_ext, (by simp),
    by decide +kernel, by decide +kernel, by decide +kernel⟩

theorem ext_EXDC1 : GenExt "EXDC1" DyrSpec.exdc1 where
  known := isIn_of (by decide +kernel)
  format := exdc1_format
  cls := ⟨exdc1, [], pick_of genStore_distinct (List.mem_of_getElem? (i := 11) rfl),
    pick_of genExtract_distinct (List.mem_of_getElem? (i := 11) rfl), exdc1_ext, (by simp),
    by decide +kernel, by decide +kernel, by decide +kernel⟩

theorem dir_EXDC1 : GenDir "EXDC1" DyrSpec.exdc1 where
  known := isIn_of (by decide +kernel)
  format := exdc1_format
  cls := ⟨exdc1, [], pick_of genDirect_distinct (List.mem_of_getElem? (i := 11) rfl), exdc1_dir, (by simp)⟩

theorem ext_EXDC2 : GenExt "EXDC2" DyrSpec.exdc1 where
  known := isIn_of (by decide +kernel)
  format := exdc1_format
  cls := ⟨exdc1, [], pick_of genStore_distinct (List.mem_of_getElem? (i := 12) rfl),
    pick_of genExtract_distinct (List.mem_of_getElem? (i := 12) rfl), exdc1_ext, (by simp),
    by decide +kernel, by decide +kernel, by decide +kernel⟩

theorem dir_EXDC2 : GenDir "EXDC2" DyrSpec.exdc1 where
  known := isIn_of (by decide +kernel)
  format := exdc1_format
  cls := ⟨exdc1, [], pick_of genDirect_distinct (List.mem_of_getElem? (i := 12) rfl), exdc1_dir, (by simp)⟩

theorem ext_GAST : GenExt "GAST" DyrSpec.gast where
  known := isIn_of (by decide +kernel)
  format := gast_format
  cls := ⟨gast, [], pick_of genStore_distinct (List.mem_of_getElem? (i := 19) rfl),
    pick_of genExtract_distinct (List.mem_of_getElem? (i := 19) rfl), gast_ext, (by simp),
    by decide +kernel, by decide +kernel, by decide +kernel⟩

theorem dir_GAST : GenDir "GAST" DyrSpec.gast where
  known := isIn_of (by decide +kernel)
  format := gast_format
  cls := ⟨gast, [], pick_of genDirect_distinct (List.mem_of_getElem? (i := 19) rfl), gast_dir, (by simp)⟩

theorem ext_GDFORM : GenExt "GDFORM" DyrSpec.gdform where
  known := isIn_of (by decide +kernel)
  format := gdform_format
  cls := ⟨gdform, [], pick_of genStore_distinct (List.mem_of_getElem? (i := 3) rfl),
    pick_of genExtract_distinct (List.mem_of_getElem? (i := 3) rfl), gdform_ext, (by simp),
    by decide +kernel, by decide +kernel, by decide +kernel⟩

theorem dir_GDFORM : GenDir "GDFORM" DyrSpec.gdform where
  known := isIn_of (by decide +kernel)
  format := gdform_format
  cls := ⟨gdform, ["GENERATOR_MP", "GENERATOR_VFLAG"], pick_of genDirect_distinct (List.mem_of_getElem? (i := 3) rfl), gdform_dir, (by decide +kernel)⟩

theorem ext_GENCLS : GenExt "GENCLS" DyrSpec.gencls where
  known := isIn_of (by decide +kernel)
  format := gencls_format
  cls := ⟨gencls, [], pick_of genStore_distinct (List.mem_of_getElem? (i := 0) rfl),
    pick_of genExtract_distinct (List.mem_of_getElem? (i := 0) rfl), gencls_ext, (by simp),
    by decide +kernel, by decide +kernel, by decide +kernel⟩

theorem dir_GENCLS : GenDir "GENCLS" DyrSpec.gencls where
  known := isIn_of (by decide +kernel)
  format := gencls_format
  cls := ⟨gencls, [], pick_of genDirect_distinct (List.mem_of_getElem? (i := 0) rfl), gencls_dir, (by simp)⟩

theorem ext_GENROU : GenExt "GENROU" DyrSpec.genrou where
  known := isIn_of (by decide +kernel)
  format := genrou_format
  cls := ⟨genrou, [], pick_of genStore_distinct (List.mem_of_getElem? (i := 2) rfl),
    pick_of genExtract_distinct (List.mem_of_getElem? (i := 2) rfl), genrou_ext, (by simp),
    by decide +kernel, by decide +kernel, by decide +kernel⟩

theorem dir_GENROU : GenDir "GENROU" DyrSpec.genrou where
  known := isIn_of (by decide +kernel)
  format := genrou_format
  cls := ⟨genrou, ["GENERATOR_XQ"], pick_of genDirect_distinct (List.mem_of_getElem? (i := 2) rfl), genrou_dir, (by decide +kernel)⟩

theorem ext_GENSAL : GenExt "GENSAL" DyrSpec.gensal where
  known := isIn_of (by decide +kernel)
  format := gensal_format
  cls := ⟨gensal, [], pick_of genStore_distinct (List.mem_of_getElem? (i := 1) rfl),
    pick_of genExtract_distinct (List.mem_of_getElem? (i := 1) rfl), gensal_ext, (by simp),
    by decide +kernel, by decide +kernel, by decide +kernel⟩

theorem dir_GENSAL : GenDir "GENSAL" DyrSpec.gensal where
  known := isIn_of (by decide +kernel)
  format := gensal_format
  cls := ⟨gensal, [], pick_of genDirect_distinct (List.mem_of_getElem? (i := 1) rfl), gensal_dir, (by simp)⟩

theorem ext_GGOV1 : GenExt "GGOV1" DyrSpec.ggov1 where
  known := isIn_of (by decide +kernel)
  format := ggov1_format
  cls := ⟨ggov1, [], pick_of genStore_distinct (List.mem_of_getElem? (i := 17) rfl),
    pick_of genExtract_distinct (List.mem_of_getElem? (i := 17) rfl), ggov1_ext, (by simp),
    by decide +kernel, by decide +kernel, by decide +kernel⟩

theorem dir_GGOV1 : GenDir "GGOV1" DyrSpec.ggov1 where
  known := isIn_of (by decide +kernel)
  format := ggov1_format
  cls := ⟨ggov1, [], pick_of genDirect_distinct (List.mem_of_getElem? (i := 17) rfl), ggov1_dir, (by simp)⟩

theorem ext_HYGOV : GenExt "HYGOV" DyrSpec.hygov where
  known := isIn_of (by decide +kernel)
  format := hygov_format
  cls := ⟨hygov, [], pick_of genStore_distinct (List.mem_of_getElem? (i := 20) rfl),
    pick_of genExtract_distinct (List.mem_of_getElem? (i := 20) rfl), hygov_ext, (by simp),
    by decide +kernel, by decide +kernel, by decide +kernel⟩

theorem dir_HYGOV : GenDir "HYGOV" DyrSpec.hygov where
  known := isIn_of (by decide +kernel)
  format := hygov_format
  cls := ⟨hygov, [], pick_of genDirect_distinct (List.mem_of_getElem? (i := 20) rfl), hygov_dir, (by simp)⟩

theorem ext_IEEET1 : GenExt "IEEET1" DyrSpec.ieeet1 where
  known := isIn_of (by decide +kernel)
  format := ieeet1_format
  cls := ⟨ieeet1, [], pick_of genStore_distinct (List.mem_of_getElem? (i := 13) rfl),
    pick_of genExtract_distinct (List.mem_of_getElem? (i := 13) rfl), ieeet1_ext, (by simp),
    by decide +kernel, by decide +kernel, by decide +kernel⟩

theorem dir_IEEET1 : GenDir "IEEET1" DyrSpec.ieeet1 where
  known := isIn_of (by decide +kernel)
  format := ieeet1_format
  cls := ⟨ieeet1, [], pick_of genDirect_distinct (List.mem_of_getElem? (i := 13) rfl), ieeet1_dir, (by simp)⟩

theorem ext_PSSSIM : GenExt "PSSSIM" DyrSpec.psssim where
  known := isIn_of (by decide +kernel)
  format := psssim_format
  cls := ⟨psssim, [], pick_of genStore_distinct (List.mem_of_getElem? (i := 22) rfl),
    pick_of genExtract_distinct (List.mem_of_getElem? (i := 22) rfl), psssim_ext, (by simp),
    by decide +kernel, by decide +kernel, by decide +kernel⟩

theorem dir_PSSSIM : GenDir "PSSSIM" DyrSpec.psssim where
  known := isIn_of (by decide +kernel)
  format := psssim_format
  cls := ⟨psssim, ["PSSSIM_INPUTTYPE", "PSSSIM_BUS1", "PSSSIM_BUS2", "PSSSIM_BUS3", "PSSSIM_BUS4", "PSSSIM_BUS5", "PSSSIM_BUS6"], pick_of genDirect_distinct (List.mem_of_getElem? (i := 22) rfl), psssim_dir, (by decide +kernel)⟩

theorem ext_REECA1 : GenExt "REECA1" DyrSpec.reeca1 where
  known := isIn_of (by decide +kernel)
  format := reeca1_format
  cls := ⟨reeca1, [], pick_of genStore_distinct (List.mem_of_getElem? (i := 7) rfl),
    pick_of genExtract_distinct (List.mem_of_getElem? (i := 7) rfl), reeca1_ext, (by simp),
    by decide +kernel, by decide +kernel, by decide +kernel⟩

theorem dir_REECA1 : GenDir "REECA1" DyrSpec.reeca1 where
  known := isIn_of (by decide +kernel)
  format := reeca1_format
  cls := ⟨reeca1, ["GENERATOR_REECA_TIQ"], pick_of genDirect_distinct (List.mem_of_getElem? (i := 7) rfl), reeca1_dir, (by decide +kernel)⟩

theorem ext_REGCA1 : GenExt "REGCA1" DyrSpec.regca1 where
  known := isIn_of (by decide +kernel)
  format := regca1_format
  cls := ⟨regca1, [], pick_of genStore_distinct (List.mem_of_getElem? (i := 4) rfl),
    pick_of genExtract_distinct (List.mem_of_getElem? (i := 4) rfl), regca1_ext, (by simp),
    by decide +kernel, by decide +kernel, by decide +kernel⟩

theorem dir_REGCA1 : GenDir "REGCA1" DyrSpec.regca1 where
  known := isIn_of (by decide +kernel)
  format := regca1_format
  cls := ⟨regca1, [], pick_of genDirect_distinct (List.mem_of_getElem? (i := 4) rfl), regca1_dir, (by simp)⟩

theorem ext_REGCB1 : GenExt "REGCB1" DyrSpec.regcb1 where
  known := isIn_of (by decide +kernel)
  format := regcb1_format
  cls := ⟨regcb1, [], pick_of genStore_distinct (List.mem_of_getElem? (i := 5) rfl),
    pick_of genExtract_distinct (List.mem_of_getElem? (i := 5) rfl), regcb1_ext, (by simp),
    by decide +kernel, by decide +kernel, by decide +kernel⟩

theorem dir_REGCB1 : GenDir "REGCB1" DyrSpec.regcb1 where
  known := isIn_of (by decide +kernel)
  format := regcb1_format
  cls := ⟨regcb1, [], pick_of genDirect_distinct (List.mem_of_getElem? (i := 5) rfl), regcb1_dir, (by simp)⟩

theorem ext_REGCC1 : GenExt "REGCC1" DyrSpec.regcc1 where
  known := isIn_of (by decide +kernel)
  format := regcc1_format
  cls := ⟨regcc1, [], pick_of genStore_distinct (List.mem_of_getElem? (i := 6) rfl),
    pick_of genExtract_distinct (List.mem_of_getElem? (i := 6) rfl), regcc1_ext, (by simp),
    by decide +kernel, by decide +kernel, by decide +kernel⟩

theorem dir_REGCC1 : GenDir "REGCC1" DyrSpec.regcc1 where
  known := isIn_of (by decide +kernel)
  format := regcc1_format
  cls := ⟨regcc1, [], pick_of genDirect_distinct (List.mem_of_getElem? (i := 6) rfl), regcc1_dir, (by simp)⟩

theorem ext_REPCA1 : GenExt "REPCA1" DyrSpec.repca1 where
  known := isIn_of (by decide +kernel)
  format := repca1_format
  cls := ⟨repca1, [], pick_of genStore_distinct (List.mem_of_getElem? (i := 8) rfl),
    pick_of genExtract_distinct (List.mem_of_getElem? (i := 8) rfl), repca1_ext, (by simp),
    by decide +kernel, by decide +kernel, by decide +kernel⟩

theorem dir_REPCA1 : GenDir "REPCA1" DyrSpec.repca1 where
  known := isIn_of (by decide +kernel)
  format := repca1_format
  cls := ⟨repca1, ["GENERATOR_REPCA_FEMIN", "GENERATOR_REPCA_BRCH_CKT"], pick_of genDirect_distinct (List.mem_of_getElem? (i := 8) rfl), repca1_dir, (by decide +kernel)⟩

theorem ext_REPCTA1 : GenExt "REPCTA1" DyrSpec.repca1 where
  known := isIn_of (by decide +kernel)
  format := repca1_format
  cls := ⟨repca1, [], pick_of genStore_distinct (List.mem_of_getElem? (i := 9) rfl),
    pick_of genExtract_distinct (List.mem_of_getElem? (i := 9) rfl), repca1_ext, (by simp),
    by decide +kernel, by decide +kernel, by decide +kernel⟩

theorem dir_REPCTA1 : GenDir "REPCTA1" DyrSpec.repca1 where
  known := isIn_of (by decide +kernel)
  format := repca1_format
  cls := ⟨repca1, ["GENERATOR_REPCA_FEMIN", "GENERATOR_REPCA_BRCH_CKT"], pick_of genDirect_distinct (List.mem_of_getElem? (i := 9) rfl), repca1_dir, (by decide +kernel)⟩

theorem ext_SEXS : GenExt "SEXS" DyrSpec.sexs where
  known := isIn_of (by decide +kernel)
  format := sexs_format
  cls := ⟨sexs, [], pick_of genStore_distinct (List.mem_of_getElem? (i := 14) rfl),
    pick_of genExtract_distinct (List.mem_of_getElem? (i := 16) rfl), sexs_ext, (by simp),
    by decide +kernel, by decide +kernel, by decide +kernel⟩

theorem dir_SEXS : GenDir "SEXS" DyrSpec.sexs where
  known := isIn_of (by decide +kernel)
  format := sexs_format
  cls := ⟨sexs, [], pick_of genDirect_distinct (List.mem_of_getElem? (i := 14) rfl), sexs_dir, (by simp)⟩

theorem ext_TGOV1 : GenExt "TGOV1" DyrSpec.tgov1 where
  known := isIn_of (by decide +kernel)
  format := tgov1_format
  cls := ⟨tgov1, [], pick_of genStore_distinct (List.mem_of_getElem? (i := 18) rfl),
    pick_of genExtract_distinct (List.mem_of_getElem? (i := 18) rfl), tgov1_ext, (by simp),
    by decide +kernel, by decide +kernel, by decide +kernel⟩

theorem dir_TGOV1 : GenDir "TGOV1" DyrSpec.tgov1 where
  known := isIn_of (by decide +kernel)
  format := tgov1_format
  cls := ⟨tgov1, [], pick_of genDirect_distinct (List.mem_of_getElem? (i := 18) rfl), tgov1_dir, (by simp)⟩

theorem ext_WSHYGP : GenExt "WSHYGP" DyrSpec.wshygp where
  known := isIn_of (by decide +kernel)
  format := wshygp_format
  cls := ⟨wshygp, [], pick_of genStore_distinct (List.mem_of_getElem? (i := 21) rfl),
    pick_of genExtract_distinct (List.mem_of_getElem? (i := 21) rfl), wshygp_ext, (by simp),
    by decide +kernel, by decide +kernel, by decide +kernel⟩

theorem dir_WSHYGP : GenDir "WSHYGP" DyrSpec.wshygp where
  known := isIn_of (by decide +kernel)
  format := wshygp_format
  cls := ⟨wshygp, [], pick_of genDirect_distinct (List.mem_of_getElem? (i := 21) rfl), wshygp_dir, (by simp)⟩

theorem ext_WSIEG1 : GenExt "WSIEG1" DyrSpec.wsieg1 where
  known := isIn_of (by decide +kernel)
  format := wsieg1_format
  cls := ⟨wsieg1, ["GOVERNOR_T3"], pick_of genStore_distinct (List.mem_of_getElem? (i := 10) rfl),
    pick_of genExtract_distinct (List.mem_of_getElem? (i := 10) rfl), wsieg1_ext, (by decide +kernel),
    by decide +kernel, by decide +kernel, by decide +kernel⟩

theorem dir_WSIEG1 : GenDir "WSIEG1" DyrSpec.wsieg1 where
  known := isIn_of (by decide +kernel)
  format := wsieg1_format
  cls := ⟨wsieg1, ["GOVERNOR_GV4", "GOVERNOR_GV5", "GOVERNOR_PGV5", "GOVERNOR_IBLOCK"], pick_of genDirect_distinct (List.mem_of_getElem? (i := 10) rfl), wsieg1_dir, (by decide +kernel)⟩

theorem ext_WTARA1 : GenExt "WTARA1" DyrSpec.wtara1 where
  known := isIn_of (by decide +kernel)
  format := wtara1_format
  cls := ⟨wtara1, [], pick_of genStore_distinct (List.mem_of_getElem? (i := 24) rfl),
    pick_of genExtract_distinct (List.mem_of_getElem? (i := 24) rfl), wtara1_ext, (by simp),
    by decide +kernel, by decide +kernel, by decide +kernel⟩

theorem dir_WTARA1 : GenDir "WTARA1" DyrSpec.wtara1 where
  known := isIn_of (by decide +kernel)
  format := wtara1_format
  cls := ⟨wtara1, [], pick_of genDirect_distinct (List.mem_of_getElem? (i := 24) rfl), wtara1_dir, (by simp)⟩

theorem ext_WTDTA1 : GenExt "WTDTA1" DyrSpec.wtdta1 where
  known := isIn_of (by decide +kernel)
  format := wtdta1_format
  cls := ⟨wtdta1, [], pick_of genStore_distinct (List.mem_of_getElem? (i := 23) rfl),
    pick_of genExtract_distinct (List.mem_of_getElem? (i := 23) rfl), wtdta1_ext, (by simp),
    by decide +kernel, by decide +kernel, by decide +kernel⟩

theorem dir_WTDTA1 : GenDir "WTDTA1" DyrSpec.wtdta1 where
  known := isIn_of (by decide +kernel)
  format := wtdta1_format
  cls := ⟨wtdta1, [], pick_of genDirect_distinct (List.mem_of_getElem? (i := 23) rfl), wtdta1_dir, (by simp)⟩

theorem ext_WTPTA1 : GenExt "WTPTA1" DyrSpec.wtpta1 where
  known := isIn_of (by decide +kernel)
  format := wtpta1_format
  cls := ⟨wtpta1, [], pick_of genStore_distinct (List.mem_of_getElem? (i := 25) rfl),
    pick_of genExtract_distinct (List.mem_of_getElem? (i := 25) rfl), wtpta1_ext, (by simp),
    by decide +kernel, by decide +kernel, by decide +kernel⟩

theorem dir_WTPTA1 : GenDir "WTPTA1" DyrSpec.wtpta1 where
  known := isIn_of (by decide +kernel)
  format := wtpta1_format
  cls := ⟨wtpta1, [], pick_of genDirect_distinct (List.mem_of_getElem? (i := 25) rfl), wtpta1_dir, (by simp)⟩

theorem ext_WTTQA1 : GenExt "WTTQA1" DyrSpec.wttqa1 where
  known := isIn_of (by decide +kernel)
  format := wttqa1_format
  cls := ⟨wttqa1, [], pick_of genStore_distinct (List.mem_of_getElem? (i := 26) rfl),
    pick_of genExtract_distinct (List.mem_of_getElem? (i := 26) rfl), wttqa1_ext, (by simp),
    by decide +kernel, by decide +kernel, by decide +kernel⟩

theorem dir_WTTQA1 : GenDir "WTTQA1" DyrSpec.wttqa1 where
  known := isIn_of (by decide +kernel)
  format := wttqa1_format
  cls := ⟨wttqa1, [], pick_of genDirect_distinct (List.mem_of_getElem? (i := 26) rfl), wttqa1_dir, (by simp)⟩

theorem ext_CIM6BL : LoadExt loadStore 1 "CIM6BL" DyrSpec.cim6bl where
  format := cim6bl_format
  cls := ⟨cim6bl, ["LOAD_X1", "LOAD_E2"], pick_of loadStore_distinct (List.mem_of_getElem? (i := 0) rfl),
    pick_of loadExtract_distinct (List.mem_of_getElem? (i := 0) rfl), cim6bl_ext, (by decide +kernel),
    by decide +kernel, by decide +kernel, by decide +kernel⟩

theorem dir_CIM6BL : LoadDir loadStore "CIM6BL" DyrSpec.cim6bl where
  format := cim6bl_format
  cls := ⟨cim6bl, [], pick_of loadStore_distinct (List.mem_of_getElem? (i := 0) rfl), cim6bl_dir, (by simp)⟩

theorem ext_IEELBL : LoadExt loadStore 1 "IEELBL" DyrSpec.ieelbl where
  format := ieelbl_format
  cls := ⟨ieelbl, [], pick_of loadStore_distinct (List.mem_of_getElem? (i := 1) rfl),
    pick_of loadExtract_distinct (List.mem_of_getElem? (i := 1) rfl), ieelbl_ext, (by simp),
    by decide +kernel, by decide +kernel, by decide +kernel⟩

theorem dir_IEELBL : LoadDir loadStore "IEELBL" DyrSpec.ieelbl where
  format := ieelbl_format
  cls := ⟨ieelbl, ["LOAD_A1"], pick_of loadStore_distinct (List.mem_of_getElem? (i := 1) rfl), ieelbl_dir, (by decide +kernel)⟩

theorem ext_ACMTBLU1 : LoadExt userLoads 3 "ACMTBLU1" DyrSpec.acmtblu1 where
  format := acmtblu1_format
  cls := ⟨acmtblu1, ["LOAD_NQ1", "LOAD_NQ2"], pick_of userLoads_distinct (List.mem_of_getElem? (i := 0) rfl),
    pick_of loadExtract_distinct (List.mem_of_getElem? (i := 2) rfl), acmtblu1_ext, (by decide +kernel),
    by decide +kernel, by decide +kernel, by decide +kernel⟩

theorem dir_ACMTBLU1 : LoadDir userLoads "ACMTBLU1" DyrSpec.acmtblu1 where
  format := acmtblu1_format
  cls := ⟨acmtblu1, ["LOAD_UVTR1", "LOAD_UVTR2"], pick_of userLoads_distinct (List.mem_of_getElem? (i := 0) rfl), acmtblu1_dir, (by decide +kernel)⟩

theorem ext_CMLDBLU1 : LoadExt userLoads 3 "CMLDBLU1" DyrSpec.cmldblu1 where
  format := cmldblu1_format
  cls := ⟨cmldblu1, ["LOAD_TTR1", "LOAD_VC2ON", "LOAD_UVTR2"], pick_of userLoads_distinct (List.mem_of_getElem? (i := 1) rfl),
    pick_of loadExtract_distinct (List.mem_of_getElem? (i := 3) rfl), cmldblu1_ext, (by decide +kernel),
    by decide +kernel, by decide +kernel, by decide +kernel⟩

theorem dir_CMLDBLU1 : LoadDir userLoads "CMLDBLU1" DyrSpec.cmldblu1 where
  format := cmldblu1_format
  cls := ⟨cmldblu1, [], pick_of userLoads_distinct (List.mem_of_getElem? (i := 1) rfl), cmldblu1_dir, (by simp)⟩

theorem gens_ext : ∀ x ∈ DyrSpec.gens, GenExt x.1 x.2 := by
  unfold DyrSpec.gens
  simp only [List.forall_mem_cons]
  exact ⟨ext_ESST1A, ext_ESST4B, ext_EXDC1, ext_EXDC2, ext_GAST, ext_GDFORM, ext_GENCLS, ext_GENROU, ext_GENSAL, ext_GGOV1, ext_HYGOV, ext_IEEET1, ext_PSSSIM, ext_REECA1, ext_REGCA1, ext_REGCB1, ext_REGCC1, ext_REPCA1, ext_REPCTA1, ext_SEXS, ext_TGOV1, ext_WSHYGP, ext_WSIEG1, ext_WTARA1, ext_WTDTA1, ext_WTPTA1, ext_WTTQA1, by simp⟩

theorem gens_dir : ∀ x ∈ DyrSpec.gens, x.1 ≠ "ESST4B" → GenDir x.1 x.2 := by
  unfold DyrSpec.gens
  simp only [List.forall_mem_cons]
  exact ⟨(fun _ => dir_ESST1A), (fun h => absurd rfl h), (fun _ => dir_EXDC1), (fun _ => dir_EXDC2), (fun _ => dir_GAST), (fun _ => dir_GDFORM), (fun _ => dir_GENCLS), (fun _ => dir_GENROU), (fun _ => dir_GENSAL), (fun _ => dir_GGOV1), (fun _ => dir_HYGOV), (fun _ => dir_IEEET1), (fun _ => dir_PSSSIM), (fun _ => dir_REECA1), (fun _ => dir_REGCA1), (fun _ => dir_REGCB1), (fun _ => dir_REGCC1), (fun _ => dir_REPCA1), (fun _ => dir_REPCTA1), (fun _ => dir_SEXS), (fun _ => dir_TGOV1), (fun _ => dir_WSHYGP), (fun _ => dir_WSIEG1), (fun _ => dir_WTARA1), (fun _ => dir_WTDTA1), (fun _ => dir_WTPTA1), (fun _ => dir_WTTQA1), by simp⟩

theorem loads_ext : ∀ x ∈ DyrSpec.loads, LoadExt loadStore 1 x.1 x.2 := by
  unfold DyrSpec.loads
  simp only [List.forall_mem_cons]
  exact ⟨ext_CIM6BL, ext_IEELBL, by simp⟩

theorem loads_dir : ∀ x ∈ DyrSpec.loads, LoadDir loadStore x.1 x.2 := by
  unfold DyrSpec.loads
  simp only [List.forall_mem_cons]
  exact ⟨dir_CIM6BL, dir_IEELBL, by simp⟩

theorem userLoads_ext : ∀ x ∈ DyrSpec.userLoads, LoadExt userLoads 3 x.1 x.2 := by
  unfold DyrSpec.userLoads
  simp only [List.forall_mem_cons]
  exact ⟨ext_ACMTBLU1, ext_CMLDBLU1, by simp⟩

theorem userLoads_dir : ∀ x ∈ DyrSpec.userLoads, LoadDir userLoads x.1 x.2 := by
  unfold DyrSpec.userLoads
  simp only [List.forall_mem_cons]
  exact ⟨dir_ACMTBLU1, dir_CMLDBLU1, by simp⟩

end GridPACK.Dyr
