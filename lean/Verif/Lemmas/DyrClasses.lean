import Verif.Lemmas.DyrKinds

/-! Lemmas about reading .dyr files: the comparison for each class. -/
namespace GridPACK.Dyr
open StringUtils DataCollection
open DyrSpec (Par)

theorem acmtblu1_format : formatOk DyrSpec.acmtblu1 = true := by decide +kernel
theorem acmtblu1_ext : extOk acmtblu1 DyrSpec.acmtblu1 ["LOAD_NQ1", "LOAD_NQ2"] = true := by decide +kernel
theorem acmtblu1_dir : dirOk acmtblu1 DyrSpec.acmtblu1 ["LOAD_UVTR1", "LOAD_UVTR2"] = true := by decide +kernel

theorem cim6bl_format : formatOk DyrSpec.cim6bl = true := by decide +kernel
theorem cim6bl_ext : extOk cim6bl DyrSpec.cim6bl ["LOAD_X1", "LOAD_E2"] = true := by decide +kernel
theorem cim6bl_dir : dirOk cim6bl DyrSpec.cim6bl [] = true := by decide +kernel

theorem cmldblu1_format : formatOk DyrSpec.cmldblu1 = true := by decide +kernel
theorem cmldblu1_ext : extOk cmldblu1 DyrSpec.cmldblu1 ["LOAD_TTR1", "LOAD_VC2ON", "LOAD_UVTR2"] = true := by decide +kernel
theorem cmldblu1_dir : dirOk cmldblu1 DyrSpec.cmldblu1 [] = true := by decide +kernel

theorem distr1_format : formatOk DyrSpec.distr1 = true := by decide +kernel
theorem distr1_ext : extOk distr1 DyrSpec.distr1 ["RELAY_ZONE3_TIME"] = true := by decide +kernel
theorem distr1_dir : dirOk distr1 DyrSpec.distr1 [] = true := by decide +kernel

theorem esst1a_format : formatOk DyrSpec.esst1a = true := by decide +kernel
theorem esst1a_ext : extOk esst1a DyrSpec.esst1a [] = true := by decide +kernel
theorem esst1a_dir : dirOk esst1a DyrSpec.esst1a [] = true := by decide +kernel

theorem esst4b_format : formatOk DyrSpec.esst4b = true := by decide +kernel
theorem esst4b_ext : extOk esst4b DyrSpec.esst4b [] = true := by decide +kernel
theorem esst4b_dir : dirOk esst4b DyrSpec.esst4b [] = true := by decide +kernel

theorem exdc1_format : formatOk DyrSpec.exdc1 = true := by decide +kernel
theorem exdc1_ext : extOk exdc1 DyrSpec.exdc1 [] = true := by decide +kernel
theorem exdc1_dir : dirOk exdc1 DyrSpec.exdc1 [] = true := by decide +kernel

theorem frqtpat_format : formatOk DyrSpec.frqtpat = true := by decide +kernel
theorem frqtpat_ext : extOk frqtpat DyrSpec.frqtpat [] = true := by decide +kernel
theorem frqtpat_dir : dirOk frqtpat DyrSpec.frqtpat [] = true := by decide +kernel

theorem gast_format : formatOk DyrSpec.gast = true := by decide +kernel
theorem gast_ext : extOk gast DyrSpec.gast [] = true := by decide +kernel
theorem gast_dir : dirOk gast DyrSpec.gast [] = true := by decide +kernel

theorem gdform_format : formatOk DyrSpec.gdform = true := by decide +kernel
theorem gdform_ext : extOk gdform DyrSpec.gdform [] = true := by decide +kernel
theorem gdform_dir : dirOk gdform DyrSpec.gdform ["GENERATOR_MP", "GENERATOR_VFLAG"] = true := by decide +kernel

theorem gencls_format : formatOk DyrSpec.gencls = true := by decide +kernel
theorem gencls_ext : extOk gencls DyrSpec.gencls [] = true := by decide +kernel
theorem gencls_dir : dirOk gencls DyrSpec.gencls [] = true := by decide +kernel

theorem genrou_format : formatOk DyrSpec.genrou = true := by decide +kernel
theorem genrou_ext : extOk genrou DyrSpec.genrou [] = true := by decide +kernel
theorem genrou_dir : dirOk genrou DyrSpec.genrou ["GENERATOR_XQ"] = true := by decide +kernel

theorem gensal_format : formatOk DyrSpec.gensal = true := by decide +kernel
theorem gensal_ext : extOk gensal DyrSpec.gensal [] = true := by decide +kernel
theorem gensal_dir : dirOk gensal DyrSpec.gensal [] = true := by decide +kernel

theorem ggov1_format : formatOk DyrSpec.ggov1 = true := by decide +kernel
theorem ggov1_ext : extOk ggov1 DyrSpec.ggov1 [] = true := by decide +kernel
theorem ggov1_dir : dirOk ggov1 DyrSpec.ggov1 [] = true := by decide +kernel

theorem hygov_format : formatOk DyrSpec.hygov = true := by decide +kernel
theorem hygov_ext : extOk hygov DyrSpec.hygov [] = true := by decide +kernel
theorem hygov_dir : dirOk hygov DyrSpec.hygov [] = true := by decide +kernel

theorem ieeet1_format : formatOk DyrSpec.ieeet1 = true := by decide +kernel
theorem ieeet1_ext : extOk ieeet1 DyrSpec.ieeet1 [] = true := by decide +kernel
theorem ieeet1_dir : dirOk ieeet1 DyrSpec.ieeet1 [] = true := by decide +kernel

theorem ieelbl_format : formatOk DyrSpec.ieelbl = true := by decide +kernel
theorem ieelbl_ext : extOk ieelbl DyrSpec.ieelbl [] = true := by decide +kernel
theorem ieelbl_dir : dirOk ieelbl DyrSpec.ieelbl ["LOAD_A1"] = true := by decide +kernel

theorem lvshbl_format : formatOk DyrSpec.lvshbl = true := by decide +kernel
theorem lvshbl_ext : extOk lvshbl DyrSpec.lvshbl [] = true := by decide +kernel
theorem lvshbl_dir : dirOk lvshbl DyrSpec.lvshbl [] = true := by decide +kernel

theorem psssim_format : formatOk DyrSpec.psssim = true := by decide +kernel
theorem psssim_ext : extOk psssim DyrSpec.psssim [] = true := by decide +kernel
theorem psssim_dir : dirOk psssim DyrSpec.psssim ["PSSSIM_INPUTTYPE", "PSSSIM_BUS1", "PSSSIM_BUS2", "PSSSIM_BUS3", "PSSSIM_BUS4", "PSSSIM_BUS5", "PSSSIM_BUS6"] = true := by decide +kernel

theorem reeca1_format : formatOk DyrSpec.reeca1 = true := by decide +kernel
theorem reeca1_ext : extOk reeca1 DyrSpec.reeca1 [] = true := by decide +kernel
theorem reeca1_dir : dirOk reeca1 DyrSpec.reeca1 ["GENERATOR_REECA_TIQ"] = true := by decide +kernel

theorem regca1_format : formatOk DyrSpec.regca1 = true := by decide +kernel
theorem regca1_ext : extOk regca1 DyrSpec.regca1 [] = true := by decide +kernel
theorem regca1_dir : dirOk regca1 DyrSpec.regca1 [] = true := by decide +kernel

theorem regcb1_format : formatOk DyrSpec.regcb1 = true := by decide +kernel
theorem regcb1_ext : extOk regcb1 DyrSpec.regcb1 [] = true := by decide +kernel
theorem regcb1_dir : dirOk regcb1 DyrSpec.regcb1 [] = true := by decide +kernel

theorem regcc1_format : formatOk DyrSpec.regcc1 = true := by decide +kernel
theorem regcc1_ext : extOk regcc1 DyrSpec.regcc1 [] = true := by decide +kernel
theorem regcc1_dir : dirOk regcc1 DyrSpec.regcc1 [] = true := by decide +kernel

theorem repca1_format : formatOk DyrSpec.repca1 = true := by decide +kernel
theorem repca1_ext : extOk repca1 DyrSpec.repca1 [] = true := by decide +kernel
theorem repca1_dir : dirOk repca1 DyrSpec.repca1 ["GENERATOR_REPCA_FEMIN", "GENERATOR_REPCA_BRCH_CKT"] = true := by decide +kernel

theorem sexs_format : formatOk DyrSpec.sexs = true := by decide +kernel
theorem sexs_ext : extOk sexs DyrSpec.sexs [] = true := by decide +kernel
theorem sexs_dir : dirOk sexs DyrSpec.sexs [] = true := by decide +kernel

theorem tgov1_format : formatOk DyrSpec.tgov1 = true := by decide +kernel
theorem tgov1_ext : extOk tgov1 DyrSpec.tgov1 [] = true := by decide +kernel
theorem tgov1_dir : dirOk tgov1 DyrSpec.tgov1 [] = true := by decide +kernel

theorem wshygp_format : formatOk DyrSpec.wshygp = true := by decide +kernel
theorem wshygp_ext : extOk wshygp DyrSpec.wshygp [] = true := by decide +kernel
theorem wshygp_dir : dirOk wshygp DyrSpec.wshygp [] = true := by decide +kernel

theorem wsieg1_format : formatOk DyrSpec.wsieg1 = true := by decide +kernel
theorem wsieg1_ext : extOk wsieg1 DyrSpec.wsieg1 ["GOVERNOR_T3"] = true := by decide +kernel
theorem wsieg1_dir : dirOk wsieg1 DyrSpec.wsieg1 ["GOVERNOR_GV4", "GOVERNOR_GV5", "GOVERNOR_PGV5", "GOVERNOR_IBLOCK"] = true := by decide +kernel

theorem wtara1_format : formatOk DyrSpec.wtara1 = true := by decide +kernel
theorem wtara1_ext : extOk wtara1 DyrSpec.wtara1 [] = true := by decide +kernel
theorem wtara1_dir : dirOk wtara1 DyrSpec.wtara1 [] = true := by decide +kernel

theorem wtdta1_format : formatOk DyrSpec.wtdta1 = true := by decide +kernel
theorem wtdta1_ext : extOk wtdta1 DyrSpec.wtdta1 [] = true := by decide +kernel
theorem wtdta1_dir : dirOk wtdta1 DyrSpec.wtdta1 [] = true := by decide +kernel

theorem wtpta1_format : formatOk DyrSpec.wtpta1 = true := by decide +kernel
theorem wtpta1_ext : extOk wtpta1 DyrSpec.wtpta1 [] = true := by decide +kernel
theorem wtpta1_dir : dirOk wtpta1 DyrSpec.wtpta1 [] = true := by decide +kernel

theorem wttqa1_format : formatOk DyrSpec.wttqa1 = true := by decide +kernel
theorem wttqa1_ext : extOk wttqa1 DyrSpec.wttqa1 [] = true := by decide +kernel
theorem wttqa1_dir : dirOk wttqa1 DyrSpec.wttqa1 [] = true := by decide +kernel

end GridPACK.Dyr
