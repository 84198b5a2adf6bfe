import Verif.Model.Dyr

/-! The steps of `parse`, `store` and `extract` of the classes in src/parser/parser_classes, in their order.  Each
list was copied from the source; a name in capital letters is the string of the macro of this name (the macros are
in src/parser/variable_defs).  `RELAY_NUMBER`, which the relay classes count up first, is in DyrFile.lean. -/
namespace GridPACK.Dyr

/-- src/parser/parser_classes/acmtblu1.hpp: `parse` 314-656, `store` 663-860, `extract` 40-305. -/
def acmtblu1 : Kind where
  parse := [
    pName "LOAD_MODEL" 3, pDbl "LOAD_TSTALL" 11, pDbl "LOAD_TRESTART" 12, pDbl "LOAD_TV" 13, pDbl "LOAD_TF" 14,
    pDbl "LOAD_COMPLF" 15, pDbl "LOAD_COMPPF" 16, pDbl "LOAD_VSTALL" 17, pDbl "LOAD_RSTALL" 18,
    pDbl "LOAD_XSTALL" 19, pDbl "LOAD_LFADJ" 20, pDbl "LOAD_KP1" 21, pDbl "LOAD_NP1" 22, pDbl "LOAD_KQ1" 23,
    pDbl "LOAD_NQ1" 24, pDbl "LOAD_KP2" 25, pDbl "LOAD_NP2" 26, pDbl "LOAD_KQ2" 27, pDbl "LOAD_NQ2" 28,
    pDbl "LOAD_VBRK" 29, pDbl "LOAD_FRST" 30, pDbl "LOAD_VRST" 31, pDbl "LOAD_CMPKPF" 32,
    pDbl "LOAD_CMPKQF" 33, pDbl "LOAD_VC1OFF" 34, pDbl "LOAD_VC2OFF" 35, pDbl "LOAD_VC1ON" 36,
    pDbl "LOAD_VC2ON" 37, pDbl "LOAD_TTH" 38, pDbl "LOAD_TH1T" 39, pDbl "LOAD_TH2T" 40, pDbl "LOAD_FUVR" 41,
    pDbl "LOAD_UVTR1" 42, pDbl "LOAD_TTR1" 43, pDbl "LOAD_UVTR1" 44, pDbl "LOAD_TTR2" 45,
    pDbl "LOAD_AC_PERC" 46]
  store := [
    ⟨none, "model", (.name 3)⟩, ⟨some 2, "id", (.tag 2)⟩, sDbl "tstall" 11, sDbl "trestart" 12, sDbl "tv" 13,
    sDbl "tf" 14, sDbl "complf" 15, sDbl "comppf" 16, sDbl "vstall" 17, sDbl "rstall" 18, sDbl "xstall" 19,
    sDbl "lfadj" 20, sDbl "kp1" 21, sDbl "np1" 22, sDbl "kq1" 23, sDbl "nq1" 24, sDbl "kp2" 25, sDbl "np2" 26,
    sDbl "kq2" 27, sDbl "nq2" 28, sDbl "vbrk" 29, sDbl "frst" 30, sDbl "vrst" 31, sDbl "cmpkpf" 32,
    sDbl "cmpkqf" 33, sDbl "vc1off" 34, sDbl "vc2off" 35, sDbl "vc1on" 36, sDbl "vc2on" 37, sDbl "tth" 38,
    sDbl "th1t" 39, sDbl "th2t" 40, sDbl "fuvr" 41, sDbl "uvtr1" 42, sDbl "ttr1" 43, sDbl "uvtr2" 44,
    sDbl "ttr2" 45, sDbl "load_ac_perc" 46]
  extract := [
    eStr "LOAD_MODEL" "model", eDbl "LOAD_TSTALL" "tstall", eDbl "LOAD_TRESTART" "trestart",
    eDbl "LOAD_TV" "tv", eDbl "LOAD_TF" "tf", eDbl "LOAD_COMPLF" "complf", eDbl "LOAD_COMPPF" "comppf",
    eDbl "LOAD_VSTALL" "vstall", eDbl "LOAD_RSTALL" "rstall", eDbl "LOAD_XSTALL" "xstall",
    eDbl "LOAD_LFADJ" "lfadj", eDbl "LOAD_KP1" "kp1", eDbl "LOAD_NP1" "np1", eDbl "LOAD_KQ1" "kq1",
    eDbl "LOAD_NQ1" "kq1", eDbl "LOAD_KP2" "kp2", eDbl "LOAD_NP2" "np2", eDbl "LOAD_KQ2" "kq2",
    eDbl "LOAD_NQ2" "kq2", eDbl "LOAD_VBRK" "vbrk", eDbl "LOAD_FRST" "frst", eDbl "LOAD_VRST" "vrst",
    eDbl "LOAD_CMPKPF" "cmpkpf", eDbl "LOAD_CMPKQF" "cmpkqf", eDbl "LOAD_VC1OFF" "vc1off",
    eDbl "LOAD_VC2OFF" "vc2off", eDbl "LOAD_VC1ON" "vc1on", eDbl "LOAD_VC2ON" "vc2on", eDbl "LOAD_TTH" "tth",
    eDbl "LOAD_TH1T" "th1t", eDbl "LOAD_TH2T" "th2t", eDbl "LOAD_FUVR" "fuvr", eDbl "LOAD_UVTR1" "uvtr1",
    eDbl "LOAD_TTR1" "ttr1", eDbl "LOAD_UVTR2" "uvtr2", eDbl "LOAD_TTR2" "ttr2",
    eDbl "LOAD_AC_PERC" "load_ac_perc"]

/-- src/parser/parser_classes/cim6bl.hpp: `parse` 238-481, `store` 488-629, `extract` 40-229. -/
def cim6bl : Kind where
  parse := [
    pName "LOAD_MODEL" 1, pInt "LOAD_IT" 3, pDbl "LOAD_RA" 4, pDbl "LOAD_XA" 5, pDbl "LOAD_XM" 6,
    pDbl "LOAD_R1" 7, pDbl "LOAD_X1" 8, pDbl "LOAD_R2" 9, pDbl "LOAD_X2" 10, pDbl "LOAD_E1" 11,
    pDbl "LOAD_SE1" 12, pDbl "LOAD_E2" 13, pDbl "LOAD_SE2" 14, pDbl "LOAD_MBASE" 15, pDbl "LOAD_PMULT" 16,
    pDbl "LOAD_H" 17, pDbl "LOAD_VI" 18, pDbl "LOAD_TI" 19, pDbl "LOAD_TB" 20, pDbl "LOAD_A" 21,
    pDbl "LOAD_B" 22, pDbl "LOAD_D" 23, pDbl "LOAD_E" 24, pDbl "LOAD_C0" 25, pDbl "LOAD_TNOM" 26,
    pDbl "LOAD_DYN_PERC" 27]
  store := [
    ⟨none, "model", (.name 1)⟩, ⟨some 2, "id", (.tag 2)⟩, sInt "it" 3, sDbl "ra" 4, sDbl "xa" 5, sDbl "xm" 6,
    sDbl "r1" 7, sDbl "x1" 8, sDbl "r2" 9, sDbl "x2" 10, sDbl "e1" 11, sDbl "se1" 12, sDbl "e2" 13,
    sDbl "se2" 14, sDbl "mbase" 15, sDbl "pmult" 16, sDbl "h" 17, sDbl "vi" 18, sDbl "ti" 19, sDbl "tb" 20,
    sDbl "a" 21, sDbl "b" 22, sDbl "d" 23, sDbl "e" 24, sDbl "c0" 25, sDbl "tnom" 26, sDbl "dynload_perc" 27]
  extract := [
    eStr "LOAD_MODEL" "model", eInt "LOAD_IT" "it", eDbl "LOAD_RA" "ra", eDbl "LOAD_XA" "xa",
    eDbl "LOAD_XM" "xm", eDbl "LOAD_R1" "r1", eDbl "LOAD_X1" "r1", eDbl "LOAD_R2" "r2", eDbl "LOAD_X2" "x2",
    eDbl "LOAD_E1" "e1", eDbl "LOAD_SE1" "se1", eDbl "LOAD_E2" "se2", eDbl "LOAD_SE2" "se2",
    eDbl "LOAD_MBASE" "mbase", eDbl "LOAD_PMULT" "pmult", eDbl "LOAD_H" "h", eDbl "LOAD_VI" "vi",
    eDbl "LOAD_TI" "ti", eDbl "LOAD_TB" "tb", eDbl "LOAD_A" "a", eDbl "LOAD_B" "b", eDbl "LOAD_D" "d",
    eDbl "LOAD_E" "e", eDbl "LOAD_C0" "c0", eDbl "LOAD_TNOM" "tnom", eDbl "LOAD_DYN_PERC" "dynload_perc"]

/-- src/parser/parser_classes/cmldblu1.hpp: `parse` 993-2207, `store` 2214-2895, `extract` 40-984. -/
def cmldblu1 : Kind where
  parse := [
    pName "LOAD_MODEL" 3, pInt "LOAD_IT" 5, pDbl "LOAD_MVA" 11, pDbl "LOAD_BSS" 12, pDbl "LOAD_RFDR" 13,
    pDbl "LOAD_XFDR" 14, pDbl "LOAD_FB" 15, pDbl "LOAD_XXF" 16, pDbl "LOAD_TFIXHS" 17, pDbl "LOAD_TFIXLS" 18,
    pDbl "LOAD_LTC" 19, pDbl "LOAD_TMIN" 20, pDbl "LOAD_TMAX" 21, pDbl "LOAD_STEP" 22, pDbl "LOAD_VMIN" 23,
    pDbl "LOAD_VMAX" 24, pDbl "LOAD_TDEL" 25, pDbl "LOAD_TTAP" 26, pDbl "LOAD_RCOMP" 27, pDbl "LOAD_XCOMP" 28,
    pDbl "LOAD_FMA" 29, pDbl "LOAD_FMB" 30, pDbl "LOAD_FMC" 31, pDbl "LOAD_FMD" 32, pDbl "LOAD_FEL" 33,
    pDbl "LOAD_PFEL" 34, pDbl "LOAD_VD1" 35, pDbl "LOAD_VD2" 36, pDbl "LOAD_PFS" 37, pDbl "LOAD_P1E" 38,
    pDbl "LOAD_P1C" 39, pDbl "LOAD_P2E" 40, pDbl "LOAD_P2C" 41, pDbl "LOAD_PFREQ" 42, pDbl "LOAD_Q1E" 43,
    pDbl "LOAD_Q1C" 44, pDbl "LOAD_Q2E" 45, pDbl "LOAD_Q2C" 46, pDbl "LOAD_QFREQ" 47, pInt "LOAD_MTPA" 48,
    pDbl "LOAD_LFMA" 49, pDbl "LOAD_RSA" 50, pDbl "LOAD_LSA" 51, pDbl "LOAD_LPA" 52, pDbl "LOAD_LPPA" 53,
    pDbl "LOAD_TPOA" 54, pDbl "LOAD_TPPOA" 55, pDbl "LOAD_HA" 56, pDbl "LOAD_ETRQA" 57, pDbl "LOAD_VTR1A" 58,
    pDbl "LOAD_TTR1A" 59, pDbl "LOAD_FTR1A" 60, pDbl "LOAD_VRC1A" 61, pDbl "LOAD_TRC1A" 62,
    pDbl "LOAD_VTR2A" 63, pDbl "LOAD_TTR2A" 64, pDbl "LOAD_FTR2A" 65, pDbl "LOAD_VRC2A" 66,
    pDbl "LOAD_TRC2A" 67, pInt "LOAD_MTPB" 68, pDbl "LOAD_LFMB" 69,
    ⟨some 71, "LOAD_RSB", .double, "LOAD_RSB", (.dbl 70), "LOAD_RSB", (.dbl 70)⟩,
    ⟨some 72, "LOAD_LSB", .double, "LOAD_LSB", (.dbl 71), "LOAD_LSB", (.dbl 71)⟩, pDbl "LOAD_LPB" 72,
    pDbl "LOAD_LPPB" 73, pDbl "LOAD_TPOB" 74, pDbl "LOAD_TPPOB" 75, pDbl "LOAD_HB" 76, pDbl "LOAD_ETRQB" 77,
    pDbl "LOAD_VTR1B" 78, pDbl "LOAD_TTR1B" 79, pDbl "LOAD_FTR1B" 80, pDbl "LOAD_VRC1B" 81,
    pDbl "LOAD_TRC1B" 82, pDbl "LOAD_VTR2B" 83, pDbl "LOAD_TTR2B" 84, pDbl "LOAD_FTR2B" 85,
    pDbl "LOAD_VRC2B" 86, pDbl "LOAD_TRC2B" 87, pInt "LOAD_MTPC" 88, pDbl "LOAD_LFMC" 89, pDbl "LOAD_RSC" 90,
    pDbl "LOAD_LSC" 91, pDbl "LOAD_LPC" 92, pDbl "LOAD_LPPC" 93, pDbl "LOAD_TPOC" 94, pDbl "LOAD_TPPOC" 95,
    pDbl "LOAD_HC" 96, pDbl "LOAD_ETRQC" 97, pDbl "LOAD_VTR1C" 98, pDbl "LOAD_TTR1C" 99, pDbl "LOAD_FTR1C" 100,
    pDbl "LOAD_VRC1C" 101, pDbl "LOAD_TRC1C" 102, pDbl "LOAD_VTR2C" 103, pDbl "LOAD_TTR2C" 104,
    pDbl "LOAD_FTR2C" 105, pDbl "LOAD_VRC2C" 106, pDbl "LOAD_TRC2C" 107, pDbl "LOAD_TSTALL" 108,
    pDbl "LOAD_TRST" 109, pDbl "LOAD_TV" 110, pDbl "LOAD_TF" 111, pDbl "LOAD_LFMD" 112, pDbl "LOAD_COMPPF" 113,
    pDbl "LOAD_VSTALL" 114, pDbl "LOAD_RSTALL" 115, pDbl "LOAD_XSTALL" 116, pDbl "LOAD_LFADJ" 117,
    pDbl "LOAD_KP1" 118, pDbl "LOAD_NP1" 119, pDbl "LOAD_KQ1" 120, pDbl "LOAD_NQ1" 121, pDbl "LOAD_KP2" 122,
    pDbl "LOAD_NP2" 123, pDbl "LOAD_KQ2" 124, pDbl "LOAD_NQ2" 125, pDbl "LOAD_VBRK" 126, pDbl "LOAD_FRST" 127,
    pDbl "LOAD_VRST" 128, pDbl "LOAD_CMPKPF" 129, pDbl "LOAD_CMPKQF" 130, pDbl "LOAD_VC1OFF" 131,
    pDbl "LOAD_VC2OFF" 132, pDbl "LOAD_VC1ON" 133, pDbl "LOAD_VC2ON" 134, pDbl "LOAD_TTH" 135,
    pDbl "LOAD_TH1T" 136, pDbl "LOAD_TH2T" 137, pDbl "LOAD_FUVR" 138, pDbl "LOAD_UVTR1" 139,
    pDbl "LOAD_TTR1" 140, pDbl "LOAD_UVTR2" 141, pDbl "LOAD_TTR2" 142]
  store := [
    ⟨none, "model", (.name 3)⟩, ⟨some 2, "id", (.tag 2)⟩, sInt "it" 5, sDbl "mva" 11, sDbl "bss" 12,
    sDbl "rfdr" 13, sDbl "xfdr" 14, sDbl "fb" 15, sDbl "xxf" 16, sDbl "tfixhs" 17, sDbl "tfixls" 18,
    sDbl "ltc" 19, sDbl "tmin" 20, sDbl "tmax" 21, sDbl "step" 22, sDbl "vmin" 23, sDbl "vmax" 24,
    sDbl "tdel" 25, sDbl "ttap" 26, sDbl "rcomp" 27, sDbl "xcomp" 28, sDbl "fma" 29, sDbl "fmb" 30,
    sDbl "fmc" 31, sDbl "fmd" 32, sDbl "fel" 33, sDbl "pfel" 34, sDbl "vd1" 35, sDbl "vd2" 36, sDbl "pfs" 37,
    sDbl "p1e" 38, sDbl "p1c" 39, sDbl "p2e" 40, sDbl "p2c" 41, sDbl "pfreq" 42, sDbl "q1e" 43, sDbl "q1c" 44,
    sDbl "q2e" 45, sDbl "q2c" 46, sDbl "qfreq" 47, sInt "mtpa" 48, sDbl "lfma" 49, sDbl "rsa" 50,
    sDbl "lsa" 51, sDbl "lpa" 52, sDbl "lppa" 53, sDbl "tpoa" 54, sDbl "tppoa" 55, sDbl "ha" 56,
    sDbl "etrqa" 57, sDbl "vtr1a" 58, sDbl "ttr1a" 59, sDbl "ftr1a" 60, sDbl "vrc1a" 61, sDbl "trc1a" 62,
    sDbl "vtr2a" 63, sDbl "ttr2a" 64, sDbl "ftr2a" 65, sDbl "vrc2a" 66, sDbl "trc2a" 67, sInt "mtpb" 68,
    sDbl "lfmb" 69, sDbl "rsb" 70, sDbl "lsb" 71, sDbl "lpb" 72, sDbl "lppb" 73, sDbl "tpob" 74,
    sDbl "tppob" 75, sDbl "hb" 76, sDbl "etrqb" 77, sDbl "vtr1b" 78, sDbl "ttr1b" 79, sDbl "ftr1b" 80,
    sDbl "vrc1b" 81, sDbl "trc1b" 82, sDbl "vtr2b" 83, sDbl "ttr2b" 84, sDbl "ftr2b" 85, sDbl "vrc2b" 86,
    sDbl "trc2b" 87, sInt "mtpc" 88, sDbl "lfmc" 89, sDbl "rsc" 90, sDbl "lsc" 91, sDbl "lpc" 92,
    sDbl "lppc" 93, sDbl "tpoc" 94, sDbl "tppoc" 95, sDbl "hc" 96, sDbl "etrqc" 97, sDbl "vtr1c" 98,
    sDbl "ttr1c" 99, sDbl "ftr1c" 100, sDbl "vrc1c" 101, sDbl "trc1c" 102, sDbl "vtr2c" 103, sDbl "ttr2c" 104,
    sDbl "ftr2c" 105, sDbl "vrc2c" 106, sDbl "trc2c" 107, sDbl "tstall" 108, sDbl "trst" 109, sDbl "tv" 110,
    sDbl "tf" 111, sDbl "lfmd" 112, sDbl "comppf" 113, sDbl "vstall" 114, sDbl "rstall" 115, sDbl "xstall" 116,
    sDbl "lfadj" 117, sDbl "kp1" 118, sDbl "np1" 119, sDbl "kq1" 120, sDbl "nq1" 121, sDbl "kp2" 122,
    sDbl "np2" 123, sDbl "kq2" 124, sDbl "nq2" 125, sDbl "vbrk" 126, sDbl "frst" 127, sDbl "vrst" 128,
    sDbl "cmpkpf" 129, sDbl "cmpkqf" 130, sDbl "vc1off" 131, sDbl "vc2off" 132, sDbl "vc1on" 133,
    sDbl "vc2on" 134, sDbl "tth" 135, sDbl "th1t" 136, sDbl "th2t" 137, sDbl "fuvr" 138, sDbl "uvtr1" 139,
    sDbl "ttr1" 140, sDbl "uvtr2" 141, sDbl "ttr2" 142]
  extract := [
    eStr "LOAD_MODEL" "model", eInt "LOAD_IT" "it", eDbl "LOAD_MVA" "mva", eDbl "LOAD_BSS" "bss",
    eDbl "LOAD_RFDR" "rfdr", eDbl "LOAD_XFDR" "xfdr", eDbl "LOAD_FB" "fb", eDbl "LOAD_XXF" "xxf",
    eDbl "LOAD_TFIXHS" "tfixhs", eDbl "LOAD_TFIXLS" "tfixls", eDbl "LOAD_LTC" "ltc", eDbl "LOAD_TMIN" "tmin",
    eDbl "LOAD_TMAX" "tmax", eDbl "LOAD_STEP" "step", eDbl "LOAD_VMIN" "vmin", eDbl "LOAD_VMAX" "vmax",
    eDbl "LOAD_TDEL" "tdel", eDbl "LOAD_TTAP" "ttap", eDbl "LOAD_RCOMP" "rcomp", eDbl "LOAD_XCOMP" "xcomp",
    eDbl "LOAD_FMA" "fma", eDbl "LOAD_FMB" "fmb", eDbl "LOAD_FMC" "fmc", eDbl "LOAD_FMD" "fmd",
    eDbl "LOAD_FEL" "fel", eDbl "LOAD_PFEL" "pfel", eDbl "LOAD_VD1" "vd1", eDbl "LOAD_VD2" "vd2",
    eDbl "LOAD_PFS" "pfs", eDbl "LOAD_P1E" "p1e", eDbl "LOAD_P1C" "p1c", eDbl "LOAD_P2E" "p2e",
    eDbl "LOAD_P2C" "p2c", eDbl "LOAD_PFREQ" "pfreq", eDbl "LOAD_Q1E" "q1e", eDbl "LOAD_Q1C" "q1c",
    eDbl "LOAD_Q2E" "q2e", eDbl "LOAD_Q2C" "q2c", eDbl "LOAD_QFREQ" "qfreq", eInt "LOAD_MTPA" "mtpa",
    eDbl "LOAD_LFMA" "lfma", eDbl "LOAD_RSA" "rsa", eDbl "LOAD_LSA" "lsa", eDbl "LOAD_LPA" "lpa",
    eDbl "LOAD_LPPA" "lppa", eDbl "LOAD_TPOA" "tpoa", eDbl "LOAD_TPPOA" "tppoa", eDbl "LOAD_HA" "ha",
    eDbl "LOAD_ETRQA" "etrqa", eDbl "LOAD_VTR1A" "vtr1a", eDbl "LOAD_TTR1A" "ttr1a", eDbl "LOAD_FTR1A" "ftr1a",
    eDbl "LOAD_VRC1A" "vrc1a", eDbl "LOAD_TRC1A" "trc1a", eDbl "LOAD_VTR2A" "vtr2a", eDbl "LOAD_TTR2A" "ttr2a",
    eDbl "LOAD_FTR2A" "ftr2a", eDbl "LOAD_VRC2A" "vrc2a", eDbl "LOAD_TRC2A" "trc2a", eInt "LOAD_MTPB" "mtpb",
    eDbl "LOAD_LFMB" "lfmb", eDbl "LOAD_RSB" "rsb", eDbl "LOAD_LSB" "lsb", eDbl "LOAD_LPB" "lpb",
    eDbl "LOAD_LPPB" "lppb", eDbl "LOAD_TPOB" "tpob", eDbl "LOAD_TPPOB" "tppob", eDbl "LOAD_HB" "hb",
    eDbl "LOAD_ETRQB" "etrqb", eDbl "LOAD_VTR1B" "vtr1b", eDbl "LOAD_TTR1B" "ttr1b", eDbl "LOAD_FTR1B" "ftr1b",
    eDbl "LOAD_VRC1B" "vrc1b", eDbl "LOAD_TRC1B" "trc1b", eDbl "LOAD_VTR2B" "vtr2b", eDbl "LOAD_TTR2B" "ttr2b",
    eDbl "LOAD_FTR2B" "ftr2b", eDbl "LOAD_VRC2B" "vrc2b", eDbl "LOAD_TRC2B" "trc2b", eInt "LOAD_MTPC" "mtpc",
    eDbl "LOAD_LFMC" "lfmc", eDbl "LOAD_RSC" "rsc", eDbl "LOAD_LSC" "lsc", eDbl "LOAD_LPC" "lpc",
    eDbl "LOAD_LPPC" "lppc", eDbl "LOAD_TPOC" "tpoc", eDbl "LOAD_TPPOC" "tppoc", eDbl "LOAD_HC" "hc",
    eDbl "LOAD_ETRQC" "etrqc", eDbl "LOAD_VTR1C" "vtr1c", eDbl "LOAD_TTR1C" "ttr1c", eDbl "LOAD_FTR1C" "ftr1c",
    eDbl "LOAD_VRC1C" "vrc1c", eDbl "LOAD_TRC1C" "trc1c", eDbl "LOAD_VTR2C" "vtr2c", eDbl "LOAD_TTR2C" "ttr2c",
    eDbl "LOAD_FTR2C" "ftr2c", eDbl "LOAD_VRC2C" "vrc2c", eDbl "LOAD_TRC2C" "trc2c",
    eDbl "LOAD_TSTALL" "tstall", eDbl "LOAD_TRST" "trst", eDbl "LOAD_TV" "tv", eDbl "LOAD_TF" "tf",
    eDbl "LOAD_LFMD" "lfmd", eDbl "LOAD_COMPPF" "comppf", eDbl "LOAD_VSTALL" "vstall",
    eDbl "LOAD_RSTALL" "rstall", eDbl "LOAD_XSTALL" "xstall", eDbl "LOAD_LFADJ" "lfadj", eDbl "LOAD_KP1" "kp1",
    eDbl "LOAD_NP1" "np1", eDbl "LOAD_KQ1" "kq1", eDbl "LOAD_NQ1" "nq1", eDbl "LOAD_KP2" "kp2",
    eDbl "LOAD_NP2" "np2", eDbl "LOAD_KQ2" "kq2", eDbl "LOAD_NQ2" "nq2", eDbl "LOAD_VBRK" "vbrk",
    eDbl "LOAD_FRST" "frst", eDbl "LOAD_VRST" "vrst", eDbl "LOAD_CMPKPF" "cmpkpf", eDbl "LOAD_CMPKQF" "cmpkqf",
    eDbl "LOAD_VC1OFF" "vc1off", eDbl "LOAD_VC2OFF" "vc2off", eDbl "LOAD_VC1ON" "vc1on",
    eDbl "LOAD_VC2ON" "vc2on", eDbl "LOAD_TTH" "tth", eDbl "LOAD_TH1T" "th1t", eDbl "LOAD_TH2T" "th2t",
    eDbl "LOAD_FUVR" "fuvr", eDbl "LOAD_UVTR1" "uvtr1", eDbl "LOAD_TTR1" "ttr2",
    ⟨none, "LOAD_UVTR2", .double, "LOAD_UVTR2", (.field .double "uvtr2"), "LOAD_VC2ON", (.field .double "uvtr2")⟩,
    eDbl "LOAD_TTR2" "ttr2"]

/-- src/parser/parser_classes/distr1.hpp: `parse` 329-692, `store` 699-905, `extract` 40-320. -/
def distr1 : Kind where
  parse := [
    pName "RELAY_MODEL" 1, pTagG "RELAY_ID" 3, pInt "RELAY_RS" 4, pInt "RELAY_MTYPE" 5, pInt "RELAY_BMON" 6,
    pInt "RELAY_IBUS1" 7, pInt "RELAY_JBUS1" 8, pTagG "RELAY_ID1" 9, pInt "RELAY_IBUS2" 10,
    pInt "RELAY_JBUS2" 11, pTagG "RELAY_ID2" 12, pInt "RELAY_IBUS3" 13, pInt "RELAY_JBUS3" 14,
    pTagG "RELAY_ID3" 15, pDbl "RELAY_ZONE1_TIME" 16, pDbl "RELAY_ZONE1_REACH" 17,
    pDbl "RELAY_ZONE1_CENANG" 18, pDbl "RELAY_ZONE1_CENDIS" 19, pDbl "RELAY_ZONE2_TIME" 20,
    pDbl "RELAY_ZONE2_REACH" 21, pDbl "RELAY_ZONE2_CENANG" 22, pDbl "RELAY_ZONE2_CENDIS" 23,
    pDbl "RELAY_ZONE3_TIME" 24, pDbl "RELAY_ZONE3_REACH" 25, pDbl "RELAY_ZONE3_CENANG" 26,
    pDbl "RELAY_ZONE3_CENDIS" 27, pDbl "RELAY_DIRANG" 28, pDbl "RELAY_THCUR" 29, pDbl "RELAY_SEBTIME" 30,
    pDbl "RELAY_SERCTIME" 31, pDbl "RELAY_TRBTIME" 32, pDbl "RELAY_TRRCTIME" 33, pInt "RELAY_BLTYPE1" 34,
    pDbl "RELAY_BLINT1" 35, pDbl "RELAY_BLRO1" 36, pInt "RELAY_BLTYPE2" 37, pDbl "RELAY_BLINT2" 38,
    pDbl "RELAY_BLRO2" 39]
  store := [
    sInt "from_bus" 0, ⟨none, "to_bus", (.int 2)⟩, ⟨none, "model", (.name 1)⟩, ⟨some 3, "id", (.tag 3)⟩,
    sInt "rs" 4, sInt "mtype" 5, sInt "bmon" 6, sInt "ibus1" 7, sInt "jbus1" 8, ⟨some 9, "id1", (.tag 9)⟩,
    sInt "ibus2" 10, sInt "jbus2" 11, ⟨some 12, "id2", (.tag 12)⟩, sInt "ibus3" 13, sInt "jbus3" 14,
    ⟨some 15, "id3", (.tag 15)⟩, sDbl "zone1_time" 16, sDbl "zone1_reach" 17, sDbl "zone1_cenang" 18,
    sDbl "zone1_cendis" 19, sDbl "zone2_time" 20, sDbl "zone2_reach" 21, sDbl "zone2_cenang" 22,
    sDbl "zone2_cendis" 23, sDbl "zone3_time" 24, sDbl "zone3_reach" 25, sDbl "zone3_cenang" 26,
    sDbl "zone3_cendis" 27, sDbl "dirang" 28, sDbl "thcur" 29, sDbl "sebtime" 30, sDbl "serctime" 31,
    sDbl "trbtime" 32, sDbl "trrctime" 33, sInt "bltype1" 34, sDbl "blint1" 35, sDbl "blro1" 36,
    sInt "bltype2" 37, sDbl "blint2" 38, sDbl "blro2" 39]
  extract := [
    eStr "RELAY_MODEL" "model", eStr "RELAY_ID" "id", eInt "RELAY_RS" "rs", eInt "RELAY_MTYPE" "mtype",
    eInt "RELAY_BMON" "bmon", eInt "RELAY_IBUS1" "ibus1", eInt "RELAY_JBUS1" "jbus1", eStr "RELAY_ID1" "id1",
    eInt "RELAY_IBUS2" "ibus2", eInt "RELAY_JBUS2" "jbus2", eStr "RELAY_ID2" "id2", eInt "RELAY_IBUS3" "ibus3",
    eInt "RELAY_JBUS3" "jbus3", eStr "RELAY_ID3" "id3", eDbl "RELAY_ZONE1_TIME" "zone1_time",
    eDbl "RELAY_ZONE1_REACH" "zone1_reach", eDbl "RELAY_ZONE1_CENANG" "zone1_cenang",
    eDbl "RELAY_ZONE1_CENDIS" "zone1_cendis", eDbl "RELAY_ZONE2_TIME" "zone2_time",
    eDbl "RELAY_ZONE2_REACH" "zone2_reach", eDbl "RELAY_ZONE2_CENANG" "zone2_cenang",
    eDbl "RELAY_ZONE2_CENDIS" "zone2_cendis", eDbl "RELAY_ZONE3_TIME" "zone2_time",
    eDbl "RELAY_ZONE3_REACH" "zone3_reach", eDbl "RELAY_ZONE3_CENANG" "zone3_cenang",
    eDbl "RELAY_ZONE3_CENDIS" "zone3_cendis", eDbl "RELAY_DIRANG" "dirang", eDbl "RELAY_THCUR" "thcur",
    eDbl "RELAY_SEBTIME" "sebtime", eDbl "RELAY_SERCTIME" "serctime", eDbl "RELAY_TRBTIME" "trbtime",
    eDbl "RELAY_TRRCTIME" "trrctime", eInt "RELAY_BLTYPE1" "bltype1", eDbl "RELAY_BLINT1" "blint1",
    eDbl "RELAY_BLRO1" "blro1", eInt "RELAY_BLTYPE2" "bltype2", eDbl "RELAY_BLINT2" "blint2",
    eDbl "RELAY_BLRO2" "blro2"]

/-- src/parser/parser_classes/esst1a.hpp: `parse` 207-451, `store` 458-578, `extract` 40-199. -/
def esst1a : Kind where
  parse := [
    pFlag "HAS_EXCITER", pName "EXCITER_MODEL" 1, pDbl "EXCITER_UEL" 3, pDbl "EXCITER_VOS" 4,
    pDbl "EXCITER_TR" 5, pDbl "EXCITER_VIMAX" 6, pDbl "EXCITER_VIMIN" 7, pDbl "EXCITER_TC" 8,
    pDbl "EXCITER_TB" 9, pDbl "EXCITER_TC1" 10, pDbl "EXCITER_TB1" 11, pDbl "EXCITER_KA" 12,
    pDbl "EXCITER_TA" 13, pDbl "EXCITER_VAMAX" 14, pDbl "EXCITER_VAMIN" 15, pDbl "EXCITER_VRMAX" 16,
    pDbl "EXCITER_VRMIN" 17, pDbl "EXCITER_KC" 18, pDbl "EXCITER_KF" 19, pDbl "EXCITER_TF" 20,
    pDbl "EXCITER_KLR" 21, pDbl "EXCITER_ILR" 22]
  store := [
    sInt "bus_id" 0, ⟨none, "gen_id", (.tag 2)⟩, ⟨none, "model", (.name 1)⟩, sDbl "uel" 3, sDbl "vos" 4,
    sDbl "ex_tr" 5, sDbl "vimax" 6, sDbl "vimin" 7, sDbl "ex_tc" 8, sDbl "ex_tb" 9, sDbl "tc1" 10,
    sDbl "tb1" 11, sDbl "ex_ka" 12, sDbl "ex_ta" 13, sDbl "vamax" 14, sDbl "vamin" 15, sDbl "vrmax" 16,
    sDbl "vrmin" 17, sDbl "ex_kc" 18, sDbl "ex_kf" 19, sDbl "ex_tf" 20, sDbl "klr" 21, sDbl "ilr" 22]
  extract := [
    eFlag "HAS_EXCITER", eStr "EXCITER_MODEL" "model", eDbl "EXCITER_UEL" "uel", eDbl "EXCITER_VOS" "vos",
    eDbl "EXCITER_TR" "ex_tr", eDbl "EXCITER_VIMAX" "vimax", eDbl "EXCITER_VIMIN" "vimin",
    eDbl "EXCITER_TC" "ex_tc", eDbl "EXCITER_TB" "ex_tb", eDbl "EXCITER_TC1" "tc1", eDbl "EXCITER_TB1" "tb1",
    eDbl "EXCITER_KA" "ex_ka", eDbl "EXCITER_TA" "ex_ta", eDbl "EXCITER_VAMAX" "vamax",
    eDbl "EXCITER_VAMIN" "vamin", eDbl "EXCITER_VRMAX" "vrmax", eDbl "EXCITER_VRMIN" "vrmin",
    eDbl "EXCITER_KC" "ex_kc", eDbl "EXCITER_KF" "ex_kf", eDbl "EXCITER_TF" "ex_tf", eDbl "EXCITER_KLR" "klr",
    eDbl "EXCITER_ILR" "ilr"]

/-- src/parser/parser_classes/esst4b.hpp: `parse` 186-396, `store` 403-508, `extract` 40-178. -/
def esst4b : Kind where
  parse := [
    pFlag "HAS_EXCITER", pName "EXCITER_MODEL" 1, pDbl "EXCITER_TR" 3, pDbl "EXCITER_KPR" 4,
    pDbl "EXCITER_KIR" 5, pDbl "EXCITER_VRMAX" 6, pDbl "EXCITER_VRMIN" 7, pDbl "EXCITER_TA" 8,
    pDbl "EXCITER_KPM" 9, pDbl "EXCITER_KIM" 10, pDbl "EXCITER_VMMAX" 11, pDbl "EXCITER_VMMIN" 12,
    pDbl "EXCITER_KG" 13, pDbl "EXCITER_KP" 14, pDbl "EXCITER_KI" 15, pDbl "EXCITER_VBMAX" 16,
    pDbl "EXCITER_KC" 17, pDbl "EXCITER_XL" 18, pDbl "EXCITER_THETAP" 19]
  store := [
    sInt "bus_id" 0, ⟨none, "gen_id", (.tag 2)⟩, ⟨none, "model", (.name 1)⟩, sDbl "ex_tr" 3, sDbl "kpr" 4,
    sDbl "kir" 5, sDbl "vrmax" 6, sDbl "vrmin" 7, sDbl "ex_ta" 8, sDbl "kpm" 9, sDbl "kim" 10, sDbl "vmmax" 11,
    sDbl "vmmin" 12, sDbl "ex_kg" 13, sDbl "ex_kp" 14, sDbl "ex_ki" 15, sDbl "vbmax" 16, sDbl "ex_kc" 17,
    sDbl "ex_xl" 18, sDbl "thetap" 19]
  extract := [
    eFlag "HAS_EXCITER", eStr "EXCITER_MODEL" "model", eDbl "EXCITER_TR" "ex_tr", eDbl "EXCITER_KPR" "kpr",
    eDbl "EXCITER_KIR" "kir", eDbl "EXCITER_VRMAX" "vrmax", eDbl "EXCITER_VRMIN" "vrmin",
    eDbl "EXCITER_TA" "ex_ta", eDbl "EXCITER_KPM" "kpm", eDbl "EXCITER_KIM" "kim",
    eDbl "EXCITER_VMMAX" "vmmax", eDbl "EXCITER_VMMIN" "vmmin", eDbl "EXCITER_KG" "ex_kg",
    eDbl "EXCITER_KP" "ex_kp", eDbl "EXCITER_KI" "ex_ki", eDbl "EXCITER_VBMAX" "vbmax",
    eDbl "EXCITER_KC" "ex_kc", eDbl "EXCITER_XL" "ex_xl", eDbl "EXCITER_THETAP" "thetap"]

/-- src/parser/parser_classes/exdc1.hpp: `parse` 179-378, `store` 385-487, `extract` 40-171. -/
def exdc1 : Kind where
  parse := [
    pFlag "HAS_EXCITER", pName "EXCITER_MODEL" 1, pDbl "EXCITER_TR" 3, pDbl "EXCITER_KA" 4,
    pDbl "EXCITER_TA" 5, pDbl "EXCITER_TB" 6, pDbl "EXCITER_TC" 7, pDbl "EXCITER_VRMAX" 8,
    pDbl "EXCITER_VRMIN" 9, pDbl "EXCITER_KE" 10, pDbl "EXCITER_TE" 11, pDbl "EXCITER_KF" 12,
    pDbl "EXCITER_TF1" 13, pDbl "EXCITER_SWITCH" 14, pDbl "EXCITER_E1" 15, pDbl "EXCITER_SE1" 16,
    pDbl "EXCITER_E2" 17, pDbl "EXCITER_SE2" 18]
  store := [
    sInt "bus_id" 0, ⟨none, "gen_id", (.tag 2)⟩, ⟨none, "model", (.name 1)⟩, sDbl "ex_tr" 3, sDbl "ex_ka" 4,
    sDbl "ex_ta" 5, sDbl "ex_tb" 6, sDbl "ex_tc" 7, sDbl "vrmax" 8, sDbl "vrmin" 9, sDbl "ex_ke" 10,
    sDbl "ex_te" 11, sDbl "ex_kf" 12, sDbl "tf1" 13, sDbl "rswitch" 14, sDbl "ex_e1" 15, sDbl "se1" 16,
    sDbl "ex_e2" 17, sDbl "se2" 18]
  extract := [
    eFlag "HAS_EXCITER", eStr "EXCITER_MODEL" "model", eDbl "EXCITER_TR" "ex_tr", eDbl "EXCITER_KA" "ex_ka",
    eDbl "EXCITER_TA" "ex_ta", eDbl "EXCITER_TB" "ex_tb", eDbl "EXCITER_TC" "ex_tc",
    eDbl "EXCITER_VRMAX" "vrmax", eDbl "EXCITER_VRMIN" "vrmin", eDbl "EXCITER_KE" "ex_ke",
    eDbl "EXCITER_TE" "ex_te", eDbl "EXCITER_KF" "ex_kf", eDbl "EXCITER_TF1" "tf1",
    eDbl "EXCITER_SWITCH" "rswitch", eDbl "EXCITER_E1" "ex_e1", eDbl "EXCITER_SE1" "se1",
    eDbl "EXCITER_E2" "ex_e2", eDbl "EXCITER_SE2" "se2"]

/-- src/parser/parser_classes/frqtpat.hpp: `parse` 120-210, `store` 217-268, `extract` 40-111. -/
def frqtpat : Kind where
  parse := [
    pName "RELAY_MODEL" 1, pTagG "RELAY_GENID" 4,
    ⟨some 1, "RELAY_MINS", .int, "RELAY_MINS", (.int 0), "RELAY_MINS", (.int 0)⟩, pInt "RELAY_FREBUS" 2,
    pDbl "RELAY_FL" 5, pDbl "RELAY_FU" 6, pDbl "RELAY_TP" 7, pDbl "RELAY_TB" 8]
  store := [
    ⟨none, "bus_id", (.int 3)⟩, ⟨none, "model", (.name 1)⟩, ⟨some 4, "tag", (.tag 4)⟩,
    ⟨some 1, "mins", (.int 0)⟩, sInt "frebus" 2, sDbl "fl" 5, sDbl "fu" 6, sDbl "tp" 7, sDbl "tb" 8]
  extract := [
    eStr "RELAY_MODEL" "model", eStr "RELAY_GENID" "tag", eInt "RELAY_MINS" "mins",
    eInt "RELAY_FREBUS" "frebus", eDbl "RELAY_FL" "fl", eDbl "RELAY_FU" "fu", eDbl "RELAY_TP" "tp",
    eDbl "RELAY_TB" "tb"]

/-- src/parser/parser_classes/gast.hpp: `parse` 130-234, `store` 241-305, `extract` 40-122. -/
def gast : Kind where
  parse := [
    pFlag "HAS_GOVERNOR", pName "GOVERNOR_MODEL" 1, pDbl "GOVERNOR_R" 3, pDbl "GOVERNOR_T1" 4,
    pDbl "GOVERNOR_T2" 5, pDbl "GOVERNOR_T3" 6, pDbl "GOVERNOR_AT" 7, pDbl "GOVERNOR_KT" 8,
    pDbl "GOVERNOR_VMAX" 9, pDbl "GOVERNOR_VMIN" 10, pDbl "GOVERNOR_DT" 11]
  store := [
    sInt "bus_id" 0, ⟨none, "gen_id", (.tag 2)⟩, ⟨none, "model", (.name 1)⟩, sDbl "gv_r" 3, sDbl "gv_t1" 4,
    sDbl "gv_t2" 5, sDbl "gv_t3" 6, sDbl "gv_at" 7, sDbl "gv_kt" 8, sDbl "vmax" 9, sDbl "vmin" 10,
    sDbl "gv_dt" 11]
  extract := [
    eFlag "HAS_GOVERNOR", eStr "GOVERNOR_MODEL" "model", eDbl "GOVERNOR_R" "gv_r", eDbl "GOVERNOR_T1" "gv_t1",
    eDbl "GOVERNOR_T2" "gv_t2", eDbl "GOVERNOR_T3" "gv_t3", eDbl "GOVERNOR_AT" "gv_at",
    eDbl "GOVERNOR_KT" "gv_kt", eDbl "GOVERNOR_VMAX" "vmax", eDbl "GOVERNOR_VMIN" "vmin",
    eDbl "GOVERNOR_DT" "gv_dt"]

/-- src/parser/parser_classes/gdform.hpp: `parse` 195-385, `store` 392-509, `extract` 40-187. -/
def gdform : Kind where
  parse := [
    pName "GENERATOR_MODEL" 1, pDbl "GENERATOR_MQ" 3, pDbl "GENERATOR_KPV" 4, pDbl "GENERATOR_KIV" 5,
    ⟨some 6, "GENERATOR_MP", .double, "GENERATOR_MP", (.dbl 6), "GENERATOR_MP", (.dbl 10)⟩,
    pDbl "GENERATOR_KPPMAX" 7, pDbl "GENERATOR_KIPMAX" 8, pDbl "GENERATOR_PMAX" 9, pDbl "GENERATOR_PMIN" 10,
    pDbl "GENERATOR_EMAX" 11, pDbl "GENERATOR_EMIN" 12, pDbl "GENERATOR_TPF" 13, pDbl "GENERATOR_IMAX" 14,
    pDbl "GENERATOR_QMAX" 15, pDbl "GENERATOR_QMIN" 16, pDbl "GENERATOR_KPQMAX" 17, pDbl "GENERATOR_KIQMAX" 18,
    pDbl "GENERATOR_TQF" 19, pDbl "GENERATOR_TVF" 20,
    ⟨some 21, "GENERATOR_VFLAG", .double, "GENERATOR_VFLAG", (.int 21), "GENERATOR_VFLAG", (.int 21)⟩]
  store := [
    sInt "bus_id" 0, ⟨none, "gen_id", (.tag 2)⟩, ⟨none, "model", (.name 1)⟩, sDbl "mq" 3, sDbl "kpv" 4,
    sDbl "kiv" 5, sDbl "mp" 6, sDbl "kppmax" 7, sDbl "kipmax" 8, sDbl "pmax" 9, sDbl "pmin" 10, sDbl "emax" 11,
    sDbl "emin" 12, sDbl "tpf" 13, sDbl "imax" 14, sDbl "qmax" 15, sDbl "qmin" 16, sDbl "kpqmax" 17,
    sDbl "kiqmax" 18, sDbl "tqf" 19, sDbl "tvf" 20, sInt "vflag" 21]
  extract := [
    eStr "GENERATOR_MODEL" "model", eDbl "GENERATOR_MQ" "mq", eDbl "GENERATOR_KPV" "kpv",
    eDbl "GENERATOR_KIV" "kiv", eDbl "GENERATOR_MP" "mp", eDbl "GENERATOR_KPPMAX" "kppmax",
    eDbl "GENERATOR_KIPMAX" "kipmax", eDbl "GENERATOR_PMAX" "pmax", eDbl "GENERATOR_PMIN" "pmin",
    eDbl "GENERATOR_EMAX" "emax", eDbl "GENERATOR_EMIN" "emin", eDbl "GENERATOR_TPF" "tpf",
    eDbl "GENERATOR_IMAX" "imax", eDbl "GENERATOR_QMAX" "qmax", eDbl "GENERATOR_QMIN" "qmin",
    eDbl "GENERATOR_KPQMAX" "kpqmax", eDbl "GENERATOR_KIQMAX" "kiqmax", eDbl "GENERATOR_TQF" "tqf",
    eDbl "GENERATOR_TVF" "tvf", eInt "GENERATOR_VFLAG" "vflag"]

/-- src/parser/parser_classes/gencls.hpp: `parse` 86-133, `store` 140-175, `extract` 40-78. -/
def gencls : Kind where
  parse := [
    pName "GENERATOR_MODEL" 1, pDbl "GENERATOR_INERTIA_CONSTANT_H" 3, pDbl "GENERATOR_DAMPING_COEFFICENT_0" 4,
    pDbl "GENERATOR_TRANSIENT_REACTANCE" 5]
  store := [
    sInt "bus_id" 0, ⟨none, "gen_id", (.tag 2)⟩, ⟨none, "model", (.name 1)⟩, sDbl "inertia" 3,
    sDbl "damping" 4, sDbl "reactance" 5]
  extract := [
    eStr "GENERATOR_MODEL" "model", eDbl "GENERATOR_INERTIA_CONSTANT_H" "inertia",
    eDbl "GENERATOR_DAMPING_COEFFICENT_0" "damping", eDbl "GENERATOR_TRANSIENT_REACTANCE" "reactance"]

/-- src/parser/parser_classes/genrou.hpp: `parse` 181-350, `store` 357-447, `extract` 40-173. -/
def genrou : Kind where
  parse := [
    pName "GENERATOR_MODEL" 1, pDbl "GENERATOR_TDOP" 3, pDbl "GENERATOR_TDOPP" 4, pDbl "GENERATOR_TQOP" 5,
    pDbl "GENERATOR_TQOPP" 6, pDbl "GENERATOR_INERTIA_CONSTANT_H" 7, pDbl "GENERATOR_DAMPING_COEFFICENT_0" 8,
    pDbl "GENERATOR_XD" 9,
    ⟨some 10, "GENERATOR_XQ", .double, "GENERATOR_XQ", (.dbl 10), "GENERATOR_XQ", (.dbl 9)⟩,
    pDbl "GENERATOR_XDP" 11, pDbl "GENERATOR_XQP" 12, pDbl "GENERATOR_XDPP" 13, pDbl "GENERATOR_XL" 14,
    pDbl "GENERATOR_S1" 15, pDbl "GENERATOR_S12" 16]
  store := [
    sInt "bus_id" 0, ⟨none, "gen_id", (.tag 2)⟩, ⟨none, "model", (.name 1)⟩, sDbl "tdop" 3, sDbl "tdopp" 4,
    sDbl "tqop" 5, sDbl "tqopp" 6, sDbl "inertia" 7, sDbl "damping" 8, sDbl "gn_xd" 9, sDbl "gn_xq" 10,
    sDbl "xdp" 11, sDbl "xqp" 12, sDbl "xdpp" 13, sDbl "gn_xl" 14, sDbl "gn_s1" 15, sDbl "s12" 16]
  extract := [
    eStr "GENERATOR_MODEL" "model", eDbl "GENERATOR_TDOP" "tdop", eDbl "GENERATOR_TDOPP" "tdopp",
    eDbl "GENERATOR_TQOP" "tqopp", eDbl "GENERATOR_TQOPP" "tqopp",
    eDbl "GENERATOR_INERTIA_CONSTANT_H" "inertia", eDbl "GENERATOR_DAMPING_COEFFICENT_0" "damping",
    eDbl "GENERATOR_XD" "gn_xd", eDbl "GENERATOR_XQ" "gn_xq", eDbl "GENERATOR_XDP" "xdp",
    eDbl "GENERATOR_XQP" "xqp", eDbl "GENERATOR_XDPP" "xdpp", eDbl "GENERATOR_XL" "gn_xl",
    eDbl "GENERATOR_S1" "gn_s1", eDbl "GENERATOR_S12" "s12", eDbl "GENERATOR_TQOP" "tqop",
    eDbl "GENERATOR_XQP" "xqp"]

/-- src/parser/parser_classes/gensal.hpp: `parse` 150-297, `store` 304-384, `extract` 40-142. -/
def gensal : Kind where
  parse := [
    pName "GENERATOR_MODEL" 1, pDbl "GENERATOR_TDOP" 3, pDbl "GENERATOR_TDOPP" 4, pDbl "GENERATOR_TQOPP" 5,
    pDbl "GENERATOR_INERTIA_CONSTANT_H" 6, pDbl "GENERATOR_DAMPING_COEFFICENT_0" 7, pDbl "GENERATOR_XD" 8,
    pDbl "GENERATOR_XQ" 9, pDbl "GENERATOR_XDP" 10, pDbl "GENERATOR_XDPP" 11, pDbl "GENERATOR_XL" 12,
    pDbl "GENERATOR_S1" 13, pDbl "GENERATOR_S12" 14]
  store := [
    sInt "bus_id" 0, ⟨none, "gen_id", (.tag 2)⟩, ⟨none, "model", (.name 1)⟩, sDbl "tdop" 3, sDbl "tdopp" 4,
    sDbl "tqopp" 5, sDbl "inertia" 6, sDbl "damping" 7, sDbl "gn_xd" 8, sDbl "gn_xq" 9, sDbl "xdp" 10,
    sDbl "xdpp" 11, sDbl "gn_xl" 12, sDbl "gn_s1" 13, sDbl "s12" 14]
  extract := [
    eStr "GENERATOR_MODEL" "model", eDbl "GENERATOR_TDOP" "tdop", eDbl "GENERATOR_TDOPP" "tdopp",
    eDbl "GENERATOR_TQOPP" "tqopp", eDbl "GENERATOR_INERTIA_CONSTANT_H" "inertia",
    eDbl "GENERATOR_DAMPING_COEFFICENT_0" "damping", eDbl "GENERATOR_XD" "gn_xd", eDbl "GENERATOR_XQ" "gn_xq",
    eDbl "GENERATOR_XDP" "xdp", eDbl "GENERATOR_XDPP" "xdpp", eDbl "GENERATOR_XL" "gn_xl",
    eDbl "GENERATOR_S1" "gn_s1", eDbl "GENERATOR_S12" "s12"]

/-- src/parser/parser_classes/ggov1.hpp: `parse` 312-720, `store` 727-921, `extract` 40-304. -/
def ggov1 : Kind where
  parse := [
    pFlag "HAS_GOVERNOR", pName "GOVERNOR_MODEL" 1, pDbl "GOVERNOR_RSELECT" 3, pDbl "GOVERNOR_FLAGSWITCH" 4,
    pDbl "GOVERNOR_R" 5, pDbl "GOVERNOR_TPELEC" 6, pDbl "GOVERNOR_MAXERR" 7, pDbl "GOVERNOR_MINERR" 8,
    pDbl "GOVERNOR_KPGOV" 9, pDbl "GOVERNOR_KIGOV" 10, pDbl "GOVERNOR_KDGOV" 11, pDbl "GOVERNOR_TDGOV" 12,
    pDbl "GOVERNOR_VMAX" 13, pDbl "GOVERNOR_VMIN" 14, pDbl "GOVERNOR_TACT" 15, pDbl "GOVERNOR_KTURB" 16,
    pDbl "GOVERNOR_WFNL" 17, pDbl "GOVERNOR_TB" 18, pDbl "GOVERNOR_TC" 19, pDbl "GOVERNOR_TENG" 20,
    pDbl "GOVERNOR_TFLOAD" 21, pDbl "GOVERNOR_KPLOAD" 22, pDbl "GOVERNOR_KILOAD" 23, pDbl "GOVERNOR_LDREF" 24,
    pDbl "GOVERNOR_DM" 25, pDbl "GOVERNOR_ROPEN" 26, pDbl "GOVERNOR_RCLOSE" 27, pDbl "GOVERNOR_KIMW" 28,
    pDbl "GOVERNOR_ASET" 29, pDbl "GOVERNOR_KA" 30, pDbl "GOVERNOR_TA" 31, pDbl "GOVERNOR_TRATE" 32,
    pDbl "GOVERNOR_DB" 33, pDbl "GOVERNOR_TSA" 34, pDbl "GOVERNOR_TSB" 35, pDbl "GOVERNOR_RUP" 36,
    pDbl "GOVERNOR_RDOWN" 37]
  store := [
    sInt "bus_id" 0, ⟨none, "gen_id", (.tag 2)⟩, ⟨none, "model", (.name 1)⟩, sDbl "rselect" 3,
    sDbl "flagswitch" 4, sDbl "gv_r" 5, sDbl "tpelec" 6, sDbl "maxerr" 7, sDbl "minerr" 8, sDbl "kpgov" 9,
    sDbl "kigov" 10, sDbl "kdgov" 11, sDbl "tdgov" 12, sDbl "vmax" 13, sDbl "vmin" 14, sDbl "tact" 15,
    sDbl "kturb" 16, sDbl "wfnl" 17, sDbl "gv_tb" 18, sDbl "gv_tc" 19, sDbl "teng" 20, sDbl "tfload" 21,
    sDbl "kpload" 22, sDbl "kiload" 23, sDbl "ldref" 24, sDbl "gv_dm" 25, sDbl "ropen" 26, sDbl "rclose" 27,
    sDbl "kimw" 28, sDbl "aset" 29, sDbl "gv_ka" 30, sDbl "gv_ta" 31, sDbl "trate" 32, sDbl "gv_db" 33,
    sDbl "tsa" 34, sDbl "tsb" 35, sDbl "rup" 36, sDbl "rdown" 37]
  extract := [
    eFlag "HAS_GOVERNOR", eStr "GOVERNOR_MODEL" "model", eDbl "GOVERNOR_RSELECT" "rselect",
    eDbl "GOVERNOR_FLAGSWITCH" "flagswitch", eDbl "GOVERNOR_R" "gv_r", eDbl "GOVERNOR_TPELEC" "tpelec",
    eDbl "GOVERNOR_MAXERR" "maxerr", eDbl "GOVERNOR_MINERR" "minerr", eDbl "GOVERNOR_KPGOV" "kpgov",
    eDbl "GOVERNOR_KIGOV" "kigov", eDbl "GOVERNOR_KDGOV" "kdgov", eDbl "GOVERNOR_TDGOV" "tdgov",
    eDbl "GOVERNOR_VMAX" "vmax", eDbl "GOVERNOR_VMIN" "vmin", eDbl "GOVERNOR_TACT" "tact",
    eDbl "GOVERNOR_KTURB" "kturb", eDbl "GOVERNOR_WFNL" "wfnl", eDbl "GOVERNOR_TB" "gv_tb",
    eDbl "GOVERNOR_TC" "gv_tc", eDbl "GOVERNOR_TENG" "teng", eDbl "GOVERNOR_TFLOAD" "tfload",
    eDbl "GOVERNOR_KPLOAD" "kpload", eDbl "GOVERNOR_KILOAD" "kiload", eDbl "GOVERNOR_LDREF" "ldref",
    eDbl "GOVERNOR_DM" "gv_dm", eDbl "GOVERNOR_ROPEN" "ropen", eDbl "GOVERNOR_RCLOSE" "rclose",
    eDbl "GOVERNOR_KIMW" "kimw", eDbl "GOVERNOR_ASET" "aset", eDbl "GOVERNOR_KA" "gv_ka",
    eDbl "GOVERNOR_TA" "gv_ta", eDbl "GOVERNOR_TRATE" "trate", eDbl "GOVERNOR_DB" "gv_db",
    eDbl "GOVERNOR_TSA" "tsa", eDbl "GOVERNOR_TSB" "tsb", eDbl "GOVERNOR_RUP" "rup",
    eDbl "GOVERNOR_RDOWN" "rdown"]

/-- src/parser/parser_classes/hygov.hpp: `parse` 153-284, `store` 291-370, `extract` 40-145. -/
def hygov : Kind where
  parse := [
    pFlag "HAS_GOVERNOR", pName "GOVERNOR_MODEL" 1, pDbl "GOVERNOR_R" 3, pDbl "GOVERNOR_r" 4,
    pDbl "GOVERNOR_TR" 5, pDbl "GOVERNOR_TF" 6, pDbl "GOVERNOR_TG" 7, pDbl "GOVERNOR_VELM" 8,
    pDbl "GOVERNOR_GMAX" 9, pDbl "GOVERNOR_GMIN" 10, pDbl "GOVERNOR_TW" 11, pDbl "GOVERNOR_AT" 12,
    pDbl "GOVERNOR_DT" 13, pDbl "GOVERNOR_QNL" 14]
  store := [
    sInt "bus_id" 0, ⟨none, "gen_id", (.tag 2)⟩, ⟨none, "model", (.name 1)⟩, sDbl "gv_r" 3, sDbl "gv_r2" 4,
    sDbl "gv_tr" 5, sDbl "gv_tf" 6, sDbl "gv_tg" 7, sDbl "gv_velm" 8, sDbl "gv_gmax" 9, sDbl "gv_gmin" 10,
    sDbl "gv_tw" 11, sDbl "gv_at" 12, sDbl "gv_dt" 13, sDbl "gv_qnl" 14]
  extract := [
    eFlag "HAS_GOVERNOR", eStr "GOVERNOR_MODEL" "model", eDbl "GOVERNOR_R" "gv_r", eDbl "GOVERNOR_r" "gv_r2",
    eDbl "GOVERNOR_TR" "gv_tr", eDbl "GOVERNOR_TF" "gv_tf", eDbl "GOVERNOR_TG" "gv_tg",
    eDbl "GOVERNOR_VELM" "gv_velm", eDbl "GOVERNOR_GMAX" "gv_gmax", eDbl "GOVERNOR_GMIN" "gv_gmin",
    eDbl "GOVERNOR_TW" "gv_tw", eDbl "GOVERNOR_AT" "gv_at", eDbl "GOVERNOR_DT" "gv_dt",
    eDbl "GOVERNOR_QNL" "gv_qnl"]

/-- src/parser/parser_classes/ieeet1.hpp: `parse` 165-342, `store` 349-441, `extract` 40-157. -/
def ieeet1 : Kind where
  parse := [
    pFlag "HAS_EXCITER", pName "EXCITER_MODEL" 1, pDbl "EXCITER_TR" 3, pDbl "EXCITER_KA" 4,
    pDbl "EXCITER_TA" 5, pDbl "EXCITER_VRMAX" 6, pDbl "EXCITER_VRMIN" 7, pDbl "EXCITER_KE" 8,
    pDbl "EXCITER_TE" 9, pDbl "EXCITER_KF" 10, pDbl "EXCITER_TF1" 11, pDbl "EXCITER_SWITCH" 12,
    pDbl "EXCITER_E1" 13, pDbl "EXCITER_SE1" 14, pDbl "EXCITER_E2" 15, pDbl "EXCITER_SE2" 16]
  store := [
    sInt "bus_id" 0, ⟨none, "gen_id", (.tag 2)⟩, ⟨none, "model", (.name 1)⟩, sDbl "ex_tr" 3, sDbl "ex_ka" 4,
    sDbl "ex_ta" 5, sDbl "vrmax" 6, sDbl "vrmin" 7, sDbl "ex_ke" 8, sDbl "ex_te" 9, sDbl "ex_kf" 10,
    sDbl "tf1" 11, sDbl "rswitch" 12, sDbl "ex_e1" 13, sDbl "se1" 14, sDbl "ex_e2" 15, sDbl "se2" 16]
  extract := [
    eFlag "HAS_EXCITER", eStr "EXCITER_MODEL" "model", eDbl "EXCITER_TR" "ex_tr", eDbl "EXCITER_KA" "ex_ka",
    eDbl "EXCITER_TA" "ex_ta", eDbl "EXCITER_VRMAX" "vrmax", eDbl "EXCITER_VRMIN" "vrmin",
    eDbl "EXCITER_KE" "ex_ke", eDbl "EXCITER_TE" "ex_te", eDbl "EXCITER_KF" "ex_kf", eDbl "EXCITER_TF1" "tf1",
    eDbl "EXCITER_SWITCH" "rswitch", eDbl "EXCITER_E1" "ex_e1", eDbl "EXCITER_SE1" "se1",
    eDbl "EXCITER_E2" "ex_e2", eDbl "EXCITER_SE2" "se2"]

/-- src/parser/parser_classes/ieelbl.hpp: `parse` 160-303, `store` 310-395, `extract` 40-151. -/
def ieelbl : Kind where
  parse := [
    pName "LOAD_MODEL" 1, ⟨some 3, "LOAD_A1", .int, "LOAD_A1", (.dbl 3), "LOAD_A1", (.dbl 3)⟩,
    pDbl "LOAD_A2" 4, pDbl "LOAD_A3" 5, pDbl "LOAD_A4" 6, pDbl "LOAD_A5" 7, pDbl "LOAD_A6" 8, pDbl "LOAD_A7" 9,
    pDbl "LOAD_A8" 10, pDbl "LOAD_N1" 11, pDbl "LOAD_N2" 12, pDbl "LOAD_N3" 13, pDbl "LOAD_N4" 14,
    pDbl "LOAD_N5" 15, pDbl "LOAD_N6" 16]
  store := [
    ⟨none, "model", (.name 1)⟩, ⟨some 2, "id", (.tag 2)⟩, sDbl "a1" 3, sDbl "a2" 4, sDbl "a3" 5, sDbl "a4" 6,
    sDbl "a5" 7, sDbl "a6" 8, sDbl "a7" 9, sDbl "a8" 10, sDbl "n1" 11, sDbl "n2" 12, sDbl "n3" 13,
    sDbl "n4" 14, sDbl "n5" 15, sDbl "n6" 16]
  extract := [
    eStr "LOAD_MODEL" "model", eDbl "LOAD_A1" "a1", eDbl "LOAD_A2" "a2", eDbl "LOAD_A3" "a3",
    eDbl "LOAD_A4" "a4", eDbl "LOAD_A5" "a5", eDbl "LOAD_A6" "a6", eDbl "LOAD_A7" "a7", eDbl "LOAD_A8" "a8",
    eDbl "LOAD_N1" "n1", eDbl "LOAD_N2" "n2", eDbl "LOAD_N3" "n3", eDbl "LOAD_N4" "n4", eDbl "LOAD_N5" "n5",
    eDbl "LOAD_N6" "n6"]

/-- src/parser/parser_classes/lvshbl.hpp: `parse` 155-290, `store` 297-373, `extract` 40-146. -/
def lvshbl : Kind where
  parse := [
    pName "RELAY_MODEL" 1, pTagG "RELAY_LID" 2, pInt "RELAY_JBUS" 3, pDbl "RELAY_V1" 4, pDbl "RELAY_T1" 5,
    pDbl "RELAY_F1" 6, pDbl "RELAY_V2" 7, pDbl "RELAY_T2" 8, pDbl "RELAY_F2" 9, pDbl "RELAY_V3" 10,
    pDbl "RELAY_T3" 11, pDbl "RELAY_F3" 12, pDbl "RELAY_TB" 13]
  store := [
    sInt "bus_id" 0, ⟨none, "model", (.name 1)⟩, ⟨some 2, "tag", (.tag 2)⟩, sInt "jbus" 3, sDbl "v1" 4,
    sDbl "t1" 5, sDbl "f1" 6, sDbl "v2" 7, sDbl "t2" 8, sDbl "f2" 9, sDbl "v3" 10, sDbl "t3" 11, sDbl "f3" 12,
    sDbl "tb" 13]
  extract := [
    eStr "RELAY_MODEL" "model", eStr "RELAY_LID" "tag", eInt "RELAY_JBUS" "jbus", eDbl "RELAY_V1" "v1",
    eDbl "RELAY_T1" "t1", eDbl "RELAY_F1" "f1", eDbl "RELAY_V2" "v2", eDbl "RELAY_T2" "t2",
    eDbl "RELAY_F2" "f2", eDbl "RELAY_V3" "v3", eDbl "RELAY_T3" "t3", eDbl "RELAY_F3" "f3",
    eDbl "RELAY_TB" "tb"]

/-- src/parser/parser_classes/psssim.hpp: `parse` 175-364, `store` 371-467, `extract` 40-167. -/
def psssim : Kind where
  parse := [
    pFlag "HAS_PSS", pName "PSS_MODEL" 1,
    ⟨some 3, "PSSSIM_INPUTTYPE", .int, "PSSSIM_INPUTTYPE", (.dbl 3), "PSSSIM_INPUTTYPE", (.dbl 3)⟩,
    ⟨some 4, "PSSSIM_BUS1", .int, "PSSSIM_BUS1", (.dbl 4), "PSSSIM_BUS1", (.dbl 4)⟩,
    ⟨some 5, "PSSSIM_BUS2", .int, "PSSSIM_BUS2", (.dbl 5), "PSSSIM_BUS2", (.dbl 5)⟩,
    ⟨some 6, "PSSSIM_BUS3", .int, "PSSSIM_BUS3", (.dbl 6), "PSSSIM_BUS3", (.dbl 6)⟩,
    ⟨some 7, "PSSSIM_BUS4", .int, "PSSSIM_BUS4", (.dbl 7), "PSSSIM_BUS4", (.dbl 7)⟩,
    ⟨some 8, "PSSSIM_BUS5", .int, "PSSSIM_BUS5", (.dbl 8), "PSSSIM_BUS5", (.dbl 8)⟩,
    ⟨some 9, "PSSSIM_BUS6", .int, "PSSSIM_BUS6", (.dbl 9), "PSSSIM_BUS6", (.dbl 9)⟩, pDbl "PSSSIM_GAINK" 10,
    pDbl "PSSSIM_TW" 11, pDbl "PSSSIM_T1" 12, pDbl "PSSSIM_T2" 13, pDbl "PSSSIM_T3" 14, pDbl "PSSSIM_T4" 15,
    pDbl "PSSSIM_MAXOUT" 16, pDbl "PSSSIM_MINOUT" 17]
  store := [
    sInt "bus_id" 0, ⟨none, "gen_id", (.tag 2)⟩, ⟨none, "model", (.name 1)⟩,
    ⟨some 3, "psssim_inputtype", (.trunc 3)⟩, ⟨some 4, "psssim_bus1", (.trunc 4)⟩,
    ⟨some 5, "psssim_bus2", (.trunc 5)⟩, ⟨some 6, "psssim_bus3", (.trunc 6)⟩,
    ⟨some 7, "psssim_bus4", (.trunc 7)⟩, ⟨some 8, "psssim_bus5", (.trunc 8)⟩,
    ⟨some 9, "psssim_bus6", (.trunc 9)⟩, sDbl "psssim_gaink" 10, sDbl "psssim_tw" 11, sDbl "psssim_t1" 12,
    sDbl "psssim_t2" 13, sDbl "psssim_t3" 14, sDbl "psssim_t4" 15, sDbl "psssim_maxout" 16,
    sDbl "psssim_minout" 17]
  extract := [
    eFlag "HAS_PSS", eStr "PSS_MODEL" "model", eInt "PSSSIM_INPUTTYPE" "psssim_inputtype",
    eInt "PSSSIM_BUS1" "psssim_bus1", eInt "PSSSIM_BUS2" "psssim_bus2", eInt "PSSSIM_BUS3" "psssim_bus3",
    eInt "PSSSIM_BUS4" "psssim_bus4", eInt "PSSSIM_BUS5" "psssim_bus5", eInt "PSSSIM_BUS6" "psssim_bus6",
    eDbl "PSSSIM_GAINK" "psssim_gaink", eDbl "PSSSIM_TW" "psssim_tw", eDbl "PSSSIM_T1" "psssim_t1",
    eDbl "PSSSIM_T2" "psssim_t2", eDbl "PSSSIM_T3" "psssim_t3", eDbl "PSSSIM_T4" "psssim_t4",
    eDbl "PSSSIM_MAXOUT" "psssim_maxout", eDbl "PSSSIM_MINOUT" "psssim_minout"]

/-- src/parser/parser_classes/reeca1.hpp: `parse` 380-827, `store` 834-1073, `extract` 40-372. -/
def reeca1 : Kind where
  parse := [
    pFlag "HAS_EXCITER", pName "EXCITER_MODEL" 1, pInt "GENERATOR_REECA_IREG" 3,
    pInt "GENERATOR_REECA_PFFLAG" 4, pInt "GENERATOR_REECA_VFLAG" 5, pInt "GENERATOR_REECA_QFLAG" 6,
    pInt "GENERATOR_REECA_PFLAG" 7, pInt "GENERATOR_REECA_PQFLAG" 8, pDbl "GENERATOR_REECA_VDIP" 9,
    pDbl "GENERATOR_REECA_VUP" 10, pDbl "GENERATOR_REECA_TRV" 11, pDbl "GENERATOR_REECA_DBD1" 12,
    pDbl "GENERATOR_REECA_DBD2" 13, pDbl "GENERATOR_REECA_KQV" 14, pDbl "GENERATOR_REECA_IQH1" 15,
    pDbl "GENERATOR_REECA_IQL1" 16, pDbl "GENERATOR_REECA_VREF0" 17, pDbl "GENERATOR_REECA_IQFRZ" 18,
    pDbl "GENERATOR_REECA_THLD" 19, pDbl "GENERATOR_REECA_THLD2" 20, pDbl "GENERATOR_REECA_TP" 21,
    pDbl "GENERATOR_REECA_QMAX" 22, pDbl "GENERATOR_REECA_QMIN" 23, pDbl "GENERATOR_REECA_VMAX" 24,
    pDbl "GENERATOR_REECA_VMIN" 25, pDbl "GENERATOR_REECA_KQP" 26, pDbl "GENERATOR_REECA_KQI" 27,
    pDbl "GENERATOR_REECA_KVP" 28, pDbl "GENERATOR_REECA_KVI" 29, pDbl "GENERATOR_REECA_VBIAS" 30,
    ⟨some 31, "GENERATOR_REECA_TIQ", .double, "GENERATOR_REECA_TIQ", (.dbl 31), "GENERATOR_REECA_TIQ", (.dbl 32)⟩,
    pDbl "GENERATOR_REECA_DPMAX" 32, pDbl "GENERATOR_REECA_DPMIN" 33, pDbl "GENERATOR_REECA_PMAX" 34,
    pDbl "GENERATOR_REECA_PMIN" 35, pDbl "GENERATOR_REECA_IMAX" 36, pDbl "GENERATOR_REECA_TPORD" 37,
    pDbl "GENERATOR_REECA_VQ1" 38, pDbl "GENERATOR_REECA_IQ1" 39, pDbl "GENERATOR_REECA_VQ2" 40,
    pDbl "GENERATOR_REECA_IQ2" 41, pDbl "GENERATOR_REECA_VQ3" 42, pDbl "GENERATOR_REECA_IQ3" 43,
    pDbl "GENERATOR_REECA_VQ4" 44, pDbl "GENERATOR_REECA_IQ4" 45, pDbl "GENERATOR_REECA_VP1" 46,
    pDbl "GENERATOR_REECA_IP1" 47, pDbl "GENERATOR_REECA_VP2" 48, pDbl "GENERATOR_REECA_IP2" 49,
    pDbl "GENERATOR_REECA_VP3" 50, pDbl "GENERATOR_REECA_IP3" 51, pDbl "GENERATOR_REECA_VP4" 52,
    pDbl "GENERATOR_REECA_IP4" 53]
  store := [
    sInt "bus_id" 0, ⟨none, "gen_id", (.tag 2)⟩, ⟨none, "model", (.name 1)⟩, sInt "reeca1_ireg" 3,
    sInt "reeca1_pfflag" 4, sInt "reeca1_vflag" 5, sInt "reeca1_qflag" 6, sInt "reeca1_pflag" 7,
    sInt "reeca1_pqflag" 8, sDbl "reeca1_vdip" 9, sDbl "reeca1_vup" 10, sDbl "reeca1_trv" 11,
    sDbl "reeca1_dbd1" 12, sDbl "reeca1_dbd2" 13, sDbl "reeca1_kqv" 14, sDbl "reeca1_lqh1" 15,
    sDbl "reeca1_lql1" 16, sDbl "reeca1_vref0" 17, sDbl "reeca1_lqfrz" 18, sDbl "reeca1_thld" 19,
    sDbl "reeca1_thld2" 20, sDbl "reeca1_tp" 21, sDbl "reeca1_qmax" 22, sDbl "reeca1_qmin" 23,
    sDbl "reeca1_vmax" 24, sDbl "reeca1_vmin" 25, sDbl "reeca1_kqp" 26, sDbl "reeca1_kqi" 27,
    sDbl "reeca1_kvp" 28, sDbl "reeca1_kvi" 29, sDbl "reeca1_vbias" 30, sDbl "reeca1_tiq" 31,
    sDbl "reeca1_dpmax" 32, sDbl "reeca1_dpmin" 33, sDbl "reeca1_pmax" 34, sDbl "reeca1_pmin" 35,
    sDbl "reeca1_imax" 36, sDbl "reeca1_tpord" 37, sDbl "reeca1_vq1" 38, sDbl "reeca1_iq1" 39,
    sDbl "reeca1_vq2" 40, sDbl "reeca1_iq2" 41, sDbl "reeca1_vq3" 42, sDbl "reeca1_iq3" 43,
    sDbl "reeca1_vq4" 44, sDbl "reeca1_iq4" 45, sDbl "reeca1_vp1" 46, sDbl "reeca1_ip1" 47,
    sDbl "reeca1_vp2" 48, sDbl "reeca1_ip2" 49, sDbl "reeca1_vp3" 50, sDbl "reeca1_ip3" 51,
    sDbl "reeca1_vp4" 52, sDbl "reeca1_ip4" 53]
  extract := [
    eFlag "HAS_EXCITER", eStr "EXCITER_MODEL" "model", eInt "GENERATOR_REECA_IREG" "reeca1_ireg",
    eInt "GENERATOR_REECA_PFFLAG" "reeca1_pfflag", eInt "GENERATOR_REECA_VFLAG" "reeca1_vflag",
    eInt "GENERATOR_REECA_QFLAG" "reeca1_qflag", eInt "GENERATOR_REECA_PFLAG" "reeca1_pflag",
    eInt "GENERATOR_REECA_PQFLAG" "reeca1_pqflag", eDbl "GENERATOR_REECA_VDIP" "reeca1_vdip",
    eDbl "GENERATOR_REECA_VUP" "reeca1_vup", eDbl "GENERATOR_REECA_TRV" "reeca1_trv",
    eDbl "GENERATOR_REECA_DBD1" "reeca1_dbd1", eDbl "GENERATOR_REECA_DBD2" "reeca1_dbd2",
    eDbl "GENERATOR_REECA_KQV" "reeca1_kqv", eDbl "GENERATOR_REECA_IQH1" "reeca1_lqh1",
    eDbl "GENERATOR_REECA_IQL1" "reeca1_lql1", eDbl "GENERATOR_REECA_VREF0" "reeca1_vref0",
    eDbl "GENERATOR_REECA_IQFRZ" "reeca1_lqfrz", eDbl "GENERATOR_REECA_THLD" "reeca1_thld",
    eDbl "GENERATOR_REECA_THLD2" "reeca1_thld2", eDbl "GENERATOR_REECA_TP" "reeca1_tp",
    eDbl "GENERATOR_REECA_QMAX" "reeca1_qmax", eDbl "GENERATOR_REECA_QMIN" "reeca1_qmin",
    eDbl "GENERATOR_REECA_VMAX" "reeca1_vmax", eDbl "GENERATOR_REECA_VMIN" "reeca1_vmin",
    eDbl "GENERATOR_REECA_KQP" "reeca1_kqp", eDbl "GENERATOR_REECA_KQI" "reeca1_kqi",
    eDbl "GENERATOR_REECA_KVP" "reeca1_kvp", eDbl "GENERATOR_REECA_KVI" "reeca1_kvi",
    eDbl "GENERATOR_REECA_VBIAS" "reeca1_vbias", eDbl "GENERATOR_REECA_TIQ" "reeca1_tiq",
    eDbl "GENERATOR_REECA_DPMAX" "reeca1_dpmax", eDbl "GENERATOR_REECA_DPMIN" "reeca1_dpmin",
    eDbl "GENERATOR_REECA_PMAX" "reeca1_pmax", eDbl "GENERATOR_REECA_PMIN" "reeca1_pmin",
    eDbl "GENERATOR_REECA_IMAX" "reeca1_imax", eDbl "GENERATOR_REECA_TPORD" "reeca1_tpord",
    eDbl "GENERATOR_REECA_VQ1" "reeca1_vq1", eDbl "GENERATOR_REECA_IQ1" "reeca1_iq1",
    eDbl "GENERATOR_REECA_VQ2" "reeca1_vq2", eDbl "GENERATOR_REECA_IQ2" "reeca1_iq2",
    eDbl "GENERATOR_REECA_VQ3" "reeca1_vq3", eDbl "GENERATOR_REECA_IQ3" "reeca1_iq3",
    eDbl "GENERATOR_REECA_VQ4" "reeca1_vq4", eDbl "GENERATOR_REECA_IQ4" "reeca1_iq4",
    eDbl "GENERATOR_REECA_VP1" "reeca1_vp1", eDbl "GENERATOR_REECA_IP1" "reeca1_ip1",
    eDbl "GENERATOR_REECA_VP2" "reeca1_vp2", eDbl "GENERATOR_REECA_IP2" "reeca1_ip2",
    eDbl "GENERATOR_REECA_VP3" "reeca1_vp3", eDbl "GENERATOR_REECA_IP3" "reeca1_ip3",
    eDbl "GENERATOR_REECA_VP4" "reeca1_vp4", eDbl "GENERATOR_REECA_IP4" "reeca1_ip4"]

/-- src/parser/parser_classes/regca1.hpp: `parse` 152-302, `store` 309-401, `extract` 40-144. -/
def regca1 : Kind where
  parse := [
    pName "GENERATOR_MODEL" 1, pInt "GENERATOR_REGC_LVPLSW" 3, pDbl "GENERATOR_REGC_TG" 4,
    pDbl "GENERATOR_REGC_RRPWR" 5, pDbl "GENERATOR_REGC_BRKPT" 6, pDbl "GENERATOR_REGC_ZEROX" 7,
    pDbl "GENERATOR_REGC_LVPL1" 8, pDbl "GENERATOR_REGC_VOLIM" 9, pDbl "GENERATOR_REGC_LVPNT1" 10,
    pDbl "GENERATOR_REGC_LVPNT0" 11, pDbl "GENERATOR_REGC_LOLIM" 12, pDbl "GENERATOR_REGC_TFLTR" 13,
    pDbl "GENERATOR_REGC_KHV" 14, pDbl "GENERATOR_REGC_IQRMAX" 15, pDbl "GENERATOR_REGC_IQRMIN" 16,
    pDbl "GENERATOR_REGC_ACCEL" 17]
  store := [
    sInt "bus_id" 0, ⟨none, "gen_id", (.tag 2)⟩, ⟨none, "model", (.name 1)⟩, sInt "regc_lvplsw" 3,
    sDbl "regc_tg" 4, sDbl "regc_rrpwr" 5, sDbl "regc_brkpt" 6, sDbl "regc_zerox" 7, sDbl "regc_lvpl1" 8,
    sDbl "regc_volim" 9, sDbl "regc_lvpnt1" 10, sDbl "regc_lvpnt0" 11, sDbl "regc_lolim" 12,
    sDbl "regc_tfltr" 13, sDbl "regc_khv" 14, sDbl "regc_iqrmax" 15, sDbl "regc_iqrmin" 16,
    sDbl "regc_accel" 17]
  extract := [
    eStr "GENERATOR_MODEL" "model", eInt "GENERATOR_REGC_LVPLSW" "regc_lvplsw",
    eDbl "GENERATOR_REGC_TG" "regc_tg", eDbl "GENERATOR_REGC_RRPWR" "regc_rrpwr",
    eDbl "GENERATOR_REGC_BRKPT" "regc_brkpt", eDbl "GENERATOR_REGC_ZEROX" "regc_zerox",
    eDbl "GENERATOR_REGC_LVPL1" "regc_lvpl1", eDbl "GENERATOR_REGC_VOLIM" "regc_volim",
    eDbl "GENERATOR_REGC_LVPNT1" "regc_lvpnt1", eDbl "GENERATOR_REGC_LVPNT0" "regc_lvpnt0",
    eDbl "GENERATOR_REGC_LOLIM" "regc_lolim", eDbl "GENERATOR_REGC_TFLTR" "regc_tfltr",
    eDbl "GENERATOR_REGC_KHV" "regc_khv", eDbl "GENERATOR_REGC_IQRMAX" "regc_iqrmax",
    eDbl "GENERATOR_REGC_IQRMIN" "regc_iqrmin", eDbl "GENERATOR_REGC_ACCEL" "regc_accel"]

/-- src/parser/parser_classes/regcb1.hpp: `parse` 115-205, `store` 212-269, `extract` 40-107. -/
def regcb1 : Kind where
  parse := [
    pName "GENERATOR_MODEL" 1, pInt "GENERATOR_REGC_RATEFLAG" 3, pInt "GENERATOR_REGC_PQFLAG" 4,
    pDbl "GENERATOR_REGC_TG" 5, pDbl "GENERATOR_REGC_TFLTR" 6, pDbl "GENERATOR_REGC_IQRMAX" 7,
    pDbl "GENERATOR_REGC_IQRMIN" 8, pDbl "GENERATOR_REGC_RRPWR" 9, pDbl "GENERATOR_REGC_TE" 10,
    pDbl "GENERATOR_REGC_IMAX" 11]
  store := [
    sInt "bus_id" 0, ⟨none, "gen_id", (.tag 2)⟩, ⟨none, "model", (.name 1)⟩, sInt "regc_rateflag" 3,
    sInt "regc_pqflag" 4, sDbl "regc_tg" 5, sDbl "regc_tfltr" 6, sDbl "regc_iqrmax" 7, sDbl "regc_iqrmin" 8,
    sDbl "regc_rrpwr" 9, sDbl "regc_te" 10, sDbl "regc_imax" 11]
  extract := [
    eStr "GENERATOR_MODEL" "model", eInt "GENERATOR_REGC_RATEFLAG" "regc_rateflag",
    eInt "GENERATOR_REGC_PQFLAG" "regc_pqflag", eDbl "GENERATOR_REGC_TG" "regc_tg",
    eDbl "GENERATOR_REGC_TFLTR" "regc_tfltr", eDbl "GENERATOR_REGC_IQRMAX" "regc_iqrmax",
    eDbl "GENERATOR_REGC_IQRMIN" "regc_iqrmin", eDbl "GENERATOR_REGC_RRPWR" "regc_rrpwr",
    eDbl "GENERATOR_REGC_TE" "regc_te", eDbl "GENERATOR_REGC_IMAX" "regc_imax"]

/-- src/parser/parser_classes/regcc1.hpp: `parse` 156-295, `store` 302-383, `extract` 40-148. -/
def regcc1 : Kind where
  parse := [
    pName "GENERATOR_MODEL" 1, pInt "GENERATOR_REGC_RATEFLAG" 3, pInt "GENERATOR_REGC_PQFLAG" 4,
    pDbl "GENERATOR_REGC_TG" 5, pDbl "GENERATOR_REGC_TFLTR" 6, pDbl "GENERATOR_REGC_IQRMAX" 7,
    pDbl "GENERATOR_REGC_IQRMIN" 8, pDbl "GENERATOR_REGC_RRPWR" 9, pDbl "GENERATOR_REGC_TE" 10,
    pDbl "GENERATOR_REGC_IMAX" 11, pDbl "GENERATOR_REGC_KIP" 12, pDbl "GENERATOR_REGC_KII" 13,
    pDbl "GENERATOR_REGC_KPPLL" 14, pDbl "GENERATOR_REGC_KIPLL" 15, pDbl "GENERATOR_REGC_WMAX" 16,
    pDbl "GENERATOR_REGC_WMIN" 17]
  store := [
    sInt "bus_id" 0, ⟨none, "gen_id", (.tag 2)⟩, ⟨none, "model", (.name 1)⟩, sInt "regc_rateflag" 3,
    sInt "regc_pqflag" 4, sDbl "regc_tg" 5, sDbl "regc_tfltr" 6, sDbl "regc_iqrmax" 7, sDbl "regc_iqrmin" 8,
    sDbl "regc_rrpwr" 9, sDbl "regc_te" 10, sDbl "regc_imax" 11, sDbl "regc_kip" 12, sDbl "regc_kii" 13,
    sDbl "regc_kppll" 14, sDbl "regc_kipll" 15, sDbl "regc_wmax" 16, sDbl "regc_wmin" 17]
  extract := [
    eStr "GENERATOR_MODEL" "model", eInt "GENERATOR_REGC_RATEFLAG" "regc_rateflag",
    eInt "GENERATOR_REGC_PQFLAG" "regc_pqflag", eDbl "GENERATOR_REGC_TG" "regc_tg",
    eDbl "GENERATOR_REGC_TFLTR" "regc_tfltr", eDbl "GENERATOR_REGC_IQRMAX" "regc_iqrmax",
    eDbl "GENERATOR_REGC_IQRMIN" "regc_iqrmin", eDbl "GENERATOR_REGC_RRPWR" "regc_rrpwr",
    eDbl "GENERATOR_REGC_TE" "regc_te", eDbl "GENERATOR_REGC_IMAX" "regc_imax",
    eDbl "GENERATOR_REGC_KIP" "regc_kip", eDbl "GENERATOR_REGC_KII" "regc_kii",
    eDbl "GENERATOR_REGC_KPPLL" "regc_kppll", eDbl "GENERATOR_REGC_KIPLL" "regc_kipll",
    eDbl "GENERATOR_REGC_KPPLL" "regc_kppll", eDbl "GENERATOR_REGC_WMAX" "regc_wmax",
    eDbl "GENERATOR_REGC_WMIN" "regc_wmin"]

/-- src/parser/parser_classes/repca1.hpp: `parse` 277-598, `store` 605-777, `extract` 40-269. -/
def repca1 : Kind where
  parse := [
    pFlag "HAS_PLANT_CONTROLLER", pName "PLANT_CONTROLLER_MODEL" 1, pInt "GENERATOR_REPCA_IREG" 3,
    pInt "GENERATOR_REPCA_BRCH_BUS_FROM" 4, pInt "GENERATOR_REPCA_BRCH_BUS_TO" 5,
    pNameG "GENERATOR_REPCA_BRCH_CKT" 6, pInt "GENERATOR_REPCA_VC_FLAG" 7, pInt "GENERATOR_REPCA_REF_FLAG" 8,
    pInt "GENERATOR_REPCA_F_FLAG" 9, pDbl "GENERATOR_REPCA_TFLTR" 10, pDbl "GENERATOR_REPCA_KP" 11,
    pDbl "GENERATOR_REPCA_KI" 12, pDbl "GENERATOR_REPCA_TFT" 13, pDbl "GENERATOR_REPCA_TFV" 14,
    pDbl "GENERATOR_REPCA_VFRZ" 15, pDbl "GENERATOR_REPCA_RC" 16, pDbl "GENERATOR_REPCA_XC" 17,
    pDbl "GENERATOR_REPCA_KC" 18, pDbl "GENERATOR_REPCA_EMAX" 19, pDbl "GENERATOR_REPCA_EMIN" 20,
    pDbl "GENERATOR_REPCA_DBD1" 21, pDbl "GENERATOR_REPCA_DBD2" 22, pDbl "GENERATOR_REPCA_QMAX" 23,
    pDbl "GENERATOR_REPCA_QMIN" 24, pDbl "GENERATOR_REPCA_KPG" 25, pDbl "GENERATOR_REPCA_KIG" 26,
    pDbl "GENERATOR_REPCA_TP" 27, pDbl "GENERATOR_REPCA_FDBD1" 28, pDbl "GENERATOR_REPCA_FDBD2" 29,
    pDbl "GENERATOR_REPCA_FEMAX" 30,
    ⟨some 31, "GENERATOR_REPCA_FEMIN", .double, "GENERATOR_REPCA_FEMIN", (.dbl 31), "GENERATOR_REPCA_FEMIN", (.dbl 32)⟩,
    pDbl "GENERATOR_REPCA_PMAX" 32, pDbl "GENERATOR_REPCA_PMIN" 33, pDbl "GENERATOR_REPCA_TG" 34,
    pDbl "GENERATOR_REPCA_DDN" 35, pDbl "GENERATOR_REPCA_DUP" 36]
  store := [
    sInt "bus_id" 0, ⟨none, "gen_id", (.tag 2)⟩, ⟨none, "model", (.name 1)⟩, sInt "repca1_ireg" 3,
    sInt "repca1_brh_bus_from" 4, sInt "repca1_brh_bus_to" 5, ⟨some 6, "repca1_brh_ckt", (.tag 6)⟩,
    sInt "repca1_vcflag" 7, sInt "repca1_refflag" 8, sInt "repca1_fflag" 9, sDbl "repca1_tfltr" 10,
    sDbl "repca1_kp" 11, sDbl "repca1_ki" 12, sDbl "repca1_tft" 13, sDbl "repca1_tfv" 14,
    sDbl "repca1_vfrz" 15, sDbl "repca1_rc" 16, sDbl "repca1_xc" 17, sDbl "repca1_kc" 18,
    sDbl "repca1_emax" 19, sDbl "repca1_emin" 20, sDbl "repca1_dbd1" 21, sDbl "repca1_dbd2" 22,
    sDbl "repca1_qmax" 23, sDbl "repca1_qmin" 24, sDbl "repca1_kpg" 25, sDbl "repca1_kig" 26,
    sDbl "repca1_tp" 27, sDbl "repca1_fdbd1" 28, sDbl "repca1_fdbd2" 29, sDbl "repca1_femax" 30,
    sDbl "repca1_femin" 31, sDbl "repca1_pmax" 32, sDbl "repca1_pmin" 33, sDbl "repca1_tg" 34,
    sDbl "repca1_ddn" 35, sDbl "repca1_dup" 36]
  extract := [
    eFlag "HAS_PLANT_CONTROLLER", eStr "PLANT_CONTROLLER_MODEL" "model",
    eInt "GENERATOR_REPCA_IREG" "repca1_ireg", eInt "GENERATOR_REPCA_BRCH_BUS_FROM" "repca1_brh_bus_from",
    eInt "GENERATOR_REPCA_BRCH_BUS_TO" "repca1_brh_bus_to", eStr "GENERATOR_REPCA_BRCH_CKT" "repca1_brh_ckt",
    eInt "GENERATOR_REPCA_VC_FLAG" "repca1_vcflag", eInt "GENERATOR_REPCA_REF_FLAG" "repca1_refflag",
    eInt "GENERATOR_REPCA_F_FLAG" "repca1_fflag", eDbl "GENERATOR_REPCA_TFLTR" "repca1_tfltr",
    eDbl "GENERATOR_REPCA_KP" "repca1_kp", eDbl "GENERATOR_REPCA_KI" "repca1_ki",
    eDbl "GENERATOR_REPCA_TFT" "repca1_tft", eDbl "GENERATOR_REPCA_TFV" "repca1_tfv",
    eDbl "GENERATOR_REPCA_VFRZ" "repca1_vfrz", eDbl "GENERATOR_REPCA_RC" "repca1_rc",
    eDbl "GENERATOR_REPCA_XC" "repca1_xc", eDbl "GENERATOR_REPCA_KC" "repca1_kc",
    eDbl "GENERATOR_REPCA_EMAX" "repca1_emax", eDbl "GENERATOR_REPCA_EMIN" "repca1_emin",
    eDbl "GENERATOR_REPCA_DBD1" "repca1_dbd1", eDbl "GENERATOR_REPCA_DBD2" "repca1_dbd2",
    eDbl "GENERATOR_REPCA_QMAX" "repca1_qmax", eDbl "GENERATOR_REPCA_QMIN" "repca1_qmin",
    eDbl "GENERATOR_REPCA_KPG" "repca1_kpg", eDbl "GENERATOR_REPCA_KIG" "repca1_kig",
    eDbl "GENERATOR_REPCA_TP" "repca1_tp", eDbl "GENERATOR_REPCA_FDBD1" "repca1_fdbd1",
    eDbl "GENERATOR_REPCA_FDBD2" "repca1_fdbd2", eDbl "GENERATOR_REPCA_FEMAX" "repca1_femax",
    eDbl "GENERATOR_REPCA_FEMIN" "repca1_femin", eDbl "GENERATOR_REPCA_PMAX" "repca1_pmax",
    eDbl "GENERATOR_REPCA_PMIN" "repca1_pmin", eDbl "GENERATOR_REPCA_TG" "repca1_tg",
    eDbl "GENERATOR_REPCA_DDN" "repca1_ddn", eDbl "GENERATOR_REPCA_DUP" "repca1_dup"]

/-- src/parser/parser_classes/sexs.hpp: `parse` 110-199, `store` 206-258, `extract` 40-102. -/
def sexs : Kind where
  parse := [
    pFlag "HAS_EXCITER", pName "EXCITER_MODEL" 1, pDbl "EXCITER_TA_OVER_TB" 3, pDbl "EXCITER_TB" 4,
    pDbl "EXCITER_K" 5, pDbl "EXCITER_TE" 6, pDbl "EXCITER_EMIN" 7, pDbl "EXCITER_EMAX" 8]
  store := [
    sInt "bus_id" 0, ⟨none, "gen_id", (.tag 2)⟩, ⟨none, "model", (.name 1)⟩, sDbl "ex_ta_over_tb" 3,
    sDbl "ex_tb" 4, sDbl "ex_k" 5, sDbl "ex_te" 6, sDbl "ex_emin" 7, sDbl "ex_emax" 8]
  extract := [
    eFlag "HAS_EXCITER", eStr "EXCITER_MODEL" "model", eDbl "EXCITER_TA_OVER_TB" "ex_ta_over_tb",
    eDbl "EXCITER_TB" "ex_tb", eDbl "EXCITER_K" "ex_k", eDbl "EXCITER_TE" "ex_te",
    eDbl "EXCITER_EMIN" "ex_emin", eDbl "EXCITER_EMAX" "ex_emax"]

/-- src/parser/parser_classes/tgov1.hpp: `parse` 116-202, `store` 209-263, `extract` 40-108. -/
def tgov1 : Kind where
  parse := [
    pFlag "HAS_GOVERNOR", pName "GOVERNOR_MODEL" 1, pDbl "GOVERNOR_R" 3, pDbl "GOVERNOR_T1" 4,
    pDbl "GOVERNOR_VMAX" 5, pDbl "GOVERNOR_VMIN" 6, pDbl "GOVERNOR_T2" 7, pDbl "GOVERNOR_T3" 8,
    pDbl "GOVERNOR_DT" 9]
  store := [
    sInt "bus_id" 0, ⟨none, "gen_id", (.tag 2)⟩, ⟨none, "model", (.name 1)⟩, sDbl "gv_r" 3, sDbl "gv_t1" 4,
    sDbl "vmax" 5, sDbl "vmin" 6, sDbl "gv_t2" 7, sDbl "gv_t3" 8, sDbl "gv_dt" 9]
  extract := [
    eFlag "HAS_GOVERNOR", eStr "GOVERNOR_MODEL" "model", eDbl "GOVERNOR_R" "gv_r", eDbl "GOVERNOR_T1" "gv_t1",
    eDbl "GOVERNOR_VMAX" "vmax", eDbl "GOVERNOR_VMIN" "vmin", eDbl "GOVERNOR_T2" "gv_t2",
    eDbl "GOVERNOR_T3" "gv_t3", eDbl "GOVERNOR_DT" "gv_dt"]

/-- src/parser/parser_classes/wshygp.hpp: `parse` 277-630, `store` 637-807, `extract` 40-269. -/
def wshygp : Kind where
  parse := [
    pFlag "HAS_GOVERNOR", pName "GOVERNOR_MODEL" 1, pDbl "GOVERNOR_DB1" 3, pDbl "GOVERNOR_ERR" 4,
    pDbl "GOVERNOR_TD" 5, pDbl "GOVERNOR_KI" 6, pDbl "GOVERNOR_TF" 7, pDbl "GOVERNOR_KD" 8,
    pDbl "GOVERNOR_KP" 9, pDbl "GOVERNOR_R" 10, pDbl "GOVERNOR_TT" 11, pDbl "GOVERNOR_KG" 12,
    pDbl "GOVERNOR_TP" 13, pDbl "GOVERNOR_VELOPEN" 14, pDbl "GOVERNOR_VELCLOSE" 15, pDbl "GOVERNOR_PMAX" 16,
    pDbl "GOVERNOR_PMIN" 17, pDbl "GOVERNOR_DB2" 18, pDbl "GOVERNOR_GV1" 19, pDbl "GOVERNOR_PGV1" 20,
    pDbl "GOVERNOR_GV2" 21, pDbl "GOVERNOR_PGV2" 22, pDbl "GOVERNOR_GV3" 23, pDbl "GOVERNOR_PGV3" 24,
    pDbl "GOVERNOR_GV4" 25, pDbl "GOVERNOR_PGV4" 26, pDbl "GOVERNOR_GV5" 27, pDbl "GOVERNOR_PGV5" 28,
    pDbl "GOVERNOR_ATURB" 29, pDbl "GOVERNOR_BTURB" 30, pDbl "GOVERNOR_TTURB" 31, pDbl "GOVERNOR_TRATE" 32]
  store := [
    sInt "bus_id" 0, ⟨none, "gen_id", (.tag 2)⟩, ⟨none, "model", (.name 1)⟩, sDbl "db1" 3, sDbl "err" 4,
    sDbl "gv_td" 5, sDbl "gv_ki" 6, sDbl "gv_tf" 7, sDbl "gv_kd" 8, sDbl "gv_kp" 9, sDbl "gv_r" 10,
    sDbl "gv_tt" 11, sDbl "gv_kg" 12, sDbl "gv_tp" 13, sDbl "velopen" 14, sDbl "velclose" 15, sDbl "pmax" 16,
    sDbl "pmin" 17, sDbl "db2" 18, sDbl "gv1" 19, sDbl "pgv1" 20, sDbl "gv2" 21, sDbl "pgv2" 22, sDbl "gv3" 23,
    sDbl "pgv3" 24, sDbl "gv4" 25, sDbl "pgv4" 26, sDbl "gv5" 27, sDbl "pgv5" 28, sDbl "aturb" 29,
    sDbl "bturb" 30, sDbl "tturb" 31, sDbl "trate" 32]
  extract := [
    eFlag "HAS_GOVERNOR", eStr "GOVERNOR_MODEL" "model", eDbl "GOVERNOR_DB1" "db1", eDbl "GOVERNOR_ERR" "err",
    eDbl "GOVERNOR_TD" "gv_td", eDbl "GOVERNOR_KI" "gv_ki", eDbl "GOVERNOR_TF" "gv_tf",
    eDbl "GOVERNOR_KD" "gv_kd", eDbl "GOVERNOR_KP" "gv_kp", eDbl "GOVERNOR_R" "gv_r",
    eDbl "GOVERNOR_TT" "gv_tt", eDbl "GOVERNOR_KG" "gv_kg", eDbl "GOVERNOR_TP" "gv_tp",
    eDbl "GOVERNOR_VELOPEN" "velopen", eDbl "GOVERNOR_VELCLOSE" "velclose", eDbl "GOVERNOR_PMAX" "pmax",
    eDbl "GOVERNOR_PMIN" "pmin", eDbl "GOVERNOR_DB2" "db2", eDbl "GOVERNOR_GV1" "gv1",
    eDbl "GOVERNOR_PGV1" "pgv1", eDbl "GOVERNOR_GV2" "gv2", eDbl "GOVERNOR_PGV2" "pgv2",
    eDbl "GOVERNOR_GV3" "gv3", eDbl "GOVERNOR_PGV3" "pgv3", eDbl "GOVERNOR_GV4" "gv4",
    eDbl "GOVERNOR_PGV4" "pgv4", eDbl "GOVERNOR_GV5" "gv5", eDbl "GOVERNOR_PGV5" "pgv5",
    eDbl "GOVERNOR_ATURB" "aturb", eDbl "GOVERNOR_BTURB" "bturb", eDbl "GOVERNOR_TTURB" "tturb",
    eDbl "GOVERNOR_TRATE" "trate"]

/-- src/parser/parser_classes/wsieg1.hpp: `parse` 320-740, `store` 747-947, `extract` 40-312. -/
def wsieg1 : Kind where
  parse := [
    pFlag "HAS_GOVERNOR", pName "GOVERNOR_MODEL" 1, pInt "GOVERNOR_JBUS" 3, pInt "GOVERNOR_M" 4,
    pDbl "GOVERNOR_K" 5, pDbl "GOVERNOR_T1" 6, pDbl "GOVERNOR_T2" 7, pDbl "GOVERNOR_T3" 8,
    pDbl "GOVERNOR_UO" 9, pDbl "GOVERNOR_UC" 10, pDbl "GOVERNOR_PMAX" 11, pDbl "GOVERNOR_PMIN" 12,
    pDbl "GOVERNOR_T4" 13, pDbl "GOVERNOR_K1" 14, pDbl "GOVERNOR_K2" 15, pDbl "GOVERNOR_T5" 16,
    pDbl "GOVERNOR_K3" 17, pDbl "GOVERNOR_K4" 18, pDbl "GOVERNOR_T6" 19, pDbl "GOVERNOR_K5" 20,
    pDbl "GOVERNOR_K6" 21, pDbl "GOVERNOR_T7" 22, pDbl "GOVERNOR_K7" 23, pDbl "GOVERNOR_K8" 24,
    pDbl "GOVERNOR_DB1" 25, pDbl "GOVERNOR_ERR" 26, pDbl "GOVERNOR_DB2" 27, pDbl "GOVERNOR_GV1" 28,
    pDbl "GOVERNOR_PGV1" 29, pDbl "GOVERNOR_GV2" 30, pDbl "GOVERNOR_PGV2" 31, pDbl "GOVERNOR_GV3" 32,
    pDbl "GOVERNOR_PGV3" 33, pDbl "GOVERNOR_GV4" 34, pDbl "GOVERNOR_PGV4" 35,
    ⟨some 36, "GOVERNOR_GV5", .double, "GOVERNOR_GV5", (.dbl 36), "GOVERNOR_GV4", (.dbl 36)⟩,
    pDbl "GOVERNOR_PGV5" 37,
    ⟨some 38, "GOVERNOR_IBLOCK", .int, "GOVERNOR_PGV5", (.int 38), "GOVERNOR_IBLOCK", (.int 38)⟩]
  store := [
    sInt "bus_id" 0, ⟨none, "gen_id", (.tag 2)⟩, ⟨none, "model", (.name 1)⟩, sInt "jbus" 3, sInt "gv_m" 4,
    sDbl "gv_k" 5, sDbl "gv_t1" 6, sDbl "gv_t2" 7, sDbl "gv_t3" 8, sDbl "gv_uo" 9, sDbl "gv_uc" 10,
    sDbl "pmax" 11, sDbl "pmin" 12, sDbl "gv_t4" 13, sDbl "gv_k1" 14, sDbl "gv_k2" 15, sDbl "gv_t5" 16,
    sDbl "gv_k3" 17, sDbl "gv_k4" 18, sDbl "gv_t6" 19, sDbl "gv_k5" 20, sDbl "gv_k6" 21, sDbl "gv_t7" 22,
    sDbl "gv_k7" 23, sDbl "gv_k8" 24, sDbl "db1" 25, sDbl "err" 26, sDbl "db2" 27, sDbl "gv1" 28,
    sDbl "pgv1" 29, sDbl "gv2" 30, sDbl "pgv2" 31, sDbl "gv3" 32, sDbl "pgv3" 33, sDbl "gv4" 34,
    sDbl "pgv4" 35, sDbl "gv5" 36, sDbl "pgv5" 37, sInt "iblock" 38]
  extract := [
    eFlag "HAS_GOVERNOR", eStr "GOVERNOR_MODEL" "model", eInt "GOVERNOR_JBUS" "jbus", eInt "GOVERNOR_M" "gv_m",
    eDbl "GOVERNOR_K" "gv_k", eDbl "GOVERNOR_T1" "gv_t1", eDbl "GOVERNOR_T2" "gv_t2",
    ⟨none, "GOVERNOR_T3", .double, "GOVERNOR_T3", (.field .double "gv_t2"), "GOVERNOR_T3", (.field .double "gv_t3")⟩,
    eDbl "GOVERNOR_UO" "gv_uo", eDbl "GOVERNOR_UC" "gv_uc", eDbl "GOVERNOR_PMAX" "pmax",
    eDbl "GOVERNOR_PMIN" "pmin", eDbl "GOVERNOR_T4" "gv_t4", eDbl "GOVERNOR_K1" "gv_k1",
    eDbl "GOVERNOR_K2" "gv_k2", eDbl "GOVERNOR_T5" "gv_t5", eDbl "GOVERNOR_K3" "gv_k3",
    eDbl "GOVERNOR_K4" "gv_k4", eDbl "GOVERNOR_T6" "gv_t6", eDbl "GOVERNOR_K5" "gv_k5",
    eDbl "GOVERNOR_K6" "gv_k6", eDbl "GOVERNOR_T7" "gv_t7", eDbl "GOVERNOR_K7" "gv_k7",
    eDbl "GOVERNOR_K8" "gv_k8", eDbl "GOVERNOR_DB1" "db1", eDbl "GOVERNOR_ERR" "err",
    eDbl "GOVERNOR_DB2" "db2", eDbl "GOVERNOR_GV1" "gv1", eDbl "GOVERNOR_PGV1" "pgv1",
    eDbl "GOVERNOR_GV2" "gv2", eDbl "GOVERNOR_PGV2" "pgv2", eDbl "GOVERNOR_GV3" "gv3",
    eDbl "GOVERNOR_PGV3" "pgv3", eDbl "GOVERNOR_GV4" "gv4", eDbl "GOVERNOR_PGV4" "pgv4",
    eDbl "GOVERNOR_GV5" "gv5", eDbl "GOVERNOR_PGV5" "pgv5", eInt "GOVERNOR_IBLOCK" "iblock"]

/-- src/parser/parser_classes/wtara1.hpp: `parse` 89-139, `store` 146-177, `extract` 40-81. -/
def wtara1 : Kind where
  parse := [
    pFlag "HAS_WIND_AERODYNAMIC", pName "WIND_AERODYNAMIC" 1, pTag "WIND_ID" 2, pDbl "WIND_AD_KA" 3,
    pDbl "WIND_AD_THETA" 4]
  store := [
    sInt "bus_id" 0, ⟨none, "gen_id", (.tag 2)⟩, ⟨none, "model", (.name 1)⟩, sDbl "wind_ka" 3,
    sDbl "wind_theta" 4]
  extract := [
    eFlag "HAS_WIND_AERODYNAMIC", eStr "WIND_AERODYNAMIC" "model", eStr "WIND_ID" "gen_id",
    eDbl "WIND_AD_KA" "wind_ka", eDbl "WIND_AD_THETA" "wind_theta"]

/-- src/parser/parser_classes/wtdta1.hpp: `parse` 110-184, `store` 191-234, `extract` 40-102. -/
def wtdta1 : Kind where
  parse := [
    pFlag "HAS_WIND_DRIVETRAIN", pName "WIND_DRIVETRAIN" 1, pTag "WIND_ID" 2, pDbl "WIND_DT_H" 3,
    pDbl "WIND_DT_DAMP" 4, pDbl "WIND_DT_HFRAC" 5, pDbl "WIND_DT_FREQ1" 6, pDbl "WIND_DT_DSHAFT" 7]
  store := [
    sInt "bus_id" 0, ⟨none, "gen_id", (.tag 2)⟩, ⟨none, "model", (.name 1)⟩, sDbl "wind_h" 3,
    sDbl "wind_damp" 4, sDbl "wind_hfrac" 5, sDbl "wind_freq1" 6, sDbl "wind_dshaft" 7]
  extract := [
    eFlag "HAS_WIND_DRIVETRAIN", eStr "WIND_DRIVETRAIN" "model", eStr "WIND_ID" "gen_id",
    eDbl "WIND_DT_H" "wind_h", eDbl "WIND_DT_DAMP" "wind_damp", eDbl "WIND_DT_HFRAC" "wind_hfrac",
    eDbl "WIND_DT_FREQ1" "wind_freq1", eDbl "WIND_DT_DSHAFT" "wind_dshaft"]

/-- src/parser/parser_classes/wtpta1.hpp: `parse` 145-259, `store` 266-329, `extract` 40-137. -/
def wtpta1 : Kind where
  parse := [
    pFlag "HAS_WIND_PITCHCONTROL", pName "WIND_PITCHCONTROL" 1, pTag "WIND_ID" 2, pDbl "WIND_PC_KIW" 3,
    pDbl "WIND_PC_KPW" 4, pDbl "WIND_PC_KIC" 5, pDbl "WIND_PC_KPC" 6, pDbl "WIND_PC_KCC" 7,
    pDbl "WIND_PC_TP" 8, pDbl "WIND_PC_THETAMAX" 9, pDbl "WIND_PC_THETAMIN" 10, pDbl "WIND_PC_RTHETAMAX" 11,
    pDbl "WIND_PC_RTHETAMIN" 12]
  store := [
    sInt "bus_id" 0, ⟨none, "gen_id", (.tag 2)⟩, ⟨none, "model", (.name 1)⟩, sDbl "wind_kiw" 3,
    sDbl "wind_kpw" 4, sDbl "wind_kic" 5, sDbl "wind_kpc" 6, sDbl "wind_kcc" 7, sDbl "wind_tp" 8,
    sDbl "wind_thetamax" 9, sDbl "wind_thetamin" 10, sDbl "wind_rthetamax" 11, sDbl "wind_rthetamin" 12]
  extract := [
    eFlag "HAS_WIND_PITCHCONTROL", eStr "WIND_PITCHCONTROL" "model", eStr "WIND_ID" "gen_id",
    eDbl "WIND_PC_KIW" "wind_kiw", eDbl "WIND_PC_KPW" "wind_kpw", eDbl "WIND_PC_KIC" "wind_kic",
    eDbl "WIND_PC_KPC" "wind_kpc", eDbl "WIND_PC_KCC" "wind_kcc", eDbl "WIND_PC_TP" "wind_tp",
    eDbl "WIND_PC_THETAMAX" "wind_thetamax", eDbl "WIND_PC_THETAMIN" "wind_thetamin",
    eDbl "WIND_PC_RTHETAMAX" "wind_rthetamax", eDbl "WIND_PC_RTHETAMIN" "wind_rthetamin"]

/-- src/parser/parser_classes/wttqa1.hpp: `parse` 187-349, `store` 356-442, `extract` 40-179. -/
def wttqa1 : Kind where
  parse := [
    pFlag "HAS_WIND_TORQUECONTROL", pName "WIND_TORQUECONTROL" 1, pTag "WIND_ID" 2, pInt "WIND_TC_TFLAG" 3,
    pDbl "WIND_TC_KPP" 4, pDbl "WIND_TC_KIP" 5, pDbl "WIND_TC_TP" 6, pDbl "WIND_TC_TWREF" 7,
    pDbl "WIND_TC_TEMAX" 8, pDbl "WIND_TC_TEMIN" 9, pDbl "WIND_TC_P1" 10, pDbl "WIND_TC_SPD1" 11,
    pDbl "WIND_TC_P2" 12, pDbl "WIND_TC_SPD2" 13, pDbl "WIND_TC_P3" 14, pDbl "WIND_TC_SPD3" 15,
    pDbl "WIND_TC_P4" 16, pDbl "WIND_TC_SPD4" 17, pDbl "WIND_TC_TRATE" 18]
  store := [
    sInt "bus_id" 0, ⟨none, "gen_id", (.tag 2)⟩, ⟨none, "model", (.name 1)⟩, sInt "wind_tflag" 3,
    sDbl "wind_kpp" 4, sDbl "wind_kip" 5, sDbl "wind_tp" 6, sDbl "wind_twref" 7, sDbl "wind_temax" 8,
    sDbl "wind_temin" 9, sDbl "wind_p1" 10, sDbl "wind_spd1" 11, sDbl "wind_p2" 12, sDbl "wind_spd2" 13,
    sDbl "wind_p3" 14, sDbl "wind_spd3" 15, sDbl "wind_p4" 16, sDbl "wind_spd4" 17, sDbl "wind_trate" 18]
  extract := [
    eFlag "HAS_WIND_TORQUECONTROL", eStr "WIND_TORQUECONTROL" "model", eStr "WIND_ID" "gen_id",
    eInt "WIND_TC_TFLAG" "wind_tflag", eDbl "WIND_TC_KPP" "wind_kpp", eDbl "WIND_TC_KIP" "wind_kip",
    eDbl "WIND_TC_TP" "wind_tp", eDbl "WIND_TC_TWREF" "wind_twref", eDbl "WIND_TC_TEMAX" "wind_temax",
    eDbl "WIND_TC_TEMIN" "wind_temin", eDbl "WIND_TC_P1" "wind_p1", eDbl "WIND_TC_SPD1" "wind_spd1",
    eDbl "WIND_TC_P2" "wind_p2", eDbl "WIND_TC_SPD2" "wind_spd2", eDbl "WIND_TC_P3" "wind_p3",
    eDbl "WIND_TC_SPD3" "wind_spd3", eDbl "WIND_TC_P4" "wind_p4", eDbl "WIND_TC_SPD4" "wind_spd4",
    eDbl "WIND_TC_TRATE" "wind_trate"]

end GridPACK.Dyr
