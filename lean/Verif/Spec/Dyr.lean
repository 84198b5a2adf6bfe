import Verif.Lemmas.RawBus
import Verif.Model.Dyr

/-! What the records of a .dyr file mean: for each model the parameters in the order of the file format.  Token 0 is
the number of the bus, token 1 the name of the model, token 2 the name of the generator or load. -/
namespace GridPACK.DyrSpec
open StringUtils DataCollection Dyr
open RawBus (Data get)

/-- A parameter: the name under which it can be read, and the place of its token.  `num`: a number, `int`: an
integer, `whole`: an integer, possibly written as a number, `tag`: a two-character name, `name`: the name of the
model, `flag`: the mark that there is such a device. -/
inductive Par where
  | num (key : String) (n : Nat)
  | int (key : String) (n : Nat)
  | whole (key : String) (n : Nat)
  | tag (key : String) (n : Nat)
  | name (key : String) (n : Nat)
  | flag (key : String)

/-- The name of a parameter. -/
def Par.key : Par → String
  | .num k _ | .int k _ | .whole k _ | .tag k _ | .name k _ | .flag k => k

/-- The place of its token. -/
def Par.place : Par → Option Nat
  | .num _ n | .int _ n | .whole _ n | .tag _ n | .name _ n => some n
  | .flag _ => none

/-- The parameter can be read from a data collection, with the value of its token. -/
def Par.Stored (cv : Conv) (ts : List Str) (c : Data) (idx : Option Int) : Par → Prop
  | .num k n => ∃ t, ts[n]? = some t ∧ get c .double ⟨k.toList, idx⟩ = some (cv.atof t)
  | .int k n => ∃ t, ts[n]? = some t ∧ get c .int ⟨k.toList, idx⟩ = some (cv.atoi t)
  | .whole k n => ∃ t, ts[n]? = some t ∧ get c .int ⟨k.toList, idx⟩ = some (cv.trunc (cv.atof t))
  | .tag k n => ∃ t, ts[n]? = some t ∧ get c .string ⟨k.toList, idx⟩ = some (cv.tag t)
  | .name k n => ∃ t, ts[n]? = some t ∧ get c .string ⟨k.toList, idx⟩ = some (cv.name t)
  | .flag k => get c .bool ⟨k.toList, idx⟩ = some true

/-- Consecutive numbers from place `n` on. -/
def nums : Nat → List String → List Par
  | _, [] => []
  | n, k :: ks => .num k n :: nums (n + 1) ks

/-- Consecutive integers from place `n` on. -/
def ints : Nat → List String → List Par
  | _, [] => []
  | n, k :: ks => .int k n :: ints (n + 1) ks

/-- Consecutive integers that may be written as numbers. -/
def wholes : Nat → List String → List Par
  | _, [] => []
  | n, k :: ks => .whole k n :: wholes (n + 1) ks

/-- Consecutive two-character names. -/
def tags : Nat → List String → List Par
  | _, [] => []
  | n, k :: ks => .tag k n :: tags (n + 1) ks

/-- The record has all tokens of the format. -/
def Complete (ps : List Par) (ts : List Str) : Prop := ∀ p ∈ ps, ∀ n, p.place = some n → n < ts.length

def acmtblu1 : List Par :=
  [.name "LOAD_MODEL" 3] ++ nums 11 ["LOAD_TSTALL", "LOAD_TRESTART", "LOAD_TV", "LOAD_TF", "LOAD_COMPLF",
  "LOAD_COMPPF", "LOAD_VSTALL", "LOAD_RSTALL", "LOAD_XSTALL", "LOAD_LFADJ", "LOAD_KP1", "LOAD_NP1", "LOAD_KQ1",
  "LOAD_NQ1", "LOAD_KP2", "LOAD_NP2", "LOAD_KQ2", "LOAD_NQ2", "LOAD_VBRK", "LOAD_FRST", "LOAD_VRST",
  "LOAD_CMPKPF", "LOAD_CMPKQF", "LOAD_VC1OFF", "LOAD_VC2OFF", "LOAD_VC1ON", "LOAD_VC2ON", "LOAD_TTH",
  "LOAD_TH1T", "LOAD_TH2T", "LOAD_FUVR", "LOAD_UVTR1", "LOAD_TTR1", "LOAD_UVTR2", "LOAD_TTR2", "LOAD_AC_PERC"]

def cim6bl : List Par :=
  [.name "LOAD_MODEL" 1] ++ ints 3 ["LOAD_IT"] ++ nums 4 ["LOAD_RA", "LOAD_XA", "LOAD_XM", "LOAD_R1", "LOAD_X1",
  "LOAD_R2", "LOAD_X2", "LOAD_E1", "LOAD_SE1", "LOAD_E2", "LOAD_SE2", "LOAD_MBASE", "LOAD_PMULT", "LOAD_H",
  "LOAD_VI", "LOAD_TI", "LOAD_TB", "LOAD_A", "LOAD_B", "LOAD_D", "LOAD_E", "LOAD_C0", "LOAD_TNOM",
  "LOAD_DYN_PERC"]

def cmldblu1 : List Par :=
  [.name "LOAD_MODEL" 3] ++ ints 5 ["LOAD_IT"] ++ nums 11 ["LOAD_MVA", "LOAD_BSS", "LOAD_RFDR", "LOAD_XFDR",
  "LOAD_FB", "LOAD_XXF", "LOAD_TFIXHS", "LOAD_TFIXLS", "LOAD_LTC", "LOAD_TMIN", "LOAD_TMAX", "LOAD_STEP",
  "LOAD_VMIN", "LOAD_VMAX", "LOAD_TDEL", "LOAD_TTAP", "LOAD_RCOMP", "LOAD_XCOMP", "LOAD_FMA", "LOAD_FMB",
  "LOAD_FMC", "LOAD_FMD", "LOAD_FEL", "LOAD_PFEL", "LOAD_VD1", "LOAD_VD2", "LOAD_PFS", "LOAD_P1E", "LOAD_P1C",
  "LOAD_P2E", "LOAD_P2C", "LOAD_PFREQ", "LOAD_Q1E", "LOAD_Q1C", "LOAD_Q2E", "LOAD_Q2C", "LOAD_QFREQ"] ++ ints 48
  ["LOAD_MTPA"] ++ nums 49 ["LOAD_LFMA", "LOAD_RSA", "LOAD_LSA", "LOAD_LPA", "LOAD_LPPA", "LOAD_TPOA",
  "LOAD_TPPOA", "LOAD_HA", "LOAD_ETRQA", "LOAD_VTR1A", "LOAD_TTR1A", "LOAD_FTR1A", "LOAD_VRC1A", "LOAD_TRC1A",
  "LOAD_VTR2A", "LOAD_TTR2A", "LOAD_FTR2A", "LOAD_VRC2A", "LOAD_TRC2A"] ++ ints 68 ["LOAD_MTPB"] ++ nums 69
  ["LOAD_LFMB", "LOAD_RSB", "LOAD_LSB", "LOAD_LPB", "LOAD_LPPB", "LOAD_TPOB", "LOAD_TPPOB", "LOAD_HB",
  "LOAD_ETRQB", "LOAD_VTR1B", "LOAD_TTR1B", "LOAD_FTR1B", "LOAD_VRC1B", "LOAD_TRC1B", "LOAD_VTR2B",
  "LOAD_TTR2B", "LOAD_FTR2B", "LOAD_VRC2B", "LOAD_TRC2B"] ++ ints 88 ["LOAD_MTPC"] ++ nums 89 ["LOAD_LFMC",
  "LOAD_RSC", "LOAD_LSC", "LOAD_LPC", "LOAD_LPPC", "LOAD_TPOC", "LOAD_TPPOC", "LOAD_HC", "LOAD_ETRQC",
  "LOAD_VTR1C", "LOAD_TTR1C", "LOAD_FTR1C", "LOAD_VRC1C", "LOAD_TRC1C", "LOAD_VTR2C", "LOAD_TTR2C",
  "LOAD_FTR2C", "LOAD_VRC2C", "LOAD_TRC2C", "LOAD_TSTALL", "LOAD_TRST", "LOAD_TV", "LOAD_TF", "LOAD_LFMD",
  "LOAD_COMPPF", "LOAD_VSTALL", "LOAD_RSTALL", "LOAD_XSTALL", "LOAD_LFADJ", "LOAD_KP1", "LOAD_NP1", "LOAD_KQ1",
  "LOAD_NQ1", "LOAD_KP2", "LOAD_NP2", "LOAD_KQ2", "LOAD_NQ2", "LOAD_VBRK", "LOAD_FRST", "LOAD_VRST",
  "LOAD_CMPKPF", "LOAD_CMPKQF", "LOAD_VC1OFF", "LOAD_VC2OFF", "LOAD_VC1ON", "LOAD_VC2ON", "LOAD_TTH",
  "LOAD_TH1T", "LOAD_TH2T", "LOAD_FUVR", "LOAD_UVTR1", "LOAD_TTR1", "LOAD_UVTR2", "LOAD_TTR2"]

def distr1 : List Par :=
  [.name "RELAY_MODEL" 1] ++ tags 3 ["RELAY_ID"] ++ ints 4 ["RELAY_RS", "RELAY_MTYPE", "RELAY_BMON",
  "RELAY_IBUS1", "RELAY_JBUS1"] ++ tags 9 ["RELAY_ID1"] ++ ints 10 ["RELAY_IBUS2", "RELAY_JBUS2"] ++ tags 12
  ["RELAY_ID2"] ++ ints 13 ["RELAY_IBUS3", "RELAY_JBUS3"] ++ tags 15 ["RELAY_ID3"] ++ nums 16
  ["RELAY_ZONE1_TIME", "RELAY_ZONE1_REACH", "RELAY_ZONE1_CENANG", "RELAY_ZONE1_CENDIS", "RELAY_ZONE2_TIME",
  "RELAY_ZONE2_REACH", "RELAY_ZONE2_CENANG", "RELAY_ZONE2_CENDIS", "RELAY_ZONE3_TIME", "RELAY_ZONE3_REACH",
  "RELAY_ZONE3_CENANG", "RELAY_ZONE3_CENDIS", "RELAY_DIRANG", "RELAY_THCUR", "RELAY_SEBTIME", "RELAY_SERCTIME",
  "RELAY_TRBTIME", "RELAY_TRRCTIME"] ++ ints 34 ["RELAY_BLTYPE1"] ++ nums 35 ["RELAY_BLINT1", "RELAY_BLRO1"] ++
  ints 37 ["RELAY_BLTYPE2"] ++ nums 38 ["RELAY_BLINT2", "RELAY_BLRO2"]

def esst1a : List Par :=
  [.flag "HAS_EXCITER"] ++ [.name "EXCITER_MODEL" 1] ++ nums 3 ["EXCITER_UEL", "EXCITER_VOS", "EXCITER_TR",
  "EXCITER_VIMAX", "EXCITER_VIMIN", "EXCITER_TC", "EXCITER_TB", "EXCITER_TC1", "EXCITER_TB1", "EXCITER_KA",
  "EXCITER_TA", "EXCITER_VAMAX", "EXCITER_VAMIN", "EXCITER_VRMAX", "EXCITER_VRMIN", "EXCITER_KC", "EXCITER_KF",
  "EXCITER_TF", "EXCITER_KLR", "EXCITER_ILR"]

def esst4b : List Par :=
  [.flag "HAS_EXCITER"] ++ [.name "EXCITER_MODEL" 1] ++ nums 3 ["EXCITER_TR", "EXCITER_KPR", "EXCITER_KIR",
  "EXCITER_VRMAX", "EXCITER_VRMIN", "EXCITER_TA", "EXCITER_KPM", "EXCITER_KIM", "EXCITER_VMMAX",
  "EXCITER_VMMIN", "EXCITER_KG", "EXCITER_KP", "EXCITER_KI", "EXCITER_VBMAX", "EXCITER_KC", "EXCITER_XL",
  "EXCITER_THETAP"]

def exdc1 : List Par :=
  [.flag "HAS_EXCITER"] ++ [.name "EXCITER_MODEL" 1] ++ nums 3 ["EXCITER_TR", "EXCITER_KA", "EXCITER_TA",
  "EXCITER_TB", "EXCITER_TC", "EXCITER_VRMAX", "EXCITER_VRMIN", "EXCITER_KE", "EXCITER_TE", "EXCITER_KF",
  "EXCITER_TF1", "EXCITER_SWITCH", "EXCITER_E1", "EXCITER_SE1", "EXCITER_E2", "EXCITER_SE2"]

def frqtpat : List Par :=
  [.name "RELAY_MODEL" 1] ++ tags 4 ["RELAY_GENID"] ++ ints 0 ["RELAY_MINS"] ++ ints 2 ["RELAY_FREBUS"] ++ nums
  5 ["RELAY_FL", "RELAY_FU", "RELAY_TP", "RELAY_TB"]

def gast : List Par :=
  [.flag "HAS_GOVERNOR"] ++ [.name "GOVERNOR_MODEL" 1] ++ nums 3 ["GOVERNOR_R", "GOVERNOR_T1", "GOVERNOR_T2",
  "GOVERNOR_T3", "GOVERNOR_AT", "GOVERNOR_KT", "GOVERNOR_VMAX", "GOVERNOR_VMIN", "GOVERNOR_DT"]

def gdform : List Par :=
  [.name "GENERATOR_MODEL" 1] ++ nums 3 ["GENERATOR_MQ", "GENERATOR_KPV", "GENERATOR_KIV", "GENERATOR_MP",
  "GENERATOR_KPPMAX", "GENERATOR_KIPMAX", "GENERATOR_PMAX", "GENERATOR_PMIN", "GENERATOR_EMAX",
  "GENERATOR_EMIN", "GENERATOR_TPF", "GENERATOR_IMAX", "GENERATOR_QMAX", "GENERATOR_QMIN", "GENERATOR_KPQMAX",
  "GENERATOR_KIQMAX", "GENERATOR_TQF", "GENERATOR_TVF"] ++ ints 21 ["GENERATOR_VFLAG"]

def gencls : List Par :=
  [.name "GENERATOR_MODEL" 1] ++ nums 3 ["GENERATOR_INERTIA_CONSTANT_H", "GENERATOR_DAMPING_COEFFICENT_0",
  "GENERATOR_TRANSIENT_REACTANCE"]

def genrou : List Par :=
  [.name "GENERATOR_MODEL" 1] ++ nums 3 ["GENERATOR_TDOP", "GENERATOR_TDOPP", "GENERATOR_TQOP",
  "GENERATOR_TQOPP", "GENERATOR_INERTIA_CONSTANT_H", "GENERATOR_DAMPING_COEFFICENT_0", "GENERATOR_XD",
  "GENERATOR_XQ", "GENERATOR_XDP", "GENERATOR_XQP", "GENERATOR_XDPP", "GENERATOR_XL", "GENERATOR_S1",
  "GENERATOR_S12"]

def gensal : List Par :=
  [.name "GENERATOR_MODEL" 1] ++ nums 3 ["GENERATOR_TDOP", "GENERATOR_TDOPP", "GENERATOR_TQOPP",
  "GENERATOR_INERTIA_CONSTANT_H", "GENERATOR_DAMPING_COEFFICENT_0", "GENERATOR_XD", "GENERATOR_XQ",
  "GENERATOR_XDP", "GENERATOR_XDPP", "GENERATOR_XL", "GENERATOR_S1", "GENERATOR_S12"]

def ggov1 : List Par :=
  [.flag "HAS_GOVERNOR"] ++ [.name "GOVERNOR_MODEL" 1] ++ nums 3 ["GOVERNOR_RSELECT", "GOVERNOR_FLAGSWITCH",
  "GOVERNOR_R", "GOVERNOR_TPELEC", "GOVERNOR_MAXERR", "GOVERNOR_MINERR", "GOVERNOR_KPGOV", "GOVERNOR_KIGOV",
  "GOVERNOR_KDGOV", "GOVERNOR_TDGOV", "GOVERNOR_VMAX", "GOVERNOR_VMIN", "GOVERNOR_TACT", "GOVERNOR_KTURB",
  "GOVERNOR_WFNL", "GOVERNOR_TB", "GOVERNOR_TC", "GOVERNOR_TENG", "GOVERNOR_TFLOAD", "GOVERNOR_KPLOAD",
  "GOVERNOR_KILOAD", "GOVERNOR_LDREF", "GOVERNOR_DM", "GOVERNOR_ROPEN", "GOVERNOR_RCLOSE", "GOVERNOR_KIMW",
  "GOVERNOR_ASET", "GOVERNOR_KA", "GOVERNOR_TA", "GOVERNOR_TRATE", "GOVERNOR_DB", "GOVERNOR_TSA",
  "GOVERNOR_TSB", "GOVERNOR_RUP", "GOVERNOR_RDOWN"]

def hygov : List Par :=
  [.flag "HAS_GOVERNOR"] ++ [.name "GOVERNOR_MODEL" 1] ++ nums 3 ["GOVERNOR_R", "GOVERNOR_r", "GOVERNOR_TR",
  "GOVERNOR_TF", "GOVERNOR_TG", "GOVERNOR_VELM", "GOVERNOR_GMAX", "GOVERNOR_GMIN", "GOVERNOR_TW", "GOVERNOR_AT",
  "GOVERNOR_DT", "GOVERNOR_QNL"]

def ieeet1 : List Par :=
  [.flag "HAS_EXCITER"] ++ [.name "EXCITER_MODEL" 1] ++ nums 3 ["EXCITER_TR", "EXCITER_KA", "EXCITER_TA",
  "EXCITER_VRMAX", "EXCITER_VRMIN", "EXCITER_KE", "EXCITER_TE", "EXCITER_KF", "EXCITER_TF1", "EXCITER_SWITCH",
  "EXCITER_E1", "EXCITER_SE1", "EXCITER_E2", "EXCITER_SE2"]

def ieelbl : List Par :=
  [.name "LOAD_MODEL" 1] ++ nums 3 ["LOAD_A1", "LOAD_A2", "LOAD_A3", "LOAD_A4", "LOAD_A5", "LOAD_A6", "LOAD_A7",
  "LOAD_A8", "LOAD_N1", "LOAD_N2", "LOAD_N3", "LOAD_N4", "LOAD_N5", "LOAD_N6"]

def lvshbl : List Par :=
  [.name "RELAY_MODEL" 1] ++ tags 2 ["RELAY_LID"] ++ ints 3 ["RELAY_JBUS"] ++ nums 4 ["RELAY_V1", "RELAY_T1",
  "RELAY_F1", "RELAY_V2", "RELAY_T2", "RELAY_F2", "RELAY_V3", "RELAY_T3", "RELAY_F3", "RELAY_TB"]

def psssim : List Par :=
  [.flag "HAS_PSS"] ++ [.name "PSS_MODEL" 1] ++ wholes 3 ["PSSSIM_INPUTTYPE", "PSSSIM_BUS1", "PSSSIM_BUS2",
  "PSSSIM_BUS3", "PSSSIM_BUS4", "PSSSIM_BUS5", "PSSSIM_BUS6"] ++ nums 10 ["PSSSIM_GAINK", "PSSSIM_TW",
  "PSSSIM_T1", "PSSSIM_T2", "PSSSIM_T3", "PSSSIM_T4", "PSSSIM_MAXOUT", "PSSSIM_MINOUT"]

def reeca1 : List Par :=
  [.flag "HAS_EXCITER"] ++ [.name "EXCITER_MODEL" 1] ++ ints 3 ["GENERATOR_REECA_IREG",
  "GENERATOR_REECA_PFFLAG", "GENERATOR_REECA_VFLAG", "GENERATOR_REECA_QFLAG", "GENERATOR_REECA_PFLAG",
  "GENERATOR_REECA_PQFLAG"] ++ nums 9 ["GENERATOR_REECA_VDIP", "GENERATOR_REECA_VUP", "GENERATOR_REECA_TRV",
  "GENERATOR_REECA_DBD1", "GENERATOR_REECA_DBD2", "GENERATOR_REECA_KQV", "GENERATOR_REECA_IQH1",
  "GENERATOR_REECA_IQL1", "GENERATOR_REECA_VREF0", "GENERATOR_REECA_IQFRZ", "GENERATOR_REECA_THLD",
  "GENERATOR_REECA_THLD2", "GENERATOR_REECA_TP", "GENERATOR_REECA_QMAX", "GENERATOR_REECA_QMIN",
  "GENERATOR_REECA_VMAX", "GENERATOR_REECA_VMIN", "GENERATOR_REECA_KQP", "GENERATOR_REECA_KQI",
  "GENERATOR_REECA_KVP", "GENERATOR_REECA_KVI", "GENERATOR_REECA_VBIAS", "GENERATOR_REECA_TIQ",
  "GENERATOR_REECA_DPMAX", "GENERATOR_REECA_DPMIN", "GENERATOR_REECA_PMAX", "GENERATOR_REECA_PMIN",
  "GENERATOR_REECA_IMAX", "GENERATOR_REECA_TPORD", "GENERATOR_REECA_VQ1", "GENERATOR_REECA_IQ1",
  "GENERATOR_REECA_VQ2", "GENERATOR_REECA_IQ2", "GENERATOR_REECA_VQ3", "GENERATOR_REECA_IQ3",
  "GENERATOR_REECA_VQ4", "GENERATOR_REECA_IQ4", "GENERATOR_REECA_VP1", "GENERATOR_REECA_IP1",
  "GENERATOR_REECA_VP2", "GENERATOR_REECA_IP2", "GENERATOR_REECA_VP3", "GENERATOR_REECA_IP3",
  "GENERATOR_REECA_VP4", "GENERATOR_REECA_IP4"]

def regca1 : List Par :=
  [.name "GENERATOR_MODEL" 1] ++ ints 3 ["GENERATOR_REGC_LVPLSW"] ++ nums 4 ["GENERATOR_REGC_TG",
  "GENERATOR_REGC_RRPWR", "GENERATOR_REGC_BRKPT", "GENERATOR_REGC_ZEROX", "GENERATOR_REGC_LVPL1",
  "GENERATOR_REGC_VOLIM", "GENERATOR_REGC_LVPNT1", "GENERATOR_REGC_LVPNT0", "GENERATOR_REGC_LOLIM",
  "GENERATOR_REGC_TFLTR", "GENERATOR_REGC_KHV", "GENERATOR_REGC_IQRMAX", "GENERATOR_REGC_IQRMIN",
  "GENERATOR_REGC_ACCEL"]

def regcb1 : List Par :=
  [.name "GENERATOR_MODEL" 1] ++ ints 3 ["GENERATOR_REGC_RATEFLAG", "GENERATOR_REGC_PQFLAG"] ++ nums 5
  ["GENERATOR_REGC_TG", "GENERATOR_REGC_TFLTR", "GENERATOR_REGC_IQRMAX", "GENERATOR_REGC_IQRMIN",
  "GENERATOR_REGC_RRPWR", "GENERATOR_REGC_TE", "GENERATOR_REGC_IMAX"]

def regcc1 : List Par :=
  [.name "GENERATOR_MODEL" 1] ++ ints 3 ["GENERATOR_REGC_RATEFLAG", "GENERATOR_REGC_PQFLAG"] ++ nums 5
  ["GENERATOR_REGC_TG", "GENERATOR_REGC_TFLTR", "GENERATOR_REGC_IQRMAX", "GENERATOR_REGC_IQRMIN",
  "GENERATOR_REGC_RRPWR", "GENERATOR_REGC_TE", "GENERATOR_REGC_IMAX", "GENERATOR_REGC_KIP",
  "GENERATOR_REGC_KII", "GENERATOR_REGC_KPPLL", "GENERATOR_REGC_KIPLL", "GENERATOR_REGC_WMAX",
  "GENERATOR_REGC_WMIN"]

def repca1 : List Par :=
  [.flag "HAS_PLANT_CONTROLLER"] ++ [.name "PLANT_CONTROLLER_MODEL" 1] ++ ints 3 ["GENERATOR_REPCA_IREG",
  "GENERATOR_REPCA_BRCH_BUS_FROM", "GENERATOR_REPCA_BRCH_BUS_TO"] ++ tags 6 ["GENERATOR_REPCA_BRCH_CKT"] ++ ints
  7 ["GENERATOR_REPCA_VC_FLAG", "GENERATOR_REPCA_REF_FLAG", "GENERATOR_REPCA_F_FLAG"] ++ nums 10
  ["GENERATOR_REPCA_TFLTR", "GENERATOR_REPCA_KP", "GENERATOR_REPCA_KI", "GENERATOR_REPCA_TFT",
  "GENERATOR_REPCA_TFV", "GENERATOR_REPCA_VFRZ", "GENERATOR_REPCA_RC", "GENERATOR_REPCA_XC",
  "GENERATOR_REPCA_KC", "GENERATOR_REPCA_EMAX", "GENERATOR_REPCA_EMIN", "GENERATOR_REPCA_DBD1",
  "GENERATOR_REPCA_DBD2", "GENERATOR_REPCA_QMAX", "GENERATOR_REPCA_QMIN", "GENERATOR_REPCA_KPG",
  "GENERATOR_REPCA_KIG", "GENERATOR_REPCA_TP", "GENERATOR_REPCA_FDBD1", "GENERATOR_REPCA_FDBD2",
  "GENERATOR_REPCA_FEMAX", "GENERATOR_REPCA_FEMIN", "GENERATOR_REPCA_PMAX", "GENERATOR_REPCA_PMIN",
  "GENERATOR_REPCA_TG", "GENERATOR_REPCA_DDN", "GENERATOR_REPCA_DUP"]

def sexs : List Par :=
  [.flag "HAS_EXCITER"] ++ [.name "EXCITER_MODEL" 1] ++ nums 3 ["EXCITER_TA_OVER_TB", "EXCITER_TB", "EXCITER_K",
  "EXCITER_TE", "EXCITER_EMIN", "EXCITER_EMAX"]

def tgov1 : List Par :=
  [.flag "HAS_GOVERNOR"] ++ [.name "GOVERNOR_MODEL" 1] ++ nums 3 ["GOVERNOR_R", "GOVERNOR_T1", "GOVERNOR_VMAX",
  "GOVERNOR_VMIN", "GOVERNOR_T2", "GOVERNOR_T3", "GOVERNOR_DT"]

def wshygp : List Par :=
  [.flag "HAS_GOVERNOR"] ++ [.name "GOVERNOR_MODEL" 1] ++ nums 3 ["GOVERNOR_DB1", "GOVERNOR_ERR", "GOVERNOR_TD",
  "GOVERNOR_KI", "GOVERNOR_TF", "GOVERNOR_KD", "GOVERNOR_KP", "GOVERNOR_R", "GOVERNOR_TT", "GOVERNOR_KG",
  "GOVERNOR_TP", "GOVERNOR_VELOPEN", "GOVERNOR_VELCLOSE", "GOVERNOR_PMAX", "GOVERNOR_PMIN", "GOVERNOR_DB2",
  "GOVERNOR_GV1", "GOVERNOR_PGV1", "GOVERNOR_GV2", "GOVERNOR_PGV2", "GOVERNOR_GV3", "GOVERNOR_PGV3",
  "GOVERNOR_GV4", "GOVERNOR_PGV4", "GOVERNOR_GV5", "GOVERNOR_PGV5", "GOVERNOR_ATURB", "GOVERNOR_BTURB",
  "GOVERNOR_TTURB", "GOVERNOR_TRATE"]

def wsieg1 : List Par :=
  [.flag "HAS_GOVERNOR"] ++ [.name "GOVERNOR_MODEL" 1] ++ ints 3 ["GOVERNOR_JBUS", "GOVERNOR_M"] ++ nums 5
  ["GOVERNOR_K", "GOVERNOR_T1", "GOVERNOR_T2", "GOVERNOR_T3", "GOVERNOR_UO", "GOVERNOR_UC", "GOVERNOR_PMAX",
  "GOVERNOR_PMIN", "GOVERNOR_T4", "GOVERNOR_K1", "GOVERNOR_K2", "GOVERNOR_T5", "GOVERNOR_K3", "GOVERNOR_K4",
  "GOVERNOR_T6", "GOVERNOR_K5", "GOVERNOR_K6", "GOVERNOR_T7", "GOVERNOR_K7", "GOVERNOR_K8", "GOVERNOR_DB1",
  "GOVERNOR_ERR", "GOVERNOR_DB2", "GOVERNOR_GV1", "GOVERNOR_PGV1", "GOVERNOR_GV2", "GOVERNOR_PGV2",
  "GOVERNOR_GV3", "GOVERNOR_PGV3", "GOVERNOR_GV4", "GOVERNOR_PGV4", "GOVERNOR_GV5", "GOVERNOR_PGV5"] ++ ints 38
  ["GOVERNOR_IBLOCK"]

def wtara1 : List Par :=
  [.flag "HAS_WIND_AERODYNAMIC"] ++ [.name "WIND_AERODYNAMIC" 1] ++ tags 2 ["WIND_ID"] ++ nums 3 ["WIND_AD_KA",
  "WIND_AD_THETA"]

def wtdta1 : List Par :=
  [.flag "HAS_WIND_DRIVETRAIN"] ++ [.name "WIND_DRIVETRAIN" 1] ++ tags 2 ["WIND_ID"] ++ nums 3 ["WIND_DT_H",
  "WIND_DT_DAMP", "WIND_DT_HFRAC", "WIND_DT_FREQ1", "WIND_DT_DSHAFT"]

def wtpta1 : List Par :=
  [.flag "HAS_WIND_PITCHCONTROL"] ++ [.name "WIND_PITCHCONTROL" 1] ++ tags 2 ["WIND_ID"] ++ nums 3
  ["WIND_PC_KIW", "WIND_PC_KPW", "WIND_PC_KIC", "WIND_PC_KPC", "WIND_PC_KCC", "WIND_PC_TP", "WIND_PC_THETAMAX",
  "WIND_PC_THETAMIN", "WIND_PC_RTHETAMAX", "WIND_PC_RTHETAMIN"]

def wttqa1 : List Par :=
  [.flag "HAS_WIND_TORQUECONTROL"] ++ [.name "WIND_TORQUECONTROL" 1] ++ tags 2 ["WIND_ID"] ++ ints 3
  ["WIND_TC_TFLAG"] ++ nums 4 ["WIND_TC_KPP", "WIND_TC_KIP", "WIND_TC_TP", "WIND_TC_TWREF", "WIND_TC_TEMAX",
  "WIND_TC_TEMIN", "WIND_TC_P1", "WIND_TC_SPD1", "WIND_TC_P2", "WIND_TC_SPD2", "WIND_TC_P3", "WIND_TC_SPD3",
  "WIND_TC_P4", "WIND_TC_SPD4", "WIND_TC_TRATE"]

/-- The models at generators. -/
def gens : List (String × List Par) :=
  [("ESST1A", esst1a), ("ESST4B", esst4b), ("EXDC1", exdc1), ("EXDC2", exdc1), ("GAST", gast), ("GDFORM",
  gdform), ("GENCLS", gencls), ("GENROU", genrou), ("GENSAL", gensal), ("GGOV1", ggov1), ("HYGOV", hygov),
  ("IEEET1", ieeet1), ("PSSSIM", psssim), ("REECA1", reeca1), ("REGCA1", regca1), ("REGCB1", regcb1), ("REGCC1",
  regcc1), ("REPCA1", repca1), ("REPCTA1", repca1), ("SEXS", sexs), ("TGOV1", tgov1), ("WSHYGP", wshygp),
  ("WSIEG1", wsieg1), ("WTARA1", wtara1), ("WTDTA1", wtdta1), ("WTPTA1", wtpta1), ("WTTQA1", wttqa1)]

/-- The models of loads named in token 1. -/
def loads : List (String × List Par) :=
  [("CIM6BL", cim6bl), ("IEELBL", ieelbl)]

/-- The models of loads named in token 3 of a record of a user model. -/
def userLoads : List (String × List Par) :=
  [("ACMTBLU1", acmtblu1), ("CMLDBLU1", cmldblu1)]

/-- The relays of buses. -/
def relays : List (String × List Par) :=
  [("LVSHBL", lvshbl), ("FRQTPAT", frqtpat)]

/-- The relays of branches. -/
def lines : List (String × List Par) :=
  [("DISTR1", distr1)]

/-- What a record is for: a generator or a load, given by the number of its bus and its name, a relay of a bus, a
relay of the branch between two buses. -/
inductive Place where
  | gen (bus : Int) (tag : Str)
  | load (bus : Int) (tag : Str)
  | relay (bus : Int)
  | line (a b : Int)

/-- The record with tokens `ts` is for `Place`, with model `m` and format `ps`. -/
inductive Describes (cv : Conv) (ts : List Str) : Place → String → List Par → Prop where
  | gen {m ps t0 t1 t2} : (m, ps) ∈ gens → ts[0]? = some t0 → ts[1]? = some t1 → ts[2]? = some t2 →
      cv.name t1 = m.toList → Describes cv ts (.gen (cv.atoi t0) (cv.tag t2)) m ps
  | load {m ps t0 t1 t2} : (m, ps) ∈ loads → ts[0]? = some t0 → ts[1]? = some t1 → ts[2]? = some t2 →
      cv.name t1 = m.toList → Describes cv ts (.load (cv.atoi t0) (cv.tag t2)) m ps
  | userLoad {m ps t0 t1 t2 t3} : (m, ps) ∈ userLoads → ts[0]? = some t0 → ts[1]? = some t1 → ts[2]? = some t2 →
      ts[3]? = some t3 → cv.name t1 = "USRLOD".toList → cv.plain t3 = m.toList → cv.name t3 = m.toList →
      Describes cv ts (.load (cv.atoi t0) (cv.tag t2)) m ps
  | voltage {t0 t1} : ts[0]? = some t0 → ts[1]? = some t1 → cv.name t1 = "LVSHBL".toList →
      Describes cv ts (.relay (cv.atoi t0)) "LVSHBL" lvshbl
  | frequency {t0 t1 t3} : ts[0]? = some t0 → ts[1]? = some t1 → ts[3]? = some t3 → cv.name t1 = "FRQTPAT".toList →
      Describes cv ts (.relay (cv.atoi t3)) "FRQTPAT" frqtpat
  | line {t0 t1 t2} : ts[0]? = some t0 → ts[1]? = some t1 → ts[2]? = some t2 → cv.name t1 = "DISTR1".toList →
      Describes cv ts (.line (cv.atoi t0) (cv.atoi t2)) "DISTR1" distr1

/-- The record has a parameter with this name for this place. -/
def Gives (cv : Conv) (ts : List Str) (w : Place) (name : String) : Prop :=
  ∃ m ps, Describes cv ts w m ps ∧ name ∈ ps.map Par.key

/-- The names of the models. -/
def models : List String := gens.map (·.1) ++ loads.map (·.1) ++ relays.map (·.1) ++ ["USRLOD", "DISTR1"]

/-- A record of a model that is not known, which is skipped. -/
def Unknown (cv : Conv) (ts : List Str) : Prop :=
  ∃ t0 t1, ts[0]? = some t0 ∧ ts[1]? = some t1 ∧ ∀ m ∈ models, cv.name t1 ≠ m.toList

/-- A complete record, or one that is skipped. -/
def Proper (cv : Conv) (ts : List Str) : Prop := (∃ w m ps, Describes cv ts w m ps ∧ Complete ps ts) ∨ Unknown cv ts

/-- Device `g` of a bus is the first one with the name `tag`. -/
def IsDevice (c : Data) (num id : String) (g : Nat) (tag : Str) : Prop :=
  ∃ n : Nat, get c .int ⟨num.toList, none⟩ = some (n : Int) ∧ g < n ∧
    get c .string ⟨id.toList, some (g : Int)⟩ = some tag ∧
    ∀ j < g, ∃ t, get c .string ⟨id.toList, some (j : Int)⟩ = some t ∧ t ≠ tag

/-- A number of a bus or branch, 0 if it is not there. -/
def count (c : Data) (name : String) : Int := (get c .int ⟨name.toList, none⟩).getD (0 : Int)

/-- The name of device `g`, empty if it has none. -/
def deviceName (c : Data) (id : String) (g : Nat) : Str := (get c .string ⟨id.toList, some (g : Int)⟩).getD ([] : Str)

/-- The numbers of devices have up to seven digits, also after `extra` new relays. -/
def Usable (extra : Nat) (c : Data) : Prop :=
  count c "GENERATOR_NUMBER" ≤ 10000000 ∧ count c "LOAD_NUMBER" ≤ 10000000 ∧ 0 ≤ count c "RELAY_NUMBER" ∧
    count c "RELAY_NUMBER" + extra ≤ 10000000

/-- Apart from the parameters `ps` of device `idx` nothing changed. -/
def Rest (ps : List Par) (idx : Option Int) (c c' : Data) : Prop :=
  ∀ (t : Ty) (k : Key), ':' ∉ k.name → (k.idx = idx → ∀ p ∈ ps, k.name ≠ p.key.toList) → get c' t k = get c t k

/-- The parameters that the external reading gets wrong: excepted in the theorems about it, and the subject of the
theorems named `violated`. -/
def externalErrors : List (String × String) :=
  [("ACMTBLU1", "LOAD_NQ1"), ("ACMTBLU1", "LOAD_NQ2"), ("CIM6BL", "LOAD_X1"), ("CIM6BL", "LOAD_E2"),
  ("CMLDBLU1", "LOAD_TTR1"), ("CMLDBLU1", "LOAD_VC2ON"), ("CMLDBLU1", "LOAD_UVTR2"), ("DISTR1",
  "RELAY_ZONE3_TIME"), ("WSIEG1", "GOVERNOR_T3")]

/-- The parameters that the direct reading gets wrong. -/
def directErrors : List (String × String) :=
  [("ACMTBLU1", "LOAD_UVTR1"), ("ACMTBLU1", "LOAD_UVTR2"), ("GDFORM", "GENERATOR_MP"), ("GDFORM",
  "GENERATOR_VFLAG"), ("GENROU", "GENERATOR_XQ"), ("IEELBL", "LOAD_A1"), ("PSSSIM", "PSSSIM_INPUTTYPE"),
  ("PSSSIM", "PSSSIM_BUS1"), ("PSSSIM", "PSSSIM_BUS2"), ("PSSSIM", "PSSSIM_BUS3"), ("PSSSIM", "PSSSIM_BUS4"),
  ("PSSSIM", "PSSSIM_BUS5"), ("PSSSIM", "PSSSIM_BUS6"), ("REECA1", "GENERATOR_REECA_TIQ"), ("REPCA1",
  "GENERATOR_REPCA_FEMIN"), ("REPCA1", "GENERATOR_REPCA_BRCH_CKT"), ("REPCTA1", "GENERATOR_REPCA_FEMIN"),
  ("REPCTA1", "GENERATOR_REPCA_BRCH_CKT"), ("WSIEG1", "GOVERNOR_GV4"), ("WSIEG1", "GOVERNOR_GV5"), ("WSIEG1",
  "GOVERNOR_PGV5"), ("WSIEG1", "GOVERNOR_IBLOCK")]

end GridPACK.DyrSpec
