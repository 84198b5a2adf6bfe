import Verif.Spec.Dyr
import Verif.Model.DeviceLoad

/-! What the parameters in the records of a .dyr file are for: for each model the quantities of the device in the
order of the file format (token 0 is the bus, token 1 the model, token 2 the name of the generator). -/
namespace GridPACK.DeviceSpec
open StringUtils DataCollection Dyr DyrSpec DeviceLoad

/-- A quantity of a device, with the place of its token: a number, an integer, an integer that may be written as a
number, a two-character name. -/
inductive Quantity where
  | num (name : String) (n : Nat)
  | int (name : String) (n : Nat)
  | whole (name : String) (n : Nat)
  | word (name : String) (n : Nat)
deriving DecidableEq

/-- Its name. -/
def Quantity.name : Quantity → String
  | .num q _ | .int q _ | .whole q _ | .word q _ => q

/-- The device has the value of the record. -/
def Quantity.Holds (cv : Conv) (ts : List Str) (s : Struct) : Quantity → Prop
  | .num q n => ∃ t, ts[n]? = some t ∧ s .double q = cv.atof t
  | .int q n => ∃ t, ts[n]? = some t ∧ s .int q = cv.atoi t
  | .whole q n => ∃ t, ts[n]? = some t ∧ s .int q = cv.trunc (cv.atof t)
  | .word q n => ∃ t, ts[n]? = some t ∧ s .string q = cv.tag t

/-- Consecutive numbers from place `n` on. -/
def nums : Nat → List String → List Quantity
  | _, [] => []
  | n, q :: qs => .num q n :: nums (n + 1) qs

/-- Consecutive integers. -/
def ints : Nat → List String → List Quantity
  | _, [] => []
  | n, q :: qs => .int q n :: ints (n + 1) qs

/-- Consecutive integers that may be written as numbers. -/
def wholes : Nat → List String → List Quantity
  | _, [] => []
  | n, q :: qs => .whole q n :: wholes (n + 1) qs

/-- Consecutive names. -/
def words : Nat → List String → List Quantity
  | _, [] => []
  | n, q :: qs => .word q n :: words (n + 1) qs

def esst1a : List Quantity :=
  nums 3 ["UEL", "VOS", "Tr", "Vimax", "Vimin", "Tc", "Tb", "Tc1", "Tb1", "Ka", "Ta", "Vamax", "Vamin", "Vrmax",
  "Vrmin", "Kc", "Kf", "Tf", "Klr", "Ilr"]

def esst4b : List Quantity :=
  nums 3 ["Tr", "Kpr", "Kir", "Vrmax", "Vrmin", "Ta", "Kpm", "Kim", "Vmmax", "Vmmin", "Kg", "Kp", "KI", "Vbmax",
  "Kc", "Xl", "Thetap"]

def exdc1 : List Quantity :=
  nums 3 ["TR", "KA", "TA", "TB", "TC", "Vrmax", "Vrmin", "KE", "TE", "KF", "TF1", "SWITCH", "E1", "SE1", "E2",
  "SE2"]

def gast : List Quantity :=
  nums 3 ["R", "T1", "T2", "T3", "AT", "KT", "VMAX", "VMIN", "Dt"]

def gdform : List Quantity :=
  nums 3 ["mq", "kpv", "kiv", "mp", "kppmax", "kipmax", "Pmax", "Pmin", "Emax", "Emin", "Tpf", "Imax", "Qmax",
  "Qmin", "kpqmax", "kiqmax", "Tqf", "Tvf"] ++ ints 21 ["Vflag"]

def gencls : List Quantity :=
  nums 3 ["p_h", "p_d0", "Xdp"]

def genrou : List Quantity :=
  nums 3 ["Tdop", "Tdopp", "Tqop", "Tqopp", "H", "D", "Xd", "Xq", "Xdp", "Xqp", "Xdpp", "Xl", "S10", "S12"]

def gensal : List Quantity :=
  nums 3 ["Tdop", "Tdopp", "Tqopp", "H", "D", "Xd", "Xq", "Xdp", "Xdpp", "Xl", "S10", "S12"]

def hygov : List Quantity :=
  nums 3 ["R", "r", "TR", "TF", "TG", "VELM", "GMAX", "GMIN", "TW", "AT", "Dt", "qNL"]

def ieeet1 : List Quantity :=
  nums 3 ["TR", "KA", "TA", "Vrmax", "Vrmin", "KE", "TE", "KF", "TF1", "SWITCH", "E1", "SE1", "E2", "SE2"]

def psssim : List Quantity :=
  wholes 3 ["inputtype", "bus1", "bus2", "bus3", "bus4", "bus5", "bus6"] ++ nums 10 ["gaink", "tw", "t1", "t2",
  "t3", "t4", "maxout", "minout"]

def reeca1 : List Quantity :=
  ints 3 ["IREG", "PFFLAG", "VFLAG", "QFLAG", "PFLAG", "PQFLAG"] ++ nums 9 ["Vdip", "Vup", "Trv", "dbd1", "dbd2",
  "Kqv", "Iqh1", "Iql1", "Vref0", "Iqfrz", "Thld", "Thld2", "Tp", "Qmax", "Qmin", "Vmax", "Vmin", "Kqp", "Kqi",
  "Kvp", "Kvi", "Vbias", "Tiq", "dPmax", "dPmin", "Pmax", "Pmin", "Imax", "Tpord", "Vq1", "Iq1", "Vq2", "Iq2",
  "Vq3", "Iq3", "Vq4", "Iq4", "Vp1", "Ip1", "Vp2", "Ip2", "Vp3", "Ip3", "Vp4", "Ip4"]

def regca1 : List Quantity :=
  ints 3 ["lvplsw"] ++ nums 4 ["tg", "rrpwr", "brkpt", "zerox", "lvpl1", "volim", "lvpnt1", "lvpnt0", "lolim",
  "tfltr", "khv", "iqrmax", "iqrmin", "accel"]

def regcb1 : List Quantity :=
  ints 3 ["RateFlag", "PQFlag"] ++ nums 5 ["Tg", "Tfltr", "Iqrmax", "Iqrmin", "Rrpwr", "Te", "Imax"]

def regcc1 : List Quantity :=
  ints 3 ["RateFlag", "PQFlag"] ++ nums 5 ["Tg", "Tfltr", "Iqrmax", "Iqrmin", "Rrpwr", "Te", "Imax", "Kip", "Kii",
  "Kppll", "Kipll", "wmax", "wmin"]

def repca1 : List Quantity :=
  ints 3 ["ireg", "fbus", "tbus"] ++ words 6 ["br_ckt"] ++ ints 7 ["VCompFLAG", "RefFLAG", "FreqFLAG"] ++ nums 10
  ["Tfltr", "Kp", "Ki", "Tft", "Tfv", "Vfrz", "Rc", "Xc", "Kc", "Emax", "Emin", "dbd1", "dbd2", "Qmax", "Qmin",
  "Kpg", "Kig", "Tp", "fdbd1", "fdbd2", "femax", "femin", "Pmax", "Pmin", "Tg", "Ddn", "Dup"]

def sexs : List Quantity :=
  nums 3 ["TA_OVER_TB", "TB", "K", "TE", "EMIN", "EMAX"]

def tgov1 : List Quantity :=
  nums 3 ["R", "T1", "Vmax", "Vmin", "T2", "T3", "Dt"]

def wshygp : List Quantity :=
  nums 3 ["Db1", "Err", "TD", "KI", "TF", "KD", "Kp", "R", "Tt", "KG", "TP", "VELopen", "VELclose", "Pmax", "Pmin",
  "Db2", "Gv1", "PGv1", "Gv2", "PGv2", "Gv3", "PGv3", "Gv4", "PGv4", "Gv5", "PGv5", "Aturb", "Bturb", "Tturb",
  "Trate"]

def wsieg1 : List Quantity :=
  ints 3 ["JBUS", "M"] ++ nums 5 ["K", "T1", "T2", "T3", "Uo", "Uc", "Pmax", "Pmin", "T4", "K1", "K2", "T5", "K3",
  "K4", "T6", "K5", "K6", "T7", "K7", "K8", "Db1", "Err", "Db2", "Gv1", "PGv1", "Gv2", "PGv2", "Gv3", "PGv3", "Gv4",
  "PGv4", "Gv5", "PGv5"] ++ ints 38 ["Iblock"]

def wtara1 : List Quantity :=
  nums 3 ["Ka", "Theta0"]

def wtdta1 : List Quantity :=
  nums 3 ["H", "D", "Hfrac", "Freq1", "Dshaft"]

def wtpta1 : List Quantity :=
  nums 3 ["Kiw", "Kpw", "Kic", "Kpc", "Kcc", "Tp", "Thetamax", "Thetamin", "dThetamax", "dThetamin"]

def wttqa1 : List Quantity :=
  ints 3 ["Tflag"] ++ nums 4 ["Kpp", "Kip", "Tp", "Twref", "Temax", "Temin", "p1", "spd1", "p2", "spd2", "p3",
  "spd3", "p4", "spd4", "Trate"]

/-- The models of devices at generators that can be simulated: name, kind of device, quantities. -/
def devices : List (String × Slot × List Quantity) :=
  [("GENCLS", .generator, gencls), ("GENSAL", .generator, gensal), ("GENROU", .generator, genrou),
  ("GDFORM", .generator, gdform), ("REGCA1", .generator, regca1), ("REGCB1", .generator, regcb1),
  ("REGCC1", .generator, regcc1), ("EXDC1", .exciter, exdc1), ("IEEET1", .exciter, ieeet1), ("SEXS", .exciter, sexs),
  ("ESST1A", .exciter, esst1a), ("ESST4B", .exciter, esst4b), ("REECA1", .exciter, reeca1),
  ("WSIEG1", .governor, wsieg1), ("TGOV1", .governor, tgov1), ("GAST", .governor, gast), ("HYGOV", .governor, hygov),
  ("WSHYGP", .governor, wshygp), ("PSSSIM", .pss, psssim), ("REPCA1", .plant, repca1), ("REPCTA1", .plant, repca1),
  ("WTTQA1", .torque, wttqa1), ("WTPTA1", .pitch, wtpta1), ("WTDTA1", .drivetrain, wtdta1), ("WTARA1", .aero, wtara1)]

/-- The kind of device of a model. -/
def kinds : List (String × Slot) := devices.map (fun d => (d.1, d.2.1)) ++ [("EXDC2", .exciter), ("GGOV1", .governor)]

/-- Quantities that the device does not get from the record: excepted in the theorems, and the subject of the
theorems named `violated`. -/
def deviceErrors : List (String × String) :=
  [("ESST1A", "UEL"), ("ESST1A", "VOS"), ("ESST4B", "Kim"), ("EXDC1", "SWITCH"), ("IEEET1", "SWITCH"),
  ("GENCLS", "Xdp"), ("REECA1", "IREG"), ("REPCA1", "ireg"), ("REPCA1", "fbus"), ("REPCA1", "tbus"),
  ("REPCTA1", "ireg"), ("REPCTA1", "fbus"), ("REPCTA1", "tbus"), ("WSHYGP", "Tt"), ("WSHYGP", "Gv1"),
  ("WSHYGP", "PGv1"), ("WSHYGP", "Gv2"), ("WSHYGP", "PGv2"), ("WSHYGP", "Gv3"), ("WSHYGP", "PGv3"),
  ("WSHYGP", "Gv4"), ("WSHYGP", "PGv4"), ("WSHYGP", "Gv5"), ("WSHYGP", "PGv5"), ("WSIEG1", "JBUS"), ("WSIEG1", "M"),
  ("WSIEG1", "T3"), ("WSIEG1", "Iblock"), ("WTTQA1", "Trate")]

/-- The records `recs` have one record for a device of kind `sl` of the generator with name `tag` at bus `b`, which is
`r`, with model `m`. -/
def Only (cv : Conv) (recs : List (List Str)) (b : Int) (tag : Str) (sl : Slot) (r : List Str) (m : String) : Prop :=
  ∃ pre post, recs = pre ++ r :: post ∧ (∃ ps, Describes cv r (.gen b tag) m ps) ∧ (m, sl) ∈ kinds ∧
    ∀ r' ∈ pre ++ post, ∀ m' ps', Describes cv r' (.gen b tag) m' ps' → (m', sl) ∉ kinds

end GridPACK.DeviceSpec
