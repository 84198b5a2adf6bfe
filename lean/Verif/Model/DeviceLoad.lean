import Verif.Model.Dyr
import Verif.Lemmas.RawBus

/-! Model of how a bus of the dynamic simulation creates the devices of a generator and of how these devices load
their parameters: the part of `DSFullBus::load` in
src/applications/modules/dynamic_simulation_full_y/dsf_components.cpp 933-1107 about generators, exciters, governors,
stabilisers, plant controllers and the parts of wind turbines, the functions of
src/applications/modules/dynamic_simulation_full_y/generator_factory.cpp, and the functions `load` of the classes in
src/applications/modules/dynamic_simulation_full_y/model_classes.

Simplifications: a device is the function from its members to their values; what `load` computes from the members it
read (blocks, saturation coefficients) is left out; real numbers for doubles; converting a name to upper case is
`Char.toUpper`; calling a function of a missing device and leaving a vector is `none`. -/
namespace GridPACK.DeviceLoad
open StringUtils DataCollection Dyr
open RawBus (Val Data)

/-- What `load` does if there is no value under the key: keep the member, assign a number, a complex number or a
string, copy another member, copy an integer member, or assign a number to another member. -/
inductive Dflt where
  | keep
  | num (v : ℚ)
  | pair (re im : ℚ)
  | text (s : String)
  | copy (other : String)
  | copyInt (other : String)
  | into (other : String) (v : ℚ)

/-- A statement of `load`: `if (!data->getValue(key, &member, idx)) ...` with a member of type `ty`; the same without
index; `member = v`; `if (fabs(member) < 1e-6) member = other`. -/
inductive Step where
  | get (member : String) (ty : Ty) (key : String) (d : Dflt)
  | bus (member : String) (ty : Ty) (key : String) (d : Dflt)
  | put (member : String) (v : ℚ)
  | whenTiny (member other : String)

/-- What happens if there is no value; numbers assigned to integer members are integers. -/
noncomputable def Dflt.run (s : Struct) (member : String) (t : Ty) : Dflt → Struct
  | .keep => s
  | .num v => match t with
    | .double => s.put member ⟨.double, (v : ℝ)⟩
    | .int => s.put member ⟨.int, v.num⟩
    | _ => s
  | .pair a b => s.put member ⟨.complex, ((a : ℝ), (b : ℝ))⟩
  | .text x => s.put member ⟨.string, x.toList⟩
  | .copy o => s.put member ⟨t, s t o⟩
  | .copyInt o => s.put member ⟨.double, (((show Int from s .int o) : ℤ) : ℝ)⟩
  | .into o v => s.put o ⟨.double, (v : ℝ)⟩

/-- `if (!data->getValue(key, &member, idx)) ...`. -/
noncomputable def fetch (c : Data) (member : String) (t : Ty) (k : Key) (d : Dflt) (s : Struct) : Option Struct :=
  (getValue c t k (s t member)).map fun r => if r.1 then s.put member ⟨t, r.2⟩ else d.run s member t

open Classical in
/-- One statement. -/
noncomputable def Step.run (c : Data) (idx : Int) : Step → Struct → Option Struct
  | .get m t k d, s => fetch c m t ⟨k.toList, some idx⟩ d s
  | .bus m t k d, s => fetch c m t ⟨k.toList, none⟩ d s
  | .put m v, s => some (s.put m ⟨.double, (v : ℝ)⟩)
  | .whenTiny m o, s =>
    some (if |(show ℝ from s .double m)| < 1 / 1000000 then s.put m ⟨.double, s .double o⟩ else s)

/-- `load(data, idx)`. -/
noncomputable def load (c : Data) (idx : Int) : List Step → Struct → Option Struct
  | [], s => some s
  | e :: es, s => (e.run c idx s).bind (load c idx es)

/-- src/applications/modules/dynamic_simulation_full_y/model_classes/classical.cpp 56-77. -/
def classical : List Step := [
  .bus "p_bus_id" .int "BUS_NUMBER" .keep, .get "p_ckt" .string "GENERATOR_ID" .keep,
  .get "p_pg" .double "GENERATOR_PG" (.num 0), .get "p_qg" .double "GENERATOR_QG" (.num 0),
  .get "p_status" .int "GENERATOR_STAT" (.num 0), .get "p_mva" .double "GENERATOR_MBASE" (.num 0),
  .get "p_r" .double "GENERATOR_RESISTANCE" (.num 0),
  .get "p_dstr" .double "GENERATOR_SUBTRANSIENT_REACTANCE" (.num 0),
  .get "zsrc" .complex "GENERATOR_ZSOURCE" (.pair 0 0), .get "p_h" .double "GENERATOR_INERTIA_CONSTANT_H" (.num 0),
  .get "p_d0" .double "GENERATOR_DAMPING_COEFFICENT_0" (.num 0)]

/-- src/applications/modules/dynamic_simulation_full_y/model_classes/genrou.cpp 79-106. -/
def genrou : List Step := [
  .bus "p_sbase" .double "CASE_SBASE" (.num 100), .bus "p_bus_id" .int "BUS_NUMBER" .keep,
  .get "p_ckt" .string "GENERATOR_ID" .keep, .get "p_pg" .double "GENERATOR_PG" (.num 0),
  .get "p_qg" .double "GENERATOR_QG" (.num 0), .get "p_status" .int "GENERATOR_STAT" (.num 0),
  .get "MBase" .double "GENERATOR_MBASE" (.num 0), .get "H" .double "GENERATOR_INERTIA_CONSTANT_H" (.num 0),
  .get "D" .double "GENERATOR_DAMPING_COEFFICENT_0" (.num 0), .get "Ra" .double "GENERATOR_RESISTANCE" (.num 0),
  .get "Xd" .double "GENERATOR_XD" (.num 0), .get "Xq" .double "GENERATOR_XQ" (.num 0),
  .get "Xdp" .double "GENERATOR_XDP" (.num 0), .get "Xdpp" .double "GENERATOR_XDPP" (.num 0),
  .get "Xl" .double "GENERATOR_XL" (.num 0), .get "Tdop" .double "GENERATOR_TDOP" (.num 0),
  .get "Tdopp" .double "GENERATOR_TDOPP" (.num 0), .get "Tqopp" .double "GENERATOR_TQOPP" (.num 0),
  .get "S10" .double "GENERATOR_S1" (.num (1 / 20)), .get "S12" .double "GENERATOR_S12" (.num (3 / 10)),
  .get "Xqp" .double "GENERATOR_XQP" (.num 0), .get "Tqop" .double "GENERATOR_TQOP" (.num (3 / 4))]

/-- src/applications/modules/dynamic_simulation_full_y/model_classes/gensal.cpp 60-84. -/
def gensal : List Step := [
  .bus "p_sbase" .double "CASE_SBASE" (.num 100), .bus "p_bus_id" .int "BUS_NUMBER" .keep,
  .get "p_ckt" .string "GENERATOR_ID" .keep, .get "p_pg" .double "GENERATOR_PG" (.num 0),
  .get "p_qg" .double "GENERATOR_QG" (.num 0), .get "p_status" .int "GENERATOR_STAT" (.num 0),
  .get "MBase" .double "GENERATOR_MBASE" (.num 0), .get "H" .double "GENERATOR_INERTIA_CONSTANT_H" (.num 0),
  .get "D" .double "GENERATOR_DAMPING_COEFFICENT_0" (.num 0), .get "Ra" .double "GENERATOR_RESISTANCE" (.num 0),
  .get "Xd" .double "GENERATOR_XD" (.num 0), .get "Xq" .double "GENERATOR_XQ" (.num 0),
  .get "Xdp" .double "GENERATOR_XDP" (.num 0), .get "Xdpp" .double "GENERATOR_XDPP" (.num 0),
  .get "Xl" .double "GENERATOR_XL" (.num 0), .get "Tdop" .double "GENERATOR_TDOP" (.num 0),
  .get "Tdopp" .double "GENERATOR_TDOPP" (.num 0), .get "Tqopp" .double "GENERATOR_TQOPP" (.num 0),
  .get "S10" .double "GENERATOR_S1" (.num (17 / 100)), .get "S12" .double "GENERATOR_S12" (.num (11 / 20))]

/-- src/applications/modules/dynamic_simulation_full_y/model_classes/gdform.cpp 58-108. -/
def gdform : List Step := [
  .bus "p_bus_num" .int "BUS_NUMBER" .keep, .bus "p_sbase" .double "CASE_SBASE" .keep,
  .get "p_gen_id" .string "GENERATOR_ID" .keep, .get "p_pg" .double "GENERATOR_PG" (.num 0),
  .get "p_qg" .double "GENERATOR_QG" (.num 0), .get "p_status" .int "GENERATOR_STAT" (.num 0),
  .get "p_mbase" .double "GENERATOR_MBASE" (.num 1000),
  .get "Zsource" .complex "GENERATOR_ZSOURCE" (.pair (1 / 100) (1 / 50)),
  .get "mq" .double "GENERATOR_MQ" (.num (1 / 20)), .get "kpv" .double "GENERATOR_KPV" (.num 0),
  .get "kiv" .double "GENERATOR_KIV" (.num (293 / 50)), .get "mp" .double "GENERATOR_MP" (.num (377 / 100)),
  .get "kppmax" .double "GENERATOR_KPPMAX" (.num (1 / 20)), .get "kipmax" .double "GENERATOR_KIPMAX" (.num (1 / 5)),
  .get "Pmax" .double "GENERATOR_PMAX" (.num 1), .get "Pmin" .double "GENERATOR_PMIN" (.num 0),
  .get "Emax" .double "GENERATOR_EMAX" (.num 2), .get "Emin" .double "GENERATOR_EMIN" (.num (-2)),
  .get "Tpf" .double "GENERATOR_TPF" (.num (833 / 50000)), .get "Imax" .double "GENERATOR_IMAX" (.num (5 / 2)),
  .get "Qmax" .double "GENERATOR_QMAX" (.num 1), .get "Qmin" .double "GENERATOR_QMIN" (.num (-1)),
  .get "kpqmax" .double "GENERATOR_KPQMAX" (.num (1 / 10)), .get "kiqmax" .double "GENERATOR_KIQMAX" (.num 10),
  .get "Tqf" .double "GENERATOR_TQF" (.num (833 / 50000)), .get "Tvf" .double "GENERATOR_TVF" (.num (833 / 50000)),
  .get "Vflag" .int "GENERATOR_VFLAG" (.num 0)]

/-- src/applications/modules/dynamic_simulation_full_y/model_classes/regca1.cpp 77-101. -/
def regca1 : List Step := [
  .bus "p_bus_num" .int "BUS_NUMBER" .keep, .bus "p_sbase" .double "CASE_SBASE" .keep,
  .get "p_gen_id" .string "GENERATOR_ID" .keep, .get "p_pg" .double "GENERATOR_PG" (.num 0),
  .get "p_qg" .double "GENERATOR_QG" (.num 0), .get "p_status" .int "GENERATOR_STAT" (.num 0),
  .get "p_mbase" .double "GENERATOR_MBASE" (.num 100), .get "lvplsw" .int "GENERATOR_REGC_LVPLSW" (.num 0),
  .get "tg" .double "GENERATOR_REGC_TG" (.num (1 / 50)), .get "rrpwr" .double "GENERATOR_REGC_RRPWR" (.num 10),
  .get "brkpt" .double "GENERATOR_REGC_BRKPT" (.num (9 / 10)),
  .get "zerox" .double "GENERATOR_REGC_ZEROX" (.num (2 / 5)),
  .get "lvpl1" .double "GENERATOR_REGC_LVPL1" (.num (61 / 50)),
  .get "volim" .double "GENERATOR_REGC_VOLIM" (.num (6 / 5)),
  .get "lvpnt1" .double "GENERATOR_REGC_LVPNT1" (.num (4 / 5)),
  .get "lvpnt0" .double "GENERATOR_REGC_LVPNT0" (.num (2 / 5)),
  .get "lolim" .double "GENERATOR_REGC_LOLIM" (.num (-13 / 10)),
  .get "tfltr" .double "GENERATOR_REGC_TFLTR" (.num (1 / 50)), .get "khv" .double "GENERATOR_REGC_KHV" (.num 0),
  .get "iqrmax" .double "GENERATOR_REGC_IQRMAX" (.num 999),
  .get "iqrmin" .double "GENERATOR_REGC_IQRMIN" (.num (-999)),
  .get "accel" .double "GENERATOR_REGC_ACCEL" (.num (7 / 10))]

/-- src/applications/modules/dynamic_simulation_full_y/model_classes/regcb1.cpp 77-97. -/
def regcb1 : List Step := [
  .bus "p_bus_num" .int "BUS_NUMBER" .keep, .bus "p_sbase" .double "CASE_SBASE" .keep,
  .get "p_gen_id" .string "GENERATOR_ID" .keep,
  .get "Zsource" .complex "GENERATOR_ZSOURCE" (.pair (1 / 100) (1 / 50)), .get "p_pg" .double "GENERATOR_PG" (.num 0),
  .get "p_qg" .double "GENERATOR_QG" (.num 0), .get "p_status" .int "GENERATOR_STAT" (.num 0),
  .get "p_mbase" .double "GENERATOR_MBASE" (.num 100), .get "RateFlag" .int "GENERATOR_REGC_RATEFLAG" (.num 0),
  .get "PQFlag" .int "GENERATOR_REGC_PQFLAG" (.num 0), .get "Tg" .double "GENERATOR_REGC_TG" (.num (1 / 50)),
  .get "Rrpwr" .double "GENERATOR_REGC_RRPWR" (.num 10), .get "Tfltr" .double "GENERATOR_REGC_TFLTR" (.num (1 / 50)),
  .get "Te" .double "GENERATOR_REGC_TE" (.num (1 / 50)), .get "Iqrmax" .double "GENERATOR_REGC_IQRMAX" (.num 999),
  .get "Iqrmin" .double "GENERATOR_REGC_IQRMIN" (.num (-999)),
  .get "Imax" .double "GENERATOR_REGC_IMAX" (.num (8 / 5))]

/-- src/applications/modules/dynamic_simulation_full_y/model_classes/regcc1.cpp 77-103. -/
def regcc1 : List Step := [
  .bus "p_bus_num" .int "BUS_NUMBER" .keep, .bus "p_sbase" .double "CASE_SBASE" .keep,
  .get "p_gen_id" .string "GENERATOR_ID" .keep,
  .get "Zsource" .complex "GENERATOR_ZSOURCE" (.pair (1 / 100) (1 / 50)), .get "p_pg" .double "GENERATOR_PG" (.num 0),
  .get "p_qg" .double "GENERATOR_QG" (.num 0), .get "p_status" .int "GENERATOR_STAT" (.num 0),
  .get "p_mbase" .double "GENERATOR_MBASE" (.num 100), .get "RateFlag" .int "GENERATOR_REGC_RATEFLAG" (.num 0),
  .get "PQFlag" .int "GENERATOR_REGC_PQFLAG" (.num 0), .get "Tg" .double "GENERATOR_REGC_TG" (.num (1 / 50)),
  .get "Rrpwr" .double "GENERATOR_REGC_RRPWR" (.num 10), .get "Tfltr" .double "GENERATOR_REGC_TFLTR" (.num (1 / 50)),
  .get "Te" .double "GENERATOR_REGC_TE" (.num (1 / 50)), .get "Iqrmax" .double "GENERATOR_REGC_IQRMAX" (.num 999),
  .get "Iqrmin" .double "GENERATOR_REGC_IQRMIN" (.num (-999)),
  .get "Imax" .double "GENERATOR_REGC_IMAX" (.num (8 / 5)), .get "Kip" .double "GENERATOR_REGC_KIP" (.num 1),
  .get "Kii" .double "GENERATOR_REGC_KII" (.num 10), .get "Kppll" .double "GENERATOR_REGC_KPPLL" (.num 1),
  .get "Kipll" .double "GENERATOR_REGC_KIPLL" (.num 10), .get "wmax" .double "GENERATOR_REGC_WMAX" (.num 12),
  .get "wmin" .double "GENERATOR_REGC_WMIN" (.num (-12))]

/-- src/applications/modules/dynamic_simulation_full_y/model_classes/exdc1.cpp 63-77. -/
def exdc1 : List Step := [
  .get "TR" .double "EXCITER_TR" (.num 0), .get "KA" .double "EXCITER_KA" (.num 0),
  .get "TA" .double "EXCITER_TA" (.num 0), .get "TB" .double "EXCITER_TB" (.num 0),
  .get "TC" .double "EXCITER_TC" (.num 0), .get "Vrmax" .double "EXCITER_VRMAX" (.num 0),
  .get "Vrmin" .double "EXCITER_VRMIN" (.num 0), .get "KE" .double "EXCITER_KE" (.num 0),
  .get "TE" .double "EXCITER_TE" (.num 0), .get "KF" .double "EXCITER_KF" (.num 0),
  .get "TF1" .double "EXCITER_TF1" (.num 0), .get "E1" .double "EXCITER_E1" (.num 0),
  .get "SE1" .double "EXCITER_SE1" (.num 0), .get "E2" .double "EXCITER_E2" (.num 0),
  .get "SE2" .double "EXCITER_SE2" (.num 0)]

/-- src/applications/modules/dynamic_simulation_full_y/model_classes/ieeet1.cpp 60-72. -/
def ieeet1 : List Step := [
  .get "TR" .double "EXCITER_TR" (.num 0), .get "KA" .double "EXCITER_KA" (.num 0),
  .get "TA" .double "EXCITER_TA" (.num 0), .get "Vrmax" .double "EXCITER_VRMAX" (.num 0),
  .get "Vrmin" .double "EXCITER_VRMIN" (.num 0), .get "KE" .double "EXCITER_KE" (.num 0),
  .get "TE" .double "EXCITER_TE" (.num 0), .get "KF" .double "EXCITER_KF" (.num 0),
  .get "TF1" .double "EXCITER_TF1" (.num 0), .get "E1" .double "EXCITER_E1" (.num 0),
  .get "SE1" .double "EXCITER_SE1" (.num 0), .get "E2" .double "EXCITER_E2" (.num 0),
  .get "SE2" .double "EXCITER_SE2" (.num 0)]

/-- src/applications/modules/dynamic_simulation_full_y/model_classes/sexs.cpp 57-62. -/
def sexs : List Step := [
  .get "TA_OVER_TB" .double "EXCITER_TA_OVER_TB" (.num 0), .get "TB" .double "EXCITER_TB" (.num 0),
  .get "K" .double "EXCITER_K" (.num 0), .get "EMAX" .double "EXCITER_EMAX" (.num 0),
  .get "EMIN" .double "EXCITER_EMIN" (.num 0), .get "TE" .double "EXCITER_TE" (.num 0)]

/-- src/applications/modules/dynamic_simulation_full_y/model_classes/esst1a.cpp 58-82. -/
def esst1a : List Step := [
  .get "UEL" .double "EXCITER_UEL" (.num 0), .get "VOS" .double "EXCITER_VOS" (.num 0),
  .get "Tr" .double "EXCITER_TR" (.num 0), .get "Vimax" .double "EXCITER_VIMAX" (.num 0),
  .get "Vimin" .double "EXCITER_VIMIN" (.num 0), .get "Tc" .double "EXCITER_TC" (.num 0),
  .get "Tb" .double "EXCITER_TB" (.num 0), .get "Tc1" .double "EXCITER_TC1" (.num 0),
  .get "Tb1" .double "EXCITER_TB1" (.num 0), .get "Ka" .double "EXCITER_KA" (.num 0),
  .get "Ta" .double "EXCITER_TA" (.num 0), .get "Vamax" .double "EXCITER_VAMAX" (.num 0),
  .get "Vamin" .double "EXCITER_VAMIN" (.num 0), .get "Vrmax" .double "EXCITER_VRMAX" (.num 0),
  .get "Vrmin" .double "EXCITER_VRMIN" (.num 0), .get "Kc" .double "EXCITER_KC" (.num 0),
  .get "Kf" .double "EXCITER_KF" (.num 0), .get "Tf" .double "EXCITER_TF" (.num 0),
  .get "Klr" .double "EXCITER_KLR" (.num 0), .get "Ilr" .double "EXCITER_ILR" (.num 0), .put "UEL" 1, .put "VOS" 1]

/-- src/applications/modules/dynamic_simulation_full_y/model_classes/esst4b.cpp 53-69. -/
def esst4b : List Step := [
  .get "Tr" .double "EXCITER_TR" (.num 0), .get "Kpr" .double "EXCITER_KPR" (.num 0),
  .get "Kir" .double "EXCITER_KIR" (.num 0), .get "Vrmax" .double "EXCITER_VRMAX" (.num 0),
  .get "Vrmin" .double "EXCITER_VRMIN" (.num 0), .get "Ta" .double "EXCITER_TA" (.num 0),
  .get "Kpm" .double "EXCITER_KPM" (.num 0), .get "Kim" .double "EXCITER_KPM" (.num 0),
  .get "Vmmax" .double "EXCITER_VMMAX" (.num 0), .get "Vmmin" .double "EXCITER_VMMIN" (.num 0),
  .get "Kg" .double "EXCITER_KG" (.num 0), .get "Kp" .double "EXCITER_KP" (.num 0),
  .get "KI" .double "EXCITER_KI" (.num 0), .get "Vbmax" .double "EXCITER_VBMAX" (.num 0),
  .get "Kc" .double "EXCITER_KC" (.num 0), .get "Xl" .double "EXCITER_XL" (.num 0),
  .get "Thetap" .double "EXCITER_THETAP" (.num 0)]

/-- src/applications/modules/dynamic_simulation_full_y/model_classes/reeca1.cpp 53-169. -/
def reeca1 : List Step := [
  .bus "p_sbase" .double "CASE_SBASE" .keep, .bus "p_bus_num" .int "BUS_NUMBER" .keep,
  .get "p_gen_id" .string "GENERATOR_ID" .keep, .get "p_mbase" .double "GENERATOR_MBASE" (.num 100),
  .get "p_has_drivetrain" .bool "HAS_WIND_DRIVETRAIN" (.num 0), .get "PFFLAG" .int "GENERATOR_REECA_PFFLAG" (.num 0),
  .get "VFLAG" .int "GENERATOR_REECA_VFLAG" (.num 0), .get "QFLAG" .int "GENERATOR_REECA_QFLAG" (.num 0),
  .get "PFLAG" .int "GENERATOR_REECA_PFLAG" (.num 0), .get "PQFLAG" .int "GENERATOR_REECA_PQFLAG" (.num 0),
  .get "Trv" .double "GENERATOR_REECA_TRV" (.num 0), .get "dbd1" .double "GENERATOR_REECA_DBD1" (.num (-1 / 20)),
  .get "dbd2" .double "GENERATOR_REECA_DBD2" (.num (1 / 20)), .get "Vdip" .double "GENERATOR_REECA_VDIP" (.num (-99)),
  .get "Vup" .double "GENERATOR_REECA_VUP" (.num 99), .get "Kqv" .double "GENERATOR_REECA_KQV" (.num 0),
  .get "Iqh1" .double "GENERATOR_REECA_IQH1" (.num (21 / 20)),
  .get "Iql1" .double "GENERATOR_REECA_IQL1" (.num (-21 / 20)), .get "Vref0" .double "GENERATOR_REECA_VREF0" (.num 0),
  .get "Iqfrz" .double "GENERATOR_REECA_IQFRZ" (.num (3 / 20)), .get "Thld" .double "GENERATOR_REECA_THLD" (.num 0),
  .get "Thld2" .double "GENERATOR_REECA_THLD2" (.num 0), .get "Tp" .double "GENERATOR_REECA_TP" (.num (1 / 20)),
  .get "Qmax" .double "GENERATOR_REECA_QMAX" (.num (109 / 250)),
  .get "Qmin" .double "GENERATOR_REECA_QMIN" (.num (-109 / 250)),
  .get "Vmax" .double "GENERATOR_REECA_VMAX" (.num (11 / 10)),
  .get "Vmin" .double "GENERATOR_REECA_VMIN" (.num (9 / 10)), .get "Kqp" .double "GENERATOR_REECA_KQP" (.num 0),
  .get "Kqi" .double "GENERATOR_REECA_KQI" (.num (1 / 10)), .get "Kvp" .double "GENERATOR_REECA_KVP" (.num 0),
  .get "Kvi" .double "GENERATOR_REECA_KVI" (.num 40), .get "Vbias" .double "GENERATOR_REECA_VBIAS" (.num 0),
  .get "Imax" .double "GENERATOR_REECA_IMAX" (.num (91 / 50)),
  .get "Tiq" .double "GENERATOR_REECA_TIQ" (.num (1 / 50)), .get "dPmax" .double "GENERATOR_REECA_DPMAX" (.num 999),
  .get "dPmin" .double "GENERATOR_REECA_DPMIN" (.num (-999)), .get "Pmax" .double "GENERATOR_REECA_PMAX" (.num 1),
  .get "Pmin" .double "GENERATOR_REECA_PMIN" (.num 0), .get "Tpord" .double "GENERATOR_REECA_TPORD" (.num (1 / 50)),
  .get "Vp1" .double "GENERATOR_REECA_VP1" (.num (-1)), .get "Ip1" .double "GENERATOR_REECA_IP1" (.num (11 / 10)),
  .get "Vp2" .double "GENERATOR_REECA_VP2" (.num 0), .get "Ip2" .double "GENERATOR_REECA_IP2" (.num (11 / 10)),
  .get "Vp3" .double "GENERATOR_REECA_VP3" (.num 1), .get "Ip3" .double "GENERATOR_REECA_IP3" (.num (11 / 10)),
  .get "Vp4" .double "GENERATOR_REECA_VP4" (.num 2), .get "Ip4" .double "GENERATOR_REECA_IP4" (.num (11 / 10)),
  .get "Vq1" .double "GENERATOR_REECA_VQ1" (.num (-1)), .get "Iq1" .double "GENERATOR_REECA_IQ1" (.num (11 / 10)),
  .get "Vq2" .double "GENERATOR_REECA_VQ2" (.num 0), .get "Iq2" .double "GENERATOR_REECA_IQ2" (.num (11 / 10)),
  .get "Vq3" .double "GENERATOR_REECA_VQ3" (.num 1), .get "Iq3" .double "GENERATOR_REECA_IQ3" (.num (11 / 10)),
  .get "Vq4" .double "GENERATOR_REECA_VQ4" (.num 2), .get "Iq4" .double "GENERATOR_REECA_IQ4" (.num (11 / 10))]

/-- src/applications/modules/dynamic_simulation_full_y/model_classes/wsieg1.cpp 55-88. -/
def wsieg1 : List Step := [
  .get "K" .double "GOVERNOR_K" (.num 0), .get "T1" .double "GOVERNOR_T1" (.num 0),
  .get "T2" .double "GOVERNOR_T2" (.num 0), .get "T3" .double "GOVERNOR_T3" (.num 0),
  .get "Uo" .double "GOVERNOR_UO" (.num 0), .get "Uc" .double "GOVERNOR_UC" (.num 0),
  .get "Pmax" .double "GOVERNOR_PMAX" (.num 0), .get "Pmin" .double "GOVERNOR_PMIN" (.num 0),
  .get "T4" .double "GOVERNOR_T4" (.num 0), .get "K1" .double "GOVERNOR_K1" (.num 0),
  .get "K2" .double "GOVERNOR_K2" (.num 0), .get "T5" .double "GOVERNOR_T5" (.num 0),
  .get "K3" .double "GOVERNOR_K3" (.num 0), .get "K4" .double "GOVERNOR_K4" (.num 0),
  .get "T6" .double "GOVERNOR_T6" (.num 0), .get "K5" .double "GOVERNOR_K5" (.num 0),
  .get "K6" .double "GOVERNOR_K6" (.num 0), .get "T7" .double "GOVERNOR_T7" (.num 0),
  .get "K7" .double "GOVERNOR_K7" (.num 0), .get "K8" .double "GOVERNOR_K8" (.num 0),
  .get "Db1" .double "GOVERNOR_DB1" (.num 0), .get "Err" .double "GOVERNOR_ERR" (.num 0),
  .get "Db2" .double "GOVERNOR_DB2" (.num 0), .get "Gv1" .double "GOVERNOR_GV1" (.num 0),
  .get "PGv1" .double "GOVERNOR_PGV1" (.num 0), .get "Gv2" .double "GOVERNOR_GV2" (.num 0),
  .get "PGv2" .double "GOVERNOR_PGV2" (.num 0), .get "Gv3" .double "GOVERNOR_GV3" (.num 0),
  .get "PGv3" .double "GOVERNOR_PGV3" (.num 0), .get "Gv4" .double "GOVERNOR_GV4" (.num 0),
  .get "PGv4" .double "GOVERNOR_PGV4" (.num 0), .get "Gv5" .double "GOVERNOR_GV5" (.num 0),
  .get "PGv5" .double "GOVERNOR_PGV5" (.num 0), .get "Iblock" .double "GOVERNOR_IBLOCK" (.num 0)]

/-- src/applications/modules/dynamic_simulation_full_y/model_classes/tgov1.cpp 54-60. -/
def tgov1 : List Step := [
  .get "R" .double "GOVERNOR_R" (.num (1 / 20)), .get "T1" .double "GOVERNOR_T1" (.num (1 / 2)),
  .get "Vmax" .double "GOVERNOR_VMAX" (.num 1), .get "Vmin" .double "GOVERNOR_VMIN" (.num 0),
  .get "T2" .double "GOVERNOR_T2" (.num 3), .get "T3" .double "GOVERNOR_T3" (.num 10),
  .get "Dt" .double "GOVERNOR_DT" (.num 0)]

/-- src/applications/modules/dynamic_simulation_full_y/model_classes/gast.cpp 56-64. -/
def gast : List Step := [
  .get "R" .double "GOVERNOR_R" (.num (1 / 20)), .get "T1" .double "GOVERNOR_T1" (.num (1 / 2)),
  .get "T2" .double "GOVERNOR_T2" (.num 3), .get "T3" .double "GOVERNOR_T3" (.num 10),
  .get "AT" .double "GOVERNOR_AT" (.num 0), .get "KT" .double "GOVERNOR_KT" (.num 0),
  .get "VMAX" .double "GOVERNOR_VMAX" (.num 1), .get "VMIN" .double "GOVERNOR_VMIN" (.num 0),
  .get "Dt" .double "GOVERNOR_DT" (.num 0)]

/-- src/applications/modules/dynamic_simulation_full_y/model_classes/hygov.cpp 56-67. -/
def hygov : List Step := [
  .get "R" .double "GOVERNOR_R" (.num (1 / 20)), .get "r" .double "GOVERNOR_r" (.into "R" (1 / 20)),
  .get "TR" .double "GOVERNOR_TR" (.num (1 / 2)), .get "TF" .double "GOVERNOR_TF" (.num 3),
  .get "TG" .double "GOVERNOR_TG" (.num 10), .get "VELM" .double "GOVERNOR_VELM" (.num 1000),
  .get "GMAX" .double "GOVERNOR_GMAX" (.num 1), .get "GMIN" .double "GOVERNOR_GMIN" (.num 0),
  .get "TW" .double "GOVERNOR_TW" (.num 10), .get "AT" .double "GOVERNOR_AT" (.num 1),
  .get "Dt" .double "GOVERNOR_DT" (.num 0), .get "qNL" .double "GOVERNOR_QNL" (.num 0)]

/-- src/applications/modules/dynamic_simulation_full_y/model_classes/wshygp.cpp 70-112. -/
def wshygp : List Step := [
  .get "TD" .double "GOVERNOR_TD" (.num 0), .get "KI" .double "GOVERNOR_KI" (.num 0),
  .get "KD" .double "GOVERNOR_KD" (.num 0), .get "Kp" .double "GOVERNOR_KP" (.num 0),
  .get "R" .double "GOVERNOR_R" (.num 0), .get "Tt" .double "GOVERNOR_TT" (.num 0), .put "Tt" 0,
  .get "KG" .double "GOVERNOR_KG" (.num 0), .get "TP" .double "GOVERNOR_TP" (.num 0),
  .get "VELopen" .double "GOVERNOR_VELOPEN" (.num 0), .get "VELclose" .double "GOVERNOR_VELCLOSE" (.num 0),
  .get "Pmax" .double "GOVERNOR_PMAX" (.num 0), .get "Pmin" .double "GOVERNOR_PMIN" (.num 0),
  .get "TF" .double "GOVERNOR_TF" (.num 0), .get "Trate" .double "GOVERNOR_TRATE" (.num 0),
  .get "Aturb" .double "GOVERNOR_ATURB" (.num 0), .get "Bturb" .double "GOVERNOR_BTURB" (.num 0),
  .get "Tturb" .double "GOVERNOR_TTURB" (.num 0), .get "Db1" .double "GOVERNOR_DB1" (.num 0),
  .get "Err" .double "GOVERNOR_ERR" (.num 0), .get "Db2" .double "GOVERNOR_DB2" (.num 0),
  .get "GenMVABase" .double "GENERATOR_MBASE" (.num 0)]

/-- src/applications/modules/dynamic_simulation_full_y/model_classes/psssim.cpp 63-77. -/
def psssim : List Step := [
  .get "inputtype" .int "PSSSIM_INPUTTYPE" (.num (-1)), .get "bus1" .int "PSSSIM_BUS1" (.num (-1)),
  .get "bus2" .int "PSSSIM_BUS2" (.num (-1)), .get "bus3" .int "PSSSIM_BUS3" (.num (-1)),
  .get "bus4" .int "PSSSIM_BUS4" (.num (-1)), .get "bus5" .int "PSSSIM_BUS5" (.num (-1)),
  .get "bus6" .int "PSSSIM_BUS6" (.num (-1)), .get "gaink" .double "PSSSIM_GAINK" (.num 100),
  .get "tw" .double "PSSSIM_TW" (.num 10), .get "t1" .double "PSSSIM_T1" (.num (1 / 20)),
  .get "t2" .double "PSSSIM_T2" (.num (3 / 200)), .get "t3" .double "PSSSIM_T3" (.num (2 / 25)),
  .get "t4" .double "PSSSIM_T4" (.num (1 / 100)), .get "maxout" .double "PSSSIM_MAXOUT" (.num (1 / 5)),
  .get "minout" .double "PSSSIM_MINOUT" (.num (-1 / 20))]

/-- src/applications/modules/dynamic_simulation_full_y/model_classes/repca1.cpp 49-88. -/
def repca1 : List Step := [
  .bus "p_sbase" .double "CASE_SBASE" .keep, .bus "p_bus_num" .int "BUS_NUMBER" .keep,
  .get "p_gen_id" .string "GENERATOR_ID" .keep, .get "p_mbase" .double "GENERATOR_MBASE" (.num 100),
  .get "ireg" .double "GENERATOR_REPCA_IREG" (.copyInt "p_bus_num"), .get "Rc" .double "GENERATOR_REPCA_RC" (.num 0),
  .get "Xc" .double "GENERATOR_REPCA_XC" (.num (1 / 100)),
  .get "fbus" .double "GENERATOR_REPCA_BRCH_BUS_FROM" (.num 0),
  .get "tbus" .double "GENERATOR_REPCA_BRCH_BUS_TO" (.num 0),
  .get "br_ckt" .string "GENERATOR_REPCA_BRCH_CKT" (.text " "),
  .get "VCompFLAG" .int "GENERATOR_REPCA_VC_FLAG" (.num 0), .get "RefFLAG" .int "GENERATOR_REPCA_REF_FLAG" (.num 0),
  .get "FreqFLAG" .int "GENERATOR_REPCA_F_FLAG" (.num 0), .get "Kc" .double "GENERATOR_REPCA_KC" (.num (1 / 50)),
  .get "Tfltr" .double "GENERATOR_REPCA_TFLTR" (.num (1 / 50)), .get "dbd1" .double "GENERATOR_REPCA_DBD1" (.num 0),
  .get "dbd2" .double "GENERATOR_REPCA_DBD2" (.num 0), .get "Emax" .double "GENERATOR_REPCA_EMAX" (.num (3 / 10)),
  .get "Emin" .double "GENERATOR_REPCA_EMIN" (.num (-3 / 10)),
  .get "Qmax" .double "GENERATOR_REPCA_QMAX" (.num (14 / 25)),
  .get "Qmin" .double "GENERATOR_REPCA_QMIN" (.num (-14 / 25)), .get "Kp" .double "GENERATOR_REPCA_KP" (.num 18),
  .get "Ki" .double "GENERATOR_REPCA_KI" (.num 5), .get "Tft" .double "GENERATOR_REPCA_TFT" (.num 0),
  .get "Tfv" .double "GENERATOR_REPCA_TFV" (.num (1 / 20)), .get "fdbd1" .double "GENERATOR_REPCA_FDBD1" (.num 0),
  .get "fdbd2" .double "GENERATOR_REPCA_FDBD2" (.num 0), .get "Vfrz" .double "GENERATOR_REPCA_VFRZ" (.num (1 / 2)),
  .get "Ddn" .double "GENERATOR_REPCA_DDN" (.num 20), .get "Dup" .double "GENERATOR_REPCA_DUP" (.num (-10)),
  .get "Tp" .double "GENERATOR_REPCA_TP" (.num (1 / 20)), .get "femax" .double "GENERATOR_REPCA_FEMAX" (.num 999),
  .get "femin" .double "GENERATOR_REPCA_FEMIN" (.num (-999)),
  .get "Kpg" .double "GENERATOR_REPCA_KPG" (.num (1 / 10)), .get "Kig" .double "GENERATOR_REPCA_KIG" (.num (1 / 20)),
  .get "Pmax" .double "GENERATOR_REPCA_PMAX" (.num (3 / 2)),
  .get "Pmin" .double "GENERATOR_REPCA_PMIN" (.num (-3 / 2)), .get "Tg" .double "GENERATOR_REPCA_TG" (.num (1 / 10))]

/-- src/applications/modules/dynamic_simulation_full_y/model_classes/wtara1.cpp 59-60. -/
def wtara1 : List Step := [
  .get "Ka" .double "WIND_AD_KA" (.num (7 / 1000)), .get "Theta0" .double "WIND_AD_THETA" (.num 0)]

/-- src/applications/modules/dynamic_simulation_full_y/model_classes/wtdta1.cpp 61-65. -/
def wtdta1 : List Step := [
  .get "H" .double "WIND_DT_H" (.num 0), .get "D" .double "WIND_DT_DAMP" (.num 0),
  .get "Hfrac" .double "WIND_DT_HFRAC" (.num 0), .get "Freq1" .double "WIND_DT_FREQ1" (.num 0),
  .get "Dshaft" .double "WIND_DT_DSHAFT" (.num 0)]

/-- src/applications/modules/dynamic_simulation_full_y/model_classes/wtpta1.cpp 55-64. -/
def wtpta1 : List Step := [
  .get "Kcc" .double "WIND_PC_KCC" (.num 0), .get "Kiw" .double "WIND_PC_KIW" (.num 0),
  .get "Kpw" .double "WIND_PC_KPW" (.num 0), .get "Kic" .double "WIND_PC_KIC" (.num 0),
  .get "Kpc" .double "WIND_PC_KPC" (.num 0), .get "Thetamax" .double "WIND_PC_THETAMAX" (.num 0),
  .get "Thetamin" .double "WIND_PC_THETAMIN" (.num 0), .get "dThetamax" .double "WIND_PC_RTHETAMAX" (.num 0),
  .get "dThetamin" .double "WIND_PC_RTHETAMIN" (.num 0), .get "Tp" .double "WIND_PC_TP" (.num 0)]

/-- src/applications/modules/dynamic_simulation_full_y/model_classes/wttqa1.cpp 55-73. -/
def wttqa1 : List Step := [
  .get "Tflag" .int "WIND_TC_TFLAG" (.num 1), .get "Tp" .double "WIND_TC_TP" (.num 0),
  .get "Twref" .double "WIND_TC_TWREF" (.num 0), .get "Kpp" .double "WIND_TC_KPP" (.num 0),
  .get "Kip" .double "WIND_TC_KIP" (.num 0), .get "Temax" .double "WIND_TC_TEMAX" (.num 0),
  .get "Temin" .double "WIND_TC_TEMIN" (.num 0), .get "p1" .double "WIND_TC_P1" (.num 0),
  .get "spd1" .double "WIND_TC_SPD1" (.num 1), .get "p2" .double "WIND_TC_P2" (.num 2),
  .get "spd2" .double "WIND_TC_SPD2" (.num 1), .get "p3" .double "WIND_TC_P3" (.num 0),
  .get "spd3" .double "WIND_TC_SPD3" (.num 0), .get "p4" .double "WIND_TC_P4" (.num 0),
  .get "spd4" .double "WIND_TC_SPD4" (.num 0), .get "MBase" .double "GENERATOR_MBASE" (.num 100),
  .get "Trate" .double "WIND_TC_TRATE" (.copy "MBase"), .whenTiny "Trate" "MBase"]

/-- `toUpper` (src/utilities/string_utils.hpp 76-79). -/
def toUpper (s : Str) : Str := s.map Char.toUpper

/-- `type = trimQuotes(model); toUpper(type)`, the beginning of the functions of the factory. -/
def typeOf (model : Str) : Option Str :=
  match trimQuotes model with
  | .ok t => some (toUpper t)
  | _ => none

/-- The devices of a generator. -/
inductive Slot where
  | generator | exciter | governor | pss | plant | torque | pitch | drivetrain | aero
deriving DecidableEq

/-- The keys of the flags (dsf_components.cpp 975-982). -/
def Slot.flag : Slot → Option String
  | .generator => none
  | .exciter => some "HAS_EXCITER"
  | .governor => some "HAS_GOVERNOR"
  | .pss => some "HAS_PSS"
  | .plant => some "HAS_PLANT_CONTROLLER"
  | .torque => some "HAS_WIND_TORQUECONTROL"
  | .pitch => some "HAS_WIND_PITCHCONTROL"
  | .drivetrain => some "HAS_WIND_DRIVETRAIN"
  | .aero => some "HAS_WIND_AERODYNAMIC"

/-- The keys of the names of the models (dsf_components.cpp 962, 990, 999, 1008, 1017, 1027, 1037, 1047, 1057). -/
def Slot.model : Slot → String
  | .generator => "GENERATOR_MODEL"
  | .exciter => "EXCITER_MODEL"
  | .governor => "GOVERNOR_MODEL"
  | .pss => "PSS_MODEL"
  | .plant => "PLANT_CONTROLLER_MODEL"
  | .torque => "WIND_TORQUECONTROL"
  | .pitch => "WIND_PITCHCONTROL"
  | .drivetrain => "WIND_DRIVETRAIN"
  | .aero => "WIND_AERODYNAMIC"

/-- `createMechanicalModel` (generator_factory.cpp 274-310). -/
def mechanical : List (String × List Step) :=
  [("WTARA1", wtara1), ("WTDTA1", wtdta1), ("WTPTA1", wtpta1), ("WTTQA1", wttqa1)]

/-- The classes that the factory creates (generator_factory.cpp 67-310): names and `load`. -/
def Slot.classes : Slot → List (String × List Step)
  | .generator => [("GENCLS", classical), ("GENSAL", gensal), ("GENROU", genrou), ("GDFORM", gdform),
    ("REGCA1", regca1), ("REGCB1", regcb1), ("REGCC1", regcc1)]
  | .exciter => [("EXDC1", exdc1), ("IEEET1", ieeet1), ("SEXS", sexs), ("ESST1A", esst1a), ("ESST4B", esst4b),
    ("REECA1", reeca1)]
  | .governor => [("WSIEG1", wsieg1), ("TGOV1", tgov1), ("GAST", gast), ("HYGOV", hygov), ("WSHYGP", wshygp)]
  | .pss => [("PSSSIM", psssim)]
  | .plant => [("REPCA1", repca1), ("REPCTA1", repca1)]
  | .torque | .pitch | .drivetrain | .aero => mechanical

/-- The class for a name; `none` is the null pointer. -/
def Slot.create (sl : Slot) (model : Str) : Option (String × List Step) :=
  (typeOf model).bind fun ty => sl.classes.find? (fun x => decide (x.1.toList = ty))

/-- Creating and loading a device (dsf_components.cpp 989-1065, 1095-1102).  The first `Option` is for the call of a
function of a device that is not there: the flag is true but there is no name or the factory does not know it.  The
second is `none` if there is no such device. -/
noncomputable def device (c : Data) (i : Int) (junk : Struct) (sl : Slot) : Option (Option (String × Struct)) :=
  match sl.flag with
  | none => some none
  | some f =>
    (getValue c .bool ⟨f.toList, some i⟩ false).bind fun r =>
      if (show Bool from r.2) then
        (getValue c .string ⟨sl.model.toList, some i⟩ []).bind fun n =>
          if n.1 then (sl.create n.2).bind fun x => (load c i x.2 junk).map fun s => some (x.1, s)
          else none
      else some none

/-- The devices of a generator: names of the classes and values of the members. -/
abbrev Devices := Slot → Option (String × Struct)

/-- Loading the generator and its other devices (dsf_components.cpp 1094-1102); `junk` is what the members of the new
objects hold. -/
noncomputable def allDevices (c : Data) (i : Int) (junk : Slot → Struct) (x : String × List Step) : Option Devices :=
  (load c i x.2 (junk .generator)).bind fun s =>
  (device c i (junk .governor) .governor).bind fun gov =>
  (device c i (junk .exciter) .exciter).bind fun ex =>
  (device c i (junk .pss) .pss).bind fun pss =>
  (device c i (junk .plant) .plant).bind fun plant =>
  (device c i (junk .torque) .torque).bind fun tc =>
  (device c i (junk .pitch) .pitch).bind fun pc =>
  (device c i (junk .drivetrain) .drivetrain).bind fun dt =>
  (device c i (junk .aero) .aero).bind fun aero =>
    some (fun
      | .generator => some (x.1, s)
      | .exciter => ex
      | .governor => gov
      | .pss => pss
      | .plant => plant
      | .torque => tc
      | .pitch => pc
      | .drivetrain => dt
      | .aero => aero)

open Classical in
/-- Generator `i` (dsf_components.cpp 942-1102); `pg` is the local variable.  The result is `some none` if the
generator gets no model of its own (1104-1121, see DsLoad.lean). -/
noncomputable def loadGenerator (c : Data) (i : Int) (pg : ℝ) (junk : Slot → Struct) : Option (Option Devices) :=
  (getValue c .double ⟨"GENERATOR_PG".toList, some i⟩ pg).bind fun p =>
  (getValue c .string ⟨"GENERATOR_MODEL".toList, some i⟩ []).bind fun n =>
    if n.1 = true ∧ @LE.le ℝ _ 0 p.2 then
      (Slot.create .generator n.2).bind fun x => (allDevices c i junk x).map some
    else some none

end GridPACK.DeviceLoad
