import Verif.Model.DyrFile
import Verif.Model.DyrRecords

/-! Model of reading a file with the parameters of a unit commitment: src/parser/base_pti_parser.hpp `uc_params`
(1266-1285), `getUCExternal` (1292-1437) and `find_uc_vector` (1969-2040).  One line is one generator, the first line
is a header; the records are distributed to the processes holding the buses.

The steps are written in the form used for the .dyr files (`Verif/Model/Dyr.lean`): a struct is a function from
members to values with arbitrary contents before, `atoi`, `atof` and `clean2Char` are functions. -/
namespace GridPACK.UnitCommit
open StringUtils DataCollection Dyr
open RawBus (Val Data)

/-- The members except bus and generator (1983-2030), and the steps for a generator (1344-1435); there is no `parse`. -/
def uc : Kind where
  parse := []
  store := [
    sInt "type" 1, sDbl "init_level" 2, sDbl "min_gen" 3, sDbl "max_gen" 4, sDbl "max_oper" 5, sDbl "min_up" 6,
    sDbl "min_down" 7, sDbl "ramp_up" 8, sDbl "ramp_down" 9, sDbl "start_up" 10, sDbl "const_cost" 11,
    sDbl "lin_cost" 12, sDbl "co_2_cost" 13, sDbl "init_prd" 14, sDbl "start_cap" 15, sDbl "shut_cap" 16]
  extract := [
    eInt "GENERATOR_TYPE" "type", eDbl "GENERATOR_INIT_LEVEL" "init_level", eDbl "GENERATOR_MIN_GEN" "min_gen",
    eDbl "GENERATOR_MAX_GEN" "max_gen", eDbl "GENERATOR_MAX_OP_GEN" "max_gen", eDbl "GENERATOR_MIN_UP" "min_up",
    eDbl "GENERATOR_MIN_DOWN" "min_down", eDbl "GENERATOR_RAMP_UP" "ramp_up",
    eDbl "GENERATOR_RAMP_DOWN" "ramp_down", eDbl "GENERATOR_START_UP" "start_up",
    eDbl "GENERATOR_CONST_COST" "const_cost", eDbl "GENERATOR_LIN_COST" "lin_cost",
    eDbl "GENERATOR_CO_2_COST" "co_2_cost", eDbl "GENERATOR_INIT_PRD" "init_prd",
    eDbl "GENERATOR_START_CAP" "start_cap", eDbl "GENERATOR_SHUT_CAP" "shut_cap"]

/-- 2031-2038: bus and generator.  They are assigned last; here first, which makes no difference. -/
def ucWhere : List SEntry := [sInt "bus_id" 17, ⟨some 18, "gen_id", .tag 18⟩]

/-- 1978-2038: the struct of one line; `junk` is what its memory holds before. -/
def ucStruct (cv : Conv) (junk : Struct) (ts : List Str) : Option Struct :=
  (runStore cv ts ucWhere junk).bind (runStore cv ts uc.store)

/-- 1976-2039: the structs of the lines, with the memory of each. -/
def ucVector (cv : Conv) : List (Struct × Str) → Option (List (Int × Struct))
  | [] => some []
  | r :: rs =>
    match BlockParser.splitPSSELine r.2 with
    | .ok ts => (ucStruct cv r.1 ts).bind (fun s => (ucVector cv rs).map ((s .int "bus_id", s) :: ·))
    | _ => none

/-- 1324-1435: the parameters of one generator. -/
def putUC (s : Struct) (c : Data) : Option Data :=
  match devIndex c "GENERATOR_NUMBER" "GENERATOR_ID" (s .string "gen_id") with
  | none => some c
  | some g => uc.runExtract s (some (g : Int)) c

/-- 1292-1437 `getUCExternal` on process `me`: `recs` are the lines of the file with the memory of their structs (the
first one, the header, is passed over, 1974), `busNo` the numbers of the buses held here and `bus` their data. -/
def getUC (cv : Conv) (n : Nat) (bound : Nat → Nat → Nat) (puts : List Nat) (me : Nat) (recs : List (Struct × Str))
    (busNo : List Int) (bus : List Data) : Option (List Data) :=
  (ucVector cv (recs.drop 1)).bind (fun v => spread n bound puts me putUC v busNo bus)

end GridPACK.UnitCommit
