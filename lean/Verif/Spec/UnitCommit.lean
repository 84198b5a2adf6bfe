import Verif.Spec.DyrRead
import Verif.Spec.DyrRecords

/-! What a file with the parameters of a unit commitment means: after a header each line is for one generator. -/
namespace GridPACK.UnitCommit
open StringUtils DataCollection Dyr
open RawBus (Data)
open DyrSpec (Par Complete nums Usable)
open DyrRecords (tokens TokenOk)

/-- The parameters in the order of the line; place 0 is the name of the unit. -/
def format : List Par :=
  [.int "GENERATOR_TYPE" 1] ++ nums 2 ["GENERATOR_INIT_LEVEL", "GENERATOR_MIN_GEN", "GENERATOR_MAX_GEN",
    "GENERATOR_MAX_OP_GEN", "GENERATOR_MIN_UP", "GENERATOR_MIN_DOWN", "GENERATOR_RAMP_UP", "GENERATOR_RAMP_DOWN",
    "GENERATOR_START_UP", "GENERATOR_CONST_COST", "GENERATOR_LIN_COST", "GENERATOR_CO_2_COST", "GENERATOR_INIT_PRD",
    "GENERATOR_START_CAP", "GENERATOR_SHUT_CAP"]

/-- The line is for generator `tag` of bus `b`: the last two columns. -/
def IsFor (cv : Conv) (line : Str) (b : Int) (tag : Str) : Prop :=
  ∃ t17 t18, (tokens line)[17]? = some t17 ∧ (tokens line)[18]? = some t18 ∧ cv.atoi t17 = b ∧ cv.tag t18 = tag

/-- A line with all its columns, without tabs and carriage returns, with quotes around whole words. -/
structure LineOk (line : Str) : Prop where
  noTab : '\t' ∉ line
  noReturn : '\r' ∉ line
  words : ∀ w ∈ tokens line, TokenOk w
  full : 18 < (tokens line).length

/-- A file with the header `head` and the lines `recs` (each with whatever the memory of its struct held before) is
read on `n` processes; this process holds the buses `busNo` with the data `bus`. -/
structure Setting (n : Nat) (bound : Nat → Nat → Nat) (puts : List Nat) (recs : List (Struct × Str))
    (busNo : List Int) (bus : List Data) : Prop where
  procs : 0 < n
  bounds : ∀ total, HashDistr.BoundOk n total (bound total)
  order : puts.Perm (List.range n)
  lines : ∀ r ∈ recs, LineOk r.2
  buses : busNo.length = bus.length
  usable : ∀ c ∈ bus, Usable 0 c

end GridPACK.UnitCommit
