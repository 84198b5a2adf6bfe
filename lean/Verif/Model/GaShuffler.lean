import Verif.Model.Shuffler

/-! Model of `gaShuffler::operator()` (src/parallel/ga_shuffler.hpp 74-188).

All processes run the function together.  Serialisation is a pair of functions: `enc` gives the integers of the
archive of a list, padded to whole integers (114-126), `dec` reads a list back from such a buffer (170-177).  A
global array is a function; writes and reads of one round are separated by the two synchronisations (156, 179). -/
namespace GridPACK.GaShuffler

variable {α : Type}

/-- The two global arrays (134-138) and `locthings` of every process. -/
structure State (α : Type) where
  ga : Nat → Nat → Int
  gasize : Nat → Nat
  loc : Nat → List α

/-- What the source writes (141-155): all buffer sizes, and for every other process its buffer.  The size for the
source itself is 0. -/
def send (nprocs src : Nat) (buf : Nat → List Int) (s : State α) : State α :=
  { s with
    gasize := fun p => if p < nprocs then (if p = src then 0 else (buf p).length) else s.gasize p
    ga := fun p k => if p < nprocs ∧ p ≠ src ∧ k < (buf p).length then (buf p).getD k 0 else s.ga p k }

/-- What process `me` receives (157-178). -/
def receive (nprocs src : Nat) (dec : List Int → List α) (s : State α) : State α :=
  { s with
    loc := fun me => if me < nprocs ∧ me ≠ src then
      s.loc me ++ dec ((List.range (s.gasize me)).map (s.ga me)) else s.loc me }

/-- One round (140-180). -/
def round (nprocs : Nat) (enc : List α → List Int) (dec : List Int → List α) (tosend : Nat → Nat → List α)
    (s : State α) (src : Nat) : State α :=
  receive nprocs src dec (send nprocs src (fun p => enc (tosend src p)) s)

/-- `operator()`.  `garbage` is the content of new global arrays. -/
def shuffle (nprocs : Nat) (enc : List α → List Int) (dec : List Int → List α) (garbage : Nat → Nat → Int)
    (garbageSize : Nat → Nat) (inp : Nat → List (α × Int)) : Option (Nat → List α) :=
  if nprocs ≤ 1 then some (fun p => (inp p).map (·.1))
  else if ((List.range nprocs).map (fun p => (inp p).length)).sum = 0 then
    some (fun p => (inp p).map (·.1))
  else if (List.range nprocs).all (fun p => (Shuffler.sortOut nprocs p (inp p)).isSome) then
    let tosend := fun src d => ((Shuffler.sortOut nprocs src (inp src)).map (fun r => r.2 d)).getD []
    let s0 : State α := ⟨garbage, garbageSize, fun p => ((Shuffler.sortOut nprocs p (inp p)).map (·.1)).getD []⟩
    some ((List.range nprocs).foldl (round nprocs enc dec tosend) s0).loc
  else none

end GridPACK.GaShuffler
