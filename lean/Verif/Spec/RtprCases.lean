import Verif.Model.RtprCases
import Verif.Props.StringUtils
import Verif.Props.GlobalVector

/-! What the path rating should work from (src/applications/rtpr/IMPLEMENTATION.md, steps 2, 5, 6 and 8), without
reference to the functions of the model. -/
namespace GridPACK.RtprCases

open StringUtils GlobalVector

/-- An area, or a zone of it; a zone number below 1 means the whole area. -/
structure Region where
  area : Int
  zone : Int

/-- A bus of the area and zone `a`, `z` lies in the region. -/
def Region.Has (r : Region) (a z : Int) : Prop := a = r.area ∧ (0 < r.zone → z = r.zone)

instance (r : Region) (a z : Int) : Decidable (r.Has a z) := by unfold Region.Has; infer_instance

/-- The generator is in service. -/
def Gen.InService (g : Gen) : Prop := ∃ s, g.status = some s ∧ s ≠ 0

/-- The line is in service. -/
def Line.InService (l : Line) : Prop := ∃ s, l.status = some s ∧ s ≠ 0

/-- The generator `id` at bus `bus` is owned by a process, in the region and in service. -/
def IsGen (n : Nat) (procs : Nat → List Bus) (r : Region) (bus : Int) (id : Str) : Prop :=
  ∃ p, p < n ∧ ∃ b ∈ procs p, b.active = true ∧ b.orig = bus ∧ r.Has b.area b.zone ∧
    ∃ gs, b.gens = some gs ∧ ∃ g ∈ gs, g.InService ∧ g.id = id

/-- The line `id` from bus `f` to bus `t` is owned by a process, in service, and both ends are in the region. -/
def IsLine (n : Nat) (procs : Nat → List Branch) (r : Region) (f t : Int) (id : Str) : Prop :=
  ∃ p, p < n ∧ ∃ b ∈ procs p, b.active = true ∧ b.from' = f ∧ b.to' = t ∧ r.Has b.area1 b.zone1 ∧
    r.Has b.area2 b.zone2 ∧ ∃ ls, b.lines = some ls ∧ ∃ l ∈ ls, l.InService ∧ l.ckt = id

/-- All generators of the network, in service or not, as pairs of bus and id. -/
def allGens (n : Nat) (procs : Nat → List Bus) : List (Int × Str) :=
  (List.range n).flatMap (fun p => (procs p).flatMap (fun b =>
    if b.active then (b.gens.getD []).map (fun g => (b.orig, g.id)) else []))

/-- All lines of the network, in service or not. -/
def allLines (n : Nat) (procs : Nat → List Branch) : List (Int × Int × Str) :=
  (List.range n).flatMap (fun p => (procs p).flatMap (fun b =>
    if b.active then (b.lines.getD []).map (fun l => (b.from', b.to', l.ckt)) else []))

/-- The branch connects the two regions, in one direction or the other. -/
def Branch.Connects (b : Branch) (r1 r2 : Region) : Prop :=
  (r1.Has b.area1 b.zone1 ∧ r2.Has b.area2 b.zone2) ∨ (r1.Has b.area2 b.zone2 ∧ r2.Has b.area1 b.zone1)

/-- The line `id` from bus `f` to bus `t` connects the two regions. -/
def IsTie (n : Nat) (procs : Nat → List Branch) (r1 r2 : Region) (f t : Int) (id : Str) : Prop :=
  ∃ p, p < n ∧ ∃ b ∈ procs p, b.active = true ∧ b.from' = f ∧ b.to' = t ∧ b.Connects r1 r2 ∧
    ∃ ls, b.lines = some ls ∧ ∃ l ∈ ls, l.ckt = id

/-- All identifiers have the two-character form that the parsers store. -/
def Stored (s : Str) : Prop := ∃ id, IsId id ∧ s = padded id

/-- In the execution no process clears its part of the vector after another one has written to it. -/
def Clean {α : Type} (n : Nat) (own : Nat → Nat) (adds : Nat → List (Added α)) (sched : List (Nat × Act α)) : Prop :=
  Interleaved n (fun p => writeProg (adds p)) sched ∧
    ∀ p, p < n → ∀ x ∈ adds p, ¬ ClearedAfter own sched p x

/-- The case has a solution of the power flow. -/
def Outcome.Solved (o : Outcome) : Prop := o.first = true ∧ o.again ≠ some false

/-- A rating is secure: the base case and all contingencies have solutions with all tie lines within their ratings. -/
def Secure (ntasks : Nat) (base : Outcome) (cases : Nat → Outcome) : Prop :=
  (base.Solved ∧ base.ties = true) ∧ ∀ t, t < ntasks → (cases t).Solved ∧ (cases t).ties = true

/-- The contingencies are shared out: each is worked on somewhere, and nothing else is. -/
def Shared (n ntasks : Nat) (tasks : Nat → List Nat) : Prop :=
  (∀ t, t < ntasks → ∃ p, p < n ∧ t ∈ tasks p) ∧ ∀ p, p < n → ∀ t ∈ tasks p, t < ntasks

end GridPACK.RtprCases
