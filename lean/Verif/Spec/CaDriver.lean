import Verif.Model.CaDriver
import Verif.Props.StringUtils

/-! Specification for C205-C210. -/
namespace GridPACK.CaDriver

open StringUtils

/-- The text consists of these words (in quotes or not), separated by blanks or tabs. -/
def Words (s : Str) (ws : List Str) : Prop :=
  ∃ (lead : Nat) (l : List (Str × Nat)), l ≠ [] ∧ BlankTokens l ∧ s.map tabBlank = render ' ' lead l ∧ l.map (·.1) = ws

/-- The word is the identifier `id`, with or without quotes around it. -/
def IsTag (word id : Str) : Prop :=
  IsId id ∧ (word = id ∨ ∃ (q : Char) (c d : Nat), isQuote q ∧
    word = [q] ++ List.replicate c ' ' ++ id ++ List.replicate d ' ' ++ [q])

/-- The block of the file describes this contingency: the outage of the lines or of the generators listed. -/
def Describes (atoi : Str → Int) (b : Block) : Event → Prop
  | .branch name lines => b.type = "Line".toList ∧ b.name = name ∧ ∃ bs ns,
      Words b.lineBuses bs ∧ Words b.lineNames ns ∧ bs.map atoi = lines.flatMap (fun l => [l.1, l.2.1]) ∧
      List.Forall₂ (fun w l => ∃ id, IsTag w id ∧ l.2.2 = padded id) ns lines
  | .generator name gens => b.type = "Generator".toList ∧ b.name = name ∧ ∃ bs ns,
      Words b.buses bs ∧ Words b.gens ns ∧ bs.map atoi = gens.map (·.1) ∧
      List.Forall₂ (fun w g => ∃ id, IsTag w id ∧ g.2 = padded id) ns gens

/-- What the summary should say about contingency number `i + 1`: whether a solution was found, and which checks
failed. -/
def Right (i : Nat) (o : Outcome) (l : Line) : Prop :=
  l.number = i + 1 ∧ l.success = o.solved ∧
  (o.solved = true →
    (l.violation = some .none ↔ o.busOk = true ∧ o.branchOk = true) ∧
    (l.violation = some .bus ↔ o.busOk = false ∧ o.branchOk = true) ∧
    (l.violation = some .branch ↔ o.busOk = true ∧ o.branchOk = false) ∧
    (l.violation = some .both ↔ o.busOk = false ∧ o.branchOk = false)) ∧
  (o.solved = false → l.violation = Option.none)

/-- The outcome of the last power flow calculation of a contingency. -/
def Outcome.finallySolved (checkQ : Bool) (o : Outcome) : Bool :=
  if checkQ && !o.qOk then o.solvedAgain else o.solved

/-- Two states of the same branch: everything but voltages, line status and isolation. -/
def SameBranch (b c : Br) : Prop :=
  b.active = c.active ∧ b.id1 = c.id1 ∧ b.id2 = c.id2 ∧ b.lines.map (·.elem.tag) = c.lines.map (·.elem.tag)

/-- Names of the lines of a branch. -/
def allLines (b : Br) : List (Int × Int × List Char) :=
  if b.active then b.lines.map (fun l => (b.id1, b.id2, l.elem.tag)) else []

def Flow.label (f : Flow) : Int × Int × List Char := (f.id1, f.id2, f.tag)

/-- Bus numbers of up to six digits and names of two characters. -/
def Usual (b : Br) : Prop :=
  (toString b.id1).length ≤ 6 ∧ (toString b.id2).length ≤ 6 ∧ ∀ l ∈ b.lines, l.elem.tag.length = 2

/-- The same for the generators of a bus whose powers are printed with up to twelve characters. -/
def UsualBus (len : ℝ → Nat) (id : Int) (pinj qinj : ℝ) (b : PFBusData.Bus) : Prop :=
  (toString id).length ≤ 6 ∧ ∀ g ∈ b.gens, g.id.length = 2 ∧
    len (genOf pinj qinj b g).1 ≤ 12 ∧ len (genOf pinj qinj b g).2 ≤ 12

/-- Complex power that flows at the first bus into the line in service with this name. -/
noncomputable def intoLine (b : Br) (l : BLine) : ℂ :=
  b.v1 * (starRingEnd ℂ) (l.elem.line.1 * b.v1 + l.elem.line.2 * b.v2) * (b.sbase : ℂ)

end GridPACK.CaDriver
