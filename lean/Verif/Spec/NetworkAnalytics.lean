import Verif.Model.NetworkAnalytics
import Mathlib.Data.List.Perm.Basic
import Mathlib.Data.List.Nodup

/-! Specification of the network analytics: the network as a whole, and what it means that a list of
parts is a distribution of it. -/
namespace GridPACK.NetworkAnalytics
variable {V : Type}

/-- A bus of the whole network: its global number, its number in the input file and its data. -/
structure WBus (V : Type) where
  gid : Int
  orig : Int
  data : Data V

/-- A branch of the whole network: its global number, the numbers of its ends in the input file,
and its data. -/
structure WBranch (V : Type) where
  gid : Int
  o1 : Int
  o2 : Int
  data : Data V

/-- The whole network. -/
structure Whole (V : Type) where
  buses : List (WBus V)
  branches : List (WBranch V)

/-- Forget where a bus lives. -/
def Bus.whole (b : Bus V) : WBus V := ⟨b.gid, b.orig, b.data⟩

/-- Forget where a branch lives. -/
def Branch.whole (b : Branch V) : WBranch V := ⟨b.gid, b.o1, b.o2, b.data⟩

/-- The parts form a distribution of the whole network: every bus and every branch of the network is
active on exactly one rank, nothing else is active, and the global numbers are unique.  Ghost copies
are arbitrary. -/
structure Distributes (net : Whole V) (w : List (Local V)) : Prop where
  buses : List.Perm (w.flatMap fun l => (l.buses.filter (·.active)).map Bus.whole) net.buses
  branches : List.Perm (w.flatMap fun l => (l.branches.filter (·.active)).map Branch.whole) net.branches
  busIds : (net.buses.map (·.gid)).Nodup
  branchIds : (net.branches.map (·.gid)).Nodup

/-- The unit with position `i` counts: its status is not recorded, or is positive. -/
def InService (stat : String) (d : Data V) (i : Nat) : Prop :=
  ∀ s, d.int stat (some (i : Int)) = some s → 0 < s

/-- `n` is the number of units in service recorded in the data: it is the size of the set of the
positions below the recorded number whose unit is in service. -/
def UnitsInService (num stat : String) (d : Data V) (n : Int) : Prop :=
  ∃ l : List Nat, l.Nodup ∧ (l.length : Int) = n ∧
    ∀ i, i ∈ l ↔ ((i : Int) < (d.int num none).getD 0 ∧ InService stat d i)

/-- An entry of the data of a component, with or without a device index. -/
def entry (d : Data V) (field : String) : Option Nat → Option V
  | none => d.val field none
  | some i => d.val field (some (i : Int))

end GridPACK.NetworkAnalytics

namespace GridPACK.NetworkAnalytics
variable {V : Type}

/-- Every active bus knows its branches: the local positions in its list are positions of local
copies (active or ghost) of exactly the branches of the network that end at this bus. -/
def Linked (net : Whole V) (w : List (Local V)) : Prop :=
  ∀ l ∈ w, ∀ b ∈ l.buses, b.active = true →
    (∀ k ∈ b.nbrs, 0 ≤ k ∧ k < l.branches.length) ∧
    ∀ e : WBranch V, (e ∈ net.branches ∧ (e.o1 = b.orig ∨ e.o2 = b.orig)) ↔
      ∃ k ∈ b.nbrs, ∃ c, l.branches[k.toNat]? = some c ∧ c.whole = e

/-- The global numbers in the list are those of the branches that end at the bus with the number
`orig` in the input file. -/
def BranchesOf (net : Whole V) (orig : Int) (r : List Int) : Prop :=
  ∀ g, g ∈ r ↔ ∃ e ∈ net.branches, e.gid = g ∧ (e.o1 = orig ∨ e.o2 = orig)

end GridPACK.NetworkAnalytics
