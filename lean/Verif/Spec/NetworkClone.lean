import Verif.Model.NetworkClone

/-! Specification for the copy of a network. -/
namespace GridPACK.NetworkClone

variable {δ : Type}

/-- Every branch has its two end buses on this process, and their global numbers (as after partitioning). -/
def Net.Partitioned (n : Net δ) : Prop :=
  ∀ b ∈ n.branches, (∃ c, 0 ≤ b.l1 ∧ n.buses[b.l1.toNat]? = some c ∧ c.gid = b.g1) ∧
    (∃ c, 0 ≤ b.l2 ∧ n.buses[b.l2.toNat]? = some c ∧ c.gid = b.g2)

/-- Two buses hold the same information, apart from the mark of the reference bus. -/
def Bus.Same (b c : Bus δ) : Prop :=
  c.active = b.active ∧ c.orig = b.orig ∧ c.gid = b.gid ∧ c.nbrs = b.nbrs ∧ c.data = b.data

/-- The lists of branches at the buses are right: they name branches that exist and end at the bus. -/
def Net.NeighborsOk (n : Net δ) : Prop :=
  ∀ (i : Nat) (b : Bus δ), n.buses[i]? = some b → ∀ j ∈ b.nbrs, 0 ≤ j ∧
    ∃ br, n.branches[j.toNat]? = some br ∧ (br.l1 = i ∨ br.l2 = i)

end GridPACK.NetworkClone
