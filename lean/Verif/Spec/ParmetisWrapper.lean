import Verif.Model.ParmetisWrapper

/-! Specification of the translation between network and partitioner. -/
namespace GridPACK.ParmetisWrapper

/-- Every process has an adjacency list for each of its nodes, and global node indices are the numbers below the number of
nodes, each once. -/
def WellFormed (ids : List (List Nat)) (nbrs : List (List (List Nat))) : Prop :=
  nbrs.map List.length = ids.map List.length ∧ ids.flatten.Perm (List.range ids.flatten.length) ∧
    ∀ row ∈ nbrs.flatten, ∀ g ∈ row, g ∈ ids.flatten

/-- `r` is the row of a graph given by consecutive rows: the neighbours of node `k` are those between the starts `k` and
`k + 1`. -/
def RowIs (xadj adjncy : List Nat) (k : Nat) (r : List Nat) : Prop :=
  ∃ a b, xadj[k]? = some a ∧ xadj[k + 1]? = some b ∧ a ≤ b ∧ b ≤ adjncy.length ∧ (adjncy.drop a).take (b - a) = r

end GridPACK.ParmetisWrapper
