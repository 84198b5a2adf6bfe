import Verif.Model.Expand

/-! What is expected of the expansion of composite loads. -/
namespace GridPACK.Expand

/-- The numbers of the buses owned by the processes. -/
def owned (procs : List Proc) : List Int := (procs.flatMap (·.buses)).filterMap (fun b => if b.active then some b.number else none)

/-- The number of composite loads at a bus that is owned. -/
def loadsAt (b : Bus) : Nat := if b.active then b.models.count (some composite) else 0

/-- The local branch `k` of `p` is an own branch from the bus at local index `i` to that at `j`, with their numbers, and
both buses list it. -/
def Joins (p : Proc) (k i j : Nat) : Prop :=
  ∃ br bi bj, p.branches[k]? = some br ∧ p.buses[i]? = some bi ∧ p.buses[j]? = some bj ∧ br.l1 = i ∧ br.l2 = j ∧
    br.frm = bi.number ∧ br.tob = bj.number ∧ br.active = true ∧ k ∈ bi.nbrs ∧ k ∈ bj.nbrs

/-- The buses and branches added to a process for a composite load at its bus `i`: `low` and `load` are local indices of the
new buses, `k` and `k + 1` those of the new branches. -/
structure Chain (p p' : Proc) (i low load k : Nat) : Prop where
  new : p.buses.length ≤ low ∧ p.buses.length ≤ load ∧ low ≠ load
  own : ∃ b c, p'.buses[low]? = some b ∧ p'.buses[load]? = some c ∧ b.active = true ∧ c.active = true
  transformer : p.branches.length ≤ k ∧ Joins p' k i low
  feeder : Joins p' (k + 1) low load

end GridPACK.Expand
