import Verif.Model.FaultSim

/-! What a simulation with a fault should do (docs/user_manual/tex/ds_mod.tex), without reference to the functions of the
model. -/
namespace GridPACK.FaultSim

/-- The network of matrix `m` and branches `br` is distributed over `n` processes: the data of a bus agree with the
matrix, every bus has an owner, the owner of a bus knows all branches at it, and a process that knows a branch knows its
buses. -/
structure Distributed (n : Nat) (procs : Nat → Proc) (m : Mat) (br : List (Int × Int)) (nodes : List Int) : Prop where
  data : ∀ p, p < n → ∀ b ∈ (procs p).buses, b.active = true → b.ybus = m b.orig b.orig
  owner : ∀ i ∈ nodes, ∃ p, p < n ∧ ∃ b ∈ (procs p).buses, b.active = true ∧ b.orig = i
  ends : ∀ e ∈ br, e.1 ∈ nodes ∧ e.2 ∈ nodes
  known : ∀ e ∈ br, ∀ p, p < n → (∃ b ∈ (procs p).buses, b.active = true ∧ (b.orig = e.1 ∨ b.orig = e.2)) →
    e ∈ (procs p).branches
  only : ∀ p, p < n → ∀ e ∈ (procs p).branches, e ∈ br

/-- The network with the matrix `m'` is that with the matrix `m` with a fault at bus `i`: a shunt of very high
admittance there, nothing else. -/
def FaultAt (m m' : Mat) (i : Int) : Prop :=
  ∀ a b, m' a b = m a b + (if a = i ∧ b = i then ⟨0, -1000000000⟩ else 0)

/-- Step `k` of a simulation with steps of length `dt` lies within the fault. -/
def During (ev : Ev) (dt : ℝ) (k : ℕ) : Prop := ev.start ≤ k * dt ∧ (k + 1 : ℝ) * dt ≤ ev.stop

end GridPACK.FaultSim
