import Verif.Model.MotorW

/-!
# What is said about the motor
-/

namespace GridPACK.MotorW

/-- The parameters of a motor given by its equivalent circuit: all elements of
the circuit are positive and the other description is absent. -/
structure Circuit (d : Data) : Prop where
  rs : 0 < d.rs
  lls : 0 < d.lls
  lm : 0 < d.lm
  rr1 : 0 < d.rr1
  llr1 : 0 < d.llr1
  rr2 : 0 < d.rr2
  llr2 : 0 < d.llr2
  Ls : d.Ls = 0
  base : 0 < d.base

/-- The simulation of the motor at a constant voltage and at nominal frequency,
over time steps of given lengths; each step is a predictor (with its flag) and
a corrector. -/
noncomputable def run (d : Data) (m : Motor) (v : ℂ) : List (ℝ × Bool) → Sim → Sim
  | [], s => s
  | (h, flag) :: r, s => run d m v r (corrector d m v 1 h (predictor d m v 1 h flag s))

/-- The motor stays where it is as long as the voltage does. -/
def AtRest (d : Data) (m : Motor) (v : ℂ) : Prop :=
  ∀ (z : Dyn) (hs : List (ℝ × Bool)), (run d m v hs ⟨m.x, m.x, z⟩).x = m.x

/-- The power of the motor at the slip found in the table, before the
adjustment. -/
def StartsWith (d : Data) (v : ℂ) (pini : ℝ) (P : ℝ) : Prop :=
  ∃ sl0, search (prepare d pini) v pini = some sl0 ∧
    (motorAt (prepare d pini) v false sl0).pmotor = P

end GridPACK.MotorW
