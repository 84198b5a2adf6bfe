import Verif.Spec.DaeJacobian

/-! Specification for the machines of the DAE form of the dynamic simulation: motions of a network, power at the
terminals. -/
namespace GridPACK.Dae

variable {ι : Type} [DecidableEq ι]

/-- `x` is a motion of the network: it solves the equations given to the integrator at all times, `xd` being its time
derivative. -/
def Net.Motion (N : Net ι) (x xd : ℝ → ι → ℕ → ℝ) : Prop :=
  (∀ t i r, HasDerivAt (fun s => x s i r) (xd t i r) t) ∧
  (∀ t i r, r < (N.bus i).nvar → N.F .resid (x t) (xd t) (fun _ _ => 0) (fun _ => 0) i r = 0)

/-- The power that a generator delivers to its bus: real part of voltage times conjugate current. -/
noncomputable def Gen.powerOut (g : Gen) (X : Ix → ℝ) : ℝ := X (.net 0) * g.igd X + X (.net 1) * g.igq X

/-- Square of the magnitude of the current delivered. -/
noncomputable def Gen.current2 (g : Gen) (X : Ix → ℝ) : ℝ := g.igd X ^ 2 + g.igq X ^ 2

/-- The mechanical power: from the governor if there is one. -/
noncomputable def Gen.powerIn (g : Gen) (X : Ix → ℝ) : ℝ :=
  match g.gov with
  | none => g.Pmech
  | some w => X (.gov 2) * w.K1 + X (.gov 3) * w.K3 + X (.gov 4) * w.K5 + X (.gov 5) * w.K7

/-- The swing equation at time `t` of the generator with the variables `X s` at time `s`, inertia `H`, damping `D` and
armature resistance `Ra`: the rotor angle has the second derivative `ω/(2H)` times the accelerating power over the speed,
`ω` being the synchronous speed in radians per second. -/
def SwingAt (g : Gen) (H D Ra : ℝ) (X : ℝ → Ix → ℝ) (t : ℝ) : Prop :=
  HasDerivAt (deriv (fun s => X s (.gen 0)))
    (2 * Real.pi * 60 / (2 * H) *
      ((g.powerIn (X t) - D * X t (.gen 1) - g.powerOut (X t) - Ra * g.current2 (X t)) / (1 + X t (.gen 1)))) t

end GridPACK.Dae
