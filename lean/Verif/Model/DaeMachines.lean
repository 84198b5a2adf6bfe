import Mathlib.Analysis.SpecialFunctions.Complex.Arg
import Mathlib.Analysis.SpecialFunctions.Trigonometric.Basic

/-! Model of the machines of the DAE form of the dynamic simulation
(src/applications/modules/dynamic_simulation_dae/model_classes/{classical_gen_model,genrou,gensal}.cpp): their
equations, injected currents, derivatives and initial values.

Doubles are real numbers, `4 atan(1)` is `π`, `atan2(y, x)` is the argument of `x + iy`; a division by zero gives 0
here instead of an infinity or NaN.  The entries of vectors and matrices are complex numbers in the code whose
imaginary parts are never used; here they are real.

A variable (or equation) at a bus is named by `Ix`: entry `i` of the bus itself, or entry `k` of the generator, its
exciter or its governor.  `Verif/Model/DaeBus.lean` turns these names into positions as `setBusOffset` does.  A
`setJacobian` is the list of its assignments `values[c][r] = v` and `values[c][r] += v` in their order.
Members holding the state are read as functions of `Ix`: `X` the state, `Xd` its time derivative, `P` the state before
a fault (`setValues` with the modes `XVECTOBUS`, `XDOTVECTOBUS`, `XVECPRETOBUS`).  The matrix is assembled at the state
at which the residual was evaluated last (dsim.hpp 81 leaves out pushing the vector again).
The saturation functions return 0 (genrou.cpp 162, gensal.cpp 142). -/
namespace GridPACK.Dae

/-- Variables and equations at a bus as seen by one generator. -/
inductive Ix
  | net (i : ℕ)
  | gen (k : ℕ)
  | exc (k : ℕ)
  | gov (k : ℕ)
  deriving DecidableEq

/-- `RESIDUAL_EVAL` and `FAULT_EVAL` (constants.hpp 27). -/
inductive Mode
  | resid
  | fault
  deriving DecidableEq

/-- An assignment `values[c][r] = v` or, with `add`, `values[c][r] += v`. -/
structure Wr (α : Type) where
  c : α
  r : α
  add : Bool
  v : ℝ

/-- `values[c][r] = v` -/
def set {α} (c r : α) (v : ℝ) : Wr α := ⟨c, r, false, v⟩
/-- `values[c][r] += v` -/
def plus {α} (c r : α) (v : ℝ) : Wr α := ⟨c, r, true, v⟩

/-- `OMEGA_S` (constants.hpp 24). -/
noncomputable def omegaS : ℝ := 2 * Real.pi * 60

/-- `VD_idx`, `VQ_idx`, and the rows `IGQ_idx`, `IGD_idx` (classical_gen_model.cpp 178-181). -/
abbrev VD : Ix := .net 0
@[inherit_doc VD] abbrev VQ : Ix := .net 1
@[inherit_doc VD] abbrev rowIGQ : Ix := .net 0
@[inherit_doc VD] abbrev rowIGD : Ix := .net 1

/-! ### Classical machine -/

/-- Members `p_Xdp`, `p_H`, `p_D`, `p_Ep`, `p_Pm` of `ClassicalGen`. -/
structure Cls where
  Xdp : ℝ
  H : ℝ
  D : ℝ
  Ep : ℝ
  Pm : ℝ

/-- `ClassicalGen::load`, conversion of the parameters (classical_gen_model.cpp 40-42); `mult` is `mbase/sbase`. -/
noncomputable def Cls.load (Xdp H D mult : ℝ) : Cls :=
  { Xdp := Xdp / mult, H := H * mult, D := D * mult, Ep := 0, Pm := 0 }

/-- `ClassicalGen::init` (classical_gen_model.cpp 51-76): the members set and the initial values. -/
noncomputable def Cls.init (p : Cls) (Pg Qg VD VQ : ℝ) : Cls × (ℕ → ℝ) :=
  let Vm := √(VD * VD + VQ * VQ)
  let IGD := (VD * Pg + VQ * Qg) / (Vm * Vm)
  let IGQ := (VQ * Pg - VD * Qg) / (Vm * Vm)
  let delta := Complex.arg ⟨VD - p.Xdp * IGQ, VQ + p.Xdp * IGD⟩
  ({ p with Ep := √((VD - p.Xdp * IGQ) ^ 2 + (VQ + p.Xdp * IGD) ^ 2), Pm := Pg },
   fun k => match k with | 0 => delta | _ => 0)

/-- `ClassicalGen::vectorValues` (classical_gen_model.cpp 140-157). -/
noncomputable def Cls.resid (p : Cls) (m : Mode) (X Xd P : Ix → ℝ) (k : ℕ) : ℝ :=
  match m, k with
  | .fault, k => X (.gen k) - P (.gen k)
  | .resid, 0 => X (.gen 1) / omegaS - Xd (.gen 0)
  | .resid, _ =>
    (p.Pm - X VD * p.Ep * Real.sin (X (.gen 0)) / p.Xdp + X VQ * p.Ep * Real.cos (X (.gen 0)) / p.Xdp
      - p.D * X (.gen 1)) / (2 * p.H) - Xd (.gen 1)

/-- `ClassicalGen::getCurrent`, real part (classical_gen_model.cpp 167). -/
noncomputable def Cls.igd (p : Cls) (X : Ix → ℝ) : ℝ :=
  (-X VQ + p.Ep * Real.sin (X (.gen 0))) / p.Xdp

/-- `ClassicalGen::getCurrent`, imaginary part (classical_gen_model.cpp 168). -/
noncomputable def Cls.igq (p : Cls) (X : Ix → ℝ) : ℝ :=
  (X VD - p.Ep * Real.cos (X (.gen 0))) / p.Xdp

/-- `ClassicalGen::setJacobian` (classical_gen_model.cpp 175-231). -/
noncomputable def Cls.jac (p : Cls) (m : Mode) (shift : ℝ) (X : Ix → ℝ) : List (Wr Ix) :=
  match m with
  | .fault =>
    [set (.gen 0) (.gen 0) 1,
     set (.gen 1) (.gen 1) 1,
     plus VD rowIGQ (1 / p.Xdp),
     plus VQ rowIGD (-1 / p.Xdp)]
  | .resid =>
    [set (.gen 0) (.gen 0) (-shift),
     set (.gen 1) (.gen 0) (1 / omegaS),
     set (.gen 0) (.gen 1) ((-X VD * p.Ep * Real.cos (X (.gen 0)) / p.Xdp
        - X VQ * p.Ep * Real.sin (X (.gen 0)) / p.Xdp) / (2 * p.H)),
     set (.gen 1) (.gen 1) (-shift - p.D / (2 * p.H)),
     set VD (.gen 1) ((-p.Ep * Real.sin (X (.gen 0)) / p.Xdp) / (2 * p.H)),
     set VQ (.gen 1) ((p.Ep * Real.cos (X (.gen 0)) / p.Xdp) / (2 * p.H)),
     set (.gen 0) rowIGQ (p.Ep * Real.sin (X (.gen 0)) / p.Xdp),
     set (.gen 0) rowIGD (p.Ep * Real.cos (X (.gen 0)) / p.Xdp),
     plus VD rowIGQ (1 / p.Xdp),
     plus VQ rowIGD (-1 / p.Xdp)]

/-! ### What a machine takes from its controls -/

/-- Field voltage and mechanical power obtained from exciter and governor (or the members `Efd`, `Pmech`), and the
lists `dEfd_dxexc`, `dPmech_dxgov` with their locations; empty without exciter or governor.  `dEfd_dxgen` consists
of zeros for both exciters (exdc1.cpp 424-425, esst1a.cpp 540-542), so the loops adding it (genrou.cpp 596-598,
gensal.cpp 542-544) are given by the flag `hasExc` alone. -/
structure Drive where
  Efd : ℝ
  Pmech : ℝ
  hasExc : Bool
  dEfd : List (Ix × ℝ)
  dPmech : List (Ix × ℝ)

/-! ### GENROU -/

/-- Members of `GenrouGen`. -/
structure Rou where
  H : ℝ
  D : ℝ
  Ra : ℝ
  Xd : ℝ
  Xq : ℝ
  Xdp : ℝ
  Xdpp : ℝ
  Xl : ℝ
  Xqp : ℝ
  Xqpp : ℝ
  Tdop : ℝ
  Tdopp : ℝ
  Tqopp : ℝ
  Tqop : ℝ
  B : ℝ
  G : ℝ

/-- `GenrouGen::load`, conversion to the system base and admittance (genrou.cpp 106-119). `Ra` is not converted. -/
noncomputable def Rou.load (p : Rou) (mult : ℝ) : Rou :=
  let q := { p with H := p.H * mult, D := p.D * mult, Xdp := p.Xdp / mult, Xd := p.Xd / mult, Xq := p.Xq / mult,
                    Xdpp := p.Xdpp / mult, Xl := p.Xl / mult, Xqp := p.Xqp / mult, Xqpp := p.Xqpp / mult }
  { q with B := -q.Xdpp / (q.Ra * q.Ra + q.Xdpp * q.Xdpp), G := q.Ra / (q.Ra * q.Ra + q.Xdpp * q.Xdpp) }

namespace Rou
variable (p : Rou) (X : Ix → ℝ)

/-- Rotor angle less a quarter turn (genrou.cpp 345). -/
noncomputable def theta : ℝ := X (.gen 0) - Real.pi / 2
/-- genrou.cpp 346 -/
noncomputable def Vdterm : ℝ := X VD * Real.cos (theta X) + X VQ * Real.sin (theta X)
/-- genrou.cpp 347 -/
noncomputable def Vqterm : ℝ := X VD * -Real.sin (theta X) + X VQ * Real.cos (theta X)
/-- genrou.cpp 350 -/
noncomputable def tempd1 : ℝ := (p.Xdpp - p.Xl) / (p.Xdp - p.Xl)
/-- genrou.cpp 351 -/
noncomputable def tempd2 : ℝ := (p.Xdp - p.Xdpp) / (p.Xdp - p.Xl)
/-- genrou.cpp 352 -/
noncomputable def tempq1 : ℝ := (p.Xdpp - p.Xl) / (p.Xqp - p.Xl)
/-- genrou.cpp 353 -/
noncomputable def tempq2 : ℝ := (p.Xqp - p.Xdpp) / (p.Xqp - p.Xl)
/-- genrou.cpp 355; variables 2 and 3 are `Eqp`, `Psidp`. -/
noncomputable def Psidpp : ℝ := p.tempd1 * X (.gen 2) + p.tempd2 * X (.gen 3)
/-- genrou.cpp 356; variables 4 and 5 are `Psiqp`, `Edp`. -/
noncomputable def Psiqpp : ℝ := -p.tempq1 * X (.gen 5) - p.tempq2 * X (.gen 4)
/-- genrou.cpp 359 -/
noncomputable def Vd : ℝ := -p.Psiqpp X * (1 + X (.gen 1))
/-- genrou.cpp 360 -/
noncomputable def Vq : ℝ := p.Psidpp X * (1 + X (.gen 1))
/-- genrou.cpp 363 -/
noncomputable def Id : ℝ := (p.Vd X - Vdterm X) * p.G - (p.Vq X - Vqterm X) * p.B
/-- genrou.cpp 364 -/
noncomputable def Iq : ℝ := (p.Vd X - Vdterm X) * p.B + (p.Vq X - Vqterm X) * p.G
/-- genrou.cpp 367 -/
noncomputable def Telec : ℝ := p.Psidpp X * p.Iq X - p.Psiqpp X * p.Id X

/-- `GenrouGen::getFieldCurrent` (genrou.cpp 707-735). -/
noncomputable def fieldCurrent : ℝ :=
  X (.gen 2) + (p.Xd - p.Xdp) * (p.Id X
    + (p.Xdp - p.Xdpp) / ((p.Xdp - p.Xl) * (p.Xdp - p.Xl)) * (X (.gen 2) - X (.gen 3) - (p.Xdp - p.Xl) * p.Id X))

/-- `GenrouGen::vectorValues` (genrou.cpp 315-396). -/
noncomputable def resid (u : Drive) (m : Mode) (Xd P : Ix → ℝ) (k : ℕ) : ℝ :=
  match m, k with
  | .fault, k => X (.gen k) - P (.gen k)
  | .resid, 0 => X (.gen 1) * omegaS - Xd (.gen 0)
  | .resid, 1 => 1 / (2 * p.H) * ((u.Pmech - p.D * X (.gen 1)) / (1 + X (.gen 1)) - p.Telec X) - Xd (.gen 1)
  | .resid, 2 => (u.Efd - p.fieldCurrent X) / p.Tdop - Xd (.gen 2)
  | .resid, 3 => (-X (.gen 3) - (p.Xdp - p.Xl) * p.Id X + X (.gen 2)) / p.Tdopp - Xd (.gen 3)
  | .resid, 4 => (-X (.gen 4) + (p.Xqp - p.Xl) * p.Iq X + X (.gen 5)) / p.Tqopp - Xd (.gen 4)
  | .resid, _ =>
    (-X (.gen 5) + (p.Xq - p.Xqp) * (p.Iq X
      - (p.Xqp - p.Xqpp) / ((p.Xqp - p.Xl) * (p.Xqp - p.Xl)) * (-X (.gen 4) + (p.Xqp - p.Xl) * p.Iq X + X (.gen 5))))
      / p.Tqop - Xd (.gen 5)

/-- `GenrouGen::getCurrent`, real part (genrou.cpp 669-692). -/
noncomputable def igd : ℝ := p.Id X * Real.cos (theta X) - p.Iq X * Real.sin (theta X)
/-- `GenrouGen::getCurrent`, imaginary part (genrou.cpp 693). -/
noncomputable def igq : ℝ := p.Id X * Real.sin (theta X) + p.Iq X * Real.cos (theta X)

/-! Derivatives computed at the beginning of `GenrouGen::setJacobian` (genrou.cpp 422-513). -/

/-- genrou.cpp 429 -/
noncomputable def dVdterm_ddelta : ℝ := -X VD * Real.sin (theta X) + X VQ * Real.cos (theta X)
/-- genrou.cpp 430 -/
noncomputable def dVqterm_ddelta : ℝ := -X VD * Real.cos (theta X) - X VQ * Real.sin (theta X)
/-- genrou.cpp 478 with 473 -/
noncomputable def dId_ddelta : ℝ := -p.G * dVdterm_ddelta X + p.B * dVqterm_ddelta X
/-- genrou.cpp 479 with 476 -/
noncomputable def dIq_ddelta : ℝ := -p.B * dVdterm_ddelta X + -p.G * dVqterm_ddelta X
/-- genrou.cpp 481 with 459, 461, 472 -/
noncomputable def dId_ddw : ℝ := p.G * -p.Psiqpp X + -p.B * p.Psidpp X
/-- genrou.cpp 482 -/
noncomputable def dIq_ddw : ℝ := p.B * -p.Psiqpp X + p.G * p.Psidpp X
/-- genrou.cpp 484 with 465 -/
noncomputable def dId_dEqp : ℝ := -p.B * ((1 + X (.gen 1)) * p.tempd1)
/-- genrou.cpp 485 -/
noncomputable def dIq_dEqp : ℝ := p.G * ((1 + X (.gen 1)) * p.tempd1)
/-- genrou.cpp 487 with 466 -/
noncomputable def dId_dPsidp : ℝ := -p.B * ((1 + X (.gen 1)) * p.tempd2)
/-- genrou.cpp 488 -/
noncomputable def dIq_dPsidp : ℝ := p.G * ((1 + X (.gen 1)) * p.tempd2)
/-- genrou.cpp 490 with 463 -/
noncomputable def dId_dEdp : ℝ := p.G * (-(1 + X (.gen 1)) * -p.tempq1)
/-- genrou.cpp 491 -/
noncomputable def dIq_dEdp : ℝ := p.B * (-(1 + X (.gen 1)) * -p.tempq1)
/-- genrou.cpp 493 with 464 -/
noncomputable def dId_dPsiqp : ℝ := p.G * (-(1 + X (.gen 1)) * -p.tempq2)
/-- genrou.cpp 494 -/
noncomputable def dIq_dPsiqp : ℝ := p.B * (-(1 + X (.gen 1)) * -p.tempq2)
/-- genrou.cpp 496 -/
noncomputable def dId_dVD : ℝ := -p.G * Real.cos (theta X) + p.B * -Real.sin (theta X)
/-- genrou.cpp 497 -/
noncomputable def dId_dVQ : ℝ := -p.G * Real.sin (theta X) + p.B * Real.cos (theta X)
/-- genrou.cpp 499 -/
noncomputable def dIq_dVD : ℝ := -p.B * Real.cos (theta X) + -p.G * -Real.sin (theta X)
/-- genrou.cpp 500 -/
noncomputable def dIq_dVQ : ℝ := -p.B * Real.sin (theta X) + -p.G * Real.cos (theta X)
/-- genrou.cpp 505 -/
noncomputable def dTelec_ddelta : ℝ := p.Psidpp X * p.dIq_ddelta X - p.Psiqpp X * p.dId_ddelta X
/-- genrou.cpp 506 -/
noncomputable def dTelec_ddw : ℝ := p.Psidpp X * p.dIq_ddw X - p.Psiqpp X * p.dId_ddw X
/-- genrou.cpp 507 -/
noncomputable def dTelec_dEqp : ℝ :=
  p.Psidpp X * p.dIq_dEqp X + p.tempd1 * p.Iq X - p.Psiqpp X * p.dId_dEqp X
/-- genrou.cpp 508 -/
noncomputable def dTelec_dPsidp : ℝ :=
  p.Psidpp X * p.dIq_dPsidp X + p.tempd2 * p.Iq X - p.Psiqpp X * p.dId_dPsidp X
/-- genrou.cpp 509 -/
noncomputable def dTelec_dEdp : ℝ :=
  p.Psidpp X * p.dIq_dEdp X - (p.Psiqpp X * p.dId_dEdp X + -p.tempq1 * p.Id X)
/-- genrou.cpp 510 -/
noncomputable def dTelec_dPsiqp : ℝ :=
  p.Psidpp X * p.dIq_dPsiqp X - (p.Psiqpp X * p.dId_dPsiqp X + -p.tempq2 * p.Id X)
/-- genrou.cpp 512 -/
noncomputable def dTelec_dVD : ℝ := p.Psidpp X * p.dIq_dVD X - p.Psiqpp X * p.dId_dVD X
/-- genrou.cpp 513 -/
noncomputable def dTelec_dVQ : ℝ := p.Psidpp X * p.dIq_dVQ X - p.Psiqpp X * p.dId_dVQ X

/-- genrou.cpp 563-570 without the `1.0` of line 565 and the `-1.0` of line 566, which are `e`. -/
noncomputable def dLadIfd (dId e : ℝ) : ℝ :=
  (p.Xd - p.Xdp) * (dId + (p.Xdp - p.Xdpp) / ((p.Xdp - p.Xl) * (p.Xdp - p.Xl)) * (e - (p.Xdp - p.Xl) * dId))

/-- `const3` (genrou.cpp 624). -/
noncomputable def const3 : ℝ := (p.Xqp - p.Xqpp) / ((p.Xqp - p.Xl) * (p.Xqp - p.Xl))

/-- The assignments of `GenrouGen::setJacobian` to the rows of the machine with `RESIDUAL_EVAL`
(genrou.cpp 531-633). -/
noncomputable def jacRows (u : Drive) (shift : ℝ) : List (Wr Ix) :=
  [set (.gen 0) (.gen 0) (-shift),
   set (.gen 1) (.gen 0) omegaS,
   set (.gen 0) (.gen 1) (1 / (2 * p.H) * -p.dTelec_ddelta X),
   set (.gen 1) (.gen 1) (1 / (2 * p.H) * (-(u.Pmech - p.D * X (.gen 1)) / ((1 + X (.gen 1)) * (1 + X (.gen 1)))
     - p.D / (1 + X (.gen 1)) - p.dTelec_ddw X) - shift),
   set (.gen 2) (.gen 1) (1 / (2 * p.H) * -p.dTelec_dEqp X),
   set (.gen 3) (.gen 1) (1 / (2 * p.H) * -p.dTelec_dPsidp X),
   set (.gen 4) (.gen 1) (1 / (2 * p.H) * -p.dTelec_dPsiqp X),
   set (.gen 5) (.gen 1) (1 / (2 * p.H) * -p.dTelec_dEdp X),
   set VD (.gen 1) (1 / (2 * p.H) * -p.dTelec_dVD X),
   set VQ (.gen 1) (1 / (2 * p.H) * -p.dTelec_dVQ X)]
  ++ u.dPmech.map (fun e => set e.1 (.gen 1) (1 / (2 * p.H) * e.2 / (1 + X (.gen 1)))) ++
  [set (.gen 0) (.gen 2) (-p.dLadIfd (p.dId_ddelta X) 0 / p.Tdop),
   set (.gen 1) (.gen 2) (-p.dLadIfd (p.dId_ddw X) 0 / p.Tdop),
   set (.gen 2) (.gen 2) (-(1 + p.dLadIfd (p.dId_dEqp X) 1) / p.Tdop - shift),
   set (.gen 3) (.gen 2) (-p.dLadIfd (p.dId_dPsidp X) (-1) / p.Tdop),
   set (.gen 4) (.gen 2) (-p.dLadIfd (p.dId_dPsiqp X) 0 / p.Tdop),
   set (.gen 5) (.gen 2) (-p.dLadIfd (p.dId_dEdp X) 0 / p.Tdop),
   set VD (.gen 2) (-p.dLadIfd (p.dId_dVD X) 0 / p.Tdop),
   set VQ (.gen 2) (-p.dLadIfd (p.dId_dVQ X) 0 / p.Tdop)]
  ++ u.dEfd.map (fun e => set e.1 (.gen 2) (e.2 / p.Tdop))
  ++ (if u.hasExc then (List.range 6).map (fun i => plus (.gen i) (.gen 2) (0 / p.Tdop)) else []) ++
  [set (.gen 0) (.gen 3) (-(p.Xdp - p.Xl) * p.dId_ddelta X / p.Tdopp),
   set (.gen 1) (.gen 3) (-(p.Xdp - p.Xl) * p.dId_ddw X / p.Tdopp),
   set (.gen 2) (.gen 3) ((-(p.Xdp - p.Xl) * p.dId_dEqp X + 1) / p.Tdopp),
   set (.gen 3) (.gen 3) ((-1 - (p.Xdp - p.Xl) * p.dId_dPsidp X) / p.Tdopp - shift),
   set (.gen 4) (.gen 3) (-(p.Xdp - p.Xl) * p.dId_dPsiqp X / p.Tdopp),
   set (.gen 5) (.gen 3) (-(p.Xdp - p.Xl) * p.dId_dEdp X / p.Tdopp),
   set VD (.gen 3) (-(p.Xdp - p.Xl) * p.dId_dVD X / p.Tdopp),
   set VQ (.gen 3) (-(p.Xdp - p.Xl) * p.dId_dVQ X / p.Tdopp),
   set (.gen 0) (.gen 4) ((p.Xqp - p.Xl) * p.dIq_ddelta X / p.Tqopp),
   set (.gen 1) (.gen 4) ((p.Xqp - p.Xl) * p.dIq_ddw X / p.Tqopp),
   set (.gen 2) (.gen 4) ((p.Xqp - p.Xl) * p.dIq_dEqp X / p.Tqopp),
   set (.gen 3) (.gen 4) ((p.Xqp - p.Xl) * p.dIq_dPsidp X / p.Tqopp),
   set (.gen 4) (.gen 4) ((-1 + (p.Xqp - p.Xl) * p.dIq_dPsiqp X) / p.Tqopp - shift),
   set (.gen 5) (.gen 4) (((p.Xqp - p.Xl) * p.dIq_dEdp X + 1) / p.Tqopp),
   set VD (.gen 4) ((p.Xqp - p.Xl) * p.dIq_dVD X / p.Tqopp),
   set VQ (.gen 4) ((p.Xqp - p.Xl) * p.dIq_dVQ X / p.Tqopp),
   set (.gen 0) (.gen 5) ((p.Xq - p.Xqp) * (p.dIq_ddelta X - p.const3 * (p.Xqp - p.Xl) * p.dIq_ddelta X) / p.Tqop),
   set (.gen 1) (.gen 5) ((p.Xq - p.Xqp) * (p.dIq_ddw X - p.const3 * (p.Xqp - p.Xl) * p.dIq_ddw X) / p.Tqop),
   set (.gen 2) (.gen 5) ((p.Xq - p.Xqp) * (p.dIq_dEqp X - p.const3 * (p.Xqp - p.Xl) * p.dIq_dEqp X) / p.Tqop),
   set (.gen 3) (.gen 5) ((p.Xq - p.Xqp) * (p.dIq_dPsidp X - p.const3 * (p.Xqp - p.Xl) * p.dIq_dPsidp X) / p.Tqop),
   set (.gen 4) (.gen 5)
     ((p.Xq - p.Xqp) * (p.dIq_dPsiqp X - p.const3 * (-1 + (p.Xqp - p.Xl) * p.dIq_dPsiqp X)) / p.Tqop),
   set (.gen 5) (.gen 5)
     ((-1 + (p.Xq - p.Xqp) * (p.dIq_dEdp X - p.const3 * ((p.Xqp - p.Xl) * p.dIq_dEdp X + 1))) / p.Tqop - shift),
   set VD (.gen 5) ((p.Xq - p.Xqp) * (p.dIq_dVD X - p.const3 * (p.Xqp - p.Xl) * p.dIq_dVD X) / p.Tqop),
   set VQ (.gen 5) ((p.Xq - p.Xqp) * (p.dIq_dVQ X - p.const3 * (p.Xqp - p.Xl) * p.dIq_dVQ X) / p.Tqop)]

/-- `GenrouGen::setJacobian` (genrou.cpp 402-662): the rows of the machine (with `FAULT_EVAL` a unit matrix, lines
518-527), then the derivatives of the injected current (lines 636-659). -/
noncomputable def jac (u : Drive) (m : Mode) (shift : ℝ) : List (Wr Ix) :=
  (match m with
    | .fault => (List.range 6).map (fun i => set (.gen i) (.gen i) 1)
    | .resid => p.jacRows X u shift) ++
  [set (.gen 0) rowIGQ (p.dId_ddelta X * Real.sin (theta X) + p.Id X * Real.cos (theta X)
     + p.dIq_ddelta X * Real.cos (theta X) + p.Iq X * -Real.sin (theta X)),
   set (.gen 1) rowIGQ (p.dId_ddw X * Real.sin (theta X) + p.dIq_ddw X * Real.cos (theta X)),
   set (.gen 2) rowIGQ (p.dId_dEqp X * Real.sin (theta X) + p.dIq_dEqp X * Real.cos (theta X)),
   set (.gen 3) rowIGQ (p.dId_dPsidp X * Real.sin (theta X) + p.dIq_dPsidp X * Real.cos (theta X)),
   set (.gen 4) rowIGQ (p.dId_dPsiqp X * Real.sin (theta X) + p.dIq_dPsiqp X * Real.cos (theta X)),
   set (.gen 5) rowIGQ (p.dId_dEdp X * Real.sin (theta X) + p.dIq_dEdp X * Real.cos (theta X)),
   plus VD rowIGQ (p.dId_dVD X * Real.sin (theta X) + p.dIq_dVD X * Real.cos (theta X)),
   plus VQ rowIGQ (p.dId_dVQ X * Real.sin (theta X) + p.dIq_dVQ X * Real.cos (theta X)),
   set (.gen 0) rowIGD (p.dId_ddelta X * Real.cos (theta X) + p.Id X * -Real.sin (theta X)
     - p.dIq_ddelta X * Real.sin (theta X) - p.Iq X * Real.cos (theta X)),
   set (.gen 1) rowIGD (p.dId_ddw X * Real.cos (theta X) - p.dIq_ddw X * Real.sin (theta X)),
   set (.gen 2) rowIGD (p.dId_dEqp X * Real.cos (theta X) - p.dIq_dEqp X * Real.sin (theta X)),
   set (.gen 3) rowIGD (p.dId_dPsidp X * Real.cos (theta X) - p.dIq_dPsidp X * Real.sin (theta X)),
   set (.gen 4) rowIGD (p.dId_dPsiqp X * Real.cos (theta X) - p.dIq_dPsiqp X * Real.sin (theta X)),
   set (.gen 5) rowIGD (p.dId_dEdp X * Real.cos (theta X) - p.dIq_dEdp X * Real.sin (theta X)),
   plus VD rowIGD (p.dId_dVD X * Real.cos (theta X) - p.dIq_dVD X * Real.sin (theta X)),
   plus VQ rowIGD (p.dId_dVQ X * Real.cos (theta X) - p.dIq_dVQ X * Real.sin (theta X))]

/-- `GenrouGen::init` (genrou.cpp 169-237): the initial values, then `Efd` and `Pmech`, which are also passed to
exciter and governor. -/
noncomputable def init (P Q vD vQ : ℝ) : (ℕ → ℝ) × ℝ × ℝ :=
  let Vm := √(vD * vD + vQ * vQ)
  let Ir := (P * vD + Q * vQ) / (Vm * Vm)
  let Ii := (P * vQ - Q * vD) / (Vm * Vm)
  let delta := Complex.arg ⟨vD + Ir * p.Ra - Ii * p.Xq, vQ + Ir * p.Xq + Ii * p.Ra⟩
  let theta := delta - Real.pi / 2
  let Eppr := vD + p.Ra * Ir - p.Xdpp * Ii
  let Eppi := vQ + p.Ra * Ii + p.Xdpp * Ir
  let Vd := Eppr * Real.cos theta + Eppi * Real.sin theta
  let Vq := Eppr * -Real.sin theta + Eppi * Real.cos theta
  let Vdterm := vD * Real.cos theta + vQ * Real.sin theta
  let Vqterm := vD * -Real.sin theta + vQ * Real.cos theta
  let Id := (Vd - Vdterm) * p.G - (Vq - Vqterm) * p.B
  let Iq := (Vd - Vdterm) * p.B + (Vq - Vqterm) * p.G
  let Psidpp := Vq
  let Psidp := Psidpp - (p.Xdpp - p.Xl) * Id
  let Eqp := Psidp + (p.Xdp - p.Xl) * Id
  let Edp := (p.Xq - p.Xqp) * Iq
  let Psiqp := Edp + (p.Xqp - p.Xl) * Iq
  (fun k => match k with
    | 0 => delta
    | 1 => 0
    | 2 => Eqp
    | 3 => Psidp
    | 4 => Psiqp
    | _ => Edp,
   Eqp + (p.Xd - p.Xdp) * Id, P)

end Rou

/-! ### GENSAL -/

/-- Members of `GensalGen`. -/
structure Sal where
  H : ℝ
  D : ℝ
  Ra : ℝ
  Xd : ℝ
  Xq : ℝ
  Xdp : ℝ
  Xdpp : ℝ
  Xl : ℝ
  Tdop : ℝ
  Tdopp : ℝ
  Tqopp : ℝ
  B : ℝ
  G : ℝ

/-- `GensalGen::load`, conversion to the system base (gensal.cpp 99-107). -/
noncomputable def Sal.load (p : Sal) (mult : ℝ) : Sal :=
  { p with H := p.H * mult, D := p.D * mult, Ra := p.Ra / mult, Xd := p.Xd / mult, Xq := p.Xq / mult,
           Xdp := p.Xdp / mult, Xdpp := p.Xdpp / mult, Xl := p.Xl / mult }

/-- The admittance set by `GensalGen::init` (gensal.cpp 162-163). -/
noncomputable def Sal.admittance (p : Sal) : Sal :=
  { p with B := -p.Xdpp / (p.Ra * p.Ra + p.Xdpp * p.Xdpp), G := p.Ra / (p.Ra * p.Ra + p.Xdpp * p.Xdpp) }

namespace Sal
variable (p : Sal) (X : Ix → ℝ)

/-- gensal.cpp 317; variables 2 and 3 are `Eqp`, `Psidp`. -/
noncomputable def Psidpp : ℝ :=
  X (.gen 2) * (p.Xdpp - p.Xl) / (p.Xdp - p.Xl) + X (.gen 3) * (p.Xdp - p.Xdpp) / (p.Xdp - p.Xl)
/-- gensal.cpp 318; variable 4 is `Psiqpp`. -/
noncomputable def Vd : ℝ := -X (.gen 4) * (1 + X (.gen 1))
/-- gensal.cpp 319 -/
noncomputable def Vq : ℝ := p.Psidpp X * (1 + X (.gen 1))
/-- gensal.cpp 320 -/
noncomputable def Vdterm : ℝ := X VD * Real.sin (X (.gen 0)) - X VQ * Real.cos (X (.gen 0))
/-- gensal.cpp 321 -/
noncomputable def Vqterm : ℝ := X VD * Real.cos (X (.gen 0)) + X VQ * Real.sin (X (.gen 0))
/-- gensal.cpp 322 -/
noncomputable def Id : ℝ := (Vd X - Vdterm X) * p.G - (p.Vq X - Vqterm X) * p.B
/-- gensal.cpp 323 -/
noncomputable def Iq : ℝ := (Vd X - Vdterm X) * p.B + (p.Vq X - Vqterm X) * p.G
/-- gensal.cpp 325 -/
noncomputable def Psiq : ℝ := X (.gen 4) - p.Iq X * p.Xdpp
/-- gensal.cpp 326 -/
noncomputable def Psid : ℝ := p.Psidpp X - p.Id X * p.Xdpp
/-- gensal.cpp 327 -/
noncomputable def Telec : ℝ := p.Psid X * p.Iq X - p.Psiq X * p.Id X

/-- `GensalGen::getFieldCurrent` (gensal.cpp 626-643), also lines 328-329. -/
noncomputable def fieldCurrent : ℝ :=
  X (.gen 2) * (1 + 0) + (p.Xd - p.Xdp) * (p.Id X
    + (p.Xdp - p.Xdpp) / ((p.Xdp - p.Xl) * (p.Xdp - p.Xl)) * (-X (.gen 3) - (p.Xdp - p.Xl) * p.Id X + X (.gen 2)))

/-- `GensalGen::vectorValues` (gensal.cpp 286-340). -/
noncomputable def resid (u : Drive) (m : Mode) (Xd P : Ix → ℝ) (k : ℕ) : ℝ :=
  match m, k with
  | .fault, k => X (.gen k) - P (.gen k)
  | .resid, 0 => X (.gen 1) * omegaS - Xd (.gen 0)
  | .resid, 1 => 1 / (2 * p.H) * ((u.Pmech - p.D * X (.gen 1)) / (1 + X (.gen 1)) - p.Telec X) - Xd (.gen 1)
  | .resid, 2 => (u.Efd - p.fieldCurrent X) / p.Tdop - Xd (.gen 2)
  | .resid, 3 => (-X (.gen 3) - (p.Xdp - p.Xl) * p.Id X + X (.gen 2)) / p.Tdopp - Xd (.gen 3)
  | .resid, _ => (-X (.gen 4) - (p.Xq - p.Xdpp) * p.Iq X) / p.Tqopp - Xd (.gen 4)

/-- `GensalGen::getCurrent`, real part (gensal.cpp 611). -/
noncomputable def igd : ℝ := p.Id X * Real.sin (X (.gen 0)) + p.Iq X * Real.cos (X (.gen 0))
/-- `GensalGen::getCurrent`, imaginary part (gensal.cpp 612). -/
noncomputable def igq : ℝ := -p.Id X * Real.cos (X (.gen 0)) + p.Iq X * Real.sin (X (.gen 0))

/-! Derivatives computed at the beginning of `GensalGen::setJacobian` (gensal.cpp 379-467). -/

/-- gensal.cpp 389 -/
noncomputable def dPsidpp_dEqp : ℝ := (p.Xdpp - p.Xl) / (p.Xdp - p.Xl)
/-- gensal.cpp 390 -/
noncomputable def dPsidpp_dPsidp : ℝ := (p.Xdp - p.Xdpp) / (p.Xdp - p.Xl)
/-- gensal.cpp 403 -/
noncomputable def dVdterm_ddelta : ℝ := X VD * Real.cos (X (.gen 0)) + X VQ * Real.sin (X (.gen 0))
/-- gensal.cpp 404 -/
noncomputable def dVqterm_ddelta : ℝ := -X VD * Real.sin (X (.gen 0)) + X VQ * Real.cos (X (.gen 0))
/-- gensal.cpp 412 with 407 -/
noncomputable def dId_ddelta : ℝ := -p.G * dVdterm_ddelta X + p.B * dVqterm_ddelta X
/-- gensal.cpp 413 with 410 -/
noncomputable def dIq_ddelta : ℝ := -p.B * dVdterm_ddelta X + -p.G * dVqterm_ddelta X
/-- gensal.cpp 415 with 394, 398, 406 -/
noncomputable def dId_ddw : ℝ := p.G * -X (.gen 4) + -p.B * p.Psidpp X
/-- gensal.cpp 416 -/
noncomputable def dIq_ddw : ℝ := p.B * -X (.gen 4) + p.G * p.Psidpp X
/-- gensal.cpp 418 with 396 -/
noncomputable def dId_dEqp : ℝ := -p.B * (p.dPsidpp_dEqp * (1 + X (.gen 1)))
/-- gensal.cpp 419 -/
noncomputable def dIq_dEqp : ℝ := p.G * (p.dPsidpp_dEqp * (1 + X (.gen 1)))
/-- gensal.cpp 421 with 397 -/
noncomputable def dId_dPsidp : ℝ := -p.B * (p.dPsidpp_dPsidp * (1 + X (.gen 1)))
/-- gensal.cpp 422 -/
noncomputable def dIq_dPsidp : ℝ := p.G * (p.dPsidpp_dPsidp * (1 + X (.gen 1)))
/-- gensal.cpp 424 with 393 -/
noncomputable def dId_dPsiqpp : ℝ := p.G * -(1 + X (.gen 1))
/-- gensal.cpp 425 -/
noncomputable def dIq_dPsiqpp : ℝ := p.B * -(1 + X (.gen 1))
/-- gensal.cpp 427 with 400, 401 -/
noncomputable def dId_dVD : ℝ := -p.G * Real.sin (X (.gen 0)) + p.B * Real.cos (X (.gen 0))
/-- gensal.cpp 428 -/
noncomputable def dId_dVQ : ℝ := -p.G * -Real.cos (X (.gen 0)) + p.B * Real.sin (X (.gen 0))
/-- gensal.cpp 430 -/
noncomputable def dIq_dVD : ℝ := -p.B * Real.sin (X (.gen 0)) + -p.G * Real.cos (X (.gen 0))
/-- gensal.cpp 431 -/
noncomputable def dIq_dVQ : ℝ := -p.B * -Real.cos (X (.gen 0)) + -p.G * Real.sin (X (.gen 0))

/-- gensal.cpp 454-467 with 436-452: the derivative of the torque from those of `Psidpp`, `Psiqpp`, `Id`, `Iq`. -/
noncomputable def dTelec (dPsidpp dPsiqpp dId dIq : ℝ) : ℝ :=
  (dPsidpp - p.Xdpp * dId) * p.Iq X + p.Psid X * dIq - (dPsiqpp - p.Xdpp * dIq) * p.Id X - p.Psiq X * dId

/-- gensal.cpp 510-517 without the `1.0` of line 512; `e` is the `1.0` resp. `-1.0` within the inner parentheses. -/
noncomputable def dLadIfd (dId e : ℝ) : ℝ :=
  (p.Xd - p.Xdp) * (dId + (p.Xdp - p.Xdpp) / ((p.Xdp - p.Xl) * (p.Xdp - p.Xl)) * (e - (p.Xdp - p.Xl) * dId))

/-- The assignments of `GensalGen::setJacobian` to the rows of the machine with `RESIDUAL_EVAL`
(gensal.cpp 480-565). -/
noncomputable def jacRows (u : Drive) (shift : ℝ) : List (Wr Ix) :=
  [set (.gen 0) (.gen 0) (-shift),
   set (.gen 1) (.gen 0) omegaS,
   set (.gen 0) (.gen 1) (1 / (2 * p.H) * -p.dTelec X 0 0 (p.dId_ddelta X) (p.dIq_ddelta X)),
   set (.gen 1) (.gen 1) (1 / (2 * p.H) * (-(u.Pmech - p.D * X (.gen 1)) / ((1 + X (.gen 1)) * (1 + X (.gen 1)))
     - p.D / (1 + X (.gen 1)) - p.dTelec X 0 0 (p.dId_ddw X) (p.dIq_ddw X)) - shift),
   set (.gen 2) (.gen 1) (1 / (2 * p.H) * -p.dTelec X p.dPsidpp_dEqp 0 (p.dId_dEqp X) (p.dIq_dEqp X)),
   set (.gen 3) (.gen 1) (1 / (2 * p.H) * -p.dTelec X p.dPsidpp_dPsidp 0 (p.dId_dPsidp X) (p.dIq_dPsidp X)),
   set (.gen 4) (.gen 1) (1 / (2 * p.H) * -p.dTelec X 0 1 (p.dId_dPsiqpp X) (p.dIq_dPsiqpp X)),
   set VD (.gen 1) (1 / (2 * p.H) * -p.dTelec X 0 0 (p.dId_dVD X) (p.dIq_dVD X)),
   set VQ (.gen 1) (1 / (2 * p.H) * -p.dTelec X 0 0 (p.dId_dVQ X) (p.dIq_dVQ X))]
  ++ u.dPmech.map (fun e => set e.1 (.gen 1) (1 / (2 * p.H) * e.2 / (1 + X (.gen 1)))) ++
  [set (.gen 0) (.gen 2) (-p.dLadIfd (p.dId_ddelta X) 0 / p.Tdop),
   set (.gen 1) (.gen 2) (-p.dLadIfd (p.dId_ddw X) 0 / p.Tdop),
   set (.gen 2) (.gen 2) (-(1 + p.dLadIfd (p.dId_dEqp X) 1) / p.Tdop - shift),
   set (.gen 3) (.gen 2) (-p.dLadIfd (p.dId_dPsidp X) (-1) / p.Tdop),
   set (.gen 4) (.gen 2) (-p.dLadIfd (p.dId_dPsiqpp X) 0 / p.Tdop),
   set VD (.gen 2) (-p.dLadIfd (p.dId_dVD X) 0 / p.Tdop),
   set VQ (.gen 2) (-p.dLadIfd (p.dId_dVQ X) 0 / p.Tdop)]
  ++ u.dEfd.map (fun e => set e.1 (.gen 2) (e.2 / p.Tdop))
  ++ (if u.hasExc then (List.range 5).map (fun i => plus (.gen i) (.gen 2) (0 / p.Tdop)) else []) ++
  [set (.gen 0) (.gen 3) (-(p.Xdp - p.Xl) * p.dId_ddelta X / p.Tdopp),
   set (.gen 1) (.gen 3) (-(p.Xdp - p.Xl) * p.dId_ddw X / p.Tdopp),
   set (.gen 2) (.gen 3) ((1 - (p.Xdp - p.Xl) * p.dId_dEqp X) / p.Tdopp),
   set (.gen 3) (.gen 3) ((-1 - (p.Xdp - p.Xl) * p.dId_dPsidp X) / p.Tdopp - shift),
   set (.gen 4) (.gen 3) (-(p.Xdp - p.Xl) * p.dId_dPsiqpp X / p.Tdopp),
   set VD (.gen 3) (-(p.Xdp - p.Xl) * p.dId_dVD X / p.Tdopp),
   set VQ (.gen 3) (-(p.Xdp - p.Xl) * p.dId_dVQ X / p.Tdopp),
   set (.gen 0) (.gen 4) (-(p.Xq - p.Xdpp) * p.dIq_ddelta X / p.Tqopp),
   set (.gen 1) (.gen 4) (-(p.Xq - p.Xdpp) * p.dIq_ddw X / p.Tqopp),
   set (.gen 2) (.gen 4) (-(p.Xq - p.Xdpp) * p.dIq_dEqp X / p.Tqopp),
   set (.gen 3) (.gen 4) (-(p.Xq - p.Xdpp) * p.dIq_dPsidp X / p.Tqopp),
   set (.gen 4) (.gen 4) ((-1 - (p.Xq - p.Xdpp) * p.dIq_dPsiqpp X) / p.Tqopp - shift),
   set VD (.gen 4) (-(p.Xq - p.Xdpp) * p.dIq_dVD X / p.Tqopp),
   set VQ (.gen 4) (-(p.Xq - p.Xdpp) * p.dIq_dVQ X / p.Tqopp)]

/-- `GensalGen::setJacobian` (gensal.cpp 346-592). -/
noncomputable def jac (u : Drive) (m : Mode) (shift : ℝ) : List (Wr Ix) :=
  (match m with
    | .fault => (List.range 5).map (fun i => set (.gen i) (.gen i) 1)
    | .resid => p.jacRows X u shift) ++
  [set (.gen 0) rowIGD (p.dId_ddelta X * Real.sin (X (.gen 0)) + p.Id X * Real.cos (X (.gen 0))
     + p.dIq_ddelta X * Real.cos (X (.gen 0)) - p.Iq X * Real.sin (X (.gen 0))),
   set (.gen 1) rowIGD (p.dId_ddw X * Real.sin (X (.gen 0)) + p.dIq_ddw X * Real.cos (X (.gen 0))),
   set (.gen 2) rowIGD (p.dId_dEqp X * Real.sin (X (.gen 0)) + p.dIq_dEqp X * Real.cos (X (.gen 0))),
   set (.gen 3) rowIGD (p.dId_dPsidp X * Real.sin (X (.gen 0)) + p.dIq_dPsidp X * Real.cos (X (.gen 0))),
   set (.gen 4) rowIGD (p.dId_dPsiqpp X * Real.sin (X (.gen 0)) + p.dIq_dPsiqpp X * Real.cos (X (.gen 0))),
   plus VD rowIGD (p.dId_dVD X * Real.sin (X (.gen 0)) + p.dIq_dVD X * Real.cos (X (.gen 0))),
   plus VQ rowIGD (p.dId_dVQ X * Real.sin (X (.gen 0)) + p.dIq_dVQ X * Real.cos (X (.gen 0))),
   set (.gen 0) rowIGQ (-p.dId_ddelta X * Real.cos (X (.gen 0)) + p.Id X * Real.sin (X (.gen 0))
     + p.dIq_ddelta X * Real.sin (X (.gen 0)) + p.Iq X * Real.cos (X (.gen 0))),
   set (.gen 1) rowIGQ (-p.dId_ddw X * Real.cos (X (.gen 0)) + p.dIq_ddw X * Real.sin (X (.gen 0))),
   set (.gen 2) rowIGQ (-p.dId_dEqp X * Real.cos (X (.gen 0)) + p.dIq_dEqp X * Real.sin (X (.gen 0))),
   set (.gen 3) rowIGQ (-p.dId_dPsidp X * Real.cos (X (.gen 0)) + p.dIq_dPsidp X * Real.sin (X (.gen 0))),
   set (.gen 4) rowIGQ (-p.dId_dPsiqpp X * Real.cos (X (.gen 0)) + p.dIq_dPsiqpp X * Real.sin (X (.gen 0))),
   plus VD rowIGQ (-p.dId_dVD X * Real.cos (X (.gen 0)) + p.dIq_dVD X * Real.sin (X (.gen 0))),
   plus VQ rowIGQ (-p.dId_dVQ X * Real.cos (X (.gen 0)) + p.dIq_dVQ X * Real.sin (X (.gen 0)))]

/-- `GensalGen::init` (gensal.cpp 150-216) for a machine whose admittance is set: the initial values, then `Efd` and
`Pmech`, which are also passed to exciter and governor. -/
noncomputable def init (P Q vD vQ : ℝ) : (ℕ → ℝ) × ℝ × ℝ :=
  let Vterm := √(vD * vD + vQ * vQ)
  let Ir := (P * vD + Q * vQ) / (Vterm * Vterm)
  let Ii := (P * vQ - Q * vD) / (Vterm * Vterm)
  let delta := Complex.arg ⟨vD + Ir * p.Ra - Ii * p.Xq, vQ + Ir * p.Xq + Ii * p.Ra⟩
  let Eppr := vD + p.Ra * Ir - p.Xdpp * Ii
  let Eppi := vQ + p.Ra * Ii + p.Xdpp * Ir
  let Vd := Eppr * Real.sin delta - Eppi * Real.cos delta
  let Vq := Eppr * Real.cos delta + Eppi * Real.sin delta
  let Vdterm := vD * Real.sin delta - vQ * Real.cos delta
  let Vqterm := vD * Real.cos delta + vQ * Real.sin delta
  let Id := (Vd - Vdterm) * p.G - (Vq - Vqterm) * p.B
  let Iq := (Vd - Vdterm) * p.B + (Vq - Vqterm) * p.G
  let Psiqpp := (p.Xdpp - p.Xq) * Iq
  let Psiq := Psiqpp - Iq * p.Xdpp
  let Psidpp := Vq
  let Psid := Psidpp - Id * p.Xdpp
  let Psidp := Psidpp - Id * (p.Xdpp - p.Xl)
  let Eqp := Psidp + Id * (p.Xdp - p.Xl)
  (fun k => match k with
    | 0 => delta
    | 1 => 0
    | 2 => Eqp
    | 3 => Psidp
    | _ => Psiqpp,
   Eqp * (1 + 0) + Id * (p.Xd - p.Xdp), Psid * Iq - Psiq * Id)

end Sal
end GridPACK.Dae
