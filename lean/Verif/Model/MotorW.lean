import Mathlib.Analysis.SpecialFunctions.Pow.Real
import Mathlib.Analysis.SpecialFunctions.Trigonometric.Basic
import Mathlib.Data.Complex.Basic

/-!
# The motor of the dynamic simulation

`MotorwLoad` of
`/repo/src/applications/modules/dynamic_simulation_full_y/model_classes/motorw.cpp`:
an induction motor with two rotor circuits, used for the loads `CIM6BL` and
for the three motors of a composite load.

Numbers are real (the code uses doubles).  The reading of the parameters of a
composite load is modelled by module `Composite`; here the parameters are the
fields of `Data`.  The messages for debugging are not modelled.  The
magnetising reactance of the rotor `lmr` is 0 in the code (no record sets it)
and left out.  The variable `C0` is assigned by `init` before any use, so that
the value read from the record is not part of the data.
-/

namespace GridPACK.MotorW

open Complex

/-- The parameters of the motor (motorw.cpp 28-60): the equivalent circuit
`rs … llr2`, the reactances and time constants `Ls … tppo`, inertia,
coefficients of the torque, base, load factor and multiplier. -/
structure Data where
  rs : ℝ
  lls : ℝ
  lm : ℝ
  rr1 : ℝ
  llr1 : ℝ
  rr2 : ℝ
  llr2 : ℝ
  Ls : ℝ
  Lp : ℝ
  Lpp : ℝ
  tpo : ℝ
  tppo : ℝ
  H : ℝ
  A : ℝ
  B : ℝ
  D : ℝ
  E : ℝ
  base : ℝ
  loadFactor : ℝ
  pul : ℝ

/-- A record of type `CIM6BL`; a field that is absent is `none`. -/
structure Rec where
  pmult : Option ℝ
  ra : Option ℝ
  xa : Option ℝ
  xm : Option ℝ
  r1 : Option ℝ
  x1 : Option ℝ
  r2 : Option ℝ
  x2 : Option ℝ
  mbase : Option ℝ
  h : Option ℝ
  a : Option ℝ
  b : Option ℝ
  d : Option ℝ
  e : Option ℝ
  perc : Option ℝ

/-- `MotorwLoad::load` for a record `CIM6BL` (motorw.cpp 129-200), after the
constructor (28-60).  The local reactance of the first rotor circuit is set to
0.08 at the end ("tmp code please remove this"). -/
noncomputable def ofRec (r : Rec) : Data where
  rs := r.ra.getD 0.08
  lls := r.xa.getD 0
  lm := r.xm.getD 0
  rr1 := r.r1.getD 0
  llr1 := 0.08
  rr2 := r.r2.getD 0
  llr2 := r.x2.getD 0
  Ls := 0
  Lp := 0
  Lpp := 0
  tpo := 0
  tppo := 0
  H := r.h.getD 0
  A := r.a.getD 0
  B := r.b.getD 0
  D := r.d.getD 0
  E := r.e.getD 0
  base := r.mbase.getD 30
  loadFactor := 0.8
  pul := r.pmult.getD 0

open Classical in
/-- The share of the load that is the motor (motorw.cpp 183-185). -/
noncomputable def share (r : Rec) : ℝ :=
  if r.perc.getD 1 < 0.01 then 1 else r.perc.getD 1

/-- The nominal angular frequency (motorw.cpp 226-227). -/
noncomputable def w0 : ℝ := 2 * 60 * Real.pi

open Classical in
/-- The first half of `init` (motorw.cpp 233-277): reactances and time
constants from the equivalent circuit or the other way round, and the base. -/
noncomputable def prepare (d : Data) (pini : ℝ) : Data :=
  let d1 : Data :=
    if d.Ls ≤ 0 ∧ 0 < d.lls ∧ 0 < d.lm then
      let lmp := d.lm * d.llr1 / (d.lm + d.llr1)
      let lmpp := 1 / (1 / d.lm + 1 / d.llr1 + 1 / d.llr2)
      { d with
        Ls := d.lls + d.lm
        Lp := lmp + d.lls
        Lpp := lmpp + d.lls
        tpo := d.llr1 * d.lm / (w0 * d.rr1 * lmp)
        tppo := d.llr2 * lmp / (w0 * d.rr2 * lmpp) }
    else if 0 < d.Ls ∧ 0 < d.Lp then
      let l1 := if d.lls = 0 then 0.1 else d.lls
      let l2 := if 0 < d.Lpp ∧ d.Lpp < l1 then 0.8 * d.Lpp else l1
      let lm := d.Ls - l2
      let xm1 := d.Lp - l2
      let llr1 := 1 / (1 / xm1 - 1 / lm)
      let rr1 := (llr1 + lm) / w0 / d.tpo
      let second : Bool := decide (0 < d.tppo ∧ d.Lpp < d.Lp ∧ 0 < d.Lpp)
      let xm2 := d.Lpp - l2
      let llr2 := if second then 1 / (1 / xm2 - 1 / lm - 1 / llr1) else d.llr2
      let rr2 := if second then (llr2 + xm1) / w0 / d.tppo else d.rr2
      { d with lls := l2, lm := lm, llr1 := llr1, rr1 := rr1, llr2 := llr2, rr2 := rr2 }
    else d
  let lf := if d1.base ≤ 0 ∧ 0.1 < d1.pul then 1 / d1.pul else d1.loadFactor
  { d1 with
    loadFactor := lf
    base := if d1.base ≤ 0 then pini / lf else d1.base }

/-- The slips of the table (motorw.cpp 292-297). -/
noncomputable def sl (k : ℕ) : ℝ :=
  if k < 100 then 0.0001 * k else 0.01 + 0.0011 * ((k : ℝ) - 100)

/-- The impedance of the equivalent circuit at a slip (motorw.cpp 298-309). -/
noncomputable def zs (d : Data) (s : ℝ) : ℂ :=
  let z1 : ℂ := ⟨d.rr1 / s, d.llr1⟩
  let z2 : ℂ := ⟨d.rr2 / s, d.llr2⟩
  let zr : ℂ := z1 * z2 / (z1 + z2)
  let a : ℂ := ⟨d.rs, d.lls⟩
  let b : ℂ := ⟨0, d.lm⟩
  a + b * zr / (zr + b)

/-- The power of the equivalent circuit at an entry of the table
(motorw.cpp 310-311). -/
noncomputable def pe (d : Data) (v : ℂ) (k : ℕ) : ℝ :=
  (v * star (v / zs d (sl k))).re * d.base

open Classical in
/-- The search for the slip (motorw.cpp 315-324).  The loop tries entries 1 to
999 and reads entry 1000 for the last one, which is never computed; `none`
stands for the cases in which the slip is not determined by the code (the
variable `sl0` keeps no value, or entry 1000 decides). -/
noncomputable def search (d : Data) (v : ℂ) (pini : ℝ) : Option ℝ :=
  ((List.range' 1 998).find? fun m => decide (pe d v m ≤ pini ∧ pini < pe d v (m + 1))).map sl

/-- The state variables of the motor. -/
structure Dyn where
  epq : ℝ
  epd : ℝ
  eppq : ℝ
  eppd : ℝ
  slip : ℝ

/-- Sign constants of the internal voltage (motorw.cpp 98-99). -/
def p : ℝ := -1
/-- Sign constants of the internal voltage (motorw.cpp 98-99). -/
def q : ℝ := -1

/-- The coefficients of the four linear equations at a slip (motorw.cpp 326-350);
`v` is the voltage with parts `Vd0` and `Vq0`.  The same expressions are
repeated in both loops (436-462, 526-552). -/
structure Coef where
  A1 : ℝ
  B1 : ℝ
  C1 : ℝ
  D1 : ℝ
  E1 : ℝ
  A2 : ℝ
  B2 : ℝ
  C2 : ℝ
  D2 : ℝ
  E2 : ℝ
  A3 : ℝ
  B3 : ℝ
  C3 : ℝ
  D3 : ℝ
  E3 : ℝ
  A4 : ℝ
  B4 : ℝ
  C4 : ℝ
  D4 : ℝ
  E4 : ℝ

/-- Values of the coefficients (motorw.cpp 326-350). -/
noncomputable def coef (d : Data) (v : ℂ) (s : ℝ) : Coef where
  A1 := -1
  B1 := -w0 * s * d.tpo
  C1 := (d.Ls - d.Lp) * q * d.Lpp / (d.rs * d.rs + d.Lpp * d.Lpp)
  D1 := (d.Ls - d.Lp) * p * d.rs / (d.rs * d.rs + d.Lpp * d.Lpp)
  E1 := -(d.Ls - d.Lp) * (v.re * d.rs + v.im * d.Lpp) / (d.rs * d.rs + d.Lpp * d.Lpp)
  A2 := w0 * s * d.tpo
  B2 := -1
  C2 := -(d.Ls - d.Lp) * q * d.rs / (d.rs * d.rs + d.Lpp * d.Lpp)
  D2 := (d.Ls - d.Lp) * p * d.Lpp / (d.rs * d.rs + d.Lpp * d.Lpp)
  E2 := (d.Ls - d.Lp) * (v.im * d.rs - v.re * d.Lpp) / (d.rs * d.rs + d.Lpp * d.Lpp)
  A3 := 1 / d.tppo
  B3 := w0 * s
  C3 := (d.Lp - d.Lpp) / d.tppo * q * d.Lpp / (d.rs * d.rs + d.Lpp * d.Lpp) - 1 / d.tppo
  D3 := (d.Lp - d.Lpp) / d.tppo * p * d.rs / (d.rs * d.rs + d.Lpp * d.Lpp) - w0 * s
  E3 := -(d.Lp - d.Lpp) / d.tppo * (v.re * d.rs + v.im * d.Lpp) / (d.rs * d.rs + d.Lpp * d.Lpp)
  A4 := -w0 * s
  B4 := 1 / d.tppo
  C4 := w0 * s - (d.Lp - d.Lpp) / d.tppo * q * d.rs / (d.rs * d.rs + d.Lpp * d.Lpp)
  D4 := (d.Lp - d.Lpp) / d.tppo * p * d.Lpp / (d.rs * d.rs + d.Lpp * d.Lpp) - 1 / d.tppo
  E4 := (d.Lp - d.Lpp) / d.tppo * (v.im * d.rs - v.re * d.Lpp) / (d.rs * d.rs + d.Lpp * d.Lpp)

/-- The denominator of the four quotients (motorw.cpp 363-368). -/
def Coef.det (c : Coef) : ℝ :=
  c.A1*c.B2*c.C3*c.D4 - c.A1*c.B2*c.C4*c.D3 - c.A1*c.B3*c.C2*c.D4 + c.A1*c.B3*c.C4*c.D2
  + c.A1*c.B4*c.C2*c.D3 - c.A1*c.B4*c.C3*c.D2 - c.A2*c.B1*c.C3*c.D4 + c.A2*c.B1*c.C4*c.D3
  + c.A2*c.B3*c.C1*c.D4 - c.A2*c.B3*c.C4*c.D1 - c.A2*c.B4*c.C1*c.D3 + c.A2*c.B4*c.C3*c.D1
  + c.A3*c.B1*c.C2*c.D4 - c.A3*c.B1*c.C4*c.D2 - c.A3*c.B2*c.C1*c.D4 + c.A3*c.B2*c.C4*c.D1
  + c.A3*c.B4*c.C1*c.D2 - c.A3*c.B4*c.C2*c.D1 - c.A4*c.B1*c.C2*c.D3 + c.A4*c.B1*c.C3*c.D2
  + c.A4*c.B2*c.C1*c.D3 - c.A4*c.B2*c.C3*c.D1 - c.A4*c.B3*c.C1*c.D2 + c.A4*c.B3*c.C2*c.D1

/-- The solution of the four equations (motorw.cpp 357-401). -/
noncomputable def Coef.solve (c : Coef) (s : ℝ) : Dyn where
  epq := (c.B1*c.C2*c.D3*c.E4 - c.B1*c.C2*c.D4*c.E3 - c.B1*c.C3*c.D2*c.E4 + c.B1*c.C3*c.D4*c.E2
    + c.B1*c.C4*c.D2*c.E3 - c.B1*c.C4*c.D3*c.E2 - c.B2*c.C1*c.D3*c.E4 + c.B2*c.C1*c.D4*c.E3
    + c.B2*c.C3*c.D1*c.E4 - c.B2*c.C3*c.D4*c.E1 - c.B2*c.C4*c.D1*c.E3 + c.B2*c.C4*c.D3*c.E1
    + c.B3*c.C1*c.D2*c.E4 - c.B3*c.C1*c.D4*c.E2 - c.B3*c.C2*c.D1*c.E4 + c.B3*c.C2*c.D4*c.E1
    + c.B3*c.C4*c.D1*c.E2 - c.B3*c.C4*c.D2*c.E1 - c.B4*c.C1*c.D2*c.E3 + c.B4*c.C1*c.D3*c.E2
    + c.B4*c.C2*c.D1*c.E3 - c.B4*c.C2*c.D3*c.E1 - c.B4*c.C3*c.D1*c.E2 + c.B4*c.C3*c.D2*c.E1)
    / c.det
  epd := -(c.A1*c.C2*c.D3*c.E4 - c.A1*c.C2*c.D4*c.E3 - c.A1*c.C3*c.D2*c.E4 + c.A1*c.C3*c.D4*c.E2
    + c.A1*c.C4*c.D2*c.E3 - c.A1*c.C4*c.D3*c.E2 - c.A2*c.C1*c.D3*c.E4 + c.A2*c.C1*c.D4*c.E3
    + c.A2*c.C3*c.D1*c.E4 - c.A2*c.C3*c.D4*c.E1 - c.A2*c.C4*c.D1*c.E3 + c.A2*c.C4*c.D3*c.E1
    + c.A3*c.C1*c.D2*c.E4 - c.A3*c.C1*c.D4*c.E2 - c.A3*c.C2*c.D1*c.E4 + c.A3*c.C2*c.D4*c.E1
    + c.A3*c.C4*c.D1*c.E2 - c.A3*c.C4*c.D2*c.E1 - c.A4*c.C1*c.D2*c.E3 + c.A4*c.C1*c.D3*c.E2
    + c.A4*c.C2*c.D1*c.E3 - c.A4*c.C2*c.D3*c.E1 - c.A4*c.C3*c.D1*c.E2 + c.A4*c.C3*c.D2*c.E1)
    / c.det
  eppq := (c.A1*c.B2*c.D3*c.E4 - c.A1*c.B2*c.D4*c.E3 - c.A1*c.B3*c.D2*c.E4 + c.A1*c.B3*c.D4*c.E2
    + c.A1*c.B4*c.D2*c.E3 - c.A1*c.B4*c.D3*c.E2 - c.A2*c.B1*c.D3*c.E4 + c.A2*c.B1*c.D4*c.E3
    + c.A2*c.B3*c.D1*c.E4 - c.A2*c.B3*c.D4*c.E1 - c.A2*c.B4*c.D1*c.E3 + c.A2*c.B4*c.D3*c.E1
    + c.A3*c.B1*c.D2*c.E4 - c.A3*c.B1*c.D4*c.E2 - c.A3*c.B2*c.D1*c.E4 + c.A3*c.B2*c.D4*c.E1
    + c.A3*c.B4*c.D1*c.E2 - c.A3*c.B4*c.D2*c.E1 - c.A4*c.B1*c.D2*c.E3 + c.A4*c.B1*c.D3*c.E2
    + c.A4*c.B2*c.D1*c.E3 - c.A4*c.B2*c.D3*c.E1 - c.A4*c.B3*c.D1*c.E2 + c.A4*c.B3*c.D2*c.E1)
    / c.det
  eppd := -(c.A1*c.B2*c.C3*c.E4 - c.A1*c.B2*c.C4*c.E3 - c.A1*c.B3*c.C2*c.E4 + c.A1*c.B3*c.C4*c.E2
    + c.A1*c.B4*c.C2*c.E3 - c.A1*c.B4*c.C3*c.E2 - c.A2*c.B1*c.C3*c.E4 + c.A2*c.B1*c.C4*c.E3
    + c.A2*c.B3*c.C1*c.E4 - c.A2*c.B3*c.C4*c.E1 - c.A2*c.B4*c.C1*c.E3 + c.A2*c.B4*c.C3*c.E1
    + c.A3*c.B1*c.C2*c.E4 - c.A3*c.B1*c.C4*c.E2 - c.A3*c.B2*c.C1*c.E4 + c.A3*c.B2*c.C4*c.E1
    + c.A3*c.B4*c.C1*c.E2 - c.A3*c.B4*c.C2*c.E1 - c.A4*c.B1*c.C2*c.E3 + c.A4*c.B1*c.C3*c.E2
    + c.A4*c.B2*c.C1*c.E3 - c.A4*c.B2*c.C3*c.E1 - c.A4*c.B3*c.C1*c.E2 + c.A4*c.B3*c.C2*c.E1)
    / c.det
  slip := s

/-- A motor after the start: state, constants of the mechanical torque and the
power drawn in MW. -/
structure Motor where
  x : Dyn
  c0 : ℝ
  tm0 : ℝ
  pmotor : ℝ

/-- The current at the start (motorw.cpp 404-405). -/
noncomputable def id0 (d : Data) (v : ℂ) (x : Dyn) : ℝ :=
  ((v.re - p * x.eppd) * d.rs + (v.im - q * x.eppq) * d.Lpp) / (d.rs * d.rs + d.Lpp * d.Lpp)

/-- The current at the start (motorw.cpp 404-405). -/
noncomputable def iq0 (d : Data) (v : ℂ) (x : Dyn) : ℝ :=
  ((v.im - q * x.eppq) * d.rs - (v.re - p * x.eppd) * d.Lpp) / (d.rs * d.rs + d.Lpp * d.Lpp)

/-- The motor at a slip (motorw.cpp 404-418 and the bodies of the loops
433-520, 523-612).  In the loop that lowers the slip the assignment of `C0` is
written `C0 = 1,0 - …` (line 604) and gives the value 1. -/
noncomputable def motorAt (d : Data) (v : ℂ) (lower : Bool) (s : ℝ) : Motor :=
  let x := (coef d v s).solve s
  let i : ℂ := ⟨id0 d v x, iq0 d v x⟩
  let w := 1 - s
  { x := x
    c0 := if lower then 1 else 1 - d.A * w * w - d.B * w - d.D * w ^ d.E
    tm0 := p * x.eppd * id0 d v x + q * x.eppq * iq0 d v x
    pmotor := (v * star i).re * d.base }

/-- The loop that raises the slip, `Raise … m m'` if it ends with `m'` when
started with `m` (motorw.cpp 432-521). -/
inductive Raise (d : Data) (v : ℂ) (pini sl0 : ℝ) : Motor → Motor → Prop
  | stop (m : Motor) : ¬ pini - m.pmotor > 0.0001 → Raise d v pini sl0 m m
  | step (m m' : Motor) : pini - m.pmotor > 0.0001 →
      Raise d v pini sl0 (motorAt d v false (m.x.slip + sl0 * 0.0001)) m' →
      Raise d v pini sl0 m m'

/-- The loop that lowers the slip (motorw.cpp 522-612). -/
inductive Lower (d : Data) (v : ℂ) (pini sl0 : ℝ) : Motor → Motor → Prop
  | stop (m : Motor) : ¬ pini - m.pmotor < -0.0001 → Lower d v pini sl0 m m
  | step (m m' : Motor) : pini - m.pmotor < -0.0001 →
      Lower d v pini sl0 (motorAt d v true (m.x.slip - sl0 * 0.0001)) m' →
      Lower d v pini sl0 m m'

/-- The adjustment of the slip (motorw.cpp 422-613). -/
def Adjust (d : Data) (v : ℂ) (pini sl0 : ℝ) (m m' : Motor) : Prop :=
  if pini - m.pmotor > 0 then Raise d v pini sl0 m m'
  else if pini - m.pmotor < 0 then Lower d v pini sl0 m m'
  else m' = m

/-- `init` ends with motor `m'` for a load of `pini` MW (motorw.cpp 207-631),
the slip being determined. -/
def Init (d : Data) (v : ℂ) (pini : ℝ) (m' : Motor) : Prop :=
  ∃ sl0, search (prepare d pini) v pini = some sl0 ∧
    Adjust (prepare d pini) v pini sl0 (motorAt (prepare d pini) v false sl0) m'

/-- The current of the motor in the simulation (motorw.cpp 720-726). -/
noncomputable def current (d : Data) (v : ℂ) (x : Dyn) : ℂ :=
  (v - ⟨p * x.eppd, q * x.eppq⟩) / ⟨d.rs, d.Lpp⟩

/-- The derivatives (motorw.cpp 728-736, 817-824); `f` is the frequency. -/
noncomputable def deriv (d : Data) (c0 tm0 : ℝ) (v : ℂ) (f : ℝ) (x : Dyn) : Dyn :=
  let i := current d v x
  let wt := f * 2 * 60 * Real.pi
  let w := 1 - x.slip
  let tl := tm0 * (d.A * w * w + d.B * w + c0 + d.D * w ^ d.E)
  let depq := (-(x.epq + (d.Ls - d.Lp) * i.re) - wt * x.slip * d.tpo * x.epd) / d.tpo
  let depd := (-(x.epd - (d.Ls - d.Lp) * i.im) + wt * x.slip * d.tpo * x.epq) / d.tpo
  { epq := depq
    epd := depd
    eppq := (x.epq - x.eppq - (d.Lp - d.Lpp) * i.re) / d.tppo
      + wt * x.slip * (x.epd - x.eppd) + depq
    eppd := (x.epd - x.eppd + (d.Lp - d.Lpp) * i.im) / d.tppo
      - wt * x.slip * (x.epq - x.eppq) + depd
    slip := -(p * x.eppd * i.re + q * x.eppq * i.im - tl) / (2 * d.H * w) }

/-- The variables of the integration: state at the beginning of the step,
present state, derivatives of the predictor. -/
structure Sim where
  x0 : Dyn
  x : Dyn
  dx0 : Dyn

/-- `x + h·y` for each variable. -/
noncomputable def Dyn.add (x : Dyn) (h : ℝ) (y : Dyn) : Dyn where
  epq := x.epq + y.epq * h
  epd := x.epd + y.epd * h
  eppq := x.eppq + y.eppq * h
  eppd := x.eppd + y.eppd * h
  slip := x.slip + y.slip * h

/-- `MotorwLoad::predictor` (motorw.cpp 697-746). -/
noncomputable def predictor (d : Data) (m : Motor) (v : ℂ) (f h : ℝ) (flag : Bool) (s : Sim) :
    Sim :=
  let x0 := if flag then s.x0 else s.x
  let dx := deriv d m.c0 m.tm0 v f x0
  { x0 := x0, x := x0.add h dx, dx0 := dx }

/-- `MotorwLoad::corrector` (motorw.cpp 796-834). -/
noncomputable def corrector (d : Data) (m : Motor) (v : ℂ) (f h : ℝ) (s : Sim) : Sim :=
  let dx := deriv d m.c0 m.tm0 v f s.x
  { s with
    x :=
      { epq := s.x0.epq + 0.5 * (s.dx0.epq + dx.epq) * h
        epd := s.x0.epd + 0.5 * (s.dx0.epd + dx.epd) * h
        eppq := s.x0.eppq + 0.5 * (s.dx0.eppq + dx.eppq) * h
        eppd := s.x0.eppd + 0.5 * (s.dx0.eppd + dx.eppd) * h
        slip := s.x0.slip + 0.5 * (s.dx0.slip + dx.slip) * h } }

/-- The power drawn after a step, in MW and Mvar (motorw.cpp 748-762, 836-851). -/
noncomputable def power (d : Data) (v : ℂ) (x : Dyn) : ℂ :=
  v * star (current d v x) * d.base

/-- `NortonImpedence` (motorw.cpp 648-659). -/
noncomputable def norton (d : Data) : ℂ := 1 / ⟨d.rs, d.Lpp⟩ * d.base / 100

/-- `setSameBusStaticLoadPQ` (motorw.cpp 949-958), called once. -/
noncomputable def staticY (pl ql mag : ℝ) : ℂ := ⟨pl / (mag * mag), -ql / (mag * mag)⟩

/-- `predictor_currentInjection`, `corrector_currentInjection` (motorw.cpp
665-692, 772-790): the current injected; `fonline` is the share in service. -/
noncomputable def injection (d : Data) (v : ℂ) (fonline : ℝ) (ystat : ℂ) (x : Dyn) : ℂ :=
  let i : ℂ := ⟨p * x.eppd, q * x.eppq⟩ / ⟨d.rs, d.Lpp⟩ * d.base / 100
  i * fonline + ystat * v * (1 - fonline) + norton d * v * (1 - fonline)

end GridPACK.MotorW
