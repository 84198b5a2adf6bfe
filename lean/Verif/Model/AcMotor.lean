import Mathlib.Analysis.SpecialFunctions.Pow.Real
import Mathlib.Analysis.SpecialFunctions.Trigonometric.Inverse
import Mathlib.Data.Complex.Basic
import Mathlib.Analysis.Complex.Norm

/-!
# The air conditioners of the dynamic simulation

`AcmotorLoad` of
`/repo/src/applications/modules/dynamic_simulation_full_y/model_classes/acmotor.cpp`:
the motors of single-phase air conditioners, used for the loads `ACMTBLU1` and
for the fourth motor of a composite load.  Part A of the motors stays stalled,
part B restarts.

Numbers are real (the code uses doubles); `pow` is the power of real numbers,
which for a negative base and an exponent that is no whole number has a value
where the code gets NaN.  A division by zero gives 0.  The messages, the
output and the variables that are never used are not modelled.
-/

namespace GridPACK.AcMotor

open Complex

/-- The parameters of a motor (acmotor.cpp 50-92), with the share `perc` of the
load that is taken by the motors. -/
structure Par where
  tstall : ℝ
  trst : ℝ
  tv : ℝ
  tf : ℝ
  lf : ℝ
  pf : ℝ
  vstall : ℝ
  rstall : ℝ
  xstall : ℝ
  lfadj : ℝ
  kp1 : ℝ
  np1 : ℝ
  kq1 : ℝ
  nq1 : ℝ
  kp2 : ℝ
  np2 : ℝ
  kq2 : ℝ
  nq2 : ℝ
  vbrk : ℝ
  frst : ℝ
  vrst : ℝ
  kpf : ℝ
  kqf : ℝ
  vc1off : ℝ
  vc2off : ℝ
  vc1on : ℝ
  vc2on : ℝ
  tth : ℝ
  th1t : ℝ
  th2t : ℝ
  fuvr : ℝ
  uvtr1 : ℝ
  ttr1 : ℝ
  uvtr2 : ℝ
  ttr2 : ℝ
  perc : ℝ

/-- The quantities of a record that `load` treats differently for a composite
load or changes; a quantity that is absent is `none`. -/
structure Rec where
  trestart : Option ℝ
  trst : Option ℝ
  complf : Option ℝ
  lfm : Option ℝ
  perc : Option ℝ

/-- The values of `load` up to the first list of messages (acmotor.cpp 196-209):
restarting time and load factor, with the names of a composite load if it is
the part of one. -/
noncomputable def firstPass (composite : Bool) (r : Rec) : ℝ × ℝ :=
  if composite then (r.trst.getD (4 / 10), r.lfm.getD (8 / 10))
  else (r.trestart.getD (4 / 10), r.complf.getD (8 / 10))

/-- The same values read again at the end of `load` (acmotor.cpp 260, 263),
whatever has been read before. -/
noncomputable def secondPass (_ : ℝ × ℝ) (r : Rec) : ℝ × ℝ :=
  (r.trestart.getD (4 / 10), r.complf.getD (8 / 10))

/-- The share of the load (acmotor.cpp 297-300). -/
noncomputable def share (r : Rec) : ℝ :=
  if r.perc.getD (43 / 100) < 1 / 100 then 43 / 100 else r.perc.getD (43 / 100)

/-- `load` (acmotor.cpp 173-308) for the quantities of `Rec`; the others are
read into the parameters of the same name (twice, with the same result). -/
noncomputable def load (composite : Bool) (r : Rec) (p : Par) : Par :=
  let x := secondPass (firstPass composite r) r
  { p with trst := x.1, lf := x.2, perc := share r }

/-- The record that the expansion of a composite load makes for its air
conditioners (cmldblu1.hpp 3341-3470): there is `LOAD_TRST` and `LOAD_LFM`, but
no `LOAD_TRESTART`, `LOAD_COMPLF` and `LOAD_AC_PERC`. -/
def ofComposite (trst lfm : Option ℝ) : Rec := ⟨none, trst, none, lfm, none⟩

/-- The variables that `init` sets once and for all, with the parameters as
changed by `init`. -/
structure Dev where
  p : Par
  pinit : ℝ
  mva : ℝ
  g : ℝ
  b : ℝ
  pinitPu : ℝ
  qinitPu : ℝ
  p0 : ℝ
  q0 : ℝ
  vstallbrk : ℝ
  thA : ℝ
  thB : ℝ
  /-- admittance of the static load of the bus, `samebus_static_equivY_sysMVA` -/
  ystat : ℂ

/-- The variables that change in the course of a simulation. -/
structure State where
  vm : ℝ
  vm0 : ℝ
  fm : ℝ
  fm0 : ℝ
  tA : ℝ
  tA0 : ℝ
  tB : ℝ
  tB0 : ℝ
  dv0 : ℝ
  df0 : ℝ
  dA0 : ℝ
  dB0 : ℝ
  uv1 : ℝ
  uv2 : ℝ
  kuv : ℝ
  kcon : ℝ
  trip : ℝ
  stallTimer : ℝ
  restartTimer : ℝ
  /-- part A runs (`statusA == 1`) -/
  runA : Bool
  /-- part B runs (`statusB == 1`) -/
  runB : Bool
  fthA : ℝ
  fthB : ℝ
  pA : ℝ
  qA : ℝ
  pB : ℝ
  qB : ℝ
  pm : ℝ
  qm : ℝ
  /-- `equivYpq_motorBase` -/
  y : ℂ
  fonline : ℝ

/-- The search for the voltage below which the admittance of stalled motors is
used (acmotor.cpp 382-398): 0 if none is found, at most the stalling voltage.
The steps of 0.001 are exact here. -/
noncomputable def searchBrk (p0 kp1 np1 vbrk g vstall : ℝ) : ℝ :=
  let v : ℕ → ℝ := fun k => 4 / 10 + k / 1000
  let found := (List.range (⌊(vbrk - 4 / 10) * 1000⌋₊ + 1)).find? fun k =>
    decide (v k ≤ vbrk) && decide (p0 + kp1 * (v k - vbrk) ^ np1 < g * v k * v k)
  let x := (found.map v).getD 0
  if x > vstall then vstall else x

/-- `init` (acmotor.cpp 315-432): the fixed variables, from the parameters read,
the power `pl` of the load and the magnitude of the voltage. -/
noncomputable def initDev (p : Par) (pl vt : ℝ) : Dev :=
  let lf := if p.lf = 0 then 1 else p.lf
  let pinit := pl * p.perc
  let mva := pinit / lf
  let g := p.rstall / (p.rstall * p.rstall + p.xstall * p.xstall)
  let b := -p.xstall / (p.rstall * p.rstall + p.xstall * p.xstall)
  let pinitPu := pinit / mva
  let qinitPu := pinitPu * Real.tan (Real.arccos p.pf)
  let vstall := p.vstall * (1 + p.lfadj * (lf - 1))
  let vbrk := p.vbrk * (1 + p.lfadj * (lf - 1))
  let p0 := pinitPu - p.kp1 * (vt - vbrk) ^ p.np1
  let q0 := qinitPu - p.kq1 * (vt - vbrk) ^ p.nq1
  let thermal := 0 < p.th1t ∧ p.th1t < p.th2t
  { p := { p with
      lf := lf
      vstall := vstall
      vbrk := vbrk
      vc2off := if 0 < p.vc2off ∧ p.vc1off < p.vc2off then 0 else p.vc2off
      vc2on := if 0 < p.vc2on ∧ p.vc1on < p.vc2on then p.vc1on - 1 / 10 else p.vc2on }
    pinit := pinit
    mva := mva
    g := g
    b := b
    pinitPu := pinitPu
    qinitPu := qinitPu
    p0 := p0
    q0 := q0
    vstallbrk := searchBrk p0 p.kp1 p.np1 vbrk g vstall
    thA := open Classical in if thermal then -1 / (p.th2t - p.th1t) else 0
    thB := open Classical in if thermal then p.th2t / (p.th2t - p.th1t) else 0
    ystat := 0 }

/-- `init` and the constructor (acmotor.cpp 30-158, 315-432): the variables at
the start. -/
noncomputable def initState (d : Dev) (vt : ℝ) : State :=
  let s : ℂ := ⟨d.pinitPu, -d.qinitPu⟩
  let i := ‖s‖ / vt
  let temp := i * i * d.p.rstall
  { vm := vt, vm0 := vt, fm := 1, fm0 := 1
    tA := temp, tA0 := temp, tB := temp, tB0 := temp
    dv0 := 0, df0 := 0, dA0 := 0, dB0 := 0
    uv1 := 0, uv2 := 0, kuv := 1, kcon := 1, trip := 0
    stallTimer := 0, restartTimer := 0, runA := true, runB := true
    fthA := 1, fthB := 1
    pA := 0, qA := 0, pB := 0, qB := 0, pm := 0, qm := 0
    y := s / vt / vt
    fonline := 1 }

/-- `setSameBusStaticLoadPQ` (acmotor.cpp 948-957). -/
noncomputable def Dev.setStatic (d : Dev) (pl ql mag : ℝ) : Dev :=
  { d with ystat := d.ystat + ⟨pl / (mag * mag), -ql / (mag * mag)⟩ }

/-- `equivY_sysMVA` (acmotor.cpp 346), returned by `NortonImpedence` (449-475),
which computes the same value once more. -/
noncomputable def Dev.ySys (d : Dev) : ℂ := (⟨d.g, d.b⟩ : ℂ) * d.mva / 100

/-- `predictor_currentInjection` and `corrector_currentInjection`
(acmotor.cpp 481-500, 560-567), the current injected. -/
noncomputable def inject (d : Dev) (s : State) (v : ℂ) : ℂ :=
  d.ySys * v - s.y * v * ((d.mva / 100 : ℝ) : ℂ) + d.ystat * v * ((1 - s.fonline : ℝ) : ℂ)

/-- The current of part A in `predictor` and `corrector`
(acmotor.cpp 529-535, 590-596). -/
noncomputable def currentA (d : Dev) (s : State) (vt : ℝ) : ℂ :=
  if s.runA then (⟨s.pA, -s.qA⟩ : ℂ) / vt else (vt : ℂ) * ⟨d.g, d.b⟩

/-- The current of part B (acmotor.cpp 539-545, 600-606): for running motors the
code assigns the current to the variable of part A, which is not used any more,
so that the one of part B stays 0. -/
noncomputable def currentB (d : Dev) (s : State) (vt : ℝ) : ℂ :=
  if s.runB then 0 else (vt : ℂ) * ⟨d.g, d.b⟩

/-- `predictor` with the flag false (acmotor.cpp 506-554). -/
noncomputable def predictor (d : Dev) (s : State) (dt vt f : ℝ) : State :=
  let dv := (vt - s.vm) / d.p.tv
  let df := (f - s.fm) / d.p.tf
  let dA := (‖currentA d s vt‖ * ‖currentA d s vt‖ * d.p.rstall - s.tA) / d.p.tth
  let dB := (‖currentB d s vt‖ * ‖currentB d s vt‖ * d.p.rstall - s.tB) / d.p.tth
  { s with
    vm0 := s.vm, fm0 := s.fm, tA0 := s.tA, tB0 := s.tB
    dv0 := dv, df0 := df, dA0 := dA, dB0 := dB
    vm := s.vm + dv * dt, fm := s.fm + df * dt
    tA := s.tA + dA * dt, tB := s.tB + dB * dt }

/-- `corrector` (acmotor.cpp 574-615). -/
noncomputable def corrector (d : Dev) (s : State) (dt vt f : ℝ) : State :=
  let dv := (vt - s.vm) / d.p.tv
  let df := (f - s.fm) / d.p.tf
  let dA := (‖currentA d s vt‖ * ‖currentA d s vt‖ * d.p.rstall - s.tA) / d.p.tth
  let dB := (‖currentB d s vt‖ * ‖currentB d s vt‖ * d.p.rstall - s.tB) / d.p.tth
  { s with
    vm := s.vm0 + 1 / 2 * (s.dv0 + dv) * dt
    fm := s.fm0 + 1 / 2 * (s.df0 + df) * dt
    tA := s.tA0 + 1 / 2 * (s.dA0 + dA) * dt
    tB := s.tB0 + 1 / 2 * (s.dB0 + dB) * dt }

/-- The undervoltage relay (acmotor.cpp 630-653). -/
noncomputable def relay (d : Dev) (s : State) (dt : ℝ) : State :=
  let uv1 := if s.vm < d.p.uvtr1 ∧ 0 < d.p.fuvr then s.uv1 + dt else 0
  let uv2 := if s.vm < d.p.uvtr2 ∧ 0 < d.p.fuvr then s.uv2 + dt else 0
  let k := if uv1 > d.p.ttr1 then 1 - d.p.fuvr else s.kuv
  { s with uv1 := uv1, uv2 := uv2, kuv := if uv2 > d.p.ttr2 then 1 - d.p.fuvr else k }

/-- The contactor opening (acmotor.cpp 661-669). -/
noncomputable def contactorOff (d : Dev) (s : State) : State :=
  if s.vm < d.p.vc2off then { s with kcon := 0, trip := 1 }
  else if s.vm ≥ d.p.vc2off ∧ s.vm < d.p.vc1off then
    { s with
      kcon := (s.vm - d.p.vc2off) / (d.p.vc1off - d.p.vc2off)
      trip := 1 - (s.vm - d.p.vc2off) / (d.p.vc1off - d.p.vc2off) }
  else s

/-- The contactor closing (acmotor.cpp 671-679). -/
noncomputable def contactorOn (d : Dev) (s : State) : State :=
  if s.vm ≥ d.p.vc1on then { s with kcon := 1 }
  else if s.vm < d.p.vc1on ∧ s.vm ≥ d.p.vc2on then
    { s with kcon := 1 - s.trip * (1 - (s.vm - d.p.vc2on) / (d.p.vc1on - d.p.vc2on)) }
  else s

/-- The timers of stalling and restarting (acmotor.cpp 681-698). -/
noncomputable def timers (d : Dev) (s : State) (dt vt : ℝ) : State :=
  { s with
    stallTimer :=
      if s.runA then (if vt < d.p.vstall then s.stallTimer + dt else 0) else s.stallTimer
    restartTimer :=
      if s.runB then s.restartTimer else (if vt > d.p.vrst then s.restartTimer + dt else 0) }

/-- The transition from running to stalled (acmotor.cpp 700-705). -/
noncomputable def stalling (d : Dev) (s : State) : State :=
  if s.stallTimer > d.p.tstall ∧ s.runA = true then { s with runA := false, runB := false } else s

/-- The restarting of part B (acmotor.cpp 708-711). -/
noncomputable def restarting (d : Dev) (s : State) : State :=
  if d.p.frst > 0 ∧ s.runB = false ∧ s.restartTimer > d.p.trst then { s with runB := true } else s

/-- The share left by the thermal protection (acmotor.cpp 717-737). -/
noncomputable def thermalShare (d : Dev) (temp : ℝ) (run : Bool) (old : ℝ) : ℝ :=
  if d.thA < 0 ∧ temp > d.p.th1t ∧ run = false then
    if temp * d.thA + d.thB < 0 then 0 else temp * d.thA + d.thB
  else old

/-- The thermal protection (acmotor.cpp 713-738). -/
noncomputable def thermal (d : Dev) (s : State) : State :=
  { s with
    fthA := thermalShare d s.tA s.runA s.fthA
    fthB := thermalShare d s.tB s.runB s.fthB }

/-- Power of running motors above the break point (acmotor.cpp 746-747, 771-772). -/
noncomputable def above (d : Dev) (vt f : ℝ) : ℝ × ℝ :=
  ((d.p0 + d.p.kp1 * (vt - d.p.vbrk) ^ d.p.np1) * (1 + d.p.kpf * (f - 1)),
    (d.q0 + d.p.kq1 * (vt - d.p.vbrk) ^ d.p.nq1) * (1 + d.p.kqf * (f - 1)))

/-- Power of running motors below the break point (acmotor.cpp 751-752, 776-777). -/
noncomputable def below (d : Dev) (vt f : ℝ) : ℝ × ℝ :=
  ((d.p0 + d.p.kp2 * (d.p.vbrk - vt) ^ d.p.np2) * (1 + d.p.kpf * (f - 1)),
    (d.q0 + d.p.kq2 * (d.p.vbrk - vt) ^ d.p.nq2) * (1 + d.p.kqf * (f - 1)))

/-- Power of stalled motors (acmotor.cpp 756-757, 760-761, 781-782, 786-787). -/
noncomputable def stalled (d : Dev) (vt : ℝ) : ℝ × ℝ := (d.g * vt * vt, -d.b * vt * vt)

/-- Power of part A (acmotor.cpp 742-764). -/
noncomputable def powerA (d : Dev) (s : State) (vt f : ℝ) : ℝ × ℝ :=
  if s.runA then
    if vt ≥ d.p.vbrk then above d vt f
    else if vt < d.p.vbrk ∧ vt > d.vstallbrk then below d vt f
    else stalled d vt
  else stalled d vt

/-- Power of part B (acmotor.cpp 766-790); the first comparison is strict here. -/
noncomputable def powerB (d : Dev) (s : State) (vt f : ℝ) : ℝ × ℝ :=
  if d.p.frst > 0 then
    if s.runB then
      if vt > d.p.vbrk then above d vt f
      else if vt < d.p.vbrk ∧ vt > d.vstallbrk then below d vt f
      else stalled d vt
    else stalled d vt
  else (s.pB, s.qB)

/-- The power of the motors (acmotor.cpp 740-803). -/
noncomputable def power (d : Dev) (s : State) (vt f : ℝ) : State :=
  let a := powerA d s vt f
  let b := powerB d s vt f
  let pm := s.kuv * s.kcon * s.fonline *
    (a.1 * (1 - d.p.frst) * s.fthA + b.1 * d.p.frst * s.fthB)
  let qm := s.kuv * s.kcon * s.fonline *
    (a.2 * (1 - d.p.frst) * s.fthA + b.2 * d.p.frst * s.fthB)
  { s with
    pA := a.1, qA := a.2, pB := b.1, qB := b.2, pm := pm, qm := qm
    y := (⟨pm, -qm⟩ : ℂ) / vt / vt }

/-- `dynamicload_post_process` (acmotor.cpp 622-811). -/
noncomputable def post (d : Dev) (s : State) (dt vt f : ℝ) : State :=
  power d (thermal d (restarting d (stalling d (timers d (contactorOn d (contactorOff d
    (relay d s dt))) dt vt)))) vt f

/-- What the network gives the motor in one step of the simulation: the length of
the step, magnitude of the voltage and frequency at the beginning (used by the
protection and by the predictor) and at the corrector, and the part of the load
that is shed (or restored) before the step. -/
structure In where
  dt : ℝ
  v : ℝ
  f : ℝ
  v2 : ℝ
  f2 : ℝ
  change : ℝ

/-- `changeLoad` (acmotor.cpp 912-944). -/
noncomputable def changeLoad (s : State) (x : ℝ) : State :=
  if x < -1 then s else if s.fonline = 0 then s
  else if s.fonline + x < 0 then { s with fonline := 0 }
  else { s with fonline := s.fonline + x }

/-- One step of the simulation, `runonestep` and the methods it calls for this
device (dsf_app_module2.cpp 237-330): the protection first, then predictor and
corrector.  The flag of `predictor` is true in the first step only, where it
makes no difference, since `init` has set the old values.  The change of the load
is 0 where there is no command. -/
noncomputable def step (d : Dev) (s : State) (i : In) : State :=
  corrector d (predictor d (post d (changeLoad s i.change) i.dt i.v i.f) i.dt i.v i.f) i.dt i.v2 i.f2

/-- A simulation from a state. -/
noncomputable def runFrom (d : Dev) (s : State) : List In → State
  | [] => s
  | i :: r => runFrom d (step d s i) r

end GridPACK.AcMotor
