import Verif.Model.Governors
import Verif.Model.Exciters
import Mathlib.Analysis.SpecialFunctions.Complex.Arg
import Mathlib.Analysis.SpecialFunctions.Complex.LogDeriv

/-! Model of the synchronous machines of the dynamic simulation: classical model, GENROU and GENSAL
(src/applications/modules/dynamic_simulation_full_y/model_classes/{classical,genrou,gensal}.cpp and
base_classes/base_generator_model.cpp), each with its optional exciter and governor.

Doubles are real numbers, `4 atan(1)` is `π`, `atan2(y, x)` is the argument of `x + iy`; division by zero
gives 0 here instead of an infinity or NaN.  Members that a constructor leaves uninitialised are arbitrary.
Values missing in the `DataCollection` are `none`.  The stabiliser (PSS) of GENSAL is left out: the model is
that of a machine without one.  Text output other than the values of `getWatchValues` is not modelled. -/
namespace GridPACK.Machines
open GridPACK.Cblock GridPACK.Governors GridPACK.Exciters

/-! ### Controllers as a machine uses them -/

/-- The exciter of a machine.  `none e`: no exciter, the field voltage is the value `Efdinit = e` of `init`.
ESST1A and the other exciters are not included here. -/
inductive Exc
  | none (e : ℝ)
  | sexs (g : Sexs)
  | exdc1 (g : Exdc1)
  | ieeet1 (g : Exdc1)

/-- `setVterminal`, `setVcomp`, `setFieldVoltage`, `setFieldCurrent`, `setIri`, `init` as called by the
machine's `init` (genrou.cpp 233-243, gensal.cpp 158-169).  These exciters ignore all but the first and third. -/
noncomputable def Exc.start : Exc → ℝ → ℝ → Exc
  | .none _, _, E => .none E
  | .sexs g, V, E => .sexs (((g.setVterminal V).setFieldVoltage E).init V)
  | .exdc1 g, V, E => .exdc1 ((g.setVterminal V).setFieldVoltage E).init
  | .ieeet1 g, V, E => .ieeet1 (ieeet1Init ((g.setVterminal V).setFieldVoltage E))

/-- `getFieldVoltage`, or `Efdinit` without exciter (genrou.cpp 366, 368). -/
def Exc.efd : Exc → ℝ
  | .none e => e
  | .sexs g => g.Efd
  | .exdc1 g => g.Efd
  | .ieeet1 g => g.Efd

/-- `setVterminal` followed by `predictor` or `corrector`. -/
noncomputable def Exc.call : Exc → ℝ → ℝ → Stage → Exc
  | .none e, _, _, _ => .none e
  | .sexs g, V, dt, s => .sexs ((g.setVterminal V).compute dt s)
  | .exdc1 g, V, dt, s => .exdc1 ((g.setVterminal V).compute dt s)
  | .ieeet1 g, V, dt, s => .ieeet1 (ieeet1Compute (g.setVterminal V) dt s)

/-- The governor of a machine.  `none p`: no governor, the mechanical power is the value `Pmechinit = p`. -/
inductive Gov
  | none (p : ℝ)
  | tgov1 (g : Tgov)
  | gast (g : Gast)
  | hygov (g : Hygov)
  | wsieg1 (g : Wsieg)

/-- `setMechanicalPower`, `setRotorSpeedDeviation`, `init` as called by the machine's `init`
(genrou.cpp 246-251, gensal.cpp 171-176). -/
noncomputable def Gov.start : Gov → ℝ → ℝ → Gov
  | .none _, P, _ => .none P
  | .tgov1 g, P, w => .tgov1 ((g.setMechanicalPower P).setRotorSpeedDeviation w).init
  | .gast g, P, w => .gast ((g.setMechanicalPower P).setRotorSpeedDeviation w).init
  | .hygov g, P, w => .hygov ((g.setMechanicalPower P).setRotorSpeedDeviation w).init
  | .wsieg1 g, P, w => .wsieg1 ((g.setMechanicalPower P).setRotorSpeedDeviation w).init

/-- `getMechanicalPower`, or `Pmechinit` without governor. -/
def Gov.pmech : Gov → ℝ
  | .none p => p
  | .tgov1 g => g.Pmech
  | .gast g => g.Pmech
  | .hygov g => g.Pmech
  | .wsieg1 g => g.Pmech1

/-- `setRotorSpeedDeviation` followed by `predictor` or `corrector`. -/
noncomputable def Gov.call : Gov → ℝ → ℝ → Stage → Gov
  | .none p, _, _, _ => .none p
  | .tgov1 g, w, dt, s => .tgov1 ((g.setRotorSpeedDeviation w).compute dt s)
  | .gast g, w, dt, s => .gast ((g.setRotorSpeedDeviation w).compute dt s)
  | .hygov g, w, dt, s => .hygov ((g.setRotorSpeedDeviation w).compute dt s)
  | .wsieg1 g, w, dt, s => .wsieg1 ((g.setRotorSpeedDeviation w).compute dt s)

/-! ### Data -/

/-- Parameters of a generator in the data collection (classical.cpp 57-76, genrou.cpp 79-106,
gensal.cpp 60-83).  `GENERATOR_PG`, `GENERATOR_QG` are per unit on the system base. -/
structure Data where
  sbase : Option ℝ
  pg : Option ℝ
  qg : Option ℝ
  mbase : Option ℝ
  h : Option ℝ
  d : Option ℝ
  ra : Option ℝ
  dstr : Option ℝ
  zsrc : Option ℂ
  xd : Option ℝ
  xq : Option ℝ
  xdp : Option ℝ
  xdpp : Option ℝ
  xqp : Option ℝ
  xl : Option ℝ
  tdop : Option ℝ
  tdopp : Option ℝ
  tqop : Option ℝ
  tqopp : Option ℝ
  s1 : Option ℝ
  s12 : Option ℝ

/-! ### Classical model -/

/-- Data members (classical.hpp).  The members of complex type that hold angles, speeds and powers always
have imaginary part 0 and are real numbers here. -/
structure Classical where
  sbase : ℝ
  pg : ℝ
  qg : ℝ
  mva : ℝ
  r : ℝ
  dstr : ℝ
  dtr : ℝ
  h : ℝ
  d0 : ℝ
  volt : ℂ
  pelect : ℝ
  pmech : ℝ
  eqprime : ℝ
  ang0 : ℝ
  ang1 : ℝ
  spd0 : ℝ
  spd1 : ℝ
  dang0 : ℝ
  dang1 : ℝ
  dspd0 : ℝ
  dspd1 : ℝ
  e0 : ℂ
  e1 : ℂ
  INorton : ℂ
  genP : ℝ
  genQ : ℝ

/-- `load` (classical.cpp 48-80): the system base is 100 whatever the case says. -/
noncomputable def Classical.load (c : Classical) (d : Data) : Classical :=
  { c with sbase := 100, pg := d.pg.getD 0, qg := d.qg.getD 0, mva := d.mbase.getD 0, r := d.ra.getD 0,
           dstr := d.dstr.getD 0, dtr := (d.zsrc.getD 0).im, h := d.h.getD 0, d0 := d.d.getD 0 }

/-- `init` (88-162). -/
noncomputable def Classical.init (c : Classical) (mag ang : ℝ) : Classical :=
  let pg := c.pg * c.sbase / c.mva
  let qg := c.qg * c.sbase / c.mva
  let v : ℂ := mag * Complex.exp (Complex.I * ang)
  let currr := Real.sqrt (pg * pg + qg * qg) / mag
  let phi := Complex.arg ⟨pg, qg⟩
  let curr : ℂ := currr * Complex.exp (Complex.I * (ang - phi : ℝ))
  let e := v + Complex.I * c.dtr * curr
  { c with pg := pg, qg := qg, genP := pg, genQ := qg, pelect := pg, volt := v, e0 := e,
           ang0 := Complex.arg e, spd0 := 1, eqprime := ‖e‖, pmech := |pg|,
           ang1 := 0, spd1 := 0, dang0 := 0, dspd0 := 0, dang1 := 0, dspd1 := 0, e1 := 0, INorton := 0 }

open Classical in
/-- `NortonImpedence` (178-190); `u` is the uninitialised local `xd`, assigned only if `p_dstr == 0`. -/
noncomputable def Classical.norton (c : Classical) (u : ℝ) : ℂ :=
  1 / ⟨c.r * c.sbase / c.mva, if c.dstr = 0 then c.dtr * c.sbase / c.mva else u⟩

/-- The assignments under `if (!flag)` (198-202, 231-235). -/
def Classical.advance (c : Classical) (flag : Bool) : Classical :=
  if flag then c else { c with ang0 := c.ang1, spd0 := c.spd1, e0 := c.e1 }

/-- `predictor_currentInjection` (196-217). -/
noncomputable def Classical.predCur (c : Classical) (flag : Bool) : Classical :=
  let c := c.advance flag
  { c with INorton := c.e0 / (c.dtr * Complex.I) * c.mva / c.sbase }

/-- Conjugate of the terminal current (241-245, 301-305). -/
noncomputable def Classical.curr (c : Classical) (e : ℂ) : ℂ :=
  (starRingEnd ℂ) ((e - c.volt) / (Complex.I * c.dtr))

/-- `predictor` (224-264). -/
noncomputable def Classical.predictor (c : Classical) (dt : ℝ) (flag : Bool) : Classical :=
  let c := c.advance flag
  let curr := c.curr c.e0
  let pelect := (c.e0 * curr).re
  let dang := (c.spd0 - 1) * (2 * Real.pi * 60)
  let dspd := ((c.pmech - c.d0 * (c.spd0 - 1)) / c.spd0 - pelect) / (2 * c.h)
  let ang1 := c.ang0 + dang * dt
  { c with pelect := pelect, genP := (c.volt * curr).re, genQ := (c.volt * curr).im, dang0 := dang,
           dspd0 := dspd, ang1 := ang1, spd1 := c.spd0 + dspd * dt,
           e1 := Complex.exp (ang1 * Complex.I) * c.eqprime }

/-- `corrector_currentInjection` (270-284). -/
noncomputable def Classical.corrCur (c : Classical) : Classical :=
  { c with INorton := c.e1 / (c.dtr * Complex.I) * c.mva / c.sbase }

/-- `corrector` (291-347). -/
noncomputable def Classical.corrector (c : Classical) (dt : ℝ) : Classical :=
  let curr := c.curr c.e1
  let pelect := (c.e1 * curr).re
  let dang := (c.spd1 - 1) * (2 * Real.pi * 60)
  let dspd := ((c.pmech - c.d0 * (c.spd1 - 1)) / c.spd1 - pelect) / (2 * c.h)
  let ang1 := c.ang0 + (c.dang0 + dang) / 2 * dt
  { c with INorton := 0, pelect := pelect, genP := (c.volt * curr).re, genQ := (c.volt * curr).im, dang1 := dang,
           dspd1 := dspd, ang1 := ang1, spd1 := c.spd0 + (c.dspd0 + dspd) / 2 * dt,
           e1 := Complex.exp (ang1 * Complex.I) * c.eqprime }

/-- `setVoltage` (352-357). -/
def Classical.setVoltage (c : Classical) (v : ℂ) : Classical := { c with volt := v }

/-- `getWatchValues` (429-443): angle, speed, power on the system base or the machine base. -/
noncomputable def Classical.watch (c : Classical) (systemBase : Bool) : List ℝ :=
  if systemBase then [c.ang1, c.spd1, c.genP * c.mva / c.sbase, c.genQ * c.mva / c.sbase]
  else [c.ang1, c.spd1, c.genP, c.genQ]

/-! ### GENROU -/

/-- Saturation (genrou.cpp 130-143, gensal.cpp 98-111). -/
noncomputable def satCurve (S10 S12 x : ℝ) : ℝ :=
  let a := S12 / S10 - 1
  let b := -2 * S12 / S10 + 2.4
  let c := S12 / S10 - 1.44
  let A := (-b - Real.sqrt (b * b - 4 * a * c)) / (2 * a)
  let B := S10 / ((1 - A) * (1 - A))
  let tmp := x - A
  let tmp := if tmp < 0 then 0 else tmp
  B * tmp * tmp

/-- Parameters as stored by `load`; `Xqpp = Xdpp`. -/
structure GenrouPar where
  sbase : ℝ
  pg : ℝ
  qg : ℝ
  MBase : ℝ
  H : ℝ
  D : ℝ
  Ra : ℝ
  Xd : ℝ
  Xq : ℝ
  Xdp : ℝ
  Xdpp : ℝ
  Xl : ℝ
  Tdop : ℝ
  Tdopp : ℝ
  Tqopp : ℝ
  S10 : ℝ
  S12 : ℝ
  Xqp : ℝ
  Tqop : ℝ
  enableSat : Bool

open Classical in
/-- `if (tmp > MBase) MBase = tmp*1.2` (genrou.cpp 114-118, gensal.cpp 86-89). -/
noncomputable def machineBase (pg qg mbase : ℝ) : ℝ :=
  if Real.sqrt (pg * pg + qg * qg) > mbase then Real.sqrt (pg * pg + qg * qg) * 1.2 else mbase

open Classical in
/-- `load` (genrou.cpp 75-120). -/
noncomputable def GenrouPar.load (d : Data) : GenrouPar :=
  let sbase := d.sbase.getD 100
  let pg := d.pg.getD 0 * sbase
  let qg := d.qg.getD 0 * sbase
  let S10 := d.s1.getD 0.05
  let S12 := d.s12.getD 0.3
  { sbase := sbase, pg := pg, qg := qg, MBase := machineBase pg qg (d.mbase.getD 0), H := d.h.getD 0,
    D := d.d.getD 0, Ra := d.ra.getD 0, Xd := d.xd.getD 0, Xq := d.xq.getD 0, Xdp := d.xdp.getD 0,
    Xdpp := d.xdpp.getD 0, Xl := d.xl.getD 0, Tdop := d.tdop.getD 0, Tdopp := d.tdopp.getD 0,
    Tqopp := d.tqopp.getD 0, S10 := S10, S12 := S12, Xqp := d.xqp.getD 0, Tqop := d.tqop.getD 0.75,
    enableSat := if |S10 * S12| < 1e-6 then false else true }

/-- `Sat` (genrou.cpp 126-147). -/
noncomputable def GenrouPar.sat (p : GenrouPar) (x : ℝ) : ℝ := if p.enableSat then satCurve p.S10 p.S12 x else 0

/-- The state variables `x1d`, `x2w`, `x3Eqp`, `x4Psidp`, `x5Psiqp`, `x6Edp`. -/
@[ext] structure X6 where
  δ : ℝ
  w : ℝ
  eqp : ℝ
  psid : ℝ
  psiq : ℝ
  ed : ℝ

/-- `x + t d` for every variable. -/
noncomputable def X6.add (x d : X6) (t : ℝ) : X6 :=
  ⟨x.δ + d.δ * t, x.w + d.w * t, x.eqp + d.eqp * t, x.psid + d.psid * t, x.psiq + d.psiq * t, x.ed + d.ed * t⟩

/-- `(d + d') / 2`. -/
noncomputable def X6.mean (d d' : X6) : X6 :=
  ⟨(d.δ + d'.δ) / 2, (d.w + d'.w) / 2, (d.eqp + d'.eqp) / 2, (d.psid + d'.psid) / 2, (d.psiq + d'.psiq) / 2,
   (d.ed + d'.ed) / 2⟩

/-- The values of a machine that has been tripped (438-453, 455-468). -/
def X6.off : X6 := ⟨0, -1, 0, 0, 0, 0⟩

/-- Data members (genrou.hpp).  `Efdinit`, `Pmechinit` are in `exc`, `gov`. -/
structure Genrou where
  par : GenrouPar
  presentMag : ℝ
  presentAng : ℝ
  Vterm : ℝ
  x : X6
  x1 : X6
  dx : X6
  dx1 : X6
  Id : ℝ
  Iq : ℝ
  Ir : ℝ
  Ii : ℝ
  genP : ℝ
  genQ : ℝ
  B : ℝ
  G : ℝ
  Efd : ℝ
  LadIfd : ℝ
  Pmech : ℝ
  Ya : ℂ
  INorton : ℂ
  status : Bool
  tripped : Bool
  exc : Exc
  gov : Gov

/-- `NortonImpedence` (278-291); it also stores `B`, `G` on the system base. -/
noncomputable def GenrouPar.norton (p : GenrouPar) : ℂ :=
  ⟨p.Ra / (p.Ra * p.Ra + p.Xdpp * p.Xdpp) * (p.MBase / p.sbase),
   -p.Xdpp / (p.Ra * p.Ra + p.Xdpp * p.Xdpp) * (p.MBase / p.sbase)⟩

/-- `rotate` (36-40). -/
noncomputable def rotate (a b ang : ℝ) : ℝ × ℝ :=
  (a * Real.cos ang - b * Real.sin ang, a * Real.sin ang + b * Real.cos ang)

/-- `init` (154-262).  The first values of `Vd`, `Vq` (200) are overwritten (202-203). -/
noncomputable def Genrou.init (m : Genrou) (mag ang : ℝ) : Genrou :=
  let p := m.par
  let P := p.pg / p.MBase
  let Q := p.qg / p.MBase
  let Vr := mag * Real.cos ang
  let Vi := mag * Real.sin ang
  let Ir := (P * Vr + Q * Vi) / (mag * mag)
  let Ii := (P * Vi - Q * Vr) / (mag * mag)
  let δ := Complex.arg ⟨Vr + Ir * p.Ra - Ii * p.Xq, Vi + Ir * p.Xq + Ii * p.Ra⟩
  let idq := rotate Ir Ii (Real.pi / 2 - δ)
  let Vr' := Vr + p.Ra * Ir - p.Xdpp * Ii
  let Vi' := Vi + p.Ra * Ii + p.Xdpp * Ir
  let Vd := Vr' * Real.sin δ - Vi' * Real.cos δ
  let Vq := Vr' * Real.cos δ + Vi' * Real.sin δ
  let eqp := Vq + (p.Xdp - p.Xdpp) * idq.1
  let ed := Vd - (p.Xqp - p.Xdpp) * idq.2
  let x : X6 := ⟨δ, 0, eqp, eqp - (p.Xdp - p.Xl) * idq.1, ed + (p.Xqp - p.Xl) * idq.2, ed⟩
  let Efd := eqp * (1 + p.sat eqp) + idq.1 * (p.Xd - p.Xdp)
  let Pmech := Vq * idq.2 - (-Vd) * idq.1
  { m with Vterm := mag, presentMag := mag, presentAng := ang, genP := P, genQ := Q, Ir := Ir, Ii := Ii,
           x := x, x1 := x, Id := idq.1, Iq := idq.2, Efd := Efd, LadIfd := Efd, Pmech := Pmech,
           exc := m.exc.start mag Efd, gov := m.gov.start Pmech 0, Ya := p.norton, G := p.norton.re,
           B := p.norton.im }

/-- `Psiqpp` (305, 380, 486, 553). -/
noncomputable def GenrouPar.psiqpp (p : GenrouPar) (x : X6) : ℝ :=
  -x.ed * (p.Xdpp - p.Xl) / (p.Xqp - p.Xl) - x.psiq * (p.Xqp - p.Xdpp) / (p.Xqp - p.Xl)

/-- `Psidpp` (306, 381, 487, 554). -/
noncomputable def GenrouPar.psidpp (p : GenrouPar) (x : X6) : ℝ :=
  x.eqp * (p.Xdpp - p.Xl) / (p.Xdp - p.Xl) + x.psid * (p.Xdp - p.Xdpp) / (p.Xdp - p.Xl)

/-- Norton current in the network frame on the system base (319-334, 501-508). -/
noncomputable def nortonCurrent (Vd Vq G B δ k : ℝ) : ℂ :=
  let Idn := Vd * G - Vq * B
  let Iqn := Vd * B + Vq * G
  ⟨(Idn * Real.sin δ + Iqn * Real.cos δ) * k, (-Idn * Real.cos δ + Iqn * Real.sin δ) * k⟩

/-- `p_INorton` (336-344, 512-520). -/
noncomputable def inject (status tripped : Bool) (ya v i : ℂ) : ℂ :=
  if status then (if tripped then ya * v else i) else 0

/-- `predictor_currentInjection` (297-346); the flag is not used. -/
noncomputable def Genrou.predCur (m : Genrou) : Genrou :=
  let p := m.par
  let B := -p.Xdpp / (p.Ra * p.Ra + p.Xdpp * p.Xdpp)
  let G := p.Ra / (p.Ra * p.Ra + p.Xdpp * p.Xdpp)
  let Vr := m.presentMag * Real.cos m.presentAng
  let Vi := m.presentMag * Real.sin m.presentAng
  let Ir := m.Id * Real.sin m.x.δ + m.Iq * Real.cos m.x.δ
  let Ii := -m.Id * Real.cos m.x.δ + m.Iq * Real.sin m.x.δ
  { m with B := B, G := G, Vterm := m.presentMag, Ir := Ir, Ii := Ii, genP := Vr * Ir + Vi * Ii,
           genQ := Vi * Ir - Vr * Ii,
           INorton := inject m.status m.tripped m.Ya ⟨Vr, Vi⟩
             (nortonCurrent (-p.psiqpp m.x) (p.psidpp m.x) G B m.x.δ (p.MBase / p.sbase)) }

/-- Terminal current in the machine frame (386-395, 558-568). -/
noncomputable def terminal (Vd Vq G B δ mag ang : ℝ) : ℝ × ℝ :=
  let Vr := mag * Real.cos ang
  let Vi := mag * Real.sin ang
  let Vdt := Vr * Real.sin δ - Vi * Real.cos δ
  let Vqt := Vr * Real.cos δ + Vi * Real.sin δ
  ((Vd - Vdt) * G - (Vq - Vqt) * B, (Vd - Vdt) * B + (Vq - Vqt) * G)

/-- `LadIfd` (399-401, 571-573). -/
noncomputable def GenrouPar.lad (p : GenrouPar) (x : X6) (Id : ℝ) : ℝ :=
  let T := (p.Xdp - p.Xdpp) / ((p.Xdp - p.Xl) * (p.Xdp - p.Xl)) * (-x.psid - (p.Xdp - p.Xl) * Id + x.eqp)
  x.eqp * (1 + p.sat x.eqp) + (p.Xd - p.Xdp) * (Id + T)

/-- The derivatives (398, 405-415 and 570, 574-583). -/
noncomputable def GenrouPar.deriv (p : GenrouPar) (x : X6) (Id Iq Efd Pmech : ℝ) : X6 :=
  let Telec := p.psidpp x * Iq - p.psiqpp x * Id
  let T := (p.Xqp - p.Xdpp) / ((p.Xqp - p.Xl) * (p.Xqp - p.Xl)) * (-x.psiq + (p.Xqp - p.Xl) * Iq + x.ed)
  { δ := x.w * 2 * Real.pi * 60
    w := 1 / (2 * p.H) * ((Pmech - p.D * x.w) / (1 + x.w) - Telec)
    eqp := (Efd - p.lad x Id) / p.Tdop
    psid := (-x.psid - (p.Xdp - p.Xl) * Id + x.eqp) / p.Tdopp
    psiq := (-x.psiq + (p.Xqp - p.Xl) * Iq + x.ed) / p.Tqopp
    ed := (-x.ed + (p.Xq - p.Xqp) * (Iq - T)) / p.Tqop }

/-- Lines 438-453, 455-468, 600-615, 618-631. -/
noncomputable def Genrou.off (m : Genrou) : Genrou := { m with x := .off, x1 := .off, genP := 0, genQ := 0 }

/-- `predictor` (353-472). -/
noncomputable def Genrou.predictor (m : Genrou) (dt : ℝ) : Genrou :=
  let p := m.par
  if m.status then
    let Efd := m.exc.efd
    let Pmech := m.gov.pmech
    let i := terminal (-p.psiqpp m.x) (p.psidpp m.x) m.G m.B m.x.δ m.presentMag m.presentAng
    let d := p.deriv m.x i.1 i.2 Efd Pmech
    let m' : Genrou :=
      { m with Efd := Efd, Pmech := Pmech, Vterm := m.presentMag, Id := i.1, Iq := i.2, LadIfd := p.lad m.x i.1,
               dx := d, x1 := m.x.add d dt, exc := m.exc.call m.presentMag dt .predictor,
               gov := m.gov.call m.x.w dt .predictor }
    if m.tripped then m'.off else m'
  else m.off

/-- `corrector_currentInjection` (478-521). -/
noncomputable def Genrou.corrCur (m : Genrou) : Genrou :=
  let p := m.par
  let B := -p.Xdpp / (p.Ra * p.Ra + p.Xdpp * p.Xdpp)
  let G := p.Ra / (p.Ra * p.Ra + p.Xdpp * p.Xdpp)
  let Vr := m.presentMag * Real.cos m.presentAng
  let Vi := m.presentMag * Real.sin m.presentAng
  { m with B := B, G := G, Vterm := m.presentMag,
           INorton := inject m.status m.tripped m.Ya ⟨Vr, Vi⟩
             (nortonCurrent (-p.psiqpp m.x1) (p.psidpp m.x1) G B m.x1.δ (p.MBase / p.sbase)) }

/-- `corrector` (528-634). -/
noncomputable def Genrou.corrector (m : Genrou) (dt : ℝ) : Genrou :=
  let p := m.par
  if m.status then
    let Efd := m.exc.efd
    let Pmech := m.gov.pmech
    let i := terminal (-p.psiqpp m.x1) (p.psidpp m.x1) m.G m.B m.x1.δ m.presentMag m.presentAng
    let d := p.deriv m.x1 i.1 i.2 Efd Pmech
    let m' : Genrou :=
      { m with Efd := Efd, Pmech := Pmech, Vterm := m.presentMag, Id := i.1, Iq := i.2, LadIfd := p.lad m.x1 i.1,
               dx1 := d, x := m.x.add (m.dx.mean d) dt, exc := m.exc.call m.presentMag dt .corrector,
               gov := m.gov.call m.x1.w dt .corrector }
    if m.tripped then m'.off else m'
  else m.off

/-- `tripGenerator` (636-641). -/
def Genrou.trip (m : Genrou) : Genrou × Bool := ({ m with tripped := true }, true)

/-- `setVoltage` (646-651). -/
noncomputable def Genrou.setVoltage (m : Genrou) (v : ℂ) : Genrou :=
  { m with presentMag := ‖v‖, presentAng := v.arg }

/-- `getWatchValues` (727-740). -/
noncomputable def Genrou.watch (m : Genrou) (systemBase : Bool) : List ℝ :=
  if systemBase then
    [m.x1.δ, m.x1.w + 1, m.genP * m.par.MBase / m.par.sbase, m.genQ * m.par.MBase / m.par.sbase]
  else [m.x1.δ, m.x1.w + 1, m.genP, m.genQ]

/-- `getState` (768-780) for the angle and the speed deviation. -/
def Genrou.getState (m : Genrou) : ℝ × ℝ := (m.x.δ, m.x.w)

/-! ### GENSAL -/

/-- Parameters as stored by `load`. -/
structure GensalPar where
  sbase : ℝ
  pg : ℝ
  qg : ℝ
  MBase : ℝ
  H : ℝ
  D : ℝ
  Ra : ℝ
  Xd : ℝ
  Xq : ℝ
  Xdp : ℝ
  Xdpp : ℝ
  Xl : ℝ
  Tdop : ℝ
  Tdopp : ℝ
  Tqopp : ℝ
  S10 : ℝ
  S12 : ℝ

/-- `load` (gensal.cpp 56-90). -/
noncomputable def GensalPar.load (d : Data) : GensalPar :=
  let sbase := d.sbase.getD 100
  let pg := d.pg.getD 0 * sbase
  let qg := d.qg.getD 0 * sbase
  { sbase := sbase, pg := pg, qg := qg, MBase := machineBase pg qg (d.mbase.getD 0), H := d.h.getD 0,
    D := d.d.getD 0, Ra := d.ra.getD 0, Xd := d.xd.getD 0, Xq := d.xq.getD 0, Xdp := d.xdp.getD 0,
    Xdpp := d.xdpp.getD 0, Xl := d.xl.getD 0, Tdop := d.tdop.getD 0, Tdopp := d.tdopp.getD 0,
    Tqopp := d.tqopp.getD 0, S10 := d.s1.getD 0.17, S12 := d.s12.getD 0.55 }

/-- `Sat` (96-112). -/
noncomputable def GensalPar.sat (p : GensalPar) (x : ℝ) : ℝ := satCurve p.S10 p.S12 x

/-- The state variables `x1d`, `x2w`, `x3Eqp`, `x4Psidp`, `x5Psiqpp`. -/
@[ext] structure X5 where
  δ : ℝ
  w : ℝ
  eqp : ℝ
  psid : ℝ
  psiq : ℝ

/-- `x + t d` for every variable. -/
noncomputable def X5.add (x d : X5) (t : ℝ) : X5 :=
  ⟨x.δ + d.δ * t, x.w + d.w * t, x.eqp + d.eqp * t, x.psid + d.psid * t, x.psiq + d.psiq * t⟩

/-- `(d + d') / 2`. -/
noncomputable def X5.mean (d d' : X5) : X5 :=
  ⟨(d.δ + d'.δ) / 2, (d.w + d'.w) / 2, (d.eqp + d'.eqp) / 2, (d.psid + d'.psid) / 2, (d.psiq + d'.psiq) / 2⟩

/-- The values of a machine that has been tripped or is out of service. -/
def X5.off : X5 := ⟨0, -1, 0, 0, 0⟩

/-- Data members (gensal.hpp). -/
structure Gensal where
  par : GensalPar
  presentMag : ℝ
  presentAng : ℝ
  Vterm : ℝ
  x0 : X5
  x1 : X5
  dx0 : X5
  dx1 : X5
  Id : ℝ
  Iq : ℝ
  Ir : ℝ
  Ii : ℝ
  genP : ℝ
  genQ : ℝ
  B : ℝ
  G : ℝ
  Efd : ℝ
  LadIfd : ℝ
  Pmech : ℝ
  Ya : ℂ
  INorton : ℂ
  status : Bool
  tripped : Bool
  exc : Exc
  gov : Gov

/-- `NortonImpedence` (202-211). -/
noncomputable def GensalPar.norton (p : GensalPar) : ℂ :=
  let ra := p.Ra * p.sbase / p.MBase
  let xd := p.Xdpp * p.sbase / p.MBase
  ⟨ra / (ra * ra + xd * xd), -xd / (ra * ra + xd * xd)⟩

/-- `init` (119-186). -/
noncomputable def Gensal.init (m : Gensal) (mag ang : ℝ) : Gensal :=
  let p := m.par
  let P := p.pg / p.MBase
  let Q := p.qg / p.MBase
  let Vr := mag * Real.cos ang
  let Vi := mag * Real.sin ang
  let Ir := (P * Vr + Q * Vi) / (mag * mag)
  let Ii := (P * Vi - Q * Vr) / (mag * mag)
  let δ := Complex.arg ⟨Vr + Ir * p.Ra - Ii * p.Xq, Vi + Ir * p.Xq + Ii * p.Ra⟩
  let Id := Ir * Real.sin δ - Ii * Real.cos δ
  let Iq := Ir * Real.cos δ + Ii * Real.sin δ
  let Vqt := Vr * Real.cos δ + Vi * Real.sin δ
  let psiq5 := (p.Xdpp - p.Xq) * Iq
  let Psiq := psiq5 - Iq * p.Xdpp
  let Psid := Vqt + p.Ra * Iq
  let psid := Psid + Id * p.Xdpp - Id * (p.Xdpp - p.Xl)
  let eqp := psid + Id * (p.Xdp - p.Xl)
  let Efd := eqp * (1 + p.sat eqp) + Id * (p.Xd - p.Xdp)
  let Pmech := Psid * Iq - Psiq * Id
  { m with Vterm := mag, presentMag := mag, presentAng := ang, genP := P, genQ := Q, Ir := Ir, Ii := Ii,
           x0 := ⟨δ, 0, eqp, psid, psiq5⟩, Id := Id, Iq := Iq, Efd := Efd, LadIfd := Efd, Pmech := Pmech,
           exc := m.exc.start mag Efd, gov := m.gov.start Pmech 0, Ya := p.norton, G := p.norton.re,
           B := p.norton.im }

/-- The assignments under `if (!flag)` (219-225, 314-320). -/
def Gensal.advance (m : Gensal) (flag : Bool) : Gensal := if flag then m else { m with x0 := m.x1 }

/-- `Psidpp` (233-234, 327-328, 347-348, 421-422, 508-509, 527-528). -/
noncomputable def GensalPar.psidpp (p : GensalPar) (x : X5) : ℝ :=
  x.eqp * (p.Xdpp - p.Xl) / (p.Xdp - p.Xl) + x.psid * (p.Xdp - p.Xdpp) / (p.Xdp - p.Xl)

/-- `predictor_currentInjection` (217-274). -/
noncomputable def Gensal.predCur (m : Gensal) (flag : Bool) : Gensal :=
  let m := m.advance flag
  let p := m.par
  let B := -p.Xdpp / (p.Ra * p.Ra + p.Xdpp * p.Xdpp)
  let G := p.Ra / (p.Ra * p.Ra + p.Xdpp * p.Xdpp)
  let Vr := m.presentMag * Real.cos m.presentAng
  let Vi := m.presentMag * Real.sin m.presentAng
  let i := terminal (-m.x0.psiq) (p.psidpp m.x0) G B m.x0.δ m.presentMag m.presentAng
  let Ir := i.1 * Real.sin m.x0.δ + i.2 * Real.cos m.x0.δ
  let Ii := -i.1 * Real.cos m.x0.δ + i.2 * Real.sin m.x0.δ
  { m with B := B, G := G, Vterm := m.presentMag, Id := i.1, Iq := i.2, Ir := Ir, Ii := Ii,
           genP := Vr * Ir + Vi * Ii, genQ := Vi * Ir - Vr * Ii,
           INorton := inject m.status m.tripped m.Ya ⟨Vr, Vi⟩
             (nortonCurrent (-m.x0.psiq) (p.psidpp m.x0) G B m.x0.δ (p.MBase / p.sbase)) }

/-- `LadIfd` (351-353, 531-533). -/
noncomputable def GensalPar.lad (p : GensalPar) (x : X5) (Id : ℝ) : ℝ :=
  let T := (p.Xdp - p.Xdpp) / ((p.Xdp - p.Xl) * (p.Xdp - p.Xl)) * (-x.psid - (p.Xdp - p.Xl) * Id + x.eqp)
  x.eqp * (1 + p.sat x.eqp) + (p.Xd - p.Xdp) * (Id + T)

/-- The derivatives (346-358, 526-538). -/
noncomputable def GensalPar.deriv (p : GensalPar) (x : X5) (Id Iq Efd Pmech : ℝ) : X5 :=
  let Psiq := x.psiq - Iq * p.Xdpp
  let Psid := p.psidpp x - Id * p.Xdpp
  let Telec := Psid * Iq - Psiq * Id
  { δ := x.w * 2 * Real.pi * 60
    w := 1 / (2 * p.H) * ((Pmech - p.D * x.w) / (1 + x.w) - Telec)
    eqp := (Efd - p.lad x Id) / p.Tdop
    psid := (-x.psid - (p.Xdp - p.Xl) * Id + x.eqp) / p.Tdopp
    psiq := (-x.psiq - (p.Xq - p.Xdpp) * Iq) / p.Tqopp }

/-- The assignments of a machine out of service or tripped (285-296, 392-405, 474-485, 572-585). -/
noncomputable def Gensal.off (m : Gensal) : Gensal := { m with x0 := .off, x1 := .off, genP := 0, genQ := 0 }

/-- `predictor` (281-406). -/
noncomputable def Gensal.predictor (m : Gensal) (dt : ℝ) (flag : Bool) : Gensal :=
  if m.status then
    let m := m.advance flag
    let p := m.par
    let Efd := m.exc.efd
    let Pmech := m.gov.pmech
    let B := -p.Xdpp / (p.Ra * p.Ra + p.Xdpp * p.Xdpp)
    let G := p.Ra / (p.Ra * p.Ra + p.Xdpp * p.Xdpp)
    let i := terminal (-m.x0.psiq) (p.psidpp m.x0) G B m.x0.δ m.presentMag m.presentAng
    let d := p.deriv m.x0 i.1 i.2 Efd Pmech
    let m' : Gensal :=
      { m with Efd := Efd, Pmech := Pmech, B := B, G := G, Vterm := m.presentMag, Id := i.1, Iq := i.2,
               LadIfd := p.lad m.x0 i.1, dx0 := d, x1 := m.x0.add d dt,
               exc := m.exc.call m.presentMag dt .predictor, gov := m.gov.call m.x0.w dt .predictor }
    if m.tripped then m'.off else m'
  else m.off

/-- `corrector_currentInjection` (412-463). -/
noncomputable def Gensal.corrCur (m : Gensal) : Gensal :=
  let p := m.par
  let B := -p.Xdpp / (p.Ra * p.Ra + p.Xdpp * p.Xdpp)
  let G := p.Ra / (p.Ra * p.Ra + p.Xdpp * p.Xdpp)
  let Vr := m.presentMag * Real.cos m.presentAng
  let Vi := m.presentMag * Real.sin m.presentAng
  let i := terminal (-m.x1.psiq) (p.psidpp m.x1) G B m.x1.δ m.presentMag m.presentAng
  { m with B := B, G := G, Vterm := m.presentMag, Id := i.1, Iq := i.2,
           Ir := i.1 * Real.sin m.x1.δ + i.2 * Real.cos m.x1.δ,
           Ii := -i.1 * Real.cos m.x1.δ + i.2 * Real.sin m.x1.δ,
           INorton := inject m.status m.tripped m.Ya ⟨Vr, Vi⟩
             (nortonCurrent (-m.x1.psiq) (p.psidpp m.x1) G B m.x1.δ (p.MBase / p.sbase)) }

/-- `corrector` (470-586). -/
noncomputable def Gensal.corrector (m : Gensal) (dt : ℝ) : Gensal :=
  let p := m.par
  if m.status then
    let Efd := m.exc.efd
    let Pmech := m.gov.pmech
    let B := -p.Xdpp / (p.Ra * p.Ra + p.Xdpp * p.Xdpp)
    let G := p.Ra / (p.Ra * p.Ra + p.Xdpp * p.Xdpp)
    let i := terminal (-m.x1.psiq) (p.psidpp m.x1) G B m.x1.δ m.presentMag m.presentAng
    let d := p.deriv m.x1 i.1 i.2 Efd Pmech
    let x := m.x0.add (m.dx0.mean d) dt
    let m' : Gensal :=
      { m with Efd := Efd, Pmech := Pmech, B := B, G := G, Vterm := m.presentMag, Id := i.1, Iq := i.2,
               LadIfd := p.lad m.x1 i.1, dx1 := d, x1 := x,
               exc := m.exc.call m.presentMag dt .corrector, gov := m.gov.call x.w dt .corrector }
    if m.tripped then m'.off else m'
  else m.off

/-- `tripGenerator` (597-602). -/
def Gensal.trip (m : Gensal) : Gensal × Bool := ({ m with tripped := true }, true)

/-- `setVoltage` (607-611). -/
noncomputable def Gensal.setVoltage (m : Gensal) (v : ℂ) : Gensal :=
  { m with presentMag := ‖v‖, presentAng := v.arg }

/-- `getWatchValues` (686-700). -/
noncomputable def Gensal.watch (m : Gensal) (systemBase : Bool) : List ℝ :=
  if systemBase then
    [m.x1.δ, m.x1.w + 1, m.genP * m.par.MBase / m.par.sbase, m.genQ * m.par.MBase / m.par.sbase]
  else [m.x1.δ, m.x1.w + 1, m.genP, m.genQ]

/-! ### Generators of a bus -/

/-- An element of `p_generators`.  `base`: no dynamic model (dsf_components.cpp 1106-1109).  `u` is the
uninitialised local of `ClassicalGenerator::NortonImpedence`, the same at every call. -/
inductive Gen
  | base
  | classical (c : Classical) (u : ℝ)
  | genrou (m : Genrou)
  | gensal (m : Gensal)

/-- `init` (base_generator_model.cpp: nothing). -/
noncomputable def Gen.init : Gen → ℝ → ℝ → Gen
  | .base, _, _ => .base
  | .classical c u, v, a => .classical (c.init v a) u
  | .genrou m, v, a => .genrou (m.init v a)
  | .gensal m, v, a => .gensal (m.init v a)

/-- `NortonImpedence` (base: 0). -/
noncomputable def Gen.norton : Gen → ℂ
  | .base => 0
  | .classical c u => c.norton u
  | .genrou m => m.par.norton
  | .gensal m => m.par.norton

/-- `INorton` (base: 0). -/
def Gen.inorton : Gen → ℂ
  | .base => 0
  | .classical c _ => c.INorton
  | .genrou m => m.INorton
  | .gensal m => m.INorton

noncomputable def Gen.predCur : Gen → Bool → Gen
  | .base, _ => .base
  | .classical c u, f => .classical (c.predCur f) u
  | .genrou m, _ => .genrou m.predCur
  | .gensal m, f => .gensal (m.predCur f)

noncomputable def Gen.corrCur : Gen → Gen
  | .base => .base
  | .classical c u => .classical c.corrCur u
  | .genrou m => .genrou m.corrCur
  | .gensal m => .gensal m.corrCur

noncomputable def Gen.predictor : Gen → ℝ → Bool → Gen
  | .base, _, _ => .base
  | .classical c u, dt, f => .classical (c.predictor dt f) u
  | .genrou m, dt, _ => .genrou (m.predictor dt)
  | .gensal m, dt, f => .gensal (m.predictor dt f)

noncomputable def Gen.corrector : Gen → ℝ → Gen
  | .base, _ => .base
  | .classical c u, dt => .classical (c.corrector dt) u
  | .genrou m, dt => .genrou (m.corrector dt)
  | .gensal m, dt => .gensal (m.corrector dt)

noncomputable def Gen.setVoltage : Gen → ℂ → Gen
  | .base, _ => .base
  | .classical c u, v => .classical (c.setVoltage v) u
  | .genrou m, v => .genrou (m.setVoltage v)
  | .gensal m, v => .gensal (m.setVoltage v)

/-- `getWatchValues` (base: empty). -/
noncomputable def Gen.watch : Gen → Bool → List ℝ
  | .base, _ => []
  | .classical c _, b => c.watch b
  | .genrou m, b => m.watch b
  | .gensal m, b => m.watch b

/-- `tripGenerator` (base_generator_model.cpp: returns true and does nothing, also for the classical model). -/
def Gen.trip : Gen → Gen × Bool
  | .base => (.base, true)
  | .classical c u => (.classical c u, true)
  | .genrou m => (.genrou m.trip.1, m.trip.2)
  | .gensal m => (.gensal m.trip.1, m.trip.2)

/-- `getAngle`: classical.cpp 419-422; GENROU and GENSAL do not override the base class, which returns 0. -/
def Gen.getAngle : Gen → ℝ
  | .classical c _ => c.ang1
  | _ => 0

end GridPACK.Machines
