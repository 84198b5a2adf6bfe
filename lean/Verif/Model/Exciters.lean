import Verif.Model.Cblock
import Verif.Model.Dblock
import Mathlib.Analysis.Real.Sqrt

/-! Model of the exciters SEXS, EXDC1, IEEET1 and ESST1A
(src/applications/modules/dynamic_simulation_full_y/model_classes/{sexs,exdc1,ieeet1,esst1a}.cpp), built
from the control blocks of `Cblock` and `Dblock`.

Doubles are real numbers; division by zero gives 0 here instead of an infinity.  Parameters are given as in
`Governors`: `none` if the data collection has no value.  A result `none` means that one of the blocks
throws.  Members that a constructor leaves uninitialised are arbitrary.  A generator drives an exciter with
`setVterminal`, `setVcomp`, `setFieldVoltage`, `setFieldCurrent`, `init` and then, in every time step, the
setters for its inputs followed by `predictor`, the setters again, `corrector`, and reads
`getFieldVoltage`. -/
namespace GridPACK.Exciters
open GridPACK.Cblock

/-- The threshold `1e-6` for time constants. -/
noncomputable def small : Real := 1 / 10 ^ 6

open Classical in
/-- `fabs(v) < 1e-6`. -/
noncomputable def isSmall (v : Real) : Bool := if |v| < small then true else false

/-- Set up a block unless the flag is set: `if (!z) blk.setparams(...)`. -/
def optional (z : Bool) (b : Block) (r : Option Block) : Option Block := if z then some b else r

/-- `if (z) u = alt; else u = blk.init_given_y(y);` -/
noncomputable def back (z : Bool) (b : Block) (y alt : Real) : Block × Real :=
  if z then (b, alt) else initGivenY b y

/-- `if (z) y = alt; else y = blk.init_given_u(u);` -/
noncomputable def start (z : Bool) (b : Block) (u alt : Real) : Block × Real :=
  if z then (b, alt) else initGivenU b u

/-- `if (z) y = alt; else y = blk.getoutput(u, t_inc, int_flag, true);` -/
noncomputable def pass (z : Bool) (b : Block) (u alt dt : Real) (s : Stage) : Block × Real :=
  if z then (b, alt) else getoutput b u dt s true

/-- `GainLimiter::setparams(K, ymin, ymax)` (dblock.cpp 11-16). -/
def setGain (g : Dblock.GainLimiter) (K lo hi : Real) : Dblock.GainLimiter :=
  { g with K := K, ymin := lo, ymax := hi }

/-! ### SEXS -/

/-- Parameters in the data collection (sexs.cpp 57-62). -/
structure SexsData where
  TAoverTB : Option Real
  TB : Option Real
  K : Option Real
  EMAX : Option Real
  EMIN : Option Real
  TE : Option Real

/-- Data members (sexs.hpp 143-168). -/
structure Sexs where
  TA : Real
  TB : Real
  K : Real
  EMAX : Real
  EMIN : Real
  TE : Real
  Efd : Real
  Ec : Real
  Vs : Real
  Vref : Real
  zeroTE : Bool
  leadlag : Block
  filterB : Block
  gain : Dblock.GainLimiter

/-- `load` (53-82). -/
noncomputable def Sexs.load (g : Sexs) (d : SexsData) : Option Sexs :=
  let r := d.TAoverTB.getD 0
  let TB := d.TB.getD 0
  let K := d.K.getD 0
  let EMAX := d.EMAX.getD 0
  let EMIN := d.EMIN.getD 0
  let TE := d.TE.getD 0
  let TA := r * TB
  let z := isSmall TE
  (leadLag g.leadlag TA TB).bind fun l =>
    (optional z g.filterB (withLimits (filter g.filterB K TE) EMIN EMAX (-1000) 1000)).map fun f =>
      { g with TA := TA, TB := TB, K := K, EMAX := EMAX, EMIN := EMIN, TE := TE, leadlag := l, zeroTE := z,
               filterB := f, gain := if z then setGain g.gain K EMIN EMAX else g.gain, Vs := 0 }

/-- `setFieldVoltage` (166-170). -/
def Sexs.setFieldVoltage (g : Sexs) (v : Real) : Sexs := { g with Efd := v }

/-- `setVterminal` (185-188). -/
def Sexs.setVterminal (g : Sexs) (v : Real) : Sexs := { g with Ec := v }

/-- `setVstab` (190-193). -/
def Sexs.setVstab (g : Sexs) (v : Real) : Sexs := { g with Vs := v }

/-- `init` (90-112). -/
noncomputable def Sexs.init (g : Sexs) (Vm : Real) : Sexs :=
  let f := back g.zeroTE g.filterB g.Efd (min g.EMAX (max g.EMIN (g.Efd / g.K)))
  let l := initGivenY g.leadlag f.2
  { g with filterB := f.1, leadlag := l.1, Vref := Vm + l.2 - g.Vs }

/-- `predictor` (119-136) and `corrector` (143-160): the same statements with a different stage. -/
noncomputable def Sexs.compute (g : Sexs) (dt : Real) (s : Stage) : Sexs :=
  let l := getoutput g.leadlag (g.Vref + g.Vs - g.Ec) dt s true
  let f := pass g.zeroTE g.filterB l.2 (g.gain.output l.2) dt s
  { g with leadlag := l.1, filterB := f.1, Efd := f.2 }

/-! ### EXDC1 -/

/-- Parameters in the data collection (exdc1.cpp 63-77). -/
structure Exdc1Data where
  TR : Option Real
  KA : Option Real
  TA : Option Real
  TB : Option Real
  TC : Option Real
  Vrmax : Option Real
  Vrmin : Option Real
  KE : Option Real
  TE : Option Real
  KF : Option Real
  TF1 : Option Real
  E1 : Option Real
  SE1 : Option Real
  E2 : Option Real
  SE2 : Option Real

/-- Data members (exdc1.hpp 132-168) used after `load`.  Also used for IEEET1 (ieeet1.hpp 133-163), which
has the same members except the lead-lag block and its parameters. -/
structure Exdc1 where
  KA : Real
  KE : Real
  Vrmax : Real
  Vrmin : Real
  TC : Real
  Ec : Real
  Vref : Real
  Vs : Real
  Efd : Real
  Vmeas : Block
  leadlag : Block
  regulator : Block
  gain : Dblock.GainLimiter
  feedback : Block
  output : Block
  satA : Real
  satB : Real
  hasSat : Bool
  hasLeadlag : Bool
  zeroTA : Bool
  zeroTR : Bool

/-- The constructor's values (exdc1.cpp 36-42; ieeet1.cpp 36-41). -/
def Exdc1.construct (g : Exdc1) : Exdc1 :=
  { g with Vs := 0, satA := 0, satB := 0, hasSat := true, hasLeadlag := true, zeroTA := false, zeroTR := false }

/-- `r = sqrt(SE1*E1/(SE2*E2))`, `sat_A` and `sat_B` (84-90). -/
noncomputable def satRatio (E1 SE1 E2 SE2 : Real) : Real := Real.sqrt (SE1 * E1 / (SE2 * E2))

noncomputable def satCoefA (E1 SE1 E2 SE2 : Real) : Real :=
  (E1 - satRatio E1 SE1 E2 SE2 * E2) / (1 - satRatio E1 SE1 E2 SE2)

noncomputable def satCoefB (E1 SE1 E2 SE2 : Real) : Real :=
  SE1 * E1 / ((E1 - satCoefA E1 SE1 E2 SE2) * (E1 - satCoefA E1 SE1 E2 SE2))

/-- `load` (59-113).  The flags are only changed to the value given by their test. -/
noncomputable def Exdc1.load (g : Exdc1) (d : Exdc1Data) : Option Exdc1 :=
  let TR := d.TR.getD 0
  let KA := d.KA.getD 0
  let TA := d.TA.getD 0
  let TB := d.TB.getD 0
  let TC := d.TC.getD 0
  let Vrmax := d.Vrmax.getD 0
  let Vrmin := d.Vrmin.getD 0
  let KE := d.KE.getD 0
  let TE := d.TE.getD 0
  let KF := d.KF.getD 0
  let TF1 := d.TF1.getD 0
  let E1 := d.E1.getD 0
  let SE1 := d.SE1.getD 0
  let E2 := d.E2.getD 0
  let SE2 := d.SE2.getD 0
  let hasSat := g.hasSat && !isSmall (SE1 * SE2)
  let hasLeadlag := g.hasLeadlag && !isSmall (TB * TC)
  let zeroTA := g.zeroTA || isSmall TA
  let zeroTR := g.zeroTR || isSmall TR
  (optional zeroTR g.Vmeas (filter g.Vmeas 1 TR)).bind fun m =>
    (optional (!hasLeadlag) g.leadlag (leadLag g.leadlag TA TB)).bind fun l =>
      (optional zeroTA g.regulator (withLimits (filter g.regulator KA TA) Vrmin Vrmax (-1000) 1000)).bind fun r =>
        (setcoeffs g.feedback TF1 1 KF 0).bind fun f =>
          (integrator g.output TE).map fun o =>
            { g with KA := KA, KE := KE, Vrmax := Vrmax, Vrmin := Vrmin, TC := TC, hasSat := hasSat,
                     hasLeadlag := hasLeadlag, zeroTA := zeroTA, zeroTR := zeroTR,
                     satA := if hasSat then satCoefA E1 SE1 E2 SE2 else g.satA,
                     satB := if hasSat then satCoefB E1 SE1 E2 SE2 else g.satB,
                     Vmeas := m, leadlag := l, regulator := r,
                     gain := if zeroTA then setGain g.gain KA Vrmin Vrmax else g.gain,
                     feedback := f, output := o }

open Classical in
/-- `Sat` (122-130). -/
noncomputable def Exdc1.Sat (g : Exdc1) (x : Real) : Real :=
  if x < g.satA then 0 else g.satB * (x - g.satA) * (x - g.satA) / x

/-- `sat_signal` (145-148, 201-204). -/
noncomputable def Exdc1.satSignal (g : Exdc1) : Real :=
  if g.hasSat then g.KE * g.Efd + g.Efd * g.Sat g.Efd else g.KE * g.Efd

/-- `setFieldVoltage` (237-240). -/
def Exdc1.setFieldVoltage (g : Exdc1) (v : Real) : Exdc1 := { g with Efd := v }

/-- `setVterminal` (254-257). -/
def Exdc1.setVterminal (g : Exdc1) (v : Real) : Exdc1 := { g with Ec := v }

/-- `setVstab` (262-265). -/
def Exdc1.setVstab (g : Exdc1) (v : Real) : Exdc1 := { g with Vs := v }

/-- `init` (138-173). -/
noncomputable def Exdc1.init (g : Exdc1) : Exdc1 :=
  let f := initGivenU g.feedback g.Efd
  let o := initGivenY g.output g.Efd
  let VR := o.2 + g.satSignal
  let r := back g.zeroTA g.regulator VR (VR / g.KA)
  let l := back (!g.hasLeadlag) g.leadlag r.2 r.2
  let m := start g.zeroTR g.Vmeas g.Ec g.Ec
  { g with feedback := f.1, output := o.1, regulator := r.1, leadlag := l.1, Vmeas := m.1,
           Vref := (l.2 - f.2 + g.Vs) + m.2 }

/-- `computeModel` (178-211), the body of `predictor` and `corrector` (217-231). -/
noncomputable def Exdc1.compute (g : Exdc1) (dt : Real) (s : Stage) : Exdc1 :=
  let m := pass g.zeroTR g.Vmeas g.Ec g.Ec dt s
  let f := getoutput g.feedback g.Efd dt s true
  let u := g.Vref - m.2 + g.Vs - f.2
  let l := pass (!g.hasLeadlag) g.leadlag u u dt s
  let r := pass g.zeroTA g.regulator l.2 (g.gain.output l.2) dt s
  let o := getoutput g.output (r.2 - g.satSignal) dt s true
  { g with Vmeas := m.1, feedback := f.1, leadlag := l.1, regulator := r.1, output := o.1, Efd := o.2 }

/-! ### IEEET1 -/

/-- IEEET1 uses the same data; `load` (ieeet1.cpp 56-103) has the same statements as that of EXDC1 without
the lead-lag block.  The lead-lag members are not used. -/
noncomputable def ieeet1Load (g : Exdc1) (d : Exdc1Data) : Option Exdc1 :=
  let TR := d.TR.getD 0
  let KA := d.KA.getD 0
  let TA := d.TA.getD 0
  let Vrmax := d.Vrmax.getD 0
  let Vrmin := d.Vrmin.getD 0
  let KE := d.KE.getD 0
  let TE := d.TE.getD 0
  let KF := d.KF.getD 0
  let TF1 := d.TF1.getD 0
  let E1 := d.E1.getD 0
  let SE1 := d.SE1.getD 0
  let E2 := d.E2.getD 0
  let SE2 := d.SE2.getD 0
  let hasSat := g.hasSat && !isSmall (SE1 * SE2)
  let zeroTA := g.zeroTA || isSmall TA
  let zeroTR := g.zeroTR || isSmall TR
  (optional zeroTR g.Vmeas (filter g.Vmeas 1 TR)).bind fun m =>
    (optional zeroTA g.regulator (withLimits (filter g.regulator KA TA) Vrmin Vrmax (-1000) 1000)).bind fun r =>
      (setcoeffs g.feedback TF1 1 KF 0).bind fun f =>
        (integrator g.output TE).map fun o =>
          { g with KA := KA, KE := KE, Vrmax := Vrmax, Vrmin := Vrmin, hasSat := hasSat, zeroTA := zeroTA,
                   zeroTR := zeroTR,
                   satA := if hasSat then satCoefA E1 SE1 E2 SE2 else g.satA,
                   satB := if hasSat then satCoefB E1 SE1 E2 SE2 else g.satB,
                   Vmeas := m, regulator := r,
                   gain := if zeroTA then setGain g.gain KA Vrmin Vrmax else g.gain,
                   feedback := f, output := o }

/-- `init` (ieeet1.cpp 128-157). -/
noncomputable def ieeet1Init (g : Exdc1) : Exdc1 :=
  let f := initGivenU g.feedback g.Efd
  let o := initGivenY g.output g.Efd
  let VR := o.2 + g.satSignal
  let r := back g.zeroTA g.regulator VR (VR / g.KA)
  let m := start g.zeroTR g.Vmeas g.Ec g.Ec
  { g with feedback := f.1, output := o.1, regulator := r.1, Vmeas := m.1,
           Vref := (r.2 + f.2) + m.2 - g.Vs }

/-- `computeModel` (ieeet1.cpp 162-190). -/
noncomputable def ieeet1Compute (g : Exdc1) (dt : Real) (s : Stage) : Exdc1 :=
  let m := pass g.zeroTR g.Vmeas g.Ec g.Ec dt s
  let f := getoutput g.feedback g.Efd dt s true
  let u := g.Vref - m.2 + g.Vs - f.2
  let r := pass g.zeroTA g.regulator u (g.gain.output u) dt s
  let o := getoutput g.output (r.2 - g.satSignal) dt s true
  { g with Vmeas := m.1, feedback := f.1, regulator := r.1, output := o.1, Efd := o.2 }

/-! ### ESST1A -/

/-- Data members (esst1a.hpp).  `load` sets `UEL = VOS = 1`, so the
branches for other values cannot be taken and are left out, with the two high-value gates that only they
use; it also sets `Vothsg = 0`, `Vuel = 0`, `Voel = 1000`, whose setters no other code calls.  `Vstab` is
stored by `setVstab` (359-362) and never read. -/
structure Esst1a where
  Tr : Real
  Vimax : Real
  Vimin : Real
  Tc : Real
  Tb : Real
  Tc1 : Real
  Tb1 : Real
  Ka : Real
  Ta : Real
  Vrmax : Real
  Vrmin : Real
  Kc : Real
  Kf : Real
  Tf : Real
  Klr : Real
  Ilr : Real
  Vcomp : Real
  LadIfd : Real
  Vstab : Real
  Vothsg : Real
  Vuel : Real
  Voel : Real
  Vterm : Real
  Efd : Real
  filterR : Block
  leadlag : Block
  leadlag1 : Block
  regulator : Block
  gain : Dblock.GainLimiter
  lv : Real
  feedback : Block
  zeroTA : Bool
  zeroTR : Bool
  Vref : Real

/-- Parameters in the data collection (esst1a.cpp 60-77) that are used. -/
structure Esst1aData where
  Tr : Option Real
  Vimax : Option Real
  Vimin : Option Real
  Tc : Option Real
  Tb : Option Real
  Tc1 : Option Real
  Tb1 : Option Real
  Ka : Option Real
  Ta : Option Real
  Vrmax : Option Real
  Vrmin : Option Real
  Kc : Option Real
  Kf : Option Real
  Tf : Option Real
  Klr : Option Real
  Ilr : Option Real

/-- The constructor's values (31-37). -/
def Esst1a.construct (g : Esst1a) : Esst1a := { g with zeroTA := false, zeroTR := false }

/-- `load` (54-86). -/
noncomputable def Esst1a.load (g : Esst1a) (d : Esst1aData) : Esst1a :=
  { g with Tr := d.Tr.getD 0,
           Vimax := d.Vimax.getD 0,
           Vimin := d.Vimin.getD 0,
           Tc := d.Tc.getD 0,
           Tb := d.Tb.getD 0,
           Tc1 := d.Tc1.getD 0,
           Tb1 := d.Tb1.getD 0,
           Ka := d.Ka.getD 0,
           Ta := d.Ta.getD 0,
           Vrmax := d.Vrmax.getD 0,
           Vrmin := d.Vrmin.getD 0,
           Kc := d.Kc.getD 0,
           Kf := d.Kf.getD 0,
           Tf := d.Tf.getD 0,
           Klr := d.Klr.getD 0,
           Ilr := d.Ilr.getD 0,
           Vothsg := 0, Vuel := 0, Voel := 1000 }

/-- `setFieldVoltage` (299-302), `setFieldCurrent` (308-311). -/
def Esst1a.setFieldVoltage (g : Esst1a) (v : Real) : Esst1a := { g with Efd := v }
def Esst1a.setFieldCurrent (g : Esst1a) (v : Real) : Esst1a := { g with LadIfd := v }

/-- `setVterminal` (335-339), `setVcomp` (354-357), `setVstab` (359-362). -/
def Esst1a.setVterminal (g : Esst1a) (v : Real) : Esst1a := { g with Vterm := v }
def Esst1a.setVcomp (g : Esst1a) (v : Real) : Esst1a := { g with Vcomp := v }
def Esst1a.setVstab (g : Esst1a) (v : Real) : Esst1a := { g with Vstab := v }

open Classical in
/-- `T < TS_THRESHOLD * ts` (120-124). -/
noncomputable def tooShort (T ts : Real) : Bool := if T < 4 * ts then true else false

open Classical in
/-- `(LadIfd - Ilr) * Klr` if positive, else 0 (176-177, 252-253). -/
noncomputable def Esst1a.overload (g : Esst1a) : Real :=
  if (g.LadIfd - g.Ilr) * g.Klr > 0 then (g.LadIfd - g.Ilr) * g.Klr else 0

open Classical in
/-- Part of `init` after the blocks have been set up (149-207); `VA = Efd + overload` (175-178).  Changes
of `Vamax`, `Vamin`, which nothing reads, are left out. -/
noncomputable def Esst1a.initBlocks (g : Esst1a) : Esst1a :=
  let f := initGivenU g.feedback g.Efd
  let Vrmax := if g.Efd > g.Vterm * g.Vrmax - g.Kc * g.LadIfd then (g.Efd + g.Kc * g.LadIfd) / g.Vterm + 21 / 100
    else g.Vrmax
  let Vrmin := if g.Efd < g.Vterm * g.Vrmin then g.Efd / g.Vterm - 1 / 10 else g.Vrmin
  let Voel := if g.Efd > g.Voel then g.Efd + 1 / 10 else g.Voel
  let Vuel := if g.Efd < g.Vuel then g.Efd - 1 / 10 else g.Vuel
  let r := initGivenY g.regulator (g.Efd + g.overload)
  let l1 := initGivenY g.leadlag1 r.2
  let l := initGivenY g.leadlag l1.2
  let Vuel := if l.2 < Vuel then l.2 - 1 / 10 else Vuel
  let m := initGivenU g.filterR g.Vcomp
  { g with feedback := f.1, Vrmax := Vrmax, Vrmin := Vrmin, Voel := Voel, lv := Voel, Vuel := Vuel,
           regulator := r.1, leadlag1 := l1.1, leadlag := l.1,
           Vimax := if l.2 > g.Vimax then l.2 + 1 / 10 else g.Vimax,
           Vimin := if l.2 < g.Vimin then l.2 - 1 / 10 else g.Vimin,
           filterR := m.1, Vref := l.2 + m.2 - (0 + Vuel + g.Vothsg) + f.2 }

/-- `init(mag, ang, ts)` (118-208).  The flags for `Tf`, `Tb`, `Tb1` are computed there but never used. -/
noncomputable def Esst1a.init (g : Esst1a) (mag ts : Real) : Option Esst1a :=
  let zeroTA := g.zeroTA || tooShort g.Ta ts
  let zeroTR := g.zeroTR || tooShort g.Tr ts
  (optional zeroTR g.filterR (filter g.filterR 1 g.Tr)).bind fun m =>
    (leadLag g.leadlag g.Tc g.Tb).bind fun l =>
      (leadLag g.leadlag1 g.Tc1 g.Tb1).bind fun l1 =>
        (optional zeroTA g.regulator
            (withLimits (filter g.regulator g.Ka g.Ta) g.Vrmin g.Vrmax (-1000) 1000)).bind fun r =>
          (setcoeffs g.feedback g.Tf 1 g.Kf 0).map fun f =>
            Esst1a.initBlocks { g with
              zeroTA := zeroTA, zeroTR := zeroTR, filterR := m, leadlag := l, leadlag1 := l1, regulator := r,
              gain := if zeroTA then setGain g.gain g.Ka g.Vrmin g.Vrmax else g.gain,
              feedback := f, Vterm := mag }

open Classical in
/-- `if (v > hi) v = hi; else if (v < lo) v = lo;` -/
noncomputable def limit (lo hi v : Real) : Real := if v > hi then hi else if v < lo then lo else v

/-- `computeModel` (213-271), the body of `predictor` and `corrector` (278-293).  The regulator gets the
output of the first lead-lag block (244) unless it is a plain gain (242). -/
noncomputable def Esst1a.compute (g : Esst1a) (dt : Real) (s : Stage) : Esst1a :=
  let m := pass g.zeroTR g.filterR g.Vcomp g.Vcomp dt s
  let f := getoutput g.feedback g.Efd dt s true
  let u := limit g.Vimin g.Vimax (g.Vref - m.2 + (0 + g.Vuel + g.Vothsg) - f.2)
  let l := getoutput g.leadlag u dt s true
  let l1 := getoutput g.leadlag1 l.2 dt s true
  let r := pass g.zeroTA g.regulator l.2 (g.gain.output l1.2) dt s
  let u2 := Dblock.lvGate g.lv (r.2 - g.overload)
  { g with filterR := m.1, feedback := f.1, leadlag := l.1, leadlag1 := l1.1, regulator := r.1,
           Efd := limit (g.Vterm * g.Vrmin) (g.Vterm * g.Vrmax - g.Kc * g.LadIfd) u2 }

end GridPACK.Exciters
