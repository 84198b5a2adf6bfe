import Verif.Model.YMatrix
import Verif.Model.StringUtils

/-! Model of the composite load (CMLDBLU1) in the dynamic simulation: `DSFullBus::LoadExtendedCmplBus`
(src/applications/modules/dynamic_simulation_full_y/dsf_components.cpp 1383-1777), `SetCmplXfmrBranch`, `SetCmplFeederBranch`
(4064-4095), the expansion of the bus into a transformer, a low side bus, a feeder and a load bus
(src/parser/parser_classes/cmldblu1.hpp 2904-3529, src/parser/base_pti_parser.hpp 151-287), and `LoadFactory::createLoadModel`
(load_factory.cpp 48-77).

The transformer runs from the bus of the load to the low side bus, the feeder from there to the load bus (cmldblu1.hpp 3523-3528).
The matrix is made from the values that `setParam` (ymatrix_components.cpp 804-816) puts into the elements that
`YMBranch::load` made from the expanded data (no shift, no charging, tap not 0, so that both elements count as
transformers).  Real arithmetic is exact; the equations of the motors are not part of the model, a motor enters with its
active power and the reactive power it reports. -/
namespace GridPACK.Composite
open GridPACK.StringUtils (Str trimQuotes)
open Complex

/-! ### Creating load models -/

/-- `toUpper` (src/utilities/string_utils.hpp) for the letters of the alphabet. -/
def upper (s : Str) : Str := s.map Char.toUpper

/-- The model names known to the factories, by the key under which the name is stored: `createRelayModel`
(relay_factory.cpp 43-71), `createLoadModel` (load_factory.cpp 48-77).  (For the devices of generators see DeviceLoad.lean.) -/
def known (key : String) : List String :=
  if key = "RELAY_MODEL" then ["LVSHBL", "FRQTPAT", "DISTR1"]
  else if key = "LOAD_MODEL" then ["ACMTBLU1", "IEEL", "MOTORW", "CIM6BL"]
  else []

/-- Does the factory return a model for this name (not NULL)? -/
def made (key : String) (name : Str) : Bool :=
  match trimQuotes name with
  | .ok t => (known key).any (fun k => k.toList = upper t)
  | _ => false

/-- `createLoadModel` returns a model for this name. -/
def created (name : Str) : Bool := made "LOAD_MODEL" name

/-! ### Data -/

/-- The values read for the load bus (1477-1496): power of the load, voltage of the bus of the load, bases, parameters. -/
structure Data where
  p : ℝ
  q : ℝ
  vt : ℂ
  sbase : ℝ
  mva : ℝ
  bss : ℝ
  xxf : ℝ
  rfdr : ℝ
  xfdr : ℝ
  tfixhs : ℝ
  tfixls : ℝ
  vmin : ℝ
  vmax : ℝ
  tmin : ℝ
  tmax : ℝ
  step : ℝ
  fmA : ℝ
  fmB : ℝ
  fmC : ℝ
  fmD : ℝ

/-- `loadMVABase` (1505-1511). -/
noncomputable def Data.base (d : Data) : ℝ :=
  if d.mva < 0 then d.p / |d.mva| else if d.mva = 0 then d.p / 0.8 else d.mva

/-- `Bss_pu` (1513). -/
noncomputable def Data.bssPu (d : Data) : ℝ := d.bss * d.base / d.sbase

/-- `Xxf_pu` after line 1535. -/
noncomputable def Data.x (d : Data) : ℝ := d.xxf * d.sbase / d.base * d.tfixhs * d.tfixhs

/-- `Rfdr_pu`, `Xfdr_pu` (1525-1526). -/
noncomputable def Data.zfdr (d : Data) : ℂ := ⟨d.rfdr * d.sbase / d.base, d.xfdr * d.sbase / d.base⟩

/-- `Ilf_pu` (1519-1521). -/
noncomputable def Data.ilf (d : Data) : ℂ := (starRingEnd ℂ) ((⟨d.p / d.sbase, d.q / d.sbase⟩ : ℂ) / d.vt)

/-- `Vlow_mag` (1536). -/
noncomputable def Data.vlow (d : Data) : ℝ := (d.vmin + d.vmax) / 2

/-- `tap` before limits and rounding (1539-1540). -/
noncomputable def Data.rawTap (d : Data) : ℝ :=
  Real.sqrt ((‖d.vt‖ * d.vlow) * (‖d.vt‖ * d.vlow) /
    ((d.q / d.sbase * d.x - ‖d.vt‖ * ‖d.vt‖) * (d.q / d.sbase * d.x - ‖d.vt‖ * ‖d.vt‖)
      + (d.x * (d.p / d.sbase)) * (d.x * (d.p / d.sbase))))

/-- `round` of the C library: halves away from zero. -/
noncomputable def cround (x : ℝ) : ℤ := if 0 ≤ x then ⌊x + 1 / 2⌋ else -⌊-x + 1 / 2⌋

/-- `tap` (1544-1558). -/
noncomputable def Data.tap (d : Data) : ℝ :=
  if d.rawTap < d.tmin then d.tmin else if d.tmax < d.rawTap then d.tmax
  else 1 + (cround ((d.rawTap - 1) / d.step) : ℝ) * d.step

/-- `volt_high` (1571-1573). -/
noncomputable def Data.voltHigh (d : Data) : ℂ := d.vt - I * ((d.x * d.tfixhs * d.tfixhs : ℝ) * d.ilf)

/-- `volt_low` (1579), the initial voltage of the low side bus. -/
noncomputable def Data.voltLow (d : Data) : ℂ := d.voltHigh * (d.tfixls * d.tap / d.tfixhs : ℝ)

/-- `I_lowbus` (1589). -/
noncomputable def Data.iLow (d : Data) : ℂ := d.ilf * (d.tfixhs / (d.tap * d.tfixls) : ℝ)

/-- `Ifeeder` (1595-1602). -/
noncomputable def Data.iFeeder (d : Data) : ℂ := d.iLow - d.voltLow * ⟨0, d.bssPu⟩

/-- `volt_load` (1609-1610), the initial voltage of the load bus. -/
noncomputable def Data.voltLoad (d : Data) : ℂ := d.voltLow - d.zfdr * d.iFeeder

/-- `Sload` (1622-1625). -/
noncomputable def Data.sload (d : Data) : ℂ := d.voltLoad * (starRingEnd ℂ) d.iFeeder

/-- `FmA` ... `FmD` after line 1645. -/
noncomputable def Data.fractions (d : Data) : ℝ × ℝ × ℝ × ℝ :=
  if 1 < d.fmA + d.fmB + d.fmC + d.fmD then
    (d.fmA / (d.fmA + d.fmB + d.fmC + d.fmD), d.fmB / (d.fmA + d.fmB + d.fmC + d.fmD),
      d.fmC / (d.fmA + d.fmB + d.fmC + d.fmD), d.fmD / (d.fmA + d.fmB + d.fmC + d.fmD))
  else (d.fmA, d.fmB, d.fmC, d.fmD)

/-- The fraction left for the static load (1744-1745; `Fel` is 0). -/
noncomputable def Data.rest (d : Data) : ℝ :=
  1 - (d.fractions.1 + d.fractions.2.1 + d.fractions.2.2.1 + d.fractions.2.2.2 + 0)

open Classical in
/-- The names and active powers (MW) of the load models asked for (1656-1764). -/
noncomputable def Data.wanted (d : Data) : List (Str × ℝ) :=
  (if 0 < d.fractions.1 then [("MOTORW".toList, d.sload.re * d.sbase * d.fractions.1)] else []) ++
  (if 0 < d.fractions.2.1 then [("MOTORW".toList, d.sload.re * d.sbase * d.fractions.2.1)] else []) ++
  (if 0 < d.fractions.2.2.1 then [("MOTORW".toList, d.sload.re * d.sbase * d.fractions.2.2.1)] else []) ++
  (if 0 < d.fractions.2.2.2 then [("ACMTBLU1".toList, d.sload.re * d.sbase * d.fractions.2.2.2)] else []) ++
  (if 0 < d.rest then [("IEELBL".toList, d.sload.re * d.rest * d.sbase)] else [])

/-- The load models at the load bus with the reactive powers (MVar) they report. -/
noncomputable def Data.loads (d : Data) (react : Str → ℝ → ℝ) : List (ℝ × ℝ) :=
  (d.wanted.filter (fun w => created w.1)).map (fun w => (w.2, react w.1 w.2))

/-- `p_pl`, `p_ql` (1770-1774), in per unit. -/
noncomputable def Data.static (d : Data) (react : Str → ℝ → ℝ) : ℝ × ℝ :=
  (0, -(((d.loads react).map (·.2)).sum / d.sbase - d.sload.im))

/-! ### The matrix -/

/-- The transformer (1563-1566). -/
noncomputable def Data.xfmr (d : Data) : YMatrix.Elem :=
  { r := 0, x := d.x, tap := 1 / d.tap, phase := 0, charging := 0, g1 := 0, b1 := 0, g2 := 0, b2 := 0, xform := true,
    shunt := true, status := true, switched := false, tag := [' ', '1'] }

/-- The feeder (1529-1531). -/
noncomputable def Data.feeder (d : Data) : YMatrix.Elem :=
  { r := d.zfdr.re, x := d.zfdr.im, tap := 1, phase := 0, charging := 0, g1 := 0, b1 := 0, g2 := 0, b2 := 0, xform := true,
    shunt := true, status := true, switched := false, tag := [' ', '1'] }

/-- The shunt of the low side bus (1402-1410).  The expanded data contain LOAD_MVA with an index (cmldblu1.hpp 3472-3474),
the search is without index, so that `loadMVABase` keeps the 100 of the constructor (63). -/
noncomputable def Data.lowShunt (d : Data) : ℝ := 0.04 * 100 / d.sbase

/-- Current into a branch with one element at its first bus, from the entries of the matrix (`YMatrix.Branch.diagOf`,
`YMatrix.setYBus`). -/
noncomputable def into1 (e : YMatrix.Elem) (v1 v2 : ℂ) : ℂ :=
  (-YMatrix.getAdmittance [e] - YMatrix.getTransformer [e] .bus1 + YMatrix.getShunt [e] .bus1) * v1
    + (YMatrix.setYBus [e]).1 * v2

/-- Current into the branch at its second bus. -/
noncomputable def into2 (e : YMatrix.Elem) (v1 v2 : ℂ) : ℂ :=
  (-YMatrix.getAdmittance [e] - YMatrix.getTransformer [e] .bus2 + YMatrix.getShunt [e] .bus2) * v2
    + (YMatrix.setYBus [e]).2 * v1

end GridPACK.Composite
