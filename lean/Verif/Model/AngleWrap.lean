import Mathlib.Analysis.SpecialFunctions.Trigonometric.Basic
import Mathlib.Algebra.Order.Floor.Ring
import Mathlib.Algebra.Order.Archimedean.Basic

/-! Model of the angle stored in the exchange buffer by `PFBus::setValues`, `setXCBuf`, `load` and
`resetVoltage` (src/applications/components/pf_matrix/pf_components.cpp 355-360, 377-382, 408-413, 584-589,
637-642).  Doubles are real numbers; `4.0*atan(1.0)` is π. -/
namespace GridPACK.AngleWrap

open Classical in
/-- C `fmod`: `x - n*y` where `n` is `x/y` rounded towards zero. -/
noncomputable def fmod (x y : ℝ) : ℝ :=
  if 0 ≤ x / y then x - (⌊x / y⌋ : ℝ) * y else x - (⌈x / y⌉ : ℝ) * y

open Classical in
/-- The stored angle. -/
noncomputable def exchanged (a : ℝ) : ℝ :=
  if a ≥ 0 then fmod (a + Real.pi) (2 * Real.pi) - Real.pi
  else fmod (a - Real.pi) (2 * Real.pi) + Real.pi

end GridPACK.AngleWrap
