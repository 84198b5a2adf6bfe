import Verif.Model.Cblock

/-! Model of the discontinuous control blocks
(src/applications/modules/dynamic_simulation_full_y/dblock.cpp).  Doubles are real numbers. -/
namespace GridPACK.Dblock
open GridPACK.Cblock (clamp)

/-! ### GainLimiter (7-69) -/

structure GainLimiter where
  K : Real
  ymin : Real
  ymax : Real
  dymin : Real
  dymax : Real
  yprev : Real

/-- The value 100000 that marks "no previous output". -/
noncomputable def mark : Real := 100000

/-- `setparams` with rate limits (18-27). -/
noncomputable def GainLimiter.setparams (K ymin ymax dymin dymax : Real) : GainLimiter :=
  ⟨K, ymin, ymax, |dymin|, dymax, mark⟩

/-- `getoutput(u)` (29-36). -/
noncomputable def GainLimiter.output (g : GainLimiter) (u : Real) : Real :=
  clamp g.ymin g.ymax (g.K * u)

/-- `getoutput(u, ymin, ymax)` (38-48): the limits are stored. -/
noncomputable def GainLimiter.outputLim (g : GainLimiter) (u ymin ymax : Real) : GainLimiter × Real :=
  ({ g with ymin := ymin, ymax := ymax }, clamp ymin ymax (g.K * u))

open Classical in
/-- `getoutput(u, dt, isupdate)` (50-69). -/
noncomputable def GainLimiter.outputRate (g : GainLimiter) (u dt : Real) (upd : Bool) :
    GainLimiter × Real :=
  let y := clamp g.ymin g.ymax (g.K * u)
  let prev := if g.yprev = mark then y else g.yprev
  let out := clamp (prev - g.dymin * dt) (prev + g.dymax * dt) y
  ({ g with yprev := if upd then out else prev }, out)

/-! ### Slope (77-107) -/

structure Slope where
  u0 : Real
  u1 : Real
  y0 : Real
  ya : Real
  yb : Real
  dydu : Real

/-- `setparams` (86-96). -/
noncomputable def Slope.setparams (u0 u1 y0 y1 ya yb : Real) : Slope :=
  ⟨u0, u1, y0, ya, yb, (y1 - y0) / (u1 - u0)⟩

/-- The tolerance `1e-5`. -/
noncomputable def tol : Real := 1 / 10 ^ 5

open Classical in
/-- `getoutput` (98-107). -/
noncomputable def Slope.output (s : Slope) (u : Real) : Real :=
  if u - s.u0 < tol then s.ya else if s.u1 - u < tol then s.yb else s.y0 + s.dydu * (u - s.u0)

/-! ### Deadband (113-132) -/

open Classical in
/-- `getoutput` (124-132) with limits `u1`, `u2`. -/
noncomputable def deadband (u1 u2 u : Real) : Real :=
  if u - u1 > 1 / 10 ^ 6 ∧ u2 - u > 1 / 10 ^ 6 then 0 else u

/-! ### PiecewiseSlope (138-203) -/

/-- Members; the arrays `p_u[5]`, `p_y[5]`, `p_slopes[4]` are unbounded here (the code writes outside
them for more than 5 points). -/
structure Piecewise where
  slopes : Nat → Slope
  u : Nat → Real
  y : Nat → Real
  n : Nat
  increasing : Bool

def set (f : Nat → α) (i : Nat) (v : α) : Nat → α := fun j => if j = i then v else f j

open Classical in
/-- Body of the loop of `setparams` (153-164). -/
noncomputable def Piecewise.addSegment (uin yin : Nat → Real) (p : Piecewise) (i : Nat) : Piecewise :=
  if (p.increasing = true ∧ uin (i + 1) > uin i) ∨ (p.increasing = false ∧ uin (i + 1) < uin i) then
    { p with
      u := set (set p.u p.n (uin i)) (p.n + 1) (uin (i + 1)),
      y := set (set p.y p.n (yin i)) (p.n + 1) (yin (i + 1)),
      slopes := set p.slopes p.n (Slope.setparams (uin i) (uin (i + 1)) (yin i) (yin (i + 1)) (yin i)
        (yin (i + 1))),
      n := p.n + 1 }
  else p

open Classical in
/-- `setparams(n, uin, yin)` (144-165). -/
noncomputable def Piecewise.setparams (p : Piecewise) (n : Nat) (uin yin : Nat → Real) : Piecewise :=
  (List.range (n - 1)).foldl (Piecewise.addSegment uin yin)
    { p with increasing := if uin 1 > uin 0 then true else false }

open Classical in
/-- The four tests before the loop (172-175, 191-194); `none`: the variable is not initialised. -/
noncomputable def ends (inc : Bool) (k : Nat → Real) (r : Nat → Real) (n : Nat) (v : Real) : Option Real :=
  let a := if inc = true ∧ v ≤ k 0 then some (r 0) else none
  let a := if inc = true ∧ v ≥ k n then some (r n) else a
  let a := if inc = false ∧ v ≥ k 0 then some (r 0) else a
  if inc = false ∧ v ≤ k n then some (r n) else a

open Classical in
/-- Loop over the segments (177-181, 196-200): the last segment that contains the value wins. -/
noncomputable def scan (k : Nat → Real) (f : Nat → Real) (v : Real) (n : Nat) (a : Option Real) : Option Real :=
  (List.range n).foldl (fun a i => if k i ≤ v ∧ v ≤ k (i + 1) then some (f i) else a) a

/-- `getoutput` (167-184). -/
noncomputable def Piecewise.output (p : Piecewise) (u : Real) : Option Real :=
  scan p.u (fun i => (p.slopes i).output u) u p.n (ends p.increasing p.u p.y p.n u)

/-- `init_given_y` (186-203). -/
noncomputable def Piecewise.initGivenY (p : Piecewise) (y : Real) : Option Real :=
  scan p.y (fun i => p.u i + (p.u (i + 1) - p.u i) / (p.y (i + 1) - p.y i) * (y - p.y i)) y p.n
    (ends p.increasing p.y p.u p.n y)

open Classical in
/-- `LVGate::getoutput` (219-227). -/
noncomputable def lvGate (p u : Real) : Real := if u > p then p else u

open Classical in
/-- `HVGate::getoutput` (243-251). -/
noncomputable def hvGate (p u : Real) : Real := if u < p then p else u

end GridPACK.Dblock
