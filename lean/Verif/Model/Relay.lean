import Mathlib.Analysis.Complex.Norm

/-! Model of the protection relays of the dynamic simulation
(src/applications/modules/dynamic_simulation_full_y/model_classes/lvshbl.cpp, frqtpat.cpp, distr1.cpp).

Real and complex numbers are exact.  The simulation calls `updateRelay` of every relay with the same time step, so
`dt` is a constant.  `0`/`1` status integers are booleans.  Only the first load shedding stage exists in the code. -/
namespace GridPACK.Relay

/-! ### Under-voltage load shedding (LVSHBL) -/

/-- `dloadshed_volt1`, `dpickup_T1`, `dbreakertime` (lvshbl.cpp 63-85). -/
structure LvParams where
  v1 : ℝ
  t1 : ℝ
  tb : ℝ

/-- Counters and status (lvshbl.cpp 38-48). -/
structure LvState where
  pickup : Nat
  breaker : Nat
  flag : Bool
  shed : Bool
  shedPrev : Bool

/-- `ResetRelay` (lvshbl.cpp 90-100); the constructor sets the same values. -/
def lvReset : LvState := ⟨0, 0, false, false, false⟩

open Classical in
/-- `setMonitorVariables` and `updateRelay` (lvshbl.cpp 109-161). -/
noncomputable def lvUpdate (p : LvParams) (dt : ℝ) (s : LvState) (volt : ℂ) : LvState :=
  let prev := s.shed
  let pickup := if s.flag = false then (if ‖volt‖ < p.v1 then s.pickup + 1 else 0) else s.pickup
  if (pickup : ℝ) * dt ≥ p.t1 then
    let breaker := s.breaker + 1
    if (breaker : ℝ) * dt ≥ p.tb then ⟨0, 0, false, true, prev⟩
    else ⟨pickup, breaker, true, false, prev⟩
  else ⟨pickup, s.breaker, false, s.shed, prev⟩

/-! ### Generator frequency relay (FRQTPAT) -/

/-- `dfreq_low`, `dfreq_up`, `dpickuptime`, `dbreakertime` (frqtpat.cpp 60-72). -/
structure FrParams where
  fl : ℝ
  fu : ℝ
  tp : ℝ
  tb : ℝ

/-- Counters and status (frqtpat.cpp 38-45). -/
structure FrState where
  low : Nat
  up : Nat
  breaker : Nat
  flag : Bool
  trip : Bool
  tripPrev : Bool

/-- `ResetRelay` (frqtpat.cpp 77-88). -/
def frReset : FrState := ⟨0, 0, 0, false, false, false⟩

open Classical in
/-- `setMonitorVariables` and `updateRelay` (frqtpat.cpp 97-156).  `freq` is the real part of the monitored value. -/
noncomputable def frUpdate (p : FrParams) (dt : ℝ) (s : FrState) (freq : ℝ) : FrState :=
  let prev := s.trip
  let low := if s.flag = false then (if freq < p.fl then s.low + 1 else 0) else s.low
  let up := if s.flag = false then (if freq > p.fu then s.up + 1 else 0) else s.up
  if (low : ℝ) * dt ≥ p.tp ∨ (up : ℝ) * dt ≥ p.tp then
    let breaker := s.breaker + 1
    if (breaker : ℝ) * dt > p.tb then ⟨0, 0, 0, false, true, prev⟩
    else ⟨low, up, breaker, true, false, prev⟩
  else ⟨low, up, s.breaker, false, s.trip, prev⟩

/-! ### Line distance relay (DISTR1) -/

/-- Centres, reaches and times of zones 1 and 2 and the breaker time (distr1.cpp 63-125).  Times are in cycles of
1/60 second. -/
structure DiParams where
  center1 : ℂ
  reach1 : ℝ
  time1 : ℝ
  center2 : ℂ
  reach2 : ℝ
  time2 : ℝ
  sebtime : ℝ

/-- Counters and status (distr1.cpp 43-48).  (`dzone1_dis`, `dzone2_dis` are computed anew before each use.) -/
structure DiState where
  zone1 : Nat
  zone2 : Nat
  breaker : Nat
  flag : Bool
  trip : Bool
  tripPrev : Bool

/-- `ResetRelay` (distr1.cpp 130-140). -/
def diReset : DiState := ⟨0, 0, 0, false, false, false⟩

/-- Comparison of the measured impedance with a circle (distr1.cpp 170-181).  Without current the quotient is
infinite or not a number, and the comparison is false. -/
def within (center : ℂ) (reach : ℝ) (volt curr : ℂ) : Prop :=
  curr ≠ 0 ∧ ‖volt / curr - center‖ < reach / 2

open Classical in
/-- `setMonitorVariables` and `updateRelay` (distr1.cpp 150-215). -/
noncomputable def diUpdate (p : DiParams) (dt : ℝ) (s : DiState) (r : ℂ × ℂ) : DiState :=
  let prev := s.trip
  let zones : Nat × Nat :=
    if s.flag = false then
      if within p.center2 p.reach2 r.1 r.2 then
        (if within p.center1 p.reach1 r.1 r.2 then s.zone1 + 1 else 0, s.zone2 + 1)
      else (s.zone1, 0)
    else (s.zone1, s.zone2)
  if (zones.1 : ℝ) * dt > p.time1 / 60 ∨ (zones.2 : ℝ) * dt > p.time2 / 60 then
    let breaker := s.breaker + 1
    if (breaker : ℝ) * dt > p.sebtime / 60 then ⟨0, 0, 0, false, true, prev⟩
    else ⟨zones.1, zones.2, breaker, true, false, prev⟩
  else ⟨zones.1, zones.2, s.breaker, false, s.trip, prev⟩

/-- State after a sequence of readings, one per time step. -/
def after {σ ρ : Type} (step : σ → ρ → σ) (init : σ) (reading : Nat → ρ) : Nat → σ
  | 0 => init
  | k + 1 => step (after step init reading k) (reading k)

end GridPACK.Relay
