import Verif.Model.Wind

/-! Specification of the converter and the wind turbine, in terms of what is read from the file and what the
network and the reports see. -/
namespace GridPACK.Wind
open GridPACK.Cblock GridPACK.Dblock

/-- Complex power in per unit of the system base that the converter feeds into its bus at the voltage `v`. -/
noncomputable def feeds (c : Conv) (v : ℂ) : ℂ := v * (starRingEnd ℂ) (iNorton (setVoltage c v))

/-- A converter read from the record `r` and started at the bus voltage `v0` of the power flow. -/
def Started (r : Record) (v0 : ℂ) (c : Conv) : Prop :=
  ∃ raw c0, loadConv raw r = some c0 ∧ c = initConv c0 ‖v0‖ v0.arg

/-- Reactive current of the power flow in per unit of the machine, counted as the converter does (negative
when reactive power is fed in). -/
noncomputable def startIq (r : Record) (v0 : ℂ) : Real := -(r.qg * (r.sbase / r.mbase)) / ‖v0‖

/-- Active current of the power flow in per unit of the machine. -/
noncomputable def startIp (r : Record) (v0 : ℂ) : Real := r.pg * (r.sbase / r.mbase) / ‖v0‖

/-- Sensible bases. -/
def Bases (r : Record) : Prop := 0 < r.sbase ∧ 1 / 10 ^ 6 ≤ r.mbase

/-- The voltage of the power flow is neither so low that the active current is reduced nor so high that
reactive current is withheld, and the reactive current is above its lower limit. -/
def NormalStart (r : Record) (v0 : ℂ) : Prop :=
  v0 ≠ 0 ∧ r.lvpnt0 + tol ≤ ‖v0‖ ∧ r.lvpnt1 ≤ ‖v0‖ ∧ r.khv * (‖v0‖ - r.volim) ≤ 0 ∧
  r.lolim ≤ startIq r v0 ∧ startIq r v0 ≤ 1000

/-- Time constants, rates and sizes for which the converter can be at rest; with the low-voltage limit
switched on the voltage is above its breakpoint. -/
def Calm (r : Record) (v0 : ℂ) : Prop :=
  0 < r.tg ∧ r.tg ≤ 1000 ∧ 0 < r.tfltr ∧ r.tfltr ≤ 1000 ∧ 0 ≤ r.rrpwr ∧ 0 ≤ r.iqrmax ∧ r.iqrmin ≤ 0 ∧
  |startIp r v0| ≤ 1000 ∧ |startIq r v0| ≤ 1000 ∧ ‖v0‖ ≤ 1000 ∧
  (r.lvplsw = true → r.zerox + tol ≤ ‖v0‖ ∧ r.brkpt ≤ ‖v0‖)

/-- A drive train read from the file (inertia `H`, damping `D`, share `Hfrac` of the turbine) and started at
the reference speed. -/
def DriveStarted (H D Hfrac omegaRef te ang : Real) (d : Drive) : Prop :=
  ∃ raw d0, Constructed raw ∧ loadDrive raw H D Hfrac = some d0 ∧ d = initDrive d0 omegaRef te ang

/-- `n` time steps of the drive train under constant torques. -/
noncomputable def drivePush (dt tm te : Real) (d : Drive) : Nat → Drive
  | 0 => d
  | n + 1 => driveCall (driveCall (drivePush dt tm te d n) dt .predictor tm te) dt .corrector tm te

/-- The mechanical part of a turbine read from the file and started for the active power `pg` (machine
base) and the reference speed `omegaRef`. -/
def TurbineStarted (H D Hfrac : Real) (a : Aero) (p : PitchRecord) (pg omegaRef va : Real) (t : Turbine) :
    Prop :=
  ∃ raw d0 p0, Constructed raw ∧ loadDrive raw H D Hfrac = some d0 ∧ loadPitch raw p = some p0 ∧
    t = initTurbine d0 a p0 pg omegaRef va

/-- Records for which the turbine can be at rest. -/
def QuietTurbine (a : Aero) (p : PitchRecord) (omegaRef va : Real) : Prop :=
  omegaRef ≠ 0 ∧ |omegaRef - 1| ≤ 1000 ∧ |va| ≤ 1000 ∧ |a.Theta0| ≤ 1000 ∧ 0 < p.Tp ∧ p.Tp ≤ 1000 ∧
  p.thetaMin ≤ a.Theta0 ∧ a.Theta0 ≤ p.thetaMax ∧ p.thetaMin ≤ 0 ∧ 0 ≤ p.thetaMax ∧ p.rateMin ≤ 0 ∧
  0 ≤ p.rateMax

/-- A torque controller with the gains and limits of the record, started for the power `pelec`.  `raw` is
the PI block as constructed. -/
def TorqueStarted (raw : Block) (Kpp Kip Temin Temax pelec : Real) (t : Torque) : Prop :=
  ∃ t0 : Torque, torquePi raw Kpp Kip Temin Temax = some t0.piBlk ∧ t = initTorque t0 pelec

end GridPACK.Wind
