import Verif.Model.DaeBus
import Mathlib.Analysis.Calculus.Deriv.Basic

/-! Specification for the matrix of the DAE form of the dynamic simulation. -/
namespace GridPACK.Dae

/-- Row `r` of bus `i` of the matrix assembled for `shift` is the derivative of entry `r` of the residual at bus `i`: if
the state moves in the direction `d` and its time derivative in the direction `shift * d`, the residual changes at the
rate given by the row times `d`. -/
def RowIsDerivative {ι : Type} [DecidableEq ι] [Fintype ι] (N : Net ι) (m : Mode) (shift : ℝ) (x xd xp : ι → ℕ → ℝ)
    (buf : ℕ → ℝ) (i : ι) (r : ℕ) : Prop :=
  ∀ d : ι → ℕ → ℝ,
    HasDerivAt
      (fun t : ℝ => N.F m (fun j c => x j c + t * d j c) (fun j c => xd j c + t * (shift * d j c)) xp buf i r)
      (∑ j, ∑ c ∈ Finset.range (N.bus j).nvar, N.J m shift x i j c r * d j c) 0

/-- No branch joins a bus to itself and no two branch objects join the same buses. -/
def Net.Simple {ι : Type} (N : Net ι) : Prop :=
  (∀ br ∈ N.branches, br.fr ≠ br.to') ∧
  N.branches.Pairwise (fun a b => ¬(a.fr = b.fr ∧ a.to' = b.to') ∧ ¬(a.fr = b.to' ∧ a.to' = b.fr))

/-- Where the variables of generator number `k` of a bus begin: after the two of the bus and those of the generators in
service before it. -/
def Bus.start (b : Bus) (k : ℕ) : ℕ := 2 + ((b.gens.take k).map (fun g => if g.on then g.size else 0)).sum

/-- The variables of generator number `k` of bus `i` in the state `x`. -/
def Net.stateOf {ι : Type} [DecidableEq ι] (N : Net ι) (x : ι → ℕ → ℝ) (i : ι) (g : Gen) (k : ℕ) : Ix → ℝ :=
  g.pushed (N.volt x i) (x i) ((N.bus i).start k)

/-- EXDC1 whose lead-lag block is left out, without rate feedback; or with equal time constants in the lead-lag block and
either no rate feedback or the regulator output at a limit. -/
def Exdc1.Covered (e : Exdc1) : Prop :=
  ((e.TB = 0 ∨ e.TC = 0) ∧ e.KF = 0) ∨ (e.TB ≠ 0 ∧ e.TC = e.TB ∧ (e.KF = 0 ∨ e.VRatmin = true ∨ e.VRatmax = true))

/-- ESST1A without rate feedback or with the input error at a limit; and with the second lead-lag block left out or equal
time constants in it. -/
def Esst1a.Covered (e : Esst1a) : Prop :=
  (e.Kf = 0 ∨ e.Viatmin = true ∨ e.Viatmax = true) ∧ (e.Tb1 = 0 ∨ e.Tc1 = 0 ∨ e.Tc1 = e.Tb1)

/-- At a fault: EXDC1 without rate feedback, or with a lead-lag block and no algebraic regulator. -/
def Exdc1.FaultCovered (e : Exdc1) : Prop :=
  e.KF = 0 ∨ (e.TB ≠ 0 ∧ e.TC ≠ 0 ∧ (e.TA ≠ 0 ∨ e.VRatmin = true ∨ e.VRatmax = true))

/-- At a fault: ESST1A without rate feedback, or with the input error at a limit, or with both lead-lag blocks and no
algebraic regulator. -/
def Esst1a.FaultCovered (e : Esst1a) : Prop :=
  e.Kf = 0 ∨ e.Viatmin = true ∨ e.Viatmax = true ∨
    (e.Tb ≠ 0 ∧ e.Tc ≠ 0 ∧ e.Tb1 ≠ 0 ∧ e.Tc1 ≠ 0 ∧ (e.Ta ≠ 0 ∨ e.Vaatmin = true ∨ e.Vaatmax = true))

/-- The saturation curve of EXDC1 begins with value 0 at its threshold, or there is none. -/
def Exdc1.CurveOk (e : Exdc1) : Prop := e.Efdthresh = e.satA ∨ e.satB = 0

/-- A generator at a state where its equations are smooth: GENROU or GENSAL not at a speed of 0; a governor only with
these (or with gain 0); the voltage at an exciter not 0; EXDC1 not at field voltage 0 within the saturation curve; with
ESST1A the field voltage strictly within its limits. -/
def Gen.Smooth (g : Gen) (X : Ix → ℝ) : Prop :=
  (match g.mach with
    | .cls _ => ∀ w, g.gov = some w → w.K = 0
    | _ => 1 + X (.gen 1) ≠ 0) ∧
  (match g.exc with
    | none => True
    | some (.exdc1 e) => X (.net 0) ^ 2 + X (.net 1) ^ 2 ≠ 0 ∧ e.CurveOk ∧ (X (.exc 3) > e.Efdthresh → X (.exc 3) ≠ 0)
    | some (.esst1a e VT) => X (.net 0) ^ 2 + X (.net 1) ^ 2 ≠ 0 ∧ VT * e.Vrmin < X (.exc 3) ∧
        X (.exc 3) < VT * e.Vrmax - e.Kc * g.fieldCurrent X)

/-- The exciter is covered. -/
def Gen.Covered (g : Gen) : Prop :=
  match g.exc with
  | none => True
  | some (.exdc1 e) => e.Covered
  | some (.esst1a e _) => e.Covered

/-- What the solution at a fault needs: GENROU or GENSAL (or a classical machine without internal voltage), a governor
only with these (or with gain 0), a covered exciter, and a voltage other than 0 if the exciter measures it without
delay. -/
def Gen.FaultCovered (g : Gen) (X : Ix → ℝ) : Prop :=
  (match g.mach with
    | .cls p => p.Ep = 0 ∧ ∀ w, g.gov = some w → w.K = 0
    | _ => True) ∧
  (match g.exc with
    | none => True
    | some (.exdc1 e) => (e.TR = 0 → X (.net 0) ^ 2 + X (.net 1) ^ 2 ≠ 0) ∧ e.FaultCovered
    | some (.esst1a e _) => (e.Tr = 0 → X (.net 0) ^ 2 + X (.net 1) ^ 2 ≠ 0) ∧ e.FaultCovered)

end GridPACK.Dae
