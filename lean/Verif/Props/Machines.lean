import Verif.Props.FlatStart

/-! C156–C163: what the machines report, tripping, saturation, bases. -/
namespace GridPACK.DsStep
open GridPACK.Machines

/-! ### C156: the reported rotor state -/

/-- Rotor angle and speed deviation from which the next time step computes. -/
noncomputable def nextStart : Gen → ℝ × ℝ
  | .base => (0, 0)
  | .classical c _ => ((c.predCur false).ang0, (c.predCur false).spd0 - 1)
  | .genrou m => (m.predCur.x.δ, m.predCur.x.w)
  | .gensal m => ((m.predCur false).x0.δ, (m.predCur false).x0.w)

/-- **C156** for the classical model and GENSAL: the angle and the speed reported after any calls are those from
which the next time step computes.  Partial: not for GENROU (`C156_genrou_violated`). -/
theorem C156_reported_state_partial (g : Gen) (b : Bool) (h : (∃ c u, g = .classical c u) ∨ ∃ m, g = .gensal m) :
    (g.watch b)[0]? = some (nextStart g).1 ∧ (g.watch b)[1]? = some ((nextStart g).2 + 1) := by
  rcases h with ⟨c, u, rfl⟩ | ⟨m, rfl⟩
  · cases b <;> simp [Gen.watch, Classical.watch, nextStart, Classical.predCur, Classical.advance]
  · cases b <;> simp [Gen.watch, Gensal.watch, nextStart, Gensal.predCur, Gensal.advance]

/-- Acceleration (per unit per second) that the predictor of a GENROU machine computes. -/
noncomputable def acceleration (m : Genrou) (v : ℂ) (dt : ℝ) : ℝ := (((m.predCur.setVoltage v).predictor dt).dx).w

theorem genrou_predictor_state {m : Genrou} (hs : m.status = true) (ht : m.tripped = false) (v : ℂ) (dt : ℝ) :
    let p := (m.predCur.setVoltage v).predictor dt
    p.x = m.x ∧ p.x1 = m.x.add p.dx dt ∧ p.dx.δ = m.x.w * 2 * Real.pi * 60 ∧ p.status = true ∧ p.tripped = false := by
  have h1 : (m.predCur.setVoltage v).status = true := hs
  have h2 : (m.predCur.setVoltage v).tripped = false := ht
  simp only [Genrou.predictor, h1, h2, if_true, Bool.false_eq_true, if_false]
  refine ⟨rfl, rfl, rfl, ?_, ?_⟩ <;> first | trivial | exact hs | exact ht

theorem genrou_corrector_state {m : Genrou} (hs : m.status = true) (ht : m.tripped = false) (v : ℂ) (dt : ℝ) :
    let c := (m.corrCur.setVoltage v).corrector dt
    c.x1 = m.x1 ∧ c.x.δ = m.x.δ + (m.dx.δ + m.x1.w * 2 * Real.pi * 60) / 2 * dt := by
  have h1 : (m.corrCur.setVoltage v).status = true := hs
  have h2 : (m.corrCur.setVoltage v).tripped = false := ht
  simp only [Genrou.corrector, h1, h2, if_true, Bool.false_eq_true, if_false]
  exact ⟨rfl, rfl⟩

/-- **C156** fails for GENROU: after every time step the reported angle is the one predicted by the Euler step, not
the corrected one from which the next step computes; they differ by `60 π a dt²` where `a` is the acceleration. -/
theorem C156_genrou_violated {m : Genrou} (hs : m.status = true) (ht : m.tripped = false) (v1 v2 : ℂ) (dt : ℝ)
    (flag b : Bool) :
    ∃ angle, ((cycle v1 v2 dt flag (.genrou m)).watch b)[0]? = some angle ∧
      (nextStart (cycle v1 v2 dt flag (.genrou m))).1 - angle = 60 * Real.pi * acceleration m v1 dt * dt ^ 2 ∧
      (acceleration m v1 dt ≠ 0 → dt ≠ 0 → angle ≠ (nextStart (cycle v1 v2 dt flag (.genrou m))).1) := by
  obtain ⟨h1, h2, h3, h4, h5⟩ := genrou_predictor_state hs ht v1 dt
  obtain ⟨p, hp⟩ : ∃ p, p = (m.predCur.setVoltage v1).predictor dt := ⟨_, rfl⟩
  rw [← hp] at h1 h2 h3 h4 h5
  obtain ⟨k1, k2⟩ := genrou_corrector_state h4 h5 v2 dt
  have ec : cycle v1 v2 dt flag (.genrou m) = .genrou ((p.corrCur.setVoltage v2).corrector dt) := by rw [hp]; rfl
  have ed : (nextStart (cycle v1 v2 dt flag (.genrou m))).1 - p.x1.δ = 60 * Real.pi * acceleration m v1 dt * dt ^ 2 := by
    rw [ec]
    show ((p.corrCur.setVoltage v2).corrector dt).x.δ - _ = _
    have ha : acceleration m v1 dt = p.dx.w := by rw [hp]; rfl
    rw [k2, ha, h1, h2, h3]
    simp only [X6.add, h3]
    ring
  refine ⟨p.x1.δ, ?_, ed, ?_⟩
  · rw [ec]
    show ((((p.corrCur.setVoltage v2).corrector dt)).watch b)[0]? = _
    cases b <;> simp [Genrou.watch, k1]
  · intro ha hdt hc
    rw [← hc, sub_self] at ed
    have : 60 * Real.pi * acceleration m v1 dt * dt ^ 2 ≠ 0 :=
      mul_ne_zero (mul_ne_zero (mul_ne_zero (by norm_num) Real.pi_ne_zero) ha) (pow_ne_zero 2 hdt)
    exact this ed.symm

/-- A machine at rest with mechanical power 1 is accelerated. -/
noncomputable def pushedGenrou : Genrou := { sampleGenrou with x := ⟨0, 0, 0, 0, 0, 0⟩, gov := .none 1 }

example (v1 v2 : ℂ) : ∃ angle, ((cycle v1 v2 0.01 true (.genrou pushedGenrou)).watch true)[0]? = some angle ∧
    angle ≠ (nextStart (cycle v1 v2 0.01 true (.genrou pushedGenrou))).1 := by
  obtain ⟨a, h1, -, h2⟩ := C156_genrou_violated (m := pushedGenrou) rfl rfl v1 v2 0.01 true true
  refine ⟨a, h1, h2 ?_ (by norm_num)⟩
  norm_num [acceleration, pushedGenrou, sampleGenrou, Genrou.predictor, Genrou.predCur, Genrou.setVoltage,
    GenrouPar.deriv, GenrouPar.psidpp, GenrouPar.psiqpp, Gov.pmech]

/-! ### C157: the reported power -/

/-- Power that a machine with the admittance `Y` and the current source `I` feeds into the network at the voltage
`v`. -/
noncomputable def fed (Y I v : ℂ) : ℂ := v * (starRingEnd ℂ) (I - Y * v)

theorem classical_norton (c : Classical) (u : ℝ) (hr : c.r = 0) (hd : c.dstr = 0) (hx : c.dtr ≠ 0)
    (hm : c.mva ≠ 0) (hs : c.sbase ≠ 0) :
    (Gen.classical c u).norton = c.mva / (c.dtr * c.sbase * Complex.I) := by
  have hx' : (c.dtr : ℂ) ≠ 0 := by exact_mod_cast hx
  have hm' : (c.mva : ℂ) ≠ 0 := by exact_mod_cast hm
  have hs' : (c.sbase : ℂ) ≠ 0 := by exact_mod_cast hs
  have : (⟨c.r * c.sbase / c.mva, if c.dstr = 0 then c.dtr * c.sbase / c.mva else u⟩ : ℂ) =
      (c.dtr * c.sbase / c.mva : ℂ) * Complex.I := by
    rw [hr, if_pos hd]
    have e : (c.dtr * c.sbase / c.mva : ℂ) = ((c.dtr * c.sbase / c.mva : ℝ) : ℂ) := by push_cast; rfl
    rw [e]
    apply Complex.ext <;> simp
  show 1 / (_ : ℂ) = _
  rw [this]
  field_simp

/-- **C157** for the classical model without resistance: the power reported after a time step is the power that
the machine feeds into the network with the voltage of the last network solution of that step.  Partial: not for
GENROU and GENSAL (`C157_reported_power_violated`). -/
theorem C157_classical_partial (c : Classical) (u : ℝ) (hr : c.r = 0) (hd : c.dstr = 0) (hx : c.dtr ≠ 0)
    (hm : c.mva ≠ 0) (hs : c.sbase ≠ 0) (v1 v2 : ℂ) (dt : ℝ) (flag : Bool) :
    let I := (((((Gen.classical c u).predCur flag).setVoltage v1).predictor dt flag).corrCur).inorton
    let S := fed (Gen.classical c u).norton I v2
    ((cycle v1 v2 dt flag (.classical c u)).watch true)[2]? = some S.re ∧
      ((cycle v1 v2 dt flag (.classical c u)).watch true)[3]? = some S.im := by
  obtain ⟨p, hp⟩ : ∃ p, p = ((c.predCur flag).setVoltage v1).predictor dt flag := ⟨_, rfl⟩
  have q1 : p.dtr = c.dtr := by rw [hp]; cases flag <;> rfl
  have q2 : p.mva = c.mva := by rw [hp]; cases flag <;> rfl
  have q3 : p.sbase = c.sbase := by rw [hp]; cases flag <;> rfl
  have hI : (((((Gen.classical c u).predCur flag).setVoltage v1).predictor dt flag).corrCur).inorton =
      p.e1 / (c.dtr * Complex.I) * c.mva / c.sbase := by
    rw [← q1, ← q2, ← q3, hp]; rfl
  have hc : cycle v1 v2 dt flag (.classical c u) = .classical ((p.corrCur.setVoltage v2).corrector dt) u := by
    rw [hp]; rfl
  have hx' : (c.dtr : ℂ) ≠ 0 := by exact_mod_cast hx
  have hm' : (c.mva : ℂ) ≠ 0 := by exact_mod_cast hm
  have hs' : (c.sbase : ℂ) ≠ 0 := by exact_mod_cast hs
  have hY := classical_norton c u hr hd hx hm hs
  have hS : fed (Gen.classical c u).norton (p.e1 / (c.dtr * Complex.I) * c.mva / c.sbase) v2 =
      v2 * (starRingEnd ℂ) ((p.e1 - v2) / (Complex.I * c.dtr)) * ((c.mva / c.sbase : ℝ) : ℂ) := by
    have : (p.e1 / (c.dtr * Complex.I) * c.mva / c.sbase - c.mva / (c.dtr * c.sbase * Complex.I) * v2) =
        (p.e1 - v2) / (Complex.I * c.dtr) * ((c.mva / c.sbase : ℝ) : ℂ) := by
      push_cast
      have := Complex.I_ne_zero
      field_simp
    rw [fed, hY, this, map_mul, Complex.conj_ofReal, mul_assoc]
  simp only [hI, hc, hS]
  have w : ((p.corrCur.setVoltage v2).corrector dt).genP =
      (v2 * (starRingEnd ℂ) ((p.e1 - v2) / (Complex.I * c.dtr))).re ∧
      ((p.corrCur.setVoltage v2).corrector dt).genQ =
      (v2 * (starRingEnd ℂ) ((p.e1 - v2) / (Complex.I * c.dtr))).im := by rw [← q1]; exact ⟨rfl, rfl⟩
  have w1 : ((p.corrCur.setVoltage v2).corrector dt).mva = c.mva := q2
  have w2 : ((p.corrCur.setVoltage v2).corrector dt).sbase = c.sbase := q3
  simp only [Gen.watch, Classical.watch, if_true, Complex.re_mul_ofReal, Complex.im_mul_ofReal, w.1, w.2, w1, w2,
    List.getElem?_cons_succ, List.getElem?_cons_zero, Option.some.injEq]
  exact ⟨by ring, by ring⟩

example (v1 v2 : ℂ) (dt : ℝ) (flag : Bool) : ∃ S, ((cycle v1 v2 dt flag (.classical sampleClassical 0)).watch true)[2]? =
    some S := by
  have h := (C157_classical_partial sampleClassical 0 rfl rfl (by norm_num [sampleClassical])
    (by norm_num [sampleClassical]) (by norm_num [sampleClassical]) v1 v2 dt flag).1
  exact ⟨_, h⟩

theorem genrou_off_fields (m : Genrou) (dt : ℝ) :
    (m.predictor dt).par = m.par ∧ (m.predictor dt).status = m.status ∧ (m.predictor dt).tripped = m.tripped ∧
    (m.predictor dt).genP = (if m.status ∧ ¬ m.tripped then m.genP else 0) ∧
    (m.predictor dt).genQ = (if m.status ∧ ¬ m.tripped then m.genQ else 0) ∧
    (m.corrector dt).par = m.par ∧
    (m.corrector dt).genP = (if m.status ∧ ¬ m.tripped then m.genP else 0) ∧
    (m.corrector dt).genQ = (if m.status ∧ ¬ m.tripped then m.genQ else 0) := by
  unfold Genrou.predictor Genrou.corrector Genrou.off
  cases hs : m.status <;> cases ht : m.tripped <;> simp [hs, ht]

theorem gensal_off_fields (m : Gensal) (dt : ℝ) (f : Bool) :
    (m.predictor dt f).par = m.par ∧ (m.predictor dt f).status = m.status ∧
    (m.predictor dt f).tripped = m.tripped ∧
    (m.predictor dt f).genP = (if m.status ∧ ¬ m.tripped then m.genP else 0) ∧
    (m.predictor dt f).genQ = (if m.status ∧ ¬ m.tripped then m.genQ else 0) ∧
    (m.corrector dt).par = m.par ∧
    (m.corrector dt).genP = (if m.status ∧ ¬ m.tripped then m.genP else 0) ∧
    (m.corrector dt).genQ = (if m.status ∧ ¬ m.tripped then m.genQ else 0) := by
  unfold Gensal.predictor Gensal.corrector Gensal.off Gensal.advance
  cases f <;> cases hs : m.status <;> cases ht : m.tripped <;> simp [hs, ht]

/-- **C157** fails for GENROU and GENSAL: without network iterations the power reported after a time step does not
depend on any voltage of that step; it is computed before the network is solved. -/
theorem C157_reported_power_violated (g : Gen) (h : (∃ m, g = .genrou m) ∨ ∃ m, g = .gensal m)
    (v1 v2 v1' v2' : ℂ) (dt : ℝ) (flag b : Bool) :
    ((cycle v1 v2 dt flag g).watch b)[2]? = ((cycle v1' v2' dt flag g).watch b)[2]? ∧
    ((cycle v1 v2 dt flag g).watch b)[3]? = ((cycle v1' v2' dt flag g).watch b)[3]? := by
  rcases h with ⟨m, rfl⟩ | ⟨m, rfl⟩
  · have key : ∀ v1 v2, ∃ c, cycle v1 v2 dt flag (.genrou m) = .genrou c ∧ c.par = m.par ∧
        c.genP = (if m.status ∧ ¬ m.tripped then m.predCur.genP else 0) ∧
        c.genQ = (if m.status ∧ ¬ m.tripped then m.predCur.genQ else 0) := by
      intro v1 v2
      obtain ⟨a1, a2, a3, a4, a5, -⟩ := genrou_off_fields (m.predCur.setVoltage v1) dt
      obtain ⟨-, -, -, -, -, b1, b2, b3⟩ :=
        genrou_off_fields ((((m.predCur.setVoltage v1).predictor dt).corrCur).setVoltage v2) dt
      refine ⟨_, rfl, b1.trans a1, b2.trans ?_, b3.trans ?_⟩
      · show (if ((m.predCur.setVoltage v1).predictor dt).status ∧ ¬ ((m.predCur.setVoltage v1).predictor dt).tripped
          then ((m.predCur.setVoltage v1).predictor dt).genP else 0) = _
        rw [a2, a3, a4]
        show (if m.status ∧ ¬ m.tripped then (if m.status ∧ ¬ m.tripped then m.predCur.genP else 0) else 0) = _
        split <;> rfl
      · show (if ((m.predCur.setVoltage v1).predictor dt).status ∧ ¬ ((m.predCur.setVoltage v1).predictor dt).tripped
          then ((m.predCur.setVoltage v1).predictor dt).genQ else 0) = _
        rw [a2, a3, a5]
        show (if m.status ∧ ¬ m.tripped then (if m.status ∧ ¬ m.tripped then m.predCur.genQ else 0) else 0) = _
        split <;> rfl
    obtain ⟨c, e, p1, p2, p3⟩ := key v1 v2
    obtain ⟨c', e', p1', p2', p3'⟩ := key v1' v2'
    rw [e, e']
    cases b <;> simp [Gen.watch, Genrou.watch, p1, p2, p3, p1', p2', p3']
  · have key : ∀ v1 v2, ∃ c, cycle v1 v2 dt flag (.gensal m) = .gensal c ∧ c.par = m.par ∧
        c.genP = (if m.status ∧ ¬ m.tripped then (m.predCur flag).genP else 0) ∧
        c.genQ = (if m.status ∧ ¬ m.tripped then (m.predCur flag).genQ else 0) := by
      intro v1 v2
      have c1 : (m.predCur flag).par = m.par := by cases flag <;> rfl
      have c2 : (m.predCur flag).status = m.status := by cases flag <;> rfl
      have c3 : (m.predCur flag).tripped = m.tripped := by cases flag <;> rfl
      obtain ⟨a1, a2, a3, a4, a5, -⟩ := gensal_off_fields ((m.predCur flag).setVoltage v1) dt flag
      obtain ⟨-, -, -, -, -, b1, b2, b3⟩ :=
        gensal_off_fields (((((m.predCur flag).setVoltage v1).predictor dt flag).corrCur).setVoltage v2) dt flag
      refine ⟨_, rfl, (b1.trans a1).trans c1, b2.trans ?_, b3.trans ?_⟩
      · show (if (((m.predCur flag).setVoltage v1).predictor dt flag).status ∧
          ¬ (((m.predCur flag).setVoltage v1).predictor dt flag).tripped
          then (((m.predCur flag).setVoltage v1).predictor dt flag).genP else 0) = _
        rw [a2, a3, a4]
        show (if (m.predCur flag).status ∧ ¬ (m.predCur flag).tripped then
          (if (m.predCur flag).status ∧ ¬ (m.predCur flag).tripped then (m.predCur flag).genP else 0) else 0) = _
        rw [c2, c3]
        split <;> rfl
      · show (if (((m.predCur flag).setVoltage v1).predictor dt flag).status ∧
          ¬ (((m.predCur flag).setVoltage v1).predictor dt flag).tripped
          then (((m.predCur flag).setVoltage v1).predictor dt flag).genQ else 0) = _
        rw [a2, a3, a5]
        show (if (m.predCur flag).status ∧ ¬ (m.predCur flag).tripped then
          (if (m.predCur flag).status ∧ ¬ (m.predCur flag).tripped then (m.predCur flag).genQ else 0) else 0) = _
        rw [c2, c3]
        split <;> rfl
    obtain ⟨c, e, p1, p2, p3⟩ := key v1 v2
    obtain ⟨c', e', p1', p2', p3'⟩ := key v1' v2'
    rw [e, e']
    cases b <;> simp [Gen.watch, Gensal.watch, p1, p2, p3, p1', p2', p3']

/-! ### C158: tripping -/

/-- Admittance that a machine remembers for the time after a trip. -/
def remembered : Gen → ℂ
  | .base => 0
  | .classical _ _ => 0
  | .genrou m => m.Ya
  | .gensal m => m.Ya

/-- Voltage that a machine was told last. -/
noncomputable def toldVoltage : Gen → ℂ
  | .base => 0
  | .classical c _ => c.volt
  | .genrou m => phasor m.presentMag m.presentAng
  | .gensal m => phasor m.presentMag m.presentAng

/-- A GENROU or GENSAL machine in service. -/
def InService : Gen → Prop
  | .genrou m => m.status = true
  | .gensal m => m.status = true
  | _ => False

theorem polar_eq (r a : ℝ) : (⟨r * Real.cos a, r * Real.sin a⟩ : ℂ) = phasor r a := by
  rfl

/-- The admittance is remembered by `init`. -/
theorem C158_remembered (g : Gen) (mag ang : ℝ) (h : InService g) :
    remembered (g.init mag ang) = g.norton ∧ (g.init mag ang).norton = g.norton := by
  cases g with
  | base => exact h.elim
  | classical c u => exact h.elim
  | genrou m => exact ⟨rfl, rfl⟩
  | gensal m => exact ⟨rfl, rfl⟩

/-- **C158** for GENROU and GENSAL: after a trip the machine's current into the network at the voltage `v` is
`Y (v_old - v)`, where `v_old` is the voltage it was told last.  Partial: the current is 0 only if the voltage has
not changed (`C158_lag_violated`), and the classical model ignores the trip (`C158_classical_violated`). -/
theorem C158_trip_partial (g : Gen) (h : InService g) (hY : remembered g = g.norton) (flag : Bool) (v : ℂ) :
    g.trip.2 = true ∧
    ((g.trip.1.predCur flag).inorton - g.norton * v = g.norton * (toldVoltage g - v)) ∧
    (g.trip.1.corrCur.inorton - g.norton * v = g.norton * (toldVoltage g - v)) ∧
    (toldVoltage g = v → (g.trip.1.predCur flag).inorton - g.norton * v = 0) := by
  cases g with
  | base => exact h.elim
  | classical c u => exact h.elim
  | genrou m =>
    have hs : m.status = true := h
    have hy : m.Ya = m.par.norton := hY
    have e1 : (((Gen.genrou m).trip.1).predCur flag).inorton = m.par.norton * phasor m.presentMag m.presentAng := by
      show inject m.status true m.Ya ⟨_, _⟩ _ = _
      rw [inject, hs, if_pos rfl, if_pos rfl, hy, polar_eq]
      rfl
    have e2 : (((Gen.genrou m).trip.1).corrCur).inorton = m.par.norton * phasor m.presentMag m.presentAng := by
      show inject m.status true m.Ya ⟨_, _⟩ _ = _
      rw [inject, hs, if_pos rfl, if_pos rfl, hy, polar_eq]
      rfl
    rw [e1, e2]
    refine ⟨rfl, (mul_sub _ _ _).symm, (mul_sub _ _ _).symm, fun e => ?_⟩
    rw [← e]; exact sub_self _
  | gensal m =>
    have hs : m.status = true := h
    have hy : m.Ya = m.par.norton := hY
    have e1 : (((Gen.gensal m).trip.1).predCur flag).inorton = m.par.norton * phasor m.presentMag m.presentAng := by
      cases flag <;>
      · show inject m.status true m.Ya ⟨_, _⟩ _ = _
        rw [inject, hs, if_pos rfl, if_pos rfl, hy]
        exact congrArg _ (polar_eq _ _)
    have e2 : (((Gen.gensal m).trip.1).corrCur).inorton = m.par.norton * phasor m.presentMag m.presentAng := by
      show inject m.status true m.Ya ⟨_, _⟩ _ = _
      rw [inject, hs, if_pos rfl, if_pos rfl, hy, polar_eq]
      rfl
    rw [e1, e2]
    refine ⟨rfl, (mul_sub _ _ _).symm, (mul_sub _ _ _).symm, fun e => ?_⟩
    rw [← e]; exact sub_self _

example (v : ℂ) : ((((Gen.genrou sampleGenrou).init 1 0).trip.1).predCur true).inorton -
    (Gen.genrou sampleGenrou).norton * v = (Gen.genrou sampleGenrou).norton * (phasor 1 0 - v) :=
  (C158_trip_partial ((Gen.genrou sampleGenrou).init 1 0) rfl rfl true v).2.1

/-- **C158** fails when the voltage changes: a tripped machine then feeds a current into the network. -/
theorem C158_lag_violated (g : Gen) (h : InService g) (hY : remembered g = g.norton) (h0 : g.norton ≠ 0) (flag : Bool)
    (v : ℂ) (hv : v ≠ toldVoltage g) : (g.trip.1.predCur flag).inorton - g.norton * v ≠ 0 := by
  rw [(C158_trip_partial g h hY flag v).2.1]
  exact mul_ne_zero h0 (sub_ne_zero.mpr hv.symm)

/-- **C158** fails for the classical model: the trip is reported as done, but the machine goes on feeding current
from its internal voltage; the current is 0 only if the network has that very voltage. -/
theorem C158_classical_violated (c : Classical) (u : ℝ) (hr : c.r = 0) (hd : c.dstr = 0) (hx : c.dtr ≠ 0)
    (hm : c.mva ≠ 0) (hs : c.sbase ≠ 0) (v : ℂ) :
    (Gen.classical c u).trip.2 = true ∧
    (((Gen.classical c u).trip.1.predCur true).inorton - (Gen.classical c u).norton * v = 0 ↔ v = c.e0) := by
  refine ⟨rfl, ?_⟩
  have hx' : (c.dtr : ℂ) ≠ 0 := by exact_mod_cast hx
  have hm' : (c.mva : ℂ) ≠ 0 := by exact_mod_cast hm
  have hs' : (c.sbase : ℂ) ≠ 0 := by exact_mod_cast hs
  have e : ((Gen.classical c u).trip.1.predCur true).inorton = c.e0 / (c.dtr * Complex.I) * c.mva / c.sbase := rfl
  have e2 : c.e0 / (c.dtr * Complex.I) * c.mva / c.sbase - c.mva / (c.dtr * c.sbase * Complex.I) * v =
      c.mva / (c.dtr * c.sbase * Complex.I) * (c.e0 - v) := by
    have := Complex.I_ne_zero
    field_simp
  rw [e, classical_norton c u hr hd hx hm hs, e2, mul_eq_zero, sub_eq_zero]
  constructor
  · rintro (h | h)
    · exact absurd h (div_ne_zero hm' (mul_ne_zero (mul_ne_zero hx' hs') Complex.I_ne_zero))
    · exact h.symm
  · rintro rfl
    exact Or.inr rfl

/-! ### C159: security check -/

/-- **C159** for one process: the check succeeds exactly if there is a bus with generators and no two such buses
have angles more than a full turn apart; the angle of a bus is the one its first generator in service reports.
Partial: angles within the initial values of the search, generators on this process only, and
`C159_detailed_violated`. -/
theorem C159_check_partial (u : ℝ) (bs : List Bus) (hb : ∀ b ∈ bs, |busAngle u b| < 999999) :
    securityCheck u bs = true ↔ (∃ b ∈ bs, b.gens ≠ []) ∧
      ∀ b ∈ bs, ∀ b' ∈ bs, b.gens ≠ [] → b'.gens ≠ [] → busAngle u b - busAngle u b' ≤ 2 * Real.pi := by
  have hpi : 360 * Real.pi / 180 = 2 * Real.pi := by ring
  have key : ∀ (l : List Bus) (mx mn : ℝ) (ok : Bool), (∀ b ∈ l, |busAngle u b| < 999999) →
      ((mx = -999999 ∧ mn = 999999 ∧ ok = false) ∨ (mn ≤ mx ∧ (ok = true ↔ mx - mn ≤ 2 * Real.pi))) →
      ((l.foldl (fun t b => checkBus t u b) (mx, mn, ok)).2.2 = true ↔
        ((∃ b ∈ l, b.gens ≠ []) ∨ mn ≤ mx) ∧
        (mn ≤ mx → mx - mn ≤ 2 * Real.pi) ∧
        (∀ b ∈ l, b.gens ≠ [] → mn ≤ mx → busAngle u b - mn ≤ 2 * Real.pi ∧ mx - busAngle u b ≤ 2 * Real.pi) ∧
        ∀ b ∈ l, ∀ b' ∈ l, b.gens ≠ [] → b'.gens ≠ [] → busAngle u b - busAngle u b' ≤ 2 * Real.pi) := by
    intro l
    induction l with
    | nil =>
      intro mx mn ok _ h
      rcases h with ⟨rfl, rfl, rfl⟩ | ⟨h1, h2⟩
      · norm_num
      · simp [h1, h2]
    | cons b l ih =>
      intro mx mn ok hl h
      have ha := abs_lt.mp (hl b (List.mem_cons_self ..))
      have hl' : ∀ b ∈ l, |busAngle u b| < 999999 := fun b hb => hl b (List.mem_cons_of_mem _ hb)
      rw [List.foldl_cons]
      by_cases hg : b.gens = []
      · have : checkBus (mx, mn, ok) u b = (mx, mn, ok) := by simp [checkBus, hg]
        rw [this, ih mx mn ok hl' h]
        simp [hg]
      · have hlen : b.gens.length > 0 := List.length_pos_iff.mpr hg
        obtain ⟨a, hab⟩ : ∃ a, a = busAngle u b := ⟨_, rfl⟩
        have e : checkBus (mx, mn, ok) u b = (max mx a, min mn a,
            if max mx a - min mn a > 2 * Real.pi then false else true) := by
          rw [checkBus, if_pos hlen]
          simp only [← hab, hpi]
          have e1 : (if a > mx then a else mx) = max mx a := by
            split
            · exact (max_eq_right (by linarith)).symm
            · exact (max_eq_left (by linarith)).symm
          have e2 : (if a < mn then a else mn) = min mn a := by
            split
            · exact (min_eq_right (by linarith)).symm
            · exact (min_eq_left (by linarith)).symm
          rw [e1, e2]
        have hle : min mn a ≤ max mx a := (min_le_right _ _).trans (le_max_right _ _)
        rw [e, ih _ _ _ hl' (Or.inr ⟨hle, by
          split_ifs with hh
          · exact ⟨fun h => absurd h (by simp), fun h => absurd hh (not_lt.mpr h)⟩
          · exact ⟨fun _ => not_lt.mp hh, fun _ => rfl⟩⟩)]
        rw [← hab] at ha
        have pos : 0 < Real.pi := Real.pi_pos
        constructor
        · rintro ⟨-, h2, h3, h4⟩
          have h2' := h2 hle
          refine ⟨Or.inl ⟨b, List.mem_cons_self .., hg⟩, fun h => ?_, ?_, ?_⟩
          · linarith [le_max_left mx a, min_le_left mn a]
          · intro b' hb' hg' hm
            rcases List.mem_cons.mp hb' with rfl | hb'
            · rw [← hab]
              constructor <;> linarith [le_max_left mx a, le_max_right mx a, min_le_left mn a, min_le_right mn a]
            · have := h3 b' hb' hg' hle
              constructor <;> linarith [le_max_left mx a, min_le_left mn a]
          · intro b1 hb1 b2 hb2 hg1 hg2
            rcases List.mem_cons.mp hb1 with k1 | k1 <;> rcases List.mem_cons.mp hb2 with k2 | k2
            · rw [k1, k2]; linarith
            · rw [k1, ← hab]; linarith [(h3 b2 k2 hg2 hle).2, le_max_right mx a]
            · rw [k2, ← hab]; linarith [(h3 b1 k1 hg1 hle).1, min_le_right mn a]
            · exact h4 b1 k1 b2 k2 hg1 hg2
        · rintro ⟨-, h2, h3, h4⟩
          have hb0 := List.mem_cons_self (a := b) (l := l)
          refine ⟨Or.inr hle, fun _ => ?_, ?_, ?_⟩
          · rcases h with ⟨rfl, rfl, rfl⟩ | ⟨h1, -⟩
            · rw [max_eq_right (by linarith), min_eq_right (by linarith)]; linarith
            · have := h3 b hb0 hg h1
              rw [← hab] at this
              rcases max_choice mx a with e | e <;> rcases min_choice mn a with e' | e' <;> rw [e, e'] <;>
                linarith [h2 h1]
          · intro b' hb' hg' _
            have m' := List.mem_cons_of_mem b hb'
            have k1 := h4 b' m' b hb0 hg' hg
            have k2 := h4 b hb0 b' m' hg hg'
            rw [← hab] at k1 k2
            rcases h with ⟨rfl, rfl, rfl⟩ | ⟨h1, -⟩
            · rw [max_eq_right (by linarith), min_eq_right (by linarith)]; exact ⟨k1, k2⟩
            · have := h3 b' m' hg' h1
              rcases max_choice mx a with e | e <;> rcases min_choice mn a with e' | e' <;> rw [e, e'] <;>
                constructor <;> linarith
          · intro b1 hb1 b2 hb2
            exact h4 b1 (List.mem_cons_of_mem _ hb1) b2 (List.mem_cons_of_mem _ hb2)
  rw [securityCheck, key bs (-999999) 999999 false hb (Or.inl ⟨rfl, rfl, rfl⟩)]
  have no : ¬ ((999999 : ℝ) ≤ -999999) := by norm_num
  simp [no]

example : securityCheck 0 [⟨[(true, .classical { sampleClassical with ang1 := 1 } 0)], 0⟩,
    ⟨[(true, .classical { sampleClassical with ang1 := 10 } 0)], 0⟩] = false := by
  rw [← Bool.not_eq_true, C159_check_partial]
  · rintro ⟨-, h⟩
    have := h ⟨[(true, .classical { sampleClassical with ang1 := 10 } 0)], 0⟩ (by simp)
      ⟨[(true, .classical { sampleClassical with ang1 := 1 } 0)], 0⟩ (by simp) (by simp) (by simp)
    simp only [busAngle, List.find?_cons_of_pos, Option.map_some, Option.getD_some, Gen.getAngle] at this
    linarith [Real.pi_le_four]
  · intro b hb
    simp only [List.mem_cons, List.not_mem_nil, or_false] at hb
    rcases hb with rfl | rfl <;> norm_num [busAngle, Gen.getAngle]

/-- **C159** fails for GENROU and GENSAL: if the first generator in service at every generator bus is of these
types, the check succeeds whatever the rotor angles are. -/
theorem C159_detailed_violated (u : ℝ) (bs : List Bus) (hne : ∃ b ∈ bs, b.gens ≠ [])
    (h : ∀ b ∈ bs, b.gens ≠ [] → ∃ g, b.gens.find? (·.1) = some g ∧ InService g.2)
    (hu : |u| < 999999) : securityCheck u bs = true := by
  have hz : ∀ b ∈ bs, b.gens ≠ [] → busAngle u b = 0 := by
    intro b hb hg
    obtain ⟨g, e, hi⟩ := h b hb hg
    obtain ⟨st, g⟩ := g
    rw [busAngle, e]
    cases g with
    | base => exact (hi : False).elim
    | classical c u => exact (hi : False).elim
    | genrou m => rfl
    | gensal m => rfl
  rw [C159_check_partial]
  · refine ⟨hne, fun b hb b' hb' hg hg' => ?_⟩
    rw [hz b hb hg, hz b' hb' hg']
    linarith [Real.pi_pos]
  · intro b hb
    by_cases hg : b.gens = []
    · simpa [busAngle, hg] using hu
    · rw [hz b hb hg]; norm_num

/-- **C159** fails for a process without generators: the check fails. -/
theorem C159_empty_violated (u : ℝ) (bs : List Bus) (h : ∀ b ∈ bs, b.gens = []) : securityCheck u bs = false := by
  have : ∀ (l : List Bus) t, (∀ b ∈ l, b.gens = []) → l.foldl (fun t b => checkBus t u b) t = t := by
    intro l
    induction l with
    | nil => intros; rfl
    | cons b l ih =>
      intro t hl
      rw [List.foldl_cons, ih _ (fun b hb => hl b (List.mem_cons_of_mem _ hb))]
      simp [checkBus, hl b (List.mem_cons_self ..)]
  rw [securityCheck, this bs _ h]

end GridPACK.DsStep
