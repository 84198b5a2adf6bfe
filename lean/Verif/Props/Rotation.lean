import Verif.Lemmas.Rotation
import Verif.Props.FlatStart

/-! C162: the choice of the reference angle has no influence on a dynamic simulation. -/
namespace GridPACK.DsStep
open GridPACK.Machines

/-! ### Start -/

/-- Voltage behind the impedance that determines the rotor angle at the start, on the machine's base. -/
noncomputable def internal (mag ang : ℝ) : Gen → ℂ
  | .base => 1
  | .classical c _ => (c.init mag ang).e0
  | .genrou m => ⟨mag * Real.cos ang + (m.init mag ang).Ir * m.par.Ra - (m.init mag ang).Ii * m.par.Xq,
      mag * Real.sin ang + (m.init mag ang).Ir * m.par.Xq + (m.init mag ang).Ii * m.par.Ra⟩
  | .gensal m => ⟨mag * Real.cos ang + (m.init mag ang).Ir * m.par.Ra - (m.init mag ang).Ii * m.par.Xq,
      mag * Real.sin ang + (m.init mag ang).Ir * m.par.Xq + (m.init mag ang).Ii * m.par.Ra⟩

/-- A generator as it is loaded: in service, not tripped, no current yet. -/
def Loaded : Gen → Prop
  | .genrou m => m.status = true ∧ m.tripped = false ∧ m.INorton = 0
  | .gensal m => m.status = true ∧ m.tripped = false ∧ m.INorton = 0
  | _ => True

theorem class_start (c : Classical) (mag ang θ : ℝ) (h : (c.init mag ang).e0 ≠ 0) :
    ∃ τ, turn τ = turn θ ∧ ClassRot τ False (c.init mag ang) (c.init mag (ang + θ)) := by
  have ev : (c.init mag (ang + θ)).volt = turn θ * (c.init mag ang).volt := by
    show (mag : ℂ) * Complex.exp (Complex.I * ((ang + θ : ℝ) : ℂ)) = turn θ * (mag * Complex.exp (Complex.I * ang))
    rw [mul_comm Complex.I, exp_turn, mul_comm Complex.I]; ring
  have ee : (c.init mag (ang + θ)).e0 = turn θ * (c.init mag ang).e0 := by
    obtain ⟨φ, hφ⟩ : ∃ φ, φ = Complex.arg ⟨c.pg * c.sbase / c.mva, c.qg * c.sbase / c.mva⟩ := ⟨_, rfl⟩
    have e : Complex.exp (Complex.I * ((ang + θ - φ : ℝ) : ℂ)) = turn θ * Complex.exp (Complex.I * ((ang - φ : ℝ) : ℂ)) := by
      rw [show ang + θ - φ = ang - φ + θ by ring, mul_comm Complex.I, exp_turn, mul_comm Complex.I]
    simp only [Classical.init] at ev ⊢
    rw [← hφ, e, ev]
    ring
  obtain ⟨τ, ha, ht⟩ := arg_turn h θ
  refine ⟨τ, ht, ⟨rfl, rfl, rfl, rfl, rfl, rfl, ?_⟩, ?_, ?_, ?_, rfl, fun h => h.elim, fun h => h.elim, ?_⟩
  · show ‖(c.init mag (ang + θ)).e0‖ = ‖(c.init mag ang).e0‖
    rw [ee, norm_mul, norm_turn, one_mul]
  · rw [ht]; exact ev
  · rw [ht]; exact ee
  · show Complex.arg (c.init mag (ang + θ)).e0 = Complex.arg (c.init mag ang).e0 + τ
    rw [ee]; exact ha
  · exact (mul_zero _).symm

theorem phasor_add (mag ang θ : ℝ) : phasor mag (ang + θ) = turn θ * phasor mag ang := by
  apply Complex.ext <;> simp only [phasor, turn, Complex.mul_re, Complex.mul_im, Real.sin_add, Real.cos_add] <;> ring

/-- Rotating a vector and the frame. -/
theorem frame_turn {x y x' y' δ τ : ℝ} (h : (⟨x', y'⟩ : ℂ) = turn τ * ⟨x, y⟩) :
    x' * Real.sin (δ + τ) - y' * Real.cos (δ + τ) = x * Real.sin δ - y * Real.cos δ ∧
    x' * Real.cos (δ + τ) + y' * Real.sin (δ + τ) = x * Real.cos δ + y * Real.sin δ := by
  have h1 : x' = Real.cos τ * x - Real.sin τ * y := (Complex.ext_iff.mp h).1
  have h2 : y' = Real.cos τ * y + Real.sin τ * x := (Complex.ext_iff.mp h).2
  have cs := Real.cos_sq_add_sin_sq τ
  rw [h1, h2, Real.sin_add, Real.cos_add]
  constructor
  · linear_combination (x * Real.sin δ - y * Real.cos δ) * cs
  · linear_combination (x * Real.cos δ + y * Real.sin δ) * cs

theorem rotate_turn {x y x' y' δ τ : ℝ} (h : (⟨x', y'⟩ : ℂ) = turn τ * ⟨x, y⟩) :
    rotate x' y' (Real.pi / 2 - (δ + τ)) = rotate x y (Real.pi / 2 - δ) := by
  obtain ⟨h1, h2⟩ := frame_turn (δ := δ) h
  simp only [rotate, Real.cos_pi_div_two_sub, Real.sin_pi_div_two_sub]
  rw [h1, h2]

/-- Initial current of GENROU and GENSAL. -/
theorem current_turn (mag ang θ P Q : ℝ) :
    (⟨(P * (mag * Real.cos (ang + θ)) + Q * (mag * Real.sin (ang + θ))) / (mag * mag),
      (P * (mag * Real.sin (ang + θ)) - Q * (mag * Real.cos (ang + θ))) / (mag * mag)⟩ : ℂ) =
    turn θ * ⟨(P * (mag * Real.cos ang) + Q * (mag * Real.sin ang)) / (mag * mag),
      (P * (mag * Real.sin ang) - Q * (mag * Real.cos ang)) / (mag * mag)⟩ := by
  apply Complex.ext <;> simp only [turn, Complex.mul_re, Complex.mul_im, Real.sin_add, Real.cos_add] <;> ring

/-- A voltage plus an impedance times a current. -/
theorem behind_turn {Vr Vi Ir Ii Vr' Vi' Ir' Ii' τ : ℝ} (hv : (⟨Vr', Vi'⟩ : ℂ) = turn τ * ⟨Vr, Vi⟩)
    (hi : (⟨Ir', Ii'⟩ : ℂ) = turn τ * ⟨Ir, Ii⟩) (R X : ℝ) :
    (⟨Vr' + Ir' * R - Ii' * X, Vi' + Ir' * X + Ii' * R⟩ : ℂ) =
      turn τ * ⟨Vr + Ir * R - Ii * X, Vi + Ir * X + Ii * R⟩ := by
  have v1 : Vr' = Real.cos τ * Vr - Real.sin τ * Vi := (Complex.ext_iff.mp hv).1
  have v2 : Vi' = Real.cos τ * Vi + Real.sin τ * Vr := (Complex.ext_iff.mp hv).2
  have i1 : Ir' = Real.cos τ * Ir - Real.sin τ * Ii := (Complex.ext_iff.mp hi).1
  have i2 : Ii' = Real.cos τ * Ii + Real.sin τ * Ir := (Complex.ext_iff.mp hi).2
  rw [v1, v2, i1, i2]
  apply Complex.ext <;> simp only [turn, Complex.mul_re, Complex.mul_im] <;> ring

theorem genrou_start (m : Genrou) (mag ang θ : ℝ) (hl : Loaded (.genrou m)) (h : internal mag ang (.genrou m) ≠ 0) :
    ∃ τ, turn τ = turn θ ∧ RouRot τ False (m.init mag ang) (m.init mag (ang + θ)) := by
  obtain ⟨Ir, hIr⟩ : ∃ Ir, Ir = (m.par.pg / m.par.MBase * (mag * Real.cos ang) +
      m.par.qg / m.par.MBase * (mag * Real.sin ang)) / (mag * mag) := ⟨_, rfl⟩
  obtain ⟨Ii, hIi⟩ : ∃ Ii, Ii = (m.par.pg / m.par.MBase * (mag * Real.sin ang) -
      m.par.qg / m.par.MBase * (mag * Real.cos ang)) / (mag * mag) := ⟨_, rfl⟩
  obtain ⟨Ir', hIr'⟩ : ∃ Ir, Ir = (m.par.pg / m.par.MBase * (mag * Real.cos (ang + θ)) +
      m.par.qg / m.par.MBase * (mag * Real.sin (ang + θ))) / (mag * mag) := ⟨_, rfl⟩
  obtain ⟨Ii', hIi'⟩ : ∃ Ii, Ii = (m.par.pg / m.par.MBase * (mag * Real.sin (ang + θ)) -
      m.par.qg / m.par.MBase * (mag * Real.cos (ang + θ))) / (mag * mag) := ⟨_, rfl⟩
  have hi : (⟨Ir', Ii'⟩ : ℂ) = turn θ * ⟨Ir, Ii⟩ := by rw [hIr, hIi, hIr', hIi']; exact current_turn ..
  have hv : (⟨mag * Real.cos (ang + θ), mag * Real.sin (ang + θ)⟩ : ℂ) =
      turn θ * ⟨mag * Real.cos ang, mag * Real.sin ang⟩ := phasor_add mag ang θ
  have hz : (⟨mag * Real.cos ang + Ir * m.par.Ra - Ii * m.par.Xq, mag * Real.sin ang + Ir * m.par.Xq + Ii * m.par.Ra⟩ : ℂ)
      ≠ 0 := by rw [hIr, hIi]; exact h
  obtain ⟨τ, ha, ht⟩ := arg_turn hz θ
  rw [← behind_turn hv hi] at ha
  rw [← ht] at hi hv
  have hb := behind_turn hv hi m.par.Ra m.par.Xdpp
  obtain ⟨d, hd⟩ : ∃ d, d = Complex.arg ⟨mag * Real.cos ang + Ir * m.par.Ra - Ii * m.par.Xq,
    mag * Real.sin ang + Ir * m.par.Xq + Ii * m.par.Ra⟩ := ⟨_, rfl⟩
  rw [← hd] at ha
  have hr := rotate_turn (δ := d) hi
  have hb' : (⟨mag * Real.cos (ang + θ) + m.par.Ra * Ir' - m.par.Xdpp * Ii',
      mag * Real.sin (ang + θ) + m.par.Ra * Ii' + m.par.Xdpp * Ir'⟩ : ℂ) =
      turn τ * ⟨mag * Real.cos ang + m.par.Ra * Ir - m.par.Xdpp * Ii,
        mag * Real.sin ang + m.par.Ra * Ii + m.par.Xdpp * Ir⟩ := by
    have c1 : ∀ a b c d : ℝ, (⟨a + m.par.Ra * c - m.par.Xdpp * d, b + m.par.Ra * d + m.par.Xdpp * c⟩ : ℂ) =
        ⟨a + c * m.par.Ra - d * m.par.Xdpp, b + c * m.par.Xdpp + d * m.par.Ra⟩ := by
      intro a b c d
      apply Complex.ext <;> (simp only; ring)
    rw [c1, c1]
    exact hb
  obtain ⟨f1, f2⟩ := frame_turn (δ := d) hb'
  refine ⟨τ, ht, ?_⟩
  simp only [Genrou.init, ← hIr, ← hIi, ← hIr', ← hIi', ha, ← hd, hr, f1, f2]
  refine ⟨rfl, ⟨hl.1, hl.1⟩, ⟨hl.2.1, hl.2.1⟩, rfl, ?_, rfl, fun h => h.elim, fun h => h.elim, rfl, rfl, rfl, rfl, rfl, rfl,
    rfl, rfl, ?_⟩
  · exact hv
  · show m.INorton = turn τ * m.INorton
    rw [hl.2.2, mul_zero]

theorem gensal_start (m : Gensal) (mag ang θ : ℝ) (hl : Loaded (.gensal m)) (h : internal mag ang (.gensal m) ≠ 0) :
    ∃ τ, turn τ = turn θ ∧ SalRot τ False (m.init mag ang) (m.init mag (ang + θ)) := by
  obtain ⟨Ir, hIr⟩ : ∃ Ir, Ir = (m.par.pg / m.par.MBase * (mag * Real.cos ang) +
      m.par.qg / m.par.MBase * (mag * Real.sin ang)) / (mag * mag) := ⟨_, rfl⟩
  obtain ⟨Ii, hIi⟩ : ∃ Ii, Ii = (m.par.pg / m.par.MBase * (mag * Real.sin ang) -
      m.par.qg / m.par.MBase * (mag * Real.cos ang)) / (mag * mag) := ⟨_, rfl⟩
  obtain ⟨Ir', hIr'⟩ : ∃ Ir, Ir = (m.par.pg / m.par.MBase * (mag * Real.cos (ang + θ)) +
      m.par.qg / m.par.MBase * (mag * Real.sin (ang + θ))) / (mag * mag) := ⟨_, rfl⟩
  obtain ⟨Ii', hIi'⟩ : ∃ Ii, Ii = (m.par.pg / m.par.MBase * (mag * Real.sin (ang + θ)) -
      m.par.qg / m.par.MBase * (mag * Real.cos (ang + θ))) / (mag * mag) := ⟨_, rfl⟩
  have hi : (⟨Ir', Ii'⟩ : ℂ) = turn θ * ⟨Ir, Ii⟩ := by rw [hIr, hIi, hIr', hIi']; exact current_turn ..
  have hv : (⟨mag * Real.cos (ang + θ), mag * Real.sin (ang + θ)⟩ : ℂ) =
      turn θ * ⟨mag * Real.cos ang, mag * Real.sin ang⟩ := phasor_add mag ang θ
  have hz : (⟨mag * Real.cos ang + Ir * m.par.Ra - Ii * m.par.Xq, mag * Real.sin ang + Ir * m.par.Xq + Ii * m.par.Ra⟩ : ℂ)
      ≠ 0 := by rw [hIr, hIi]; exact h
  obtain ⟨τ, ha, ht⟩ := arg_turn hz θ
  rw [← behind_turn hv hi] at ha
  rw [← ht] at hi hv
  obtain ⟨d, hd⟩ : ∃ d, d = Complex.arg ⟨mag * Real.cos ang + Ir * m.par.Ra - Ii * m.par.Xq,
    mag * Real.sin ang + Ir * m.par.Xq + Ii * m.par.Ra⟩ := ⟨_, rfl⟩
  rw [← hd] at ha
  obtain ⟨f1, f2⟩ := frame_turn (δ := d) hi
  obtain ⟨-, g2⟩ := frame_turn (δ := d) hv
  refine ⟨τ, ht, ?_⟩
  simp only [Gensal.init, ← hIr, ← hIi, ← hIr', ← hIi', ha, ← hd, f1, f2, g2]
  refine ⟨rfl, ⟨hl.1, hl.1⟩, ⟨hl.2.1, hl.2.1⟩, rfl, ?_, rfl, fun h => h.elim, fun h => h.elim, rfl, rfl, rfl, rfl, ?_⟩
  · exact hv
  · show m.INorton = turn τ * m.INorton
    rw [hl.2.2, mul_zero]

/-! ### Generators -/

/-- One of the relations above. -/
def GenRot (τ : ℝ) (r : Prop) : Gen → Gen → Prop
  | .base, .base => True
  | .classical c _, .classical c' _ => ClassRot τ r c c'
  | .genrou m, .genrou m' => RouRot τ r m m'
  | .gensal m, .gensal m' => SalRot τ r m m'
  | _, _ => False

theorem gen_start (g : Gen) (mag ang θ : ℝ) (hl : Loaded g) (h : internal mag ang g ≠ 0) :
    ∃ τ, turn τ = turn θ ∧ GenRot τ False (g.init mag ang) (g.init mag (ang + θ)) := by
  cases g with
  | base => exact ⟨θ, rfl, trivial⟩
  | classical c u => exact class_start c mag ang θ h
  | genrou m => exact genrou_start m mag ang θ hl h
  | gensal m => exact gensal_start m mag ang θ hl h

theorem gen_predCur {τ : ℝ} {r : Prop} {g g' : Gen} (h : GenRot τ r g g') (f : Bool) (hf : f = false → r) :
    GenRot τ r (g.predCur f) (g'.predCur f) := by
  cases g <;> cases g' <;> first | exact h.elim | trivial | skip
  · exact ClassRot.predCur h f hf
  · exact RouRot.predCur h
  · exact SalRot.predCur h f hf

theorem gen_corrCur {τ : ℝ} {r : Prop} (hr : r) {g g' : Gen} (h : GenRot τ r g g') : GenRot τ r g.corrCur g'.corrCur := by
  cases g <;> cases g' <;> first | exact h.elim | trivial | skip
  · exact ClassRot.corrCur hr h
  · exact RouRot.corrCur hr h
  · exact SalRot.corrCur hr h

theorem gen_setVoltage {τ : ℝ} {r : Prop} {g g' : Gen} (h : GenRot τ r g g') (v : ℂ) :
    GenRot τ r (g.setVoltage v) (g'.setVoltage (turn τ * v)) := by
  cases g <;> cases g' <;> first | exact h.elim | trivial | skip
  · exact ClassRot.setVoltage h v
  · exact RouRot.setVoltage h v
  · exact SalRot.setVoltage h v

theorem gen_predictor {τ : ℝ} {r : Prop} {g g' : Gen} (h : GenRot τ r g g') (dt : ℝ) (f : Bool) (hf : f = false → r) :
    GenRot τ True (g.predictor dt f) (g'.predictor dt f) := by
  cases g <;> cases g' <;> first | exact h.elim | trivial | skip
  · exact ClassRot.predictor h dt f hf
  · exact RouRot.predictor h dt
  · exact SalRot.predictor h dt f hf

theorem gen_corrector {τ : ℝ} {g g' : Gen} (h : GenRot τ True g g') (dt : ℝ) :
    GenRot τ True (g.corrector dt) (g'.corrector dt) := by
  cases g <;> cases g' <;> first | exact h.elim | trivial | skip
  · exact ClassRot.corrector h dt
  · exact RouRot.corrector h dt
  · exact SalRot.corrector h dt

theorem gen_inorton {τ : ℝ} {r : Prop} {g g' : Gen} (h : GenRot τ r g g') : g'.inorton = turn τ * g.inorton := by
  cases g <;> cases g' <;> first | exact h.elim | exact (mul_zero _).symm | skip
  · exact ClassRot.cur h
  · exact RouRot.cur h
  · exact SalRot.cur h

/-- The values of a machine with the angle, the first of them, advanced by `τ`. -/
def advanced (τ : ℝ) : List ℝ → List ℝ
  | [] => []
  | a :: l => (a + τ) :: l

theorem gen_watch {τ : ℝ} {g g' : Gen} (h : GenRot τ True g g') (b : Bool) : g'.watch b = advanced τ (g.watch b) := by
  cases g <;> cases g' <;> first | exact h.elim | rfl | skip
  · rename_i c u c' u'
    have h : ClassRot τ True c c' := h
    obtain ⟨-, r2, r3, -⟩ := h.rest trivial
    obtain ⟨p1, p2, p3, -⟩ := h.par
    obtain ⟨q1, q2⟩ := h.power trivial
    cases b <;> simp [Gen.watch, Classical.watch, advanced, r2, r3, p2, p3, q1, q2]
  · rename_i m m'
    have h : RouRot τ True m m' := h
    cases b <;> simp [Gen.watch, Genrou.watch, advanced, h.x1 trivial, shift6, h.par, h.genP, h.genQ]
  · rename_i m m'
    have h : SalRot τ True m m' := h
    cases b <;> simp [Gen.watch, Gensal.watch, advanced, h.x1 trivial, shift5, h.par, h.genP, h.genQ]

/-! ### Buses -/

/-- Generators out of service are not related: they take no part. -/
def SlotRot (θ : ℝ) (r : Prop) (g g' : Bool × Gen) : Prop :=
  g'.1 = g.1 ∧ (g.1 = true → ∃ τ, turn τ = turn θ ∧ GenRot τ r g.2 g'.2)

theorem each_rot {θ : ℝ} {r r' : Prop} {f f' : Gen → Gen}
    (hf : ∀ τ g g', turn τ = turn θ → GenRot τ r g g' → GenRot τ r' (f g) (f' g')) {b b' : Bus}
    (h : List.Forall₂ (SlotRot θ r) b.gens b'.gens) :
    List.Forall₂ (SlotRot θ r') (b.each f).gens (b'.each f').gens := by
  show List.Forall₂ _ (b.gens.map _) (b'.gens.map _)
  rw [List.forall₂_map_left_iff, List.forall₂_map_right_iff]
  refine h.imp ?_
  rintro ⟨s, g⟩ ⟨s', g'⟩ ⟨h1, h2⟩
  simp only at h1
  subst h1
  cases s'
  · exact ⟨rfl, fun h => absurd h (by simp)⟩
  · obtain ⟨τ, ht, hg⟩ := h2 rfl
    exact ⟨rfl, fun _ => ⟨τ, ht, hf τ g g' ht hg⟩⟩

theorem current_rot {θ : ℝ} {r : Prop} {b b' : Bus} (h : List.Forall₂ (SlotRot θ r) b.gens b'.gens) :
    b'.current = turn θ * b.current := by
  have key : ∀ (l l' : List (Bool × Gen)) (s : ℂ), List.Forall₂ (SlotRot θ r) l l' →
      l'.foldl (fun s g => if g.1 then s + g.2.inorton else s) (turn θ * s) =
        turn θ * l.foldl (fun s g => if g.1 then s + g.2.inorton else s) s := by
    intro l l' s h
    induction h generalizing s with
    | nil => rfl
    | @cons g g' l l' hg _ ih =>
      obtain ⟨s1, g⟩ := g
      obtain ⟨s1', g'⟩ := g'
      obtain ⟨e, hg⟩ := hg
      simp only at e
      subst e
      rw [List.foldl_cons, List.foldl_cons, ← ih]
      cases s1'
      · rfl
      · obtain ⟨τ, ht, hg⟩ := hg rfl
        have := gen_inorton hg
        simp only at this
        simp only [if_true, this, ht, mul_add]
  have := key b.gens b'.gens 0 h
  rw [mul_zero] at this
  exact this

variable {ι : Type*}

/-- `s'` is `s` rotated by `θ`. -/
structure StateRot (θ : ℝ) (r : Prop) (s s' : State ι) : Prop where
  gens : ∀ i, List.Forall₂ (SlotRot θ r) (s.bus i).gens (s'.bus i).gens
  volt : ∀ i, (s'.bus i).volt = turn θ * (s.bus i).volt
  inj : ∀ i, s'.inj i = turn θ * s.inj i
  n : s'.n = s.n
  last : s'.last = s.last

theorem StateRot.flag {θ : ℝ} {r : Prop} {s s' : State ι} (h : StateRot θ r s s') : s'.flag = s.flag := by
  rw [State.flag, State.flag, h.n, h.last]

theorem StateRot.getCurrent {θ : ℝ} {r : Prop} {s s' : State ι} (h : StateRot θ r s s') (corr : Bool)
    (hf : s.flag = false → r) (hc : corr = true → r) : StateRot θ r (s.getCurrent corr) (s'.getCurrent corr) := by
  have hg : ∀ i, List.Forall₂ (SlotRot θ r)
      ((s.bus i).each (fun g => if corr then g.corrCur else g.predCur s.flag)).gens
      ((s'.bus i).each (fun g => if corr then g.corrCur else g.predCur s'.flag)).gens := by
    intro i
    refine each_rot (fun τ g g' _ hg => ?_) (h.gens i)
    rw [h.flag]
    cases corr
    · exact gen_predCur hg _ hf
    · exact gen_corrCur (hc rfl) hg
  exact ⟨hg, h.volt, fun i => current_rot (hg i), h.n, h.last⟩

/-- The network solver commutes with the rotation, as every linear solver does. -/
def Opts.Rotates (o : Opts ι) (θ : ℝ) : Prop := ∀ I : ι → ℂ, o.solve (fun i => turn θ * I i) = fun i => turn θ * o.solve I i

theorem StateRot.setVolt {θ : ℝ} {r : Prop} {o : Opts ι} (ho : o.Rotates θ) {s s' : State ι} (h : StateRot θ r s s') :
    StateRot θ r (s.setVolt o) (s'.setVolt o) := by
  have hi : s'.inj = fun i => turn θ * s.inj i := funext h.inj
  have hv : o.solve s'.inj = fun i => turn θ * o.solve s.inj i := by rw [hi, ho]
  refine ⟨fun i => ?_, fun i => ?_, h.inj, h.n, h.last⟩
  · show List.Forall₂ _ ((s.bus i).each fun g => g.setVoltage (o.solve s.inj i)).gens
      ((s'.bus i).each fun g => g.setVoltage (o.solve s'.inj i)).gens
    refine each_rot (fun τ g g' ht hg => ?_) (h.gens i)
    rw [hv]
    simp only
    rw [← ht]
    exact gen_setVoltage hg _
  · show o.solve s'.inj i = turn θ * o.solve s.inj i
    rw [hv]

variable [Fintype ι]

theorem StateRot.iterate {θ : ℝ} {r : Prop} {o : Opts ι} (ho : o.Rotates θ) (corr : Bool) (hc : corr = true → r) :
    ∀ (k : ℕ) {s s' : State ι}, StateRot θ r s s' → (s.flag = false → r) →
      StateRot θ r (State.iterate o corr k s) (State.iterate o corr k s')
  | 0, _, _, h, _ => h
  | k + 1, s, s', h, hf => by
    have h1 := (h.setVolt ho).getCurrent corr hf hc
    have hn : (∀ i, ‖s'.inj i - ((s'.setVolt o).getCurrent corr).inj i‖ < o.tol) ↔
        ∀ i, ‖s.inj i - ((s.setVolt o).getCurrent corr).inj i‖ < o.tol := by
      refine forall_congr' fun i => ?_
      rw [h.inj, h1.inj, ← mul_sub, norm_mul, norm_turn, one_mul]
    unfold State.iterate
    simp only [hn]
    split
    · exact h1
    · exact StateRot.iterate ho corr hc k h1 hf

theorem StateRot.solveNetwork {θ : ℝ} {r : Prop} {o : Opts ι} (ho : o.Rotates θ) (corr : Bool) (hc : corr = true → r)
    {s s' : State ι} (h : StateRot θ r s s') (hf : s.flag = false → r) :
    StateRot θ r (s.solveNetwork o corr) (s'.solveNetwork o corr) := by
  unfold State.solveNetwork
  split
  · exact StateRot.iterate ho corr hc _ h hf
  · exact h.setVolt ho

theorem StateRot.step {θ : ℝ} {r : Prop} {o : Opts ι} (ho : o.Rotates θ) {s s' : State ι} (h : StateRot θ r s s')
    (hf : s.flag = false → r) (dt : ℝ) : StateRot θ True (s.step o dt) (s'.step o dt) := by
  have h1 := (h.getCurrent false hf (fun h => absurd h (by simp))).solveNetwork ho false (fun h => absurd h (by simp)) hf
  have h2 : StateRot θ True
      { (s.getCurrent false).solveNetwork o false with
        bus := fun i => (((s.getCurrent false).solveNetwork o false).bus i).each (fun g => g.predictor dt s.flag) }
      { (s'.getCurrent false).solveNetwork o false with
        bus := fun i => (((s'.getCurrent false).solveNetwork o false).bus i).each (fun g => g.predictor dt s'.flag) } := by
    refine ⟨fun i => each_rot (fun τ g g' _ hg => ?_) (h1.gens i), h1.volt, h1.inj, h1.n, h1.last⟩
    rw [h.flag]
    exact gen_predictor hg dt _ hf
  have h3 := (h2.getCurrent true (fun _ => trivial) (fun _ => trivial)).solveNetwork ho true (fun _ => trivial)
    (fun _ => trivial)
  exact ⟨fun i => each_rot (fun τ g g' _ hg => gen_corrector hg dt) (h3.gens i), h3.volt, h3.inj,
    congrArg (· + 1) h3.n, h3.n⟩

/-- A solver that multiplies with a matrix, for example the inverse of the network matrix, rotates. -/
theorem Opts.rotates_of_matrix (o : Opts ι) (A : Matrix ι ι ℂ) (h : o.solve = A.mulVec) (θ : ℝ) : o.Rotates θ := by
  intro I
  rw [h]
  exact A.mulVec_smul (turn θ) I

/-- The data with the angle of every bus advanced by `θ`. -/
def turned (θ : ℝ) (d : ι → BusData) : ι → BusData := fun i => { d i with ang := (d i).ang + θ }

theorem start_rot (θ : ℝ) (d : ι → BusData)
    (hd : ∀ i, ∀ g ∈ (d i).gens, g.1 = true → Loaded g.2 ∧ internal (d i).mag (d i).ang g.2 ≠ 0) :
    StateRot θ False (start d) (start (turned θ d)) := by
  refine ⟨fun i => ?_, fun i => (mul_zero _).symm, fun i => (mul_zero _).symm, rfl, rfl⟩
  show List.Forall₂ _ ((d i).gens.map _) ((d i).gens.map _)
  rw [List.forall₂_map_left_iff, List.forall₂_map_right_iff, List.forall₂_same]
  rintro ⟨st, g⟩ hg
  cases st
  · exact ⟨rfl, fun h => absurd h (by simp)⟩
  · obtain ⟨hl, hi⟩ := hd i _ hg rfl
    exact ⟨rfl, fun _ => gen_start g _ _ θ hl hi⟩

/-- **C162**: if all angles of the power flow solution are advanced by the same angle, then in the dynamic
simulation all bus voltages are rotated by that angle, the rotor angles are advanced by it (up to full turns), and
the speeds and powers of the machines stay the same; the network matrix is not changed.  The network solver may be
any function that commutes with the rotation.  Generators in service must have an internal voltage different from
0 at the start, else they have no rotor angle. -/
theorem C162_reference_angle (net : Matrix ι ι ℂ) (o : Opts ι) (θ : ℝ) (ho : o.Rotates θ) (d : ι → BusData)
    (hd : ∀ i, ∀ g ∈ (d i).gens, g.1 = true → Loaded g.2 ∧ internal (d i).mag (d i).ang g.2 ≠ 0)
    (dts : List ℝ) (hne : dts ≠ []) :
    matrix net (turned θ d) = matrix net d ∧
    ∀ i, ((run o (turned θ d) dts).bus i).volt = turn θ * ((run o d dts).bus i).volt ∧
      ∀ (j : ℕ) (g : Gen), ((run o d dts).bus i).gens[j]? = some (true, g) →
        ∃ g' : Gen, ((run o (turned θ d) dts).bus i).gens[j]? = some (true, g') ∧
          ∃ k : ℤ, ∀ b, g'.watch b = advanced (θ + 2 * Real.pi * k) (g.watch b) := by
  refine ⟨rfl, ?_⟩
  have main : StateRot θ True (run o d dts) (run o (turned θ d) dts) := by
    obtain ⟨dt, l, rfl⟩ := List.exists_cons_of_ne_nil hne
    have h1 := (start_rot θ d hd).step ho (fun h => absurd h (by simp [State.flag, start])) dt
    have key : ∀ (l : List ℝ) {s s' : State ι}, StateRot θ True s s' →
        StateRot θ True (l.foldl (fun s dt => s.step o dt) s) (l.foldl (fun s dt => s.step o dt) s') := by
      intro l
      induction l with
      | nil => intro s s' h; exact h
      | cons dt l ih => intro s s' h; exact ih (h.step ho (fun _ => trivial) dt)
    exact key l h1
  intro i
  refine ⟨main.volt i, fun j g hg => ?_⟩
  have hl := main.gens i
  have hj : j < ((run o d dts).bus i).gens.length := (List.getElem?_eq_some_iff.mp hg).1
  have hj' : j < ((run o (turned θ d) dts).bus i).gens.length := by rw [← hl.length_eq]; exact hj
  have hs := hl.get hj hj'
  have eg : ((run o d dts).bus i).gens.get ⟨j, hj⟩ = (true, g) := (List.getElem?_eq_some_iff.mp hg).2
  rw [eg] at hs
  obtain ⟨e, hs⟩ := hs
  obtain ⟨τ, ht, hr⟩ := hs rfl
  obtain ⟨k, hk⟩ := turn_inj ht
  refine ⟨(((run o (turned θ d) dts).bus i).gens.get ⟨j, hj'⟩).2, List.getElem?_eq_some_iff.mpr ⟨hj', ?_⟩, k,
    fun b => ?_⟩
  · exact Prod.ext e rfl
  · rw [← hk]; exact gen_watch hr b

/-- The bus of C151 with its generator, seen at another angle. -/
example (o : Opts Unit) (ho : o.solve = Matrix.mulVec (fun _ _ => 1 / (1 - Complex.I))) (θ : ℝ)
    (dts : List ℝ) (hne : dts ≠ []) :
    ((run o (turned θ fun _ => sampleBus) dts).bus ()).volt = turn θ * ((run o (fun _ => sampleBus) dts).bus ()).volt := by
  refine ((C162_reference_angle 0 o θ (o.rotates_of_matrix _ ho θ) (fun _ => sampleBus) ?_ dts hne).2 ()).1
  intro i g hg hs
  simp only [sampleBus, List.mem_singleton] at hg
  subst hg
  refine ⟨trivial, ?_⟩
  intro h0
  have := congrArg Complex.re h0
  have h1 : Complex.arg ⟨1, 0⟩ = 0 := Complex.arg_one
  have h2 : (1 : ℝ) * 100 / 100 = 1 := by norm_num
  have h3 : (0 : ℝ) * 100 / 100 = 0 := by norm_num
  simp [internal, Classical.init, sampleClassical, sampleBus, h2, h3, h1] at this

end GridPACK.DsStep
