import Verif.Lemmas.PlantControl

/-! Claims about the plant controller. -/
namespace GridPACK.PlantControl
open GridPACK.Cblock GridPACK.Dblock
open GridPACK.Wind (Hold Armed hold_call IsFilter IsPi lt_clamp clamp_1000 clamp_le le_clamp)

/-! ### C321: rest -/

/-- The controller at rest at the values `i` with the references `pref`, `qref`. -/
structure Rest (r : Record) (i : In) (pref qref : Real) (c : Plant) : Prop where
  data : c.r = r
  plant : c.plantRef = pref
  hp : c.pref = pref
  hq : c.qref = qref
  pF : r.freqFlag = true → Hold c.pF i.p i.p i.p
  pPi : r.freqFlag = true → Hold c.pPi 0 pref pref
  gF : r.freqFlag = true → Hold c.gF pref pref pref
  qPi : Hold c.qPi 0 qref qref
  lead : Hold c.lead qref ((1 - r.tft / r.tfv) * qref) qref
  qF : r.refFlag = false → Hold c.qF i.q i.q i.q
  vF : r.refFlag = true → Hold c.vF (comp r i.q i.v) (comp r i.q i.v) (comp r i.q i.v)
  vref : r.refFlag = true → c.vref = comp r i.q i.v

/-- The path of the real power after a predictor call at rest. -/
def ReadyP (r : Record) (i : In) (pref : Real) (c : Plant) : Prop :=
  r.freqFlag = true → Armed c.pF i.p ∧ Armed c.pPi pref ∧ Armed c.gF pref

/-- The path of the reactive power after a predictor call at rest. -/
structure ReadyQ (r : Record) (i : In) (qref : Real) (c : Plant) : Prop where
  qPi : Armed c.qPi qref
  lead : Armed c.lead ((1 - r.tft / r.tfv) * qref)
  qF : r.refFlag = false → Armed c.qF i.q
  vF : r.refFlag = true → Armed c.vF (comp r i.q i.v)

theorem rest_start {r : Record} {i : In} {pref qref : Real} {c : Plant} (ht : Times r)
    (hi : Inside r i.p i.q i.v pref qref) (hs : Started r i.p i.q i.v pref qref c) : Rest r i pref qref c := by
  obtain ⟨raw, c0, hl, rfl⟩ := hs
  have h := loaded hl
  obtain ⟨t1, t2, t3, t4, t5, t6, t7, t8⟩ := ht
  obtain ⟨p1, p2, p3, p4, q1, q2, q3, q4, q5, q6, _⟩ := hi
  obtain ⟨g1, g2⟩ := filter_start h.gF.1 h.gF.2 t7 t8 p3
  obtain ⟨l1, l2⟩ := lead_initY h.lead t3 t4 q3 q4
  have hr := h.data
  refine ⟨hr, rfl, rfl, rfl, ?_, ?_, ?_, ?_, l2, ?_, ?_, ?_⟩
  · intro hf
    show Hold (if c0.r.freqFlag = true then (initGivenU c0.pF i.p).1 else c0.pF) _ _ _
    rw [hr, if_pos hf]
    exact (filter_startU h.pF.1 h.pF.2 t5 t6 p4).2
  · intro hf
    show Hold (if c0.r.freqFlag = true then (initGivenY c0.pPi (initGivenY c0.gF pref).2).1 else c0.pPi) _ _ _
    rw [hr, if_pos hf, g1]
    exact pi_start h.pPi p1 p2 p3
  · intro hf
    show Hold (if c0.r.freqFlag = true then (initGivenY c0.gF pref).1 else c0.gF) _ _ _
    rw [hr, if_pos hf]
    exact g2
  · show Hold (initGivenY c0.qPi (initGivenY c0.lead qref).2).1 _ _ _
    rw [l1]
    exact pi_start h.qPi q1 q2 q3
  · intro hf
    show Hold (if c0.r.refFlag = true then c0.qF else (initGivenU c0.qF i.q).1) _ _ _
    rw [hr, if_neg (by rw [hf]; exact Bool.false_ne_true)]
    exact (filter_startU h.qF.1 h.qF.2 t1 t2 q5).2
  · intro hf
    show Hold (if c0.r.refFlag = true then (initGivenU c0.vF (comp c0.r i.q i.v)).1 else c0.vF) _ _ _
    rw [hr, if_pos hf]
    exact (filter_startU h.vF.1 h.vF.2 t1 t2 q6).2
  · intro hf
    show (if c0.r.refFlag = true then (initGivenU c0.vF (comp c0.r i.q i.v)).2 else c0.vref) = _
    rw [hr, if_pos hf]
    exact (filter_startU h.vF.1 h.vF.2 t1 t2 q6).1

/-- What has to hold of the values for rest. -/
def Quiet (r : Record) (i : In) (pref qref : Real) : Prop :=
  (r.freqFlag = true → i.p = pref ∧ droop r i.f = 0) ∧ (r.refFlag = false → i.q = qref) ∧ r.vfrz ≤ i.v

theorem deadband_zero (a b : Real) : deadband a b 0 = 0 := by
  unfold deadband
  split_ifs <;> rfl

theorem restP {r : Record} {i : In} {pref qref : Real} {c : Plant} (dt : Real) (s : Stage)
    (h : Rest r i pref qref c) (hi : r.femin ≤ 0 ∧ 0 ≤ r.femax) (hq : Quiet r i pref qref) (h1 : c.pg = i.p)
    (h2 : c.freq = i.f) (ha : s = .corrector → ReadyP r i pref c) :
    Rest r i pref qref (callP c dt s) ∧ (s = .predictor → ReadyP r i pref (callP c dt s)) := by
  unfold callP
  cases hf : r.freqFlag with
  | false =>
    rw [h.data, hf, if_neg Bool.false_ne_true]
    refine ⟨h, fun _ h => ?_⟩
    rw [hf] at h
    cases h
  | true =>
    obtain ⟨hp, hd⟩ := hq.1 hf
    obtain ⟨a1, a2, a3⟩ := hold_call dt s (h.pF hf) (fun hs => (ha hs hf).1)
    obtain ⟨b1, b2, b3⟩ := hold_call dt s (h.pPi hf) (fun hs => (ha hs hf).2.1)
    obtain ⟨g1, g2, g3⟩ := hold_call dt s (h.gF hf) (fun hs => (ha hs hf).2.2)
    have e : clamp r.femin r.femax (1 * (pref - i.p + droop r i.f)) = 0 := by
      rw [hd, hp, sub_self, add_zero, mul_zero]
      exact clamp_of_mem _ _ _ hi.1 hi.2
    simp only [h.data, hf, if_true, h1, h2, h.plant, a3, e, b3, g3]
    exact ⟨⟨rfl, rfl, rfl, h.hq, fun _ => a1, fun _ => b1, fun _ => g1, h.qPi, h.lead, h.qF, h.vF, h.vref⟩,
      fun hs _ => ⟨a2 hs, b2 hs, g2 hs⟩⟩

theorem restQ {r : Record} {i : In} {pref qref : Real} {c : Plant} (dt : Real) (s : Stage)
    (h : Rest r i pref qref c) (hi : r.emin ≤ 0 ∧ 0 ≤ r.emax) (hq : Quiet r i pref qref) (h1 : c.qg = i.q)
    (h2 : c.vt = i.v) (hfr : c.freeze = false) (ha : s = .corrector → ReadyQ r i qref c) :
    Rest r i pref qref (callQ c dt s) ∧ (s = .predictor → ReadyQ r i qref (callQ c dt s)) := by
  obtain ⟨b1, b2, b3⟩ := hold_call dt s h.qPi (fun hs => (ha hs).qPi)
  obtain ⟨l1, l2, l3⟩ := hold_call dt s h.lead (fun hs => (ha hs).lead)
  unfold callQ
  cases hf : r.refFlag with
  | false =>
    obtain ⟨a1, a2, a3⟩ := hold_call dt s (h.qF hf) (fun hs => (ha hs).qF hf)
    have e : clamp r.emin r.emax (1 * deadband r.dbd1 r.dbd2 (qref - i.q)) = 0 := by
      rw [hq.2.1 hf, sub_self, deadband_zero, mul_zero]
      exact clamp_of_mem _ _ _ hi.1 hi.2
    simp only [h.data, hf, if_neg Bool.false_ne_true, h1, h.hq, a3, e, hfr, Bool.not_false, b3, l3]
    refine ⟨⟨rfl, h.plant, h.hp, rfl, h.pF, h.pPi, h.gF, b1, l1, fun _ => a1, fun h => ?_, fun h => ?_⟩,
      fun hs => ⟨b2 hs, l2 hs, fun _ => a2 hs, fun h => ?_⟩⟩
    all_goals
      rw [hf] at h
      cases h
  | true =>
    obtain ⟨a1, a2, a3⟩ := hold_call dt s (h.vF hf) (fun hs => (ha hs).vF hf)
    have e : clamp r.emin r.emax (1 * deadband r.dbd1 r.dbd2 (comp r i.q i.v - comp r i.q i.v)) = 0 := by
      rw [sub_self, deadband_zero, mul_zero]
      exact clamp_of_mem _ _ _ hi.1 hi.2
    simp only [h.data, hf, if_true, h1, h2, h.vref hf, a3, e, hfr, Bool.not_false, b3, l3]
    refine ⟨⟨rfl, h.plant, h.hp, rfl, h.pF, h.pPi, h.gF, b1, l1, fun h => ?_, fun _ => a1, fun _ => rfl⟩,
      fun hs => ⟨b2 hs, l2 hs, fun h => ?_, fun _ => a2 hs⟩⟩
    all_goals
      rw [hf] at h
      cases h

theorem rest_call {r : Record} {i j : In} {pref qref : Real} {c : Plant} (dt : Real) (s : Stage)
    (h : Rest r i pref qref c) (hi : r.emin ≤ 0 ∧ 0 ≤ r.emax ∧ r.femin ≤ 0 ∧ 0 ≤ r.femax)
    (hq : Quiet r i pref qref) (hj : j = ⟨i.p, i.q, i.v, j.f⟩) (hd : droop r j.f = 0)
    (ha : s = .corrector → ReadyP r i pref c ∧ ReadyQ r i qref c ∧ c.freeze = false) :
    Rest r i pref qref (call c j dt s) ∧
    (s = .predictor → ReadyP r i pref (call c j dt s) ∧ ReadyQ r i qref (call c j dt s) ∧
      (call c j dt s).freeze = false) := by
  have hjq : Quiet r j pref qref := by
    rw [hj]
    exact ⟨fun hf => ⟨(hq.1 hf).1, hd⟩, hq.2⟩
  obtain ⟨jp, jq, jv, jf⟩ := j
  obtain ⟨ip, iq, iv, fi⟩ := i
  injection hj with e1 e2 e3 _
  subst e1 e2 e3
  have frz : c.r.vfrz ≤ jv := by rw [h.data]; exact hq.2.2
  have key : ∀ c2 : Plant, c2.pg = jp → c2.qg = jq → c2.vt = jv → c2.freq = jf → c2.freeze = false →
      Rest r ⟨jp, jq, jv, fi⟩ pref qref c2 →
      (s = .corrector → ReadyP r ⟨jp, jq, jv, fi⟩ pref c2 ∧ ReadyQ r ⟨jp, jq, jv, fi⟩ qref c2) →
      Rest r ⟨jp, jq, jv, fi⟩ pref qref (callQ (callP c2 dt s) dt s) ∧
      (s = .predictor → ReadyP r ⟨jp, jq, jv, fi⟩ pref (callQ (callP c2 dt s) dt s) ∧
        ReadyQ r ⟨jp, jq, jv, fi⟩ qref (callQ (callP c2 dt s) dt s) ∧
        (callQ (callP c2 dt s) dt s).freeze = false) := by
    intro c2 k1 k2 k3 k4 k5 k6 k7
    have k6' : Rest r ⟨jp, jq, jv, jf⟩ pref qref c2 :=
      ⟨k6.data, k6.plant, k6.hp, k6.hq, k6.pF, k6.pPi, k6.gF, k6.qPi, k6.lead, k6.qF, k6.vF, k6.vref⟩
    obtain ⟨a1, a2⟩ := restP (i := ⟨jp, jq, jv, jf⟩) dt s k6' hi.2.2 hjq k1 k4 (fun hs => (k7 hs).1)
    have fr : (callP c2 dt s).freeze = false ∧ (callP c2 dt s).qg = jq ∧ (callP c2 dt s).vt = jv ∧
        (callP c2 dt s).qPi = c2.qPi ∧ (callP c2 dt s).lead = c2.lead ∧ (callP c2 dt s).qF = c2.qF ∧
        (callP c2 dt s).vF = c2.vF := by
      unfold callP
      split_ifs
      · exact ⟨k5, k2, k3, rfl, rfl, rfl, rfl⟩
      · exact ⟨k5, k2, k3, rfl, rfl, rfl, rfl⟩
    obtain ⟨f1, f2, f3, f4, f5, f6, f7⟩ := fr
    obtain ⟨b1, b2⟩ := restQ (i := ⟨jp, jq, jv, jf⟩) dt s a1 ⟨hi.1, hi.2.1⟩ hjq f2 f3 f1 (fun hs => by
      have k := (k7 hs).2
      exact ⟨by rw [f4]; exact k.qPi, by rw [f5]; exact k.lead, by rw [f6]; exact k.qF, by rw [f7]; exact k.vF⟩)
    refine ⟨⟨b1.data, b1.plant, b1.hp, b1.hq, b1.pF, b1.pPi, b1.gF, b1.qPi, b1.lead, b1.qF, b1.vF, b1.vref⟩,
      fun hs => ⟨a2 hs, ?_, f1⟩⟩
    have k := b2 hs
    exact ⟨k.qPi, k.lead, k.qF, k.vF⟩
  cases s with
  | predictor =>
    refine key _ rfl rfl rfl rfl ?_ ?_ (fun hs => Stage.noConfusion hs)
    · exact decide_eq_false (not_lt.mpr frz)
    · exact ⟨h.data, h.plant, h.hp, h.hq, h.pF, h.pPi, h.gF, h.qPi, h.lead, h.qF, h.vF, h.vref⟩
  | corrector =>
    obtain ⟨k1, k2, k3⟩ := ha rfl
    exact key _ rfl rfl rfl rfl k3
      ⟨h.data, h.plant, h.hp, h.hq, h.pF, h.pPi, h.gF, h.qPi, h.lead, h.qF, h.vF, h.vref⟩
      (fun _ => ⟨k1, ⟨k2.qPi, k2.lead, k2.qF, k2.vF⟩⟩)

theorem rest_run {r : Record} {i : In} {pref qref : Real} (dt : Real)
    (hi : r.emin ≤ 0 ∧ 0 ≤ r.emax ∧ r.femin ≤ 0 ∧ 0 ≤ r.femax) (hq : Quiet r i pref qref) (fs : List (Real × Real)) :
    ∀ {c : Plant}, Rest r i pref qref c → (∀ f ∈ fs, droop r f.1 = 0 ∧ droop r f.2 = 0) →
      Rest r i pref qref (run dt c (fs.map fun f => (⟨i.p, i.q, i.v, f.1⟩, ⟨i.p, i.q, i.v, f.2⟩))) := by
  induction fs with
  | nil => exact fun h _ => h
  | cons f fs ih =>
    intro c h hf
    obtain ⟨h1, h2⟩ := hf f (List.mem_cons_self ..)
    obtain ⟨a1, a2⟩ := rest_call (j := ⟨i.p, i.q, i.v, f.1⟩) dt .predictor h hi hq rfl h1
      (fun hs => Stage.noConfusion hs)
    obtain ⟨b1, _⟩ := rest_call (j := ⟨i.p, i.q, i.v, f.2⟩) dt .corrector a1 hi hq rfl h2 (fun _ => a2 rfl)
    exact ih b1 (fun g hg => hf g (List.mem_cons_of_mem _ hg))

/-- The simulation with the power and voltage of `i` and the frequencies `fs`. -/
theorem kept {r : Record} {i : In} {pref qref : Real} {c : Plant} (dt : Real) (fs : List (Real × Real)) (ht : Times r)
    (hi : Inside r i.p i.q i.v pref qref) (hs : Started r i.p i.q i.v pref qref c) (hq : Quiet r i pref qref)
    (hf : ∀ f ∈ fs, droop r f.1 = 0 ∧ droop r f.2 = 0) :
    (run dt c (fs.map fun f => (⟨i.p, i.q, i.v, f.1⟩, ⟨i.p, i.q, i.v, f.2⟩))).pref = pref ∧
    (run dt c (fs.map fun f => (⟨i.p, i.q, i.v, f.1⟩, ⟨i.p, i.q, i.v, f.2⟩))).qref = qref := by
  have h := rest_run dt hi.2.2.2.2.2.2.2.2.2.2 hq fs (rest_start ht hi hs) hf
  exact ⟨h.hp, h.hq⟩

theorem droop_one (r : Record) : droop r 1 = 0 := by
  unfold droop
  simp only [sub_self, deadband_zero, mul_zero]
  norm_num

/-- **C321**, the references stay.  While the generator keeps its power and voltage and the frequency is 1, the plant
controller hands over the references it started with, for any number of steps of any length.  Missing: the reference of
the real power has to be the power of the generator (when the plant controls the real power), the reference of the
reactive power has to be its reactive power (when the plant controls the reactive power). -/
theorem C321_rest_partial (r : Record) (p q v pref qref dt : Real) (c : Plant) (n : Nat) (ht : Times r)
    (hi : Inside r p q v pref qref) (hs : Started r p q v pref qref c) (hp : r.freqFlag = true → p = pref)
    (hq : r.refFlag = false → q = qref) (hv : r.vfrz ≤ v) :
    (run dt c (constant ⟨p, q, v, 1⟩ n)).pref = pref ∧ (run dt c (constant ⟨p, q, v, 1⟩ n)).qref = qref := by
  have h := kept (i := ⟨p, q, v, 1⟩) dt (List.replicate n (1, 1)) ht hi hs
    ⟨fun hf => ⟨hp hf, droop_one r⟩, hq, hv⟩ (fun f hf => by
      rw [List.eq_of_mem_replicate hf]
      exact ⟨droop_one r, droop_one r⟩)
  rw [List.map_replicate] at h
  exact h

theorem step_qref (c : Plant) (j k : In) (dt : Real) (h : c.r.refFlag = false) : ∃ u2,
    (run dt c [(j, k)]).qref =
    (getoutput (getoutput c.lead (clamp c.qPi.ymin c.qPi.ymax (c.qPi.C * c.qPi.x + c.qPi.D *
      clamp c.r.emin c.r.emax (1 * deadband c.r.dbd1 c.r.dbd2 (c.qref - (getoutput c.qF j.q dt .predictor true).2))))
      dt .predictor true).1 u2 dt .corrector true).2 := by
  have hP : ∀ (c : Plant) (s : Stage), (callP c dt s).r = c.r ∧ (callP c dt s).lead = c.lead ∧
      (callP c dt s).qPi = c.qPi ∧ (callP c dt s).qF = c.qF ∧ (callP c dt s).qref = c.qref ∧
      (callP c dt s).qg = c.qg := by
    intro c s
    unfold callP
    split_ifs
    · exact ⟨rfl, rfl, rfl, rfl, rfl, rfl⟩
    · exact ⟨rfl, rfl, rfl, rfl, rfl, rfl⟩
  have e1 : (call c j dt .predictor).lead = (getoutput c.lead (clamp c.qPi.ymin c.qPi.ymax (c.qPi.C * c.qPi.x +
      c.qPi.D * clamp c.r.emin c.r.emax (1 * deadband c.r.dbd1 c.r.dbd2
        (c.qref - (getoutput c.qF j.q dt .predictor true).2)))) dt .predictor true).1 := by
    unfold call callQ
    simp only [hP, h, if_neg Bool.false_ne_true]
    rfl
  have e2 : ∀ d : Plant, ∃ u2, (call d k dt .corrector).qref = (getoutput d.lead u2 dt .corrector true).2 := by
    intro d
    unfold call callQ
    simp only [hP]
    exact ⟨_, rfl⟩
  obtain ⟨u2, e⟩ := e2 (call c j dt .predictor)
  refine ⟨u2, ?_⟩
  show (call (call c j dt .predictor) k dt .corrector).qref = _
  rw [e, e1]

theorem step_pref (c : Plant) (j k : In) (dt : Real) (h : c.r.freqFlag = true) : ∃ u2,
    (run dt c [(j, k)]).pref =
    (getoutput (getoutput c.gF (clamp c.pPi.ymin c.pPi.ymax (c.pPi.C * c.pPi.x + c.pPi.D *
      clamp c.r.femin c.r.femax (1 * (c.plantRef - (getoutput c.pF j.p dt .predictor true).2 + droop c.r j.f))))
      dt .predictor true).1 u2 dt .corrector true).2 := by
  have e1 : (call c j dt .predictor).gF = (getoutput c.gF (clamp c.pPi.ymin c.pPi.ymax (c.pPi.C * c.pPi.x + c.pPi.D *
      clamp c.r.femin c.r.femax (1 * (c.plantRef - (getoutput c.pF j.p dt .predictor true).2 + droop c.r j.f))))
      dt .predictor true).1 ∧ (call c j dt .predictor).r = c.r := by
    unfold call callQ callP
    simp only [h, if_true]
    exact ⟨rfl, trivial⟩
  have e2 : ∀ d : Plant, d.r.freqFlag = true →
      ∃ u2, (call d k dt .corrector).pref = (getoutput d.gF u2 dt .corrector true).2 := by
    intro d hd
    unfold call callQ callP
    simp only [hd, if_true]
    exact ⟨_, rfl⟩
  obtain ⟨u2, e⟩ := e2 (call c j dt .predictor) (by rw [e1.2]; exact h)
  refine ⟨u2, ?_⟩
  show (call (call c j dt .predictor) k dt .corrector).pref = _
  rw [e, e1.1]

/-- The blocks of the real power at the start. -/
theorem started_p {r : Record} {p q v pref qref : Real} {c : Plant} (ht : Times r)
    (hi : Inside r p q v pref qref) (hs : Started r p q v pref qref c) (hf : r.freqFlag = true) :
    Lag c.gF r.tg pref ∧ IsPi c.pPi r.kpg r.kig r.pmin r.pmax ∧ c.pPi.x = pref ∧ Hold c.pF p p p := by
  have R := rest_start (i := ⟨p, q, v, 1⟩) ht hi hs
  obtain ⟨raw, c0, hl, rfl⟩ := hs
  have h := loaded hl
  have hr := h.data
  have eg : (start c0 p q v pref qref).gF = (initGivenY c0.gF pref).1 := by
    show (if c0.r.freqFlag = true then _ else _) = _
    rw [hr, if_pos hf]
  have ep : (start c0 p q v pref qref).pPi = (initGivenY c0.pPi (initGivenY c0.gF pref).2).1 := by
    show (if c0.r.freqFlag = true then _ else _) = _
    rw [hr, if_pos hf]
  refine ⟨?_, ?_, (R.pPi hf).st, R.pF hf⟩
  · have st := (R.gF hf).st
    rw [eg] at st ⊢
    obtain ⟨g, d1, d2⟩ := h.gF
    unfold initGivenY at st ⊢
    split_ifs at st ⊢ <;> exact ⟨g.a, g.bb, g.c, g.d, g.xlo, g.xhi, d1, d2, g.ylo, g.yhi, st⟩
  · rw [ep]
    have k := h.pPi
    unfold initGivenY
    split_ifs <;> exact ⟨k.a, k.bb, k.c, k.d, k.xlo, k.xhi, k.dlo, k.dhi, k.ylo, k.yhi⟩

/-- The blocks of the reactive power at the start, for a lag instead of a lead-lag. -/
theorem started_q {r : Record} {p q v pref qref : Real} {c : Plant} (ht : Times r)
    (hi : Inside r p q v pref qref) (hs : Started r p q v pref qref c) (hf : r.refFlag = false) (h0 : r.tft = 0) :
    Lag c.lead r.tfv qref ∧ IsPi c.qPi r.kp r.ki r.qmin r.qmax ∧ c.qPi.x = qref ∧ Hold c.qF q q q := by
  have R := rest_start (i := ⟨p, q, v, 1⟩) ht hi hs
  obtain ⟨raw, c0, hl, rfl⟩ := hs
  have h := loaded hl
  refine ⟨?_, ?_, R.qPi.st, R.qF hf⟩
  · have st := R.lead.st
    rw [h0, zero_div, sub_zero, one_mul] at st
    have g := h.lead
    have gb := g.bb
    have gd := g.d
    rw [h0, zero_div, sub_zero] at gb
    rw [h0, zero_div] at gd
    change (initGivenY c0.lead qref).1.x = qref at st
    show Lag (initGivenY c0.lead qref).1 r.tfv qref
    unfold initGivenY at st ⊢
    split_ifs at st ⊢ <;> exact ⟨g.a, gb, g.c, gd, g.xlo, g.xhi, g.dlo, g.dhi, g.ylo, g.yhi, st⟩
  · show IsPi (initGivenY c0.qPi (initGivenY c0.lead qref).2).1 _ _ _ _
    have k := h.qPi
    unfold initGivenY
    split_ifs <;> exact ⟨k.a, k.bb, k.c, k.d, k.xlo, k.xhi, k.dlo, k.dhi, k.ylo, k.yhi⟩

/-- **C321** is violated.  A plant that controls the reactive power compares it with the reference it hands over.  When
that reference is above the reactive power of the generator, it rises in the first step although power, voltage and
frequency are as at the start. -/
theorem C321_reactive_violated (r : Record) (p q v f pref qref dt : Real) (c : Plant) (k : In) (ht : Times r)
    (hi : Inside r p q v pref qref) (hs : Started r p q v pref qref c) (hf : r.refFlag = false) (h0 : r.tft = 0)
    (hk : 0 < r.kp) (he : 0 < r.emax) (hd : r.dbd2 ≤ qref - q) (hq : q < qref) (hm : qref < 1000) (hdt : 0 < dt) :
    qref < (run dt c [(⟨p, q, v, f⟩, k)]).qref := by
  obtain ⟨l, a, x, b⟩ := started_q ht hi hs hf h0
  have R := rest_start (i := ⟨p, q, v, 1⟩) ht hi hs
  obtain ⟨u2, e⟩ := step_qref c ⟨p, q, v, f⟩ k dt (by rw [R.data]; exact hf)
  rw [e]
  refine lag_rises l ht.2.2.1 hdt hm ?_
  rw [(Wind.hold_pred dt b).2.2, a.c, a.d, a.ylo, a.yhi, x, R.data, R.hq]
  refine lt_clamp hm ?_
  have hdb : deadband r.dbd1 r.dbd2 (qref - q) = qref - q := by
    unfold deadband
    rw [if_neg (by rintro ⟨_, h⟩; have : (0 : Real) < 1 / 10 ^ 6 := by norm_num
                   linarith)]
  rw [hdb, one_mul, one_mul]
  have : 0 < clamp r.emin r.emax (qref - q) := lt_clamp he (by linarith)
  have := mul_pos hk this
  linarith

/-! ### C322: frequency -/

theorem pref_rises {r : Record} {p q v pref qref dt : Real} {c : Plant} {j k : In} (ht : Times r)
    (hi : Inside r p q v pref qref) (hs : Started r p q v pref qref c) (hf : r.freqFlag = true) (hk : 0 < r.kpg)
    (he : 0 < r.femax) (hm : pref < 1000) (hdt : 0 < dt) (hp : p = pref) (hj : j.p = p) (hd : 0 < droop r j.f) :
    pref < (run dt c [(j, k)]).pref := by
  obtain ⟨l, a, x, b⟩ := started_p ht hi hs hf
  have R := rest_start (i := ⟨p, q, v, 1⟩) ht hi hs
  obtain ⟨u2, e⟩ := step_pref c j k dt (by rw [R.data]; exact hf)
  rw [e]
  refine lag_rises l ht.2.2.2.2.2.2.1 hdt hm ?_
  rw [hj, (Wind.hold_pred dt b).2.2, a.c, a.d, a.ylo, a.yhi, x, R.data, R.plant, hp, sub_self, zero_add, one_mul, one_mul]
  refine lt_clamp hm ?_
  have : 0 < clamp r.femin r.femax (droop r j.f) := lt_clamp he hd
  have := mul_pos hk this
  linarith

theorem pref_falls {r : Record} {p q v pref qref dt : Real} {c : Plant} {j k : In} (ht : Times r)
    (hi : Inside r p q v pref qref) (hs : Started r p q v pref qref c) (hf : r.freqFlag = true) (hk : 0 < r.kpg)
    (he : r.femin < 0) (hm : -1000 < pref) (hdt : 0 < dt) (hp : p = pref) (hj : j.p = p) (hd : droop r j.f < 0) :
    (run dt c [(j, k)]).pref < pref := by
  obtain ⟨l, a, x, b⟩ := started_p ht hi hs hf
  have R := rest_start (i := ⟨p, q, v, 1⟩) ht hi hs
  obtain ⟨u2, e⟩ := step_pref c j k dt (by rw [R.data]; exact hf)
  rw [e]
  refine lag_falls l ht.2.2.2.2.2.2.1 hdt hm ?_
  rw [hj, (Wind.hold_pred dt b).2.2, a.c, a.d, a.ylo, a.yhi, x, R.data, R.plant, hp, sub_self, zero_add, one_mul, one_mul]
  refine clamp_lt hm ?_
  have : clamp r.femin r.femax (droop r j.f) < 0 := clamp_lt he hd
  have := mul_neg_of_pos_of_neg hk this
  linarith

theorem deadband_below {lo hi e : Real} (h : e ≤ lo) : deadband lo hi e = e := by
  unfold deadband
  rw [if_neg]
  rintro ⟨h1, _⟩
  have : (0 : Real) < 1 / 10 ^ 6 := by norm_num
  linarith

theorem deadband_above {lo hi e : Real} (h : hi ≤ e) : deadband lo hi e = e := by
  unfold deadband
  rw [if_neg]
  rintro ⟨_, h1⟩
  have : (0 : Real) < 1 / 10 ^ 6 := by norm_num
  linarith

theorem droop_low {r : Record} {f : Real} (h1 : f < 1) (h2 : r.fdbd2 ≤ 1 - f) (h3 : 0 < r.ddn) (h4 : 0 ≤ r.dup) :
    0 < droop r f := by
  unfold droop
  simp only [deadband_above h2]
  have a := mul_pos h3 (sub_pos.mpr h1)
  have b := mul_nonneg h4 (sub_pos.mpr h1).le
  rw [max_eq_right a.le, min_eq_left b]
  linarith

theorem droop_high {r : Record} {f : Real} (h1 : 1 < f) (h2 : 1 - f ≤ r.fdbd1) (h3 : 0 ≤ r.ddn) (h4 : 0 < r.dup) :
    droop r f < 0 := by
  unfold droop
  simp only [deadband_below h2]
  have hn : 1 - f < 0 := by linarith
  have a := mul_nonpos_of_nonneg_of_nonpos h3 hn.le
  have b := mul_neg_of_pos_of_neg h4 hn
  rw [max_eq_left a, min_eq_right b.le]
  linarith

theorem droop_none {r : Record} {f : Real} (h1 : 1 ≤ f) (h3 : 0 ≤ r.ddn) (h4 : r.dup ≤ 0) : droop r f = 0 := by
  unfold droop
  have hn : deadband r.fdbd1 r.fdbd2 (1 - f) ≤ 0 := by
    unfold deadband
    split_ifs
    · exact le_refl _
    · linarith
  have a := mul_nonpos_of_nonneg_of_nonpos h3 hn
  have b := mul_nonneg_of_nonpos_of_nonpos h4 hn
  simp only [max_eq_left a, min_eq_left b]
  norm_num

/-- **C322**, the direction.  With positive gains for both directions a frequency below the dead band raises the
reference of the real power in the first step and a frequency above it lowers the reference.  Missing: which of the
two gains is used, later steps, and gains of which one is not positive (see `C322_over_violated`). -/
theorem C322_direction_partial (r : Record) (p q v qref dt f : Real) (c : Plant) (k : In) (ht : Times r)
    (hi : Inside r p q v p qref) (hs : Started r p q v p qref c) (hf : r.freqFlag = true) (hk : 0 < r.kpg)
    (hm : |p| < 1000) (hdt : 0 < dt) (hd : 0 < r.ddn) (hu : 0 < r.dup) :
    (f < 1 → r.fdbd2 ≤ 1 - f → 0 < r.femax → p < (run dt c [(⟨p, q, v, f⟩, k)]).pref) ∧
    (1 < f → 1 - f ≤ r.fdbd1 → r.femin < 0 → (run dt c [(⟨p, q, v, f⟩, k)]).pref < p) :=
  ⟨fun h1 h2 h3 => pref_rises ht hi hs hf hk h3 (abs_lt.mp hm).2 hdt rfl rfl (droop_low h1 h2 hd hu.le),
   fun h1 h2 h3 => pref_falls ht hi hs hf hk h3 (abs_lt.mp hm).1 hdt rfl rfl (droop_high h1 h2 hd.le hu)⟩

/-- **C322** is violated: the gains are swapped.  With a gain for a frequency that is too high (`Ddn`, whatever its
size) and none for a frequency that is too low (`Dup` zero, or negative as in the default values of `load`), the reference of
the real power does not react to a frequency that is too high, however high it is and however long this lasts.  It
rises when the frequency is too low. -/
theorem C322_over_violated (r : Record) (p q v qref dt : Real) (c : Plant) (ht : Times r)
    (hi : Inside r p q v p qref) (hs : Started r p q v p qref c) (hf : r.freqFlag = true)
    (hq : r.refFlag = false → q = qref) (hv : r.vfrz ≤ v) (hd : 0 < r.ddn) (hu : r.dup ≤ 0) :
    (∀ fs : List (Real × Real), (∀ f ∈ fs, 1 ≤ f.1 ∧ 1 ≤ f.2) →
      (run dt c (fs.map fun f => (⟨p, q, v, f.1⟩, ⟨p, q, v, f.2⟩))).pref = p) ∧
    (r.dup = 0 → ∀ f k, f < 1 → r.fdbd2 ≤ 1 - f → 0 < r.kpg → 0 < r.femax → 0 < dt → p < 1000 →
      p < (run dt c [(⟨p, q, v, f⟩, k)]).pref) := by
  constructor
  · intro fs h
    exact (kept (i := ⟨p, q, v, 1⟩) dt fs ht hi hs ⟨fun _ => ⟨rfl, droop_one r⟩, hq, hv⟩
      (fun f hf => ⟨droop_none (h f hf).1 hd.le hu, droop_none (h f hf).2 hd.le hu⟩)).1
  · intro h0 f k h1 h2 hk he hdt hm
    exact pref_rises ht hi hs hf hk he hm hdt rfl rfl (droop_low h1 h2 hd h0.ge)

/-! ### C323: limits of the references -/

/-- **C323** is violated: the limits bound the integrators only.  A plant at its largest real power hands over a larger
reference after the first step with a frequency below the dead band; a plant at its largest reactive power whose
generator gives less hands over a larger reference after the first step. -/
theorem C323_limit_violated (r : Record) (p q v pref qref dt : Real) (c : Plant) (k : In) (ht : Times r)
    (hi : Inside r p q v pref qref) (hs : Started r p q v pref qref c) (hdt : 0 < dt) :
    (r.freqFlag = true → p = pref → pref = r.pmax → r.pmax < 1000 → 0 < r.kpg → 0 < r.femax → 0 < r.ddn → 0 ≤ r.dup →
      ∀ f, f < 1 → r.fdbd2 ≤ 1 - f → r.pmax < (run dt c [(⟨p, q, v, f⟩, k)]).pref) ∧
    (r.refFlag = false → qref = r.qmax → r.qmax < 1000 → r.tft = 0 → 0 < r.kp → 0 < r.emax → q < r.qmax →
      r.dbd2 ≤ r.qmax - q → ∀ f, r.qmax < (run dt c [(⟨p, q, v, f⟩, k)]).qref) := by
  constructor
  · intro hf hp h hm hk he hd hu f h1 h2
    have := pref_rises (j := ⟨p, q, v, f⟩) (k := k) ht hi hs hf hk he (by rw [h]; exact hm) hdt hp rfl
      (droop_low h1 h2 hd hu)
    rwa [h] at this
  · intro hf h hm h0 hk he hq hd f
    have := C321_reactive_violated r p q v f pref qref dt c k ht hi hs hf h0 hk he (by rw [h]; exact hd)
      (by rw [h]; exact hq) (by rw [h]; exact hm) hdt
    rwa [h] at this

/-- A lag between two values that its input does not leave. -/
theorem lag_pair {b : Block} {T u u2 dt L U : Real} (h : Lag b T b.x) (h0 : 0 < T) (hdt : 0 ≤ dt) (hT : dt ≤ T)
    (hL : -1000 ≤ L) (hU : U ≤ 1000) (x1 : L ≤ b.x) (x2 : b.x ≤ U) (u1 : L ≤ u ∧ u ≤ U) (w : L ≤ u2 ∧ u2 ≤ U) :
    let p := getoutput b u dt .predictor true
    let q := getoutput p.1 u2 dt .corrector true
    (L ≤ p.2 ∧ p.2 ≤ U) ∧ (L ≤ q.2 ∧ q.2 ≤ U) ∧ L ≤ q.1.x ∧ q.1.x ≤ U ∧ Lag q.1 T q.1.x := by
  have a1 : 0 ≤ (U - b.x) / T := div_nonneg (by linarith) h0.le
  have a2 : (L - b.x) / T ≤ 0 := div_nonpos_of_nonpos_of_nonneg (by linarith) h0.le
  have up : ∀ e, e ≤ (U - b.x) / T → b.x + dt * e ≤ U := by
    intro e he
    have k1 := mul_le_mul_of_nonneg_left he hdt
    have k2 := mul_le_mul_of_nonneg_right hT a1
    have k3 : T * ((U - b.x) / T) = U - b.x := by field_simp
    linarith
  have dn : ∀ e, (L - b.x) / T ≤ e → L ≤ b.x + dt * e := by
    intro e he
    have k1 := mul_le_mul_of_nonneg_left he hdt
    have k2 := mul_le_mul_of_nonpos_right hT a2
    have k3 : T * ((L - b.x) / T) = L - b.x := by field_simp
    linarith
  obtain ⟨d, hd⟩ : ∃ d, d = clamp b.dxmin b.dxmax (getderivative b b.x u) := ⟨_, rfl⟩
  have eg : getderivative b b.x u = (u - b.x) / T := by
    unfold getderivative
    rw [h.a, h.bb]
    ring
  have d1 : d ≤ (U - b.x) / T := by
    rw [hd, eg, h.dlo]
    exact clamp_le (by linarith) (div_le_div_of_nonneg_right (by linarith [u1.2]) h0.le)
  have d2 : (L - b.x) / T ≤ d := by
    rw [hd, eg, h.dhi]
    exact le_clamp (by linarith) (div_le_div_of_nonneg_right (by linarith [u1.1]) h0.le)
  have eh : clamp b.xmin b.xmax (b.x + dt * d) = b.x + dt * d := by
    rw [h.xlo, h.xhi]
    exact Cblock.clamp_of_mem _ _ _ (by linarith [dn d d2]) (by linarith [up d d1])
  obtain ⟨m, hm⟩ : ∃ m, m = 1 / 2 * (d + (b.A * (b.x + dt * d) + b.B * u2)) := ⟨_, rfl⟩
  have em : m = 1 / 2 * (d * (1 - dt / T) + (u2 - b.x) / T) := by
    rw [hm, h.a, h.bb]
    field_simp
    ring
  have hs : 0 ≤ 1 - dt / T := by
    have := (div_le_one h0).mpr hT
    linarith
  have hs1 : 0 ≤ dt / T := div_nonneg hdt h0.le
  have m1 : m ≤ (U - b.x) / T := by
    have k1 := mul_le_mul_of_nonneg_right d1 hs
    have k2 : (u2 - b.x) / T ≤ (U - b.x) / T := div_le_div_of_nonneg_right (by linarith [w.2]) h0.le
    have k3 := mul_nonneg a1 hs1
    rw [em]
    linarith
  have m2 : (L - b.x) / T ≤ m := by
    have k1 := mul_le_mul_of_nonneg_right d2 hs
    have k2 : (L - b.x) / T ≤ (u2 - b.x) / T := div_le_div_of_nonneg_right (by linarith [w.1]) h0.le
    have k3 := mul_nonpos_of_nonpos_of_nonneg a2 hs1
    rw [em]
    linarith
  have ex : (getoutput (getoutput b u dt .predictor true).1 u2 dt .corrector true).1.x =
      clamp b.xmin b.xmax (b.x + dt * clamp b.dxmin b.dxmax m) := by
    rw [hm, ← eh, hd]
    rfl
  have ep : (getoutput b u dt .predictor true).2 = clamp (-1000) 1000 b.x := by
    show clamp b.ymin b.ymax (b.C * b.x + b.D * u) = _
    rw [h.ylo, h.yhi, h.c, h.d, one_mul, zero_mul, add_zero]
  have eq : (getoutput (getoutput b u dt .predictor true).1 u2 dt .corrector true).2 =
      clamp (-1000) 1000 (b.x + dt * d) := by
    rw [← eh, hd]
    show clamp b.ymin b.ymax (b.C * _ + b.D * u2) = _
    rw [h.ylo, h.yhi, h.c, h.d, one_mul, zero_mul, add_zero]
    rfl
  have c1 : clamp b.dxmin b.dxmax m ≤ (U - b.x) / T := by
    rw [h.dlo]
    exact clamp_le (by linarith) m1
  have c2 : (L - b.x) / T ≤ clamp b.dxmin b.dxmax m := by
    rw [h.dhi]
    exact le_clamp (by linarith) m2
  refine ⟨?_, ?_, ?_, ?_, ⟨h.a, h.bb, h.c, h.d, h.xlo, h.xhi, h.dlo, h.dhi, h.ylo, h.yhi, rfl⟩⟩
  · rw [ep]
    exact ⟨le_clamp (by linarith) x1, clamp_le (by linarith) x2⟩
  · rw [eq]
    exact ⟨le_clamp (by linarith) (dn d d2), clamp_le (by linarith) (up d d1)⟩
  · rw [ex, h.xhi]
    exact le_clamp (by linarith) (dn _ c2)
  · rw [ex, h.xlo]
    exact clamp_le (by linarith) (up _ c1)

theorem clamp_mono {lo hi x y : Real} (h : x ≤ y) : clamp lo hi x ≤ clamp lo hi y :=
  max_le_max_left _ (min_le_min_right _ h)

/-- What every step keeps: the integrator within its limits, the lag at the output within `L` and `U`. -/
structure Kept (r : Record) (L U : Real) (c : Plant) : Prop where
  data : c.r = r
  pi : IsPi c.pPi r.kpg r.kig r.pmin r.pmax
  lo : r.pmin ≤ c.pPi.x
  hi : c.pPi.x ≤ r.pmax
  lag : Lag c.gF r.tg c.gF.x
  glo : L ≤ c.gF.x
  ghi : c.gF.x ≤ U

/-- Output of the block of the real power. -/
theorem pi_out {b : Block} {r : Record} {e x : Real} (hb : IsPi b r.kpg r.kig r.pmin r.pmax) (hk : 0 ≤ r.kpg)
    (he : r.femin ≤ e ∧ e ≤ r.femax) (h1 : r.pmin ≤ x) (h2 : x ≤ r.pmax) :
    clamp (-1000) 1000 (r.pmin + r.kpg * r.femin) ≤ clamp b.ymin b.ymax (b.C * x + b.D * e) ∧
    clamp b.ymin b.ymax (b.C * x + b.D * e) ≤ clamp (-1000) 1000 (r.pmax + r.kpg * r.femax) := by
  rw [hb.ylo, hb.yhi, hb.c, hb.d, one_mul]
  exact ⟨clamp_mono (by linarith [mul_le_mul_of_nonneg_left he.1 hk]),
    clamp_mono (by linarith [mul_le_mul_of_nonneg_left he.2 hk])⟩

theorem kept_step {r : Record} {c : Plant} {j k : In} {dt : Real} (hf : r.freqFlag = true) (hk : 0 ≤ r.kpg)
    (he : r.femin ≤ r.femax) (hp : r.pmin ≤ r.pmax) (h0 : 0 < r.tg) (hdt : 0 ≤ dt) (hT : dt ≤ r.tg)
    (h : Kept r (clamp (-1000) 1000 (r.pmin + r.kpg * r.femin)) (clamp (-1000) 1000 (r.pmax + r.kpg * r.femax)) c) :
    let L := clamp (-1000) 1000 (r.pmin + r.kpg * r.femin)
    let U := clamp (-1000) 1000 (r.pmax + r.kpg * r.femax)
    let d := call c j dt .predictor
    let e := call d k dt .corrector
    (L ≤ d.pref ∧ d.pref ≤ U) ∧ (L ≤ e.pref ∧ e.pref ≤ U) ∧ Kept r L U e := by
  have hc : c.r.freqFlag = true := by rw [h.data]; exact hf
  have ce : ∀ v, r.femin ≤ clamp c.r.femin c.r.femax v ∧ clamp c.r.femin c.r.femax v ≤ r.femax := by
    intro v
    rw [h.data]
    exact ⟨le_max_left _ _, max_le he (min_le_right _ _)⟩
  obtain ⟨e1, he1⟩ : ∃ e1, e1 = clamp c.r.femin c.r.femax
      (1 * (c.plantRef - (getoutput c.pF j.p dt .predictor true).2 + droop c.r j.f)) := ⟨_, rfl⟩
  obtain ⟨e2, he2⟩ : ∃ e2, e2 = clamp c.r.femin c.r.femax (1 * (c.plantRef -
      (getoutput (getoutput c.pF j.p dt .predictor true).1 k.p dt .corrector true).2 + droop c.r k.f)) := ⟨_, rfl⟩
  have step1 : ∀ (c : Plant) (j : In) (s : Stage), c.r.freqFlag = true →
      (call c j dt s).r = c.r ∧ (call c j dt s).plantRef = c.plantRef ∧
      (call c j dt s).pF = (getoutput c.pF j.p dt s true).1 ∧
      (let e := clamp c.r.femin c.r.femax (1 * (c.plantRef - (getoutput c.pF j.p dt s true).2 + droop c.r j.f))
       (call c j dt s).pPi = (getoutput c.pPi e dt s true).1 ∧
       (call c j dt s).gF = (getoutput c.gF (getoutput c.pPi e dt s true).2 dt s true).1 ∧
       (call c j dt s).pref = (getoutput c.gF (getoutput c.pPi e dt s true).2 dt s true).2) := by
    intro c j s hc
    cases s <;> simp [call, callP, callQ, hc]
  obtain ⟨r1, r2, r3, r4, r5, r6⟩ := step1 c j .predictor hc
  obtain ⟨s1, s2, s3, s4, s5, s6⟩ := step1 (call c j dt .predictor) k .corrector (by rw [r1]; exact hc)
  rw [← he1] at r4 r5 r6
  rw [r1, r2, r3, ← he2] at s4 s5 s6
  rw [r4] at s4 s5 s6
  rw [r5] at s5 s6
  have o1 := pi_out (e := e1) h.pi hk (by rw [he1]; exact ce _) h.lo h.hi
  have xh : r.pmin ≤ (getoutput c.pPi e1 dt .predictor true).1.xhat ∧
      (getoutput c.pPi e1 dt .predictor true).1.xhat ≤ r.pmax := by
    show r.pmin ≤ clamp c.pPi.xmin c.pPi.xmax _ ∧ clamp c.pPi.xmin c.pPi.xmax _ ≤ r.pmax
    rw [h.pi.xlo, h.pi.xhi]
    exact ⟨le_max_left _ _, max_le hp (min_le_right _ _)⟩
  have o2 := pi_out (e := e2) h.pi hk (by rw [he2]; exact ce _) xh.1 xh.2
  obtain ⟨g1, g2, g3, g4, g5⟩ := lag_pair (u := (getoutput c.pPi e1 dt .predictor true).2)
    (u2 := (getoutput (getoutput c.pPi e1 dt .predictor true).1 e2 dt .corrector true).2) h.lag h0 hdt hT
    (le_max_left _ _) (max_le (by norm_num) (min_le_right _ _)) h.glo h.ghi o1 o2
  refine ⟨by rw [r6]; exact g1, by rw [s6]; exact g2, ⟨by rw [s1, r1]; exact h.data, ?_, ?_, ?_, ?_, ?_, ?_⟩⟩
  · rw [s4]
    exact ⟨h.pi.a, h.pi.bb, h.pi.c, h.pi.d, h.pi.xlo, h.pi.xhi, h.pi.dlo, h.pi.dhi, h.pi.ylo, h.pi.yhi⟩
  · rw [s4]
    show r.pmin ≤ clamp c.pPi.xmin c.pPi.xmax _
    rw [h.pi.xlo]
    exact le_max_left _ _
  · rw [s4]
    show clamp c.pPi.xmin c.pPi.xmax _ ≤ r.pmax
    rw [h.pi.xlo, h.pi.xhi]
    exact max_le hp (min_le_right _ _)
  · rw [s5]
    exact g5
  · rw [s5]
    exact g3
  · rw [s5]
    exact g4

/-- **C323** for the real power, with the distance by which the limits may be missed: in every history, after every
predictor and every corrector, the reference is beyond a limit by at most the proportional gain times the largest
error; without proportional gain it stays within the limits.  Steps are no longer than the time constant of the lag at
the output.  Missing: the reactive power, longer steps. -/
theorem C323_distance_partial (r : Record) (p q v pref qref dt : Real) (c : Plant) (is : List (In × In)) (ht : Times r)
    (hi : Inside r p q v pref qref) (hs : Started r p q v pref qref c) (hf : r.freqFlag = true) (hk : 0 ≤ r.kpg)
    (hdt : 0 ≤ dt) (hT : dt ≤ r.tg) :
    (r.pmin + r.kpg * r.femin ≤ (run dt c is).pref ∧ (run dt c is).pref ≤ r.pmax + r.kpg * r.femax) ∧
    ∀ j, r.pmin + r.kpg * r.femin ≤ (call (run dt c is) j dt .predictor).pref ∧
      (call (run dt c is) j dt .predictor).pref ≤ r.pmax + r.kpg * r.femax := by
  obtain ⟨l, a, x, _⟩ := started_p ht hi hs hf
  have R := rest_start (i := ⟨p, q, v, 1⟩) ht hi hs
  obtain ⟨i1, i2, i3, _, _, _, _, _, _, _, _, _, i4, i5⟩ := hi
  have b := abs_le.mp i3
  have k1 := mul_nonpos_of_nonneg_of_nonpos hk i4
  have k2 := mul_nonneg hk i5
  have low : r.pmin + r.kpg * r.femin ≤ clamp (-1000) 1000 (r.pmin + r.kpg * r.femin) :=
    le_clamp (by linarith) le_rfl
  have high : clamp (-1000) 1000 (r.pmax + r.kpg * r.femax) ≤ r.pmax + r.kpg * r.femax :=
    clamp_le (by linarith) le_rfl
  have start : Kept r (clamp (-1000) 1000 (r.pmin + r.kpg * r.femin)) (clamp (-1000) 1000 (r.pmax + r.kpg * r.femax))
      c := by
    refine ⟨R.data, a, by rw [x]; exact i1, by rw [x]; exact i2, by rw [l.st]; exact l, ?_, ?_⟩
    · rw [l.st]
      exact clamp_le b.1 (by linarith)
    · rw [l.st]
      exact le_clamp b.2 (by linarith)
  have p0 : c.pref = pref := by
    obtain ⟨raw, c0, _, rfl⟩ := hs
    rfl
  have all : ∀ (is : List (In × In)) (c : Plant),
      Kept r (clamp (-1000) 1000 (r.pmin + r.kpg * r.femin)) (clamp (-1000) 1000 (r.pmax + r.kpg * r.femax)) c →
      (r.pmin + r.kpg * r.femin ≤ c.pref ∧ c.pref ≤ r.pmax + r.kpg * r.femax) →
      Kept r (clamp (-1000) 1000 (r.pmin + r.kpg * r.femin)) (clamp (-1000) 1000 (r.pmax + r.kpg * r.femax))
        (run dt c is) ∧
      (r.pmin + r.kpg * r.femin ≤ (run dt c is).pref ∧ (run dt c is).pref ≤ r.pmax + r.kpg * r.femax) := by
    intro is
    induction is with
    | nil => exact fun c h h' => ⟨h, h'⟩
    | cons i is ih =>
      intro c h _
      obtain ⟨_, s, t⟩ := kept_step (j := i.1) (k := i.2) hf hk (i4.trans i5) (i1.trans i2) ht.2.2.2.2.2.2.1 hdt hT h
      exact ih _ t ⟨low.trans s.1, s.2.trans high⟩
  obtain ⟨t, s⟩ := all is c start (by rw [p0]; exact ⟨by linarith, by linarith⟩)
  refine ⟨s, fun j => ?_⟩
  obtain ⟨s, _, _⟩ := kept_step (j := j) (k := j) hf hk (i4.trans i5) (i1.trans i2) ht.2.2.2.2.2.2.1 hdt hT t
  exact ⟨low.trans s.1, s.2.trans high⟩

/-! ### C328: frozen integrator of the reactive power -/

/-- Whether the integrator of the reactive power is frozen in a call. -/
theorem frozen_call {c : Plant} {j : In} {dt : Real} {s : Stage} (h : s = .predictor → j.v < c.r.vfrz)
    (h' : s = .corrector → c.freeze = true) :
    (call c j dt s).r = c.r ∧ (call c j dt s).freeze = true ∧ (call c j dt s).qPi = c.qPi := by
  cases s with
  | predictor =>
    have := h rfl
    by_cases hp : c.r.freqFlag = true <;> simp [call, callP, callQ, hp, this, getoutput, getoutputLim]
  | corrector =>
    have := h' rfl
    by_cases hp : c.r.freqFlag = true <;> simp [call, callP, callQ, hp, this, getoutput, getoutputLim]

/-- **C328** for the integrator: as long as the voltage at the predictor is below the freezing voltage nothing in the
integrator of the reactive power changes, whatever the power, the frequency and the voltage at the corrector.  Missing:
the reference that is handed over (see `C328_first_violated`). -/
theorem C328_state_partial (dt : Real) (c : Plant) (is : List (In × In)) (h : ∀ i ∈ is, i.1.v < c.r.vfrz) :
    (run dt c is).qPi = c.qPi := by
  induction is generalizing c with
  | nil => rfl
  | cons i is ih =>
    obtain ⟨a1, a2, a3⟩ := frozen_call (c := c) (j := i.1) (dt := dt) (s := .predictor)
      (fun _ => h i (List.mem_cons_self ..)) (fun h => Stage.noConfusion h)
    obtain ⟨b1, _, b3⟩ := frozen_call (c := call c i.1 dt .predictor) (j := i.2) (dt := dt) (s := .corrector)
      (fun h => Stage.noConfusion h) (fun _ => a2)
    have := ih (call (call c i.1 dt .predictor) i.2 dt .corrector) (fun k hk => by
      rw [b1, a1]
      exact h k (List.mem_cons_of_mem _ hk))
    exact this.trans (b3.trans a3)

/-- A frozen call with control of the reactive power. -/
theorem frozen_q {c : Plant} {j : In} {dt : Real} {s : Stage} (hc : c.r.refFlag = false)
    (h : s = .predictor → j.v < c.r.vfrz) (h' : s = .corrector → c.freeze = true) :
    let e := clamp c.r.emin c.r.emax (1 * deadband c.r.dbd1 c.r.dbd2 (c.qref - (getoutput c.qF j.q dt s true).2))
    let u := clamp c.qPi.ymin c.qPi.ymax (c.qPi.C * outState c.qPi s + c.qPi.D * e)
    (call c j dt s).qF = (getoutput c.qF j.q dt s true).1 ∧ (call c j dt s).lead = (getoutput c.lead u dt s true).1 ∧
    (call c j dt s).qref = (getoutput c.lead u dt s true).2 := by
  cases s with
  | predictor =>
    have := h rfl
    by_cases hp : c.r.freqFlag = true <;> simp [call, callP, callQ, hp, hc, this] <;> exact ⟨rfl, rfl⟩
  | corrector =>
    have := h' rfl
    by_cases hp : c.r.freqFlag = true <;> simp [call, callP, callQ, hp, hc, this] <;> exact ⟨rfl, rfl⟩

theorem loads_any (raw : Block) {r : Record} (ht : Times r) : ∃ c, load raw r = some c := by
  obtain ⟨t1, _, t3, _, t5, _, t7, _⟩ := ht
  have h : ∀ T : Real, 0 < T → ∃ b, filter raw 1 T = some b := by
    intro T hT
    unfold filter setcoeffs
    rw [if_neg (ne_of_gt hT)]
    exact ⟨_, rfl⟩
  have hl : ∃ b, leadLag raw r.tft r.tfv = some b := by
    unfold leadLag setcoeffs
    rw [if_neg (ne_of_gt t3)]
    exact ⟨_, rfl⟩
  have hp : ∀ kp ki lo hi : Real, ∃ b, withLimits (piControl raw kp ki) lo hi (-1000) 1000 = some b := by
    intro kp ki lo hi
    unfold piControl setcoeffs
    rw [if_neg one_ne_zero]
    exact ⟨_, rfl⟩
  obtain ⟨b1, e1⟩ := h _ t1
  obtain ⟨b2, e2⟩ := hp r.kp r.ki r.qmin r.qmax
  obtain ⟨b3, e3⟩ := hl
  obtain ⟨b4, e4⟩ := h _ t5
  obtain ⟨b5, e5⟩ := hp r.kpg r.kig r.pmin r.pmax
  obtain ⟨b6, e6⟩ := h _ t7
  unfold load
  rw [e1, e2, e3, e4, e5, e6]
  exact ⟨_, rfl⟩

/-- The state for the corrector is left as the constructor leaves it. -/
theorem start_xhat {raw : Block} {r : Record} {c : Plant} {p q v pref qref : Real} (h : load raw r = some c) :
    (start c p q v pref qref).qPi.xhat = raw.xhat := by
  have e : ∀ (b : Block) (y : Real), (initGivenY b y).1.xhat = b.xhat := by
    intro b y
    unfold initGivenY
    split_ifs <;> rfl
  show (initGivenY c.qPi _).1.xhat = _
  rw [e]
  unfold load at h
  split at h
  · rename_i f a l p b g h1 h2 h3 h4 h5 h6
    cases h
    show a.xhat = _
    unfold piControl setcoeffs at h2
    rw [if_neg one_ne_zero] at h2
    cases h2
    rfl
  · cases h

/-- **C328** is violated: in the first step the corrector of a frozen integrator uses a state that nothing has set.  A
plant at rest that controls the reactive power hands over any reference after a first step in which only the voltage
has fallen, depending on what was in memory. -/
theorem C328_first_violated (r : Record) (p q v f v' pref dt w : Real) (ht : Times r) (hi : Inside r p q v pref q)
    (hf : r.refFlag = false) (hv : v' < r.vfrz) (hw : |w| ≤ 1000) :
    ∃ c, Started r p q v pref q c ∧ (run dt c (constant ⟨p, q, v', f⟩ 1)).qref =
      clamp (-1000) 1000 (q + r.tft / r.tfv * (w - q)) := by
  obtain ⟨c0, hl⟩ := loads_any ⟨0, 0, 0, 0, 0, w, 1000, -1000, 1000, -1000, 1000, -1000, .predictor, 0⟩ ht
  have hs : Started r p q v pref q (start c0 p q v pref q) := ⟨_, _, hl, rfl⟩
  refine ⟨_, hs, ?_⟩
  have R := rest_start (i := ⟨p, q, v, 1⟩) ht hi hs
  have L := loaded hl
  have X := start_xhat (p := p) (q := q) (v := v) (pref := pref) (qref := q) hl
  have A : IsPi (start c0 p q v pref q).qPi r.kp r.ki r.qmin r.qmax := by
    show IsPi (initGivenY c0.qPi _).1 _ _ _ _
    rw [Wind.pi_initY _ L.qPi]
    exact ⟨L.qPi.a, L.qPi.bb, L.qPi.c, L.qPi.d, L.qPi.xlo, L.qPi.xhi, L.qPi.dlo, L.qPi.dhi, L.qPi.ylo, L.qPi.yhi⟩
  have B : (start c0 p q v pref q).lead.C = 1 ∧ (start c0 p q v pref q).lead.D = r.tft / r.tfv ∧
      (start c0 p q v pref q).lead.ymin = -1000 ∧ (start c0 p q v pref q).lead.ymax = 1000 := by
    show (initGivenY c0.lead q).1.C = 1 ∧ (initGivenY c0.lead q).1.D = _ ∧ (initGivenY c0.lead q).1.ymin = _ ∧
      (initGivenY c0.lead q).1.ymax = _
    unfold initGivenY
    split_ifs <;> exact ⟨L.lead.c, L.lead.d, L.lead.ylo, L.lead.yhi⟩
  generalize start c0 p q v pref q = c at hs R X A B ⊢
  have e0 : clamp r.emin r.emax (1 * deadband r.dbd1 r.dbd2 (q - q)) = 0 := by
    obtain ⟨_, _, _, _, _, _, _, _, _, _, i1, i2, _⟩ := hi
    have : deadband r.dbd1 r.dbd2 (q - q) = 0 := by
      unfold deadband
      rw [sub_self, ite_self]
    rw [this, mul_zero]
    exact Cblock.clamp_of_mem _ _ _ i1 i2
  show (call (call c ⟨p, q, v', f⟩ dt .predictor) ⟨p, q, v', f⟩ dt .corrector).qref = _
  obtain ⟨a1, a2, a3⟩ := frozen_call (c := c) (j := ⟨p, q, v', f⟩) (dt := dt) (s := .predictor)
    (fun _ => by rw [R.data]; exact hv) (fun h => Stage.noConfusion h)
  obtain ⟨b1, b2, b3⟩ := frozen_q (c := c) (j := ⟨p, q, v', f⟩) (dt := dt) (s := .predictor)
    (by rw [R.data]; exact hf) (fun _ => by rw [R.data]; exact hv) (fun h => Stage.noConfusion h)
  obtain ⟨_, _, d3⟩ := frozen_q (c := call c ⟨p, q, v', f⟩ dt .predictor) (j := ⟨p, q, v', f⟩) (dt := dt)
    (s := .corrector) (by rw [a1, R.data]; exact hf) (fun h => Stage.noConfusion h) (fun _ => a2)
  obtain ⟨k1, k2, k3⟩ := Wind.hold_pred dt (R.qF hf)
  have k4 := (Wind.hold_corr dt k1 k2).2
  dsimp only at k1 k2 k3 k4 b1 b2 b3 d3
  have o1 : clamp c.qPi.ymin c.qPi.ymax (c.qPi.C * outState c.qPi .predictor + c.qPi.D * 0) = q := by
    have := R.qPi.out
    rw [← R.qPi.st] at this
    exact this.trans R.qPi.st
  rw [k3, R.hq, R.data, e0, o1] at b2 b3
  obtain ⟨l1, l2, l3⟩ := Wind.hold_pred dt R.lead
  rw [l3] at b3
  rw [d3, b1, b2, b3, a1, a3, k4, R.data, e0]
  have o2 : clamp c.qPi.ymin c.qPi.ymax (c.qPi.C * outState c.qPi .corrector + c.qPi.D * 0) = w := by
    show clamp c.qPi.ymin c.qPi.ymax (c.qPi.C * c.qPi.xhat + c.qPi.D * 0) = w
    rw [X, A.c, A.ylo, A.yhi, one_mul, mul_zero, add_zero]
    exact clamp_1000 hw
  rw [o2]
  show clamp c.lead.ymin c.lead.ymax (c.lead.C * (getoutput c.lead q dt .predictor true).1.xhat + c.lead.D * w) = _
  rw [l2.2, B.1, B.2.1, B.2.2.1, B.2.2.2]
  congr 1
  ring

/-! ### Examples -/

/-- The default values of `load`, with control of the real power. -/
noncomputable def demo : Record :=
  ⟨false, false, true, 1 / 50, 1 / 50, 0, 0, 3 / 10, -3 / 10, 14 / 25, -14 / 25, 18, 5, 0, 1 / 20, 0, 0, 1 / 2, 20, -10,
    1 / 20, 999, -999, 1 / 10, 1 / 20, 3 / 2, -3 / 2, 1 / 10⟩

/-- The same with the gains `d` and `u` for the frequency. -/
noncomputable def demoGains (d u : Real) : Record := { demo with ddn := d, dup := u }

noncomputable def rawBlock : Block := ⟨0, 0, 0, 0, 0, 0, 1000, -1000, 1000, -1000, 1000, -1000, .predictor, 0⟩

theorem demo_loads (d u : Real) : ∃ c, load rawBlock (demoGains d u) = some c := by
  have h : ∀ T : Real, T ≠ 0 → ∃ b, filter rawBlock 1 T = some b := by
    intro T hT
    unfold filter setcoeffs
    rw [if_neg hT]
    exact ⟨_, rfl⟩
  have hl : ∃ b, leadLag rawBlock 0 (1 / 20) = some b := by
    unfold leadLag setcoeffs
    rw [if_neg (by norm_num)]
    exact ⟨_, rfl⟩
  have hp : ∀ kp ki lo hi : Real, ∃ b, withLimits (piControl rawBlock kp ki) lo hi (-1000) 1000 = some b := by
    intro kp ki lo hi
    unfold piControl setcoeffs
    rw [if_neg one_ne_zero]
    exact ⟨_, rfl⟩
  obtain ⟨b1, e1⟩ := h (1 / 50) (by norm_num)
  obtain ⟨b2, e2⟩ := hp 18 5 (-14 / 25) (14 / 25)
  obtain ⟨b3, e3⟩ := hl
  obtain ⟨b4, e4⟩ := h (1 / 20) (by norm_num)
  obtain ⟨b5, e5⟩ := hp (1 / 10) (1 / 20) (-3 / 2) (3 / 2)
  obtain ⟨b6, e6⟩ := h (1 / 10) (by norm_num)
  unfold load
  simp only [demoGains, demo, e1, e2, e3, e4, e5, e6]
  exact ⟨_, rfl⟩

theorem demo_times (d u : Real) : Times (demoGains d u) := by
  unfold Times demoGains demo
  norm_num

theorem demo_inside (d u : Real) {p q qref : Real} (hp : |p| ≤ 3 / 2) (hq : |q| ≤ 14 / 25) (hr : |qref| ≤ 14 / 25) :
    Inside (demoGains d u) p q 1 p qref := by
  have hp' := abs_le.mp hp
  have hr' := abs_le.mp hr
  have hq' := abs_le.mp hq
  refine ⟨by show -3 / 2 ≤ p; linarith, hp'.2, by linarith, by linarith, by show -14 / 25 ≤ qref; linarith, hr'.2,
    by linarith, ?_, by linarith, ?_, by show (-3 / 10 : Real) ≤ 0; norm_num, by show (0 : Real) ≤ 3 / 10; norm_num,
    by show (-999 : Real) ≤ 0; norm_num, by show (0 : Real) ≤ 999; norm_num⟩
  · show |(1 - 0 / (1 / 20)) * qref| ≤ 1000
    rw [zero_div, sub_zero, one_mul]
    linarith
  · show |q * (1 / 50) + 1| ≤ 1000
    exact abs_le.mpr ⟨by linarith [hq'.1], by linarith [hq'.2]⟩

theorem half_le : |(1 / 2 : Real)| ≤ 3 / 2 ∧ |(1 / 5 : Real)| ≤ 14 / 25 ∧ |(14 / 25 : Real)| ≤ 14 / 25 ∧
    |(3 / 2 : Real)| ≤ 3 / 2 := by
  refine ⟨?_, ?_, ?_, ?_⟩ <;> rw [abs_of_nonneg (by norm_num)] <;> norm_num

/-- Rest at the power 1/2 + j 1/5. -/
example : ∃ c, Started (demoGains 20 (-10)) (1 / 2) (1 / 5) 1 (1 / 2) (1 / 5) c ∧
    ∀ n, (run (1 / 100) c (constant ⟨1 / 2, 1 / 5, 1, 1⟩ n)).pref = 1 / 2 ∧
      (run (1 / 100) c (constant ⟨1 / 2, 1 / 5, 1, 1⟩ n)).qref = 1 / 5 := by
  obtain ⟨c0, h⟩ := demo_loads 20 (-10)
  have hs : Started (demoGains 20 (-10)) (1 / 2) (1 / 5) 1 (1 / 2) (1 / 5) _ := ⟨_, _, h, rfl⟩
  refine ⟨_, hs, fun n => C321_rest_partial _ _ _ _ _ _ _ _ n (demo_times _ _)
    (demo_inside _ _ half_le.1 half_le.2.1 half_le.2.1) hs (fun _ => rfl) (fun _ => rfl) ?_⟩
  show (1 / 2 : Real) ≤ 1
  norm_num

/-- The electrical controller hands over the reference 14/25, the generator gives 1/5. -/
example : ∃ c, Started (demoGains 20 (-10)) (1 / 2) (1 / 5) 1 (1 / 2) (14 / 25) c ∧
    14 / 25 < (run (1 / 100) c (constant ⟨1 / 2, 1 / 5, 1, 1⟩ 1)).qref := by
  obtain ⟨c0, h⟩ := demo_loads 20 (-10)
  have hs : Started (demoGains 20 (-10)) (1 / 2) (1 / 5) 1 (1 / 2) (14 / 25) _ := ⟨_, _, h, rfl⟩
  refine ⟨_, hs, C321_reactive_violated _ _ _ _ _ _ _ _ _ _ (demo_times _ _)
    (demo_inside _ _ half_le.1 half_le.2.1 half_le.2.2.1) hs rfl rfl ?_ ?_ ?_ ?_ ?_ ?_⟩
  · show (0 : Real) < 18
    norm_num
  · show (0 : Real) < 3 / 10
    norm_num
  · show (0 : Real) ≤ 14 / 25 - 1 / 5
    norm_num
  all_goals norm_num

/-- The gain 20 for both directions: 0.99 raises, 1.01 lowers. -/
example : ∃ c, Started (demoGains 20 20) (1 / 2) (1 / 5) 1 (1 / 2) (1 / 5) c ∧
    (∀ k, 1 / 2 < (run (1 / 100) c [(⟨1 / 2, 1 / 5, 1, 99 / 100⟩, k)]).pref) ∧
    (∀ k, (run (1 / 100) c [(⟨1 / 2, 1 / 5, 1, 101 / 100⟩, k)]).pref < 1 / 2) := by
  obtain ⟨c0, h⟩ := demo_loads 20 20
  have hs : Started (demoGains 20 20) (1 / 2) (1 / 5) 1 (1 / 2) (1 / 5) _ := ⟨_, _, h, rfl⟩
  have key := fun f k => C322_direction_partial (demoGains 20 20) _ _ _ _ (1 / 100) f _ k (demo_times _ _)
    (demo_inside _ _ half_le.1 half_le.2.1 half_le.2.1) hs rfl (by show (0 : Real) < 1 / 10; norm_num)
    (lt_of_le_of_lt half_le.1 (by norm_num)) (by norm_num) (by show (0 : Real) < 20; norm_num)
    (by show (0 : Real) < 20; norm_num)
  refine ⟨_, hs, fun k => (key (99 / 100) k).1 (by norm_num) ?_ ?_, fun k => (key (101 / 100) k).2 (by norm_num) ?_ ?_⟩
  · show (0 : Real) ≤ 1 - 99 / 100
    norm_num
  · show (0 : Real) < 999
    norm_num
  · show (1 - 101 / 100 : Real) ≤ 0
    norm_num
  · show (-999 : Real) < 0
    norm_num

/-- A plant that only has to react to frequencies that are too high: the frequency 1.05 for any time has no effect. -/
example : ∃ c, Started (demoGains 20 0) (1 / 2) (1 / 5) 1 (1 / 2) (1 / 5) c ∧
    ∀ n, (run (1 / 100) c ((List.replicate n ((105 / 100 : Real), (105 / 100 : Real))).map fun f =>
      (⟨1 / 2, 1 / 5, 1, f.1⟩, ⟨1 / 2, 1 / 5, 1, f.2⟩))).pref = 1 / 2 := by
  obtain ⟨c0, h⟩ := demo_loads 20 0
  have hs : Started (demoGains 20 0) (1 / 2) (1 / 5) 1 (1 / 2) (1 / 5) _ := ⟨_, _, h, rfl⟩
  refine ⟨_, hs, fun n => (C322_over_violated _ _ _ _ _ _ _ (demo_times _ _)
    (demo_inside _ _ half_le.1 half_le.2.1 half_le.2.1) hs rfl (fun _ => rfl) (by show (1 / 2 : Real) ≤ 1; norm_num)
    (by show (0 : Real) < 20; norm_num) (le_refl _)).1 _ (fun f hf => ?_)⟩
  rw [List.eq_of_mem_replicate hf]
  norm_num

/-- A plant at its largest real power 3/2 and at its largest reactive power 14/25. -/
example : ∃ c, Started (demoGains 20 0) (3 / 2) (1 / 5) 1 (3 / 2) (14 / 25) c ∧
    ∀ k, 3 / 2 < (run (1 / 100) c [(⟨3 / 2, 1 / 5, 1, 99 / 100⟩, k)]).pref ∧
      14 / 25 < (run (1 / 100) c [(⟨3 / 2, 1 / 5, 1, 99 / 100⟩, k)]).qref := by
  obtain ⟨c0, h⟩ := demo_loads 20 0
  have hs : Started (demoGains 20 0) (3 / 2) (1 / 5) 1 (3 / 2) (14 / 25) _ := ⟨_, _, h, rfl⟩
  refine ⟨_, hs, fun k => ?_⟩
  obtain ⟨a, b⟩ := C323_limit_violated _ _ _ _ _ _ (1 / 100) _ k (demo_times 20 0)
    (demo_inside 20 0 half_le.2.2.2 half_le.2.1 half_le.2.2.1) hs (by norm_num)
  refine ⟨a rfl rfl rfl ?_ ?_ ?_ ?_ (le_refl _) _ ?_ ?_, b rfl rfl ?_ rfl ?_ ?_ ?_ ?_ _⟩
  · show (3 / 2 : Real) < 1000
    norm_num
  · show (0 : Real) < 1 / 10
    norm_num
  · show (0 : Real) < 999
    norm_num
  · show (0 : Real) < 20
    norm_num
  · norm_num
  · show (0 : Real) ≤ 1 - 99 / 100
    norm_num
  · show (14 / 25 : Real) < 1000
    norm_num
  · show (0 : Real) < 18
    norm_num
  · show (0 : Real) < 3 / 10
    norm_num
  · show (1 / 5 : Real) < 14 / 25
    norm_num
  · show (0 : Real) ≤ 14 / 25 - 1 / 5
    norm_num

/-- Without proportional gain a plant at its largest real power 3/2 stays there or below, at any frequencies. -/
example : ∃ c, Started { demoGains 20 0 with kpg := 0 } (3 / 2) (1 / 5) 1 (3 / 2) (14 / 25) c ∧
    ∀ is, (run (1 / 100) c is).pref ≤ 3 / 2 := by
  obtain ⟨c0, h⟩ : ∃ c, load rawBlock { demoGains 20 0 with kpg := 0 } = some c := by
    obtain ⟨c, h⟩ := demo_loads 20 0
    unfold load at h ⊢
    split at h
    · rename_i f a l p b g h1 h2 h3 h4 h5 h6
      have h5' : ∃ b', withLimits (piControl rawBlock 0 (1 / 20)) (-3 / 2) (3 / 2) (-1000) 1000 = some b' := by
        unfold withLimits piControl setcoeffs
        rw [if_neg one_ne_zero]
        exact ⟨_, rfl⟩
      obtain ⟨b', h5'⟩ := h5'
      refine ⟨⟨{ demoGains 20 0 with kpg := 0 }, f, f, a, l, p, b', g, 0, 0, 0, 0, 0, 0, 0, 0, false⟩, ?_⟩
      have e5 : withLimits (piControl rawBlock ({ demoGains 20 0 with kpg := 0 } : Record).kpg
        ({ demoGains 20 0 with kpg := 0 } : Record).kig) ({ demoGains 20 0 with kpg := 0 } : Record).pmin
        ({ demoGains 20 0 with kpg := 0 } : Record).pmax (-1000) 1000 = some b' := h5'
      dsimp only at e5 ⊢
      rw [h1, h2, h3, h4, e5, h6]
    · cases h
  have hs : Started { demoGains 20 0 with kpg := 0 } (3 / 2) (1 / 5) 1 (3 / 2) (14 / 25) _ := ⟨_, _, h, rfl⟩
  refine ⟨_, hs, fun is => ?_⟩
  have := (C323_distance_partial { demoGains 20 0 with kpg := 0 } _ _ _ _ _ (1 / 100) _ is (demo_times 20 0)
    (demo_inside 20 0 half_le.2.2.2 half_le.2.1 half_le.2.2.1) hs rfl (le_refl _) (by norm_num)
    (by show (1 / 100 : Real) ≤ 1 / 10; norm_num)).1.2
  refine this.trans ?_
  show (3 / 2 : Real) + 0 * 999 ≤ 3 / 2
  norm_num

/-- A frozen integrator during a long fault. -/
example (c : Plant) (h : c.r.vfrz = 1 / 2) (n : Nat) (q : Real) :
    (run (1 / 100) c (constant ⟨1, q, 1 / 5, 1⟩ n)).qPi = c.qPi :=
  C328_state_partial _ _ _ (fun i hi => by
    rw [List.eq_of_mem_replicate hi, h]
    norm_num)

/-- A plant at 1/2 + j 1/5 with a lead time of 1/40 hands over the reference 100 after a first step in a fault. -/
example : ∃ c, Started { demoGains 20 0 with tft := 1 / 40 } (1 / 2) (1 / 5) 1 (1 / 2) (1 / 5) c ∧
    (run (1 / 100) c (constant ⟨1 / 2, 1 / 5, 1 / 10, 1⟩ 1)).qref = 100 := by
  have ht : Times { demoGains 20 0 with tft := 1 / 40 } := demo_times 20 0
  have hi : Inside { demoGains 20 0 with tft := 1 / 40 } (1 / 2) (1 / 5) 1 (1 / 2) (1 / 5) := by
    obtain ⟨i1, i2, i3, i4, i5, i6, i7, _, i9, i10, i11, i12, i13, i14⟩ :=
      demo_inside 20 0 (p := 1 / 2) half_le.1 half_le.2.1 half_le.2.1
    refine ⟨i1, i2, i3, i4, i5, i6, i7, ?_, i9, i10, i11, i12, i13, i14⟩
    show |(1 - (1 / 40) / (1 / 20)) * (1 / 5 : Real)| ≤ 1000
    rw [abs_of_nonneg (by norm_num)]
    norm_num
  obtain ⟨c, hs, h⟩ := C328_first_violated _ _ _ _ 1 (1 / 10) _ (1 / 100) (999 / 5) ht hi rfl
    (by show (1 / 10 : Real) < 1 / 2; norm_num) (by rw [abs_of_nonneg (by norm_num)]; norm_num)
  refine ⟨c, hs, h.trans ?_⟩
  show clamp (-1000) 1000 ((1 / 5 : Real) + (1 / 40) / (1 / 20) * (999 / 5 - 1 / 5)) = 100
  rw [Cblock.clamp_of_mem _ _ _ (by norm_num) (by norm_num)]
  norm_num

end GridPACK.PlantControl
