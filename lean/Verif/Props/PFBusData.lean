import Verif.Lemmas.PFBusData
import Mathlib.Algebra.BigOperators.Ring.List

/-! C134 (resetting power), C135 (limits of generator scaling), C139 (participation factors), C140 (outage and return
of a generator). -/
namespace GridPACK.PFBusData

/-! ### Histories -/

/-- A call that changes a loaded bus. -/
inductive Op
  | scaleGen (tag : String) (value : ℝ)
  | scaleLoad (tag : String) (value : ℝ)
  | setPg (tag : String) (value : ℝ)
  | addPg (tag : String) (value : ℝ)
  | setGenStatus (tag : String) (status : Bool)
  | setGeneratorRealPower (tag : String) (value : ℝ)
  | setGeneratorStatus (tag : String) (status : Int)
  | setLoadRealPower (tag : String) (value : ℝ)
  | setIsPV (status : Bool)
  | resetIsPV
  | resetVoltage
  | resetPower

/-- What a call does to bus and data collection. -/
noncomputable def step (s : Bus × Data) : Op → Bus × Data
  | .scaleGen t x => (scaleGen t x s.1, s.2)
  | .scaleLoad t x => (scaleLoad t x s.1, s.2)
  | .setPg t x => (setPg t x s.1, s.2)
  | .addPg t x => (addPg t x s.1, s.2)
  | .setGenStatus t x => (setGenStatus t x s.1, s.2)
  | .setGeneratorRealPower t x => setGeneratorRealPower t x s.1 s.2
  | .setGeneratorStatus t x => setGeneratorStatus t x s.1 s.2
  | .setLoadRealPower t x => setLoadRealPower t x s.1 s.2
  | .setIsPV x => (setIsPV x s.1, s.2)
  | .resetIsPV => (resetIsPV s.1, s.2)
  | .resetVoltage => (resetVoltage s.1, s.2)
  | .resetPower => (resetPower s.1, s.2)

/-- A history of calls. -/
noncomputable def run (ops : List Op) (s : Bus × Data) : Bus × Data := ops.foldl step s

/-- What no call changes: names and limits of the generators, names of the loads, saved powers. -/
def kept (b : Bus) : List (String × ℝ × ℝ) × List String × List ℝ × List ℝ × List ℝ × ℝ :=
  (b.gens.map (fun g => (g.id, g.pt, g.pb)), b.loads.map (·.id), b.savePg, b.savePl, b.saveQl, b.voltage)

theorem step_kept (s : Bus × Data) (op : Op) : kept (step s op).1 = kept s.1 := by
  cases op with
  | scaleGen t x =>
    simp only [step, kept, scaleGen]
    rw [scaleGenL_map _ _ _ (fun _ _ => rfl)]
  | scaleLoad t x =>
    simp only [step, kept, scaleLoad]
    rw [scaleLoadL_map _ _ _ (fun _ _ _ => rfl)]
  | setPg t x =>
    simp only [step, kept, setPg, List.map_map]
    rw [List.map_congr_left (g := fun g : Gen => (g.id, g.pt, g.pb))]
    intro g _
    by_cases h : g.id = t <;> simp [h]
  | addPg t x =>
    simp only [step, kept, addPg, List.map_map]
    rw [List.map_congr_left (g := fun g : Gen => (g.id, g.pt, g.pb))]
    intro g _
    by_cases h : g.id = t <;> simp [h]
  | setGenStatus t x =>
    simp only [step, kept, setGenStatus]
    rw [setGenStatusL_map _ _ _ (fun _ _ _ _ _ => rfl)]
  | setGeneratorRealPower t x =>
    simp only [step, setGeneratorRealPower]
    cases genIndex t s.1 with
    | none => rfl
    | some i =>
      simp only [kept]
      rw [modify_map]
      exact fun _ => rfl
  | setGeneratorStatus t x =>
    simp only [step, setGeneratorStatus]
    cases genIndex t s.1 with
    | none => rfl
    | some i =>
      simp only [kept, setIsPV]
      rw [modify_map]
      intro g
      by_cases h : x = 0 <;> simp [h]
  | setLoadRealPower t x =>
    simp only [step, setLoadRealPower]
    cases s.1.loads.findIdx? (fun l => decide (l.id = t)) with
    | none => rfl
    | some i =>
      simp only [kept]
      rw [modify_map]
      exact fun _ => rfl
  | setIsPV x => rfl
  | resetIsPV => rfl
  | resetVoltage => rfl
  | resetPower =>
    simp only [step, kept, resetPower, resetVoltage]
    rw [restorePg_map _ (fun _ _ => rfl), restoreLoads_map _ (fun _ _ _ => rfl)]

theorem run_kept (ops : List Op) : ∀ s : Bus × Data, kept (run ops s).1 = kept s.1 := by
  induction ops with
  | nil => intro s; rfl
  | cons op ops ih =>
    intro s
    show kept (run ops (step s op)).1 = _
    rw [ih, step_kept]

theorem reset_of_kept {b b' : Bus} (h : kept b' = kept b) (hp : b.savePg = b.gens.map Gen.pg)
    (hl : b.savePl = b.loads.map Load.pl) (hq : b.saveQl = b.loads.map Load.ql) :
    (resetPower b').gens.map (fun g => (g.id, g.pg)) = b.gens.map (fun g => (g.id, g.pg)) ∧
    (resetPower b').loads.map (fun l => (l.id, l.pl, l.ql)) = b.loads.map (fun l => (l.id, l.pl, l.ql)) := by
  have h' := h
  simp only [kept, Prod.mk.injEq] at h'
  obtain ⟨h1, h2, h3, h4, h5, -⟩ := h'
  have hlen : b'.gens.length = b.gens.length := by simpa using congrArg List.length h1
  have hlen2 : b'.loads.length = b.loads.length := by simpa using congrArg List.length h2
  have hid : b'.gens.map (·.id) = b.gens.map (·.id) := by
    have := congrArg (List.map (fun x : String × ℝ × ℝ => x.1)) h1
    simpa [List.map_map, Function.comp_def] using this
  have zipmap : ∀ {α β γ : Type} (l : List α) (f : α → β) (g : α → γ),
      l.map (fun a => (f a, g a)) = (l.map f).zip (l.map g) := by
    intro α β γ l f g
    rw [List.zip_map']
  refine ⟨?_, ?_⟩
  · rw [zipmap, zipmap b.gens]
    have e1 : (resetPower b').gens.map (·.id) = b.gens.map (·.id) := by
      show (restorePg b'.gens b'.savePg).map _ = _
      rw [restorePg_map _ (fun _ _ => rfl), hid]
    have e2 : (resetPower b').gens.map (·.pg) = b.gens.map (·.pg) := by
      show (restorePg b'.gens b'.savePg).map Gen.pg = _
      rw [restorePg_pg _ _ (by rw [h3, hp, hlen]; simp), h3, hp, hlen, List.take_of_length_le (by simp)]
    rw [e1, e2]
  · rw [zipmap, zipmap b.loads]
    have e1 : (resetPower b').loads.map (·.id) = b.loads.map (·.id) := by
      show (restoreLoads b'.loads b'.savePl b'.saveQl).map _ = _
      rw [restoreLoads_map _ (fun _ _ _ => rfl), h2]
    have e2 : (resetPower b').loads.map (fun l => (l.pl, l.ql)) = b.loads.map (fun l => (l.pl, l.ql)) := by
      show (restoreLoads b'.loads b'.savePl b'.saveQl).map _ = _
      rw [restoreLoads_pl _ _ _ (by rw [h4, hl, hlen2]; simp) (by rw [h5, hq, hlen2]; simp), h4, h5, hl, hq, hlen2,
        List.take_of_length_le (by simp), List.take_of_length_le (by simp), ← zipmap]
    rw [e1, e2]

/-- C134: after any history of calls on a bus that was loaded once, resetting the power gives every generator its loaded
real power and every load its loaded real and reactive power.

Partial: reactive generation is not restored (`C134_reactive_violated`), and a second load breaks the claim
(`C134_reload_violated`). -/
theorem C134_restored_partial (d : Data) (b : Bus) (h : load d fresh = some b) (ops : List Op) (e : Data) :
    (resetPower (run ops (b, e)).1).gens.map (fun g => (g.id, g.pg)) = b.gens.map (fun g => (g.id, g.pg)) ∧
    (resetPower (run ops (b, e)).1).loads.map (fun l => (l.id, l.pl, l.ql)) =
      b.loads.map (fun l => (l.id, l.pl, l.ql)) := by
  refine reset_of_kept (run_kept ops (b, e)) ?_ ?_ ?_
  · simpa [fresh] using load_savePg h
  · simpa [fresh] using load_savePl h
  · simpa [fresh] using load_saveQl h

/-- C134 violated: after a second load (with no more generators than the first) resetting the power brings back the
generation of the first load, and the generator margins report it. -/
theorem C134_reload_violated (d₁ d₂ : Data) (b₁ b₂ : Bus) (h₁ : load d₁ fresh = some b₁) (h₂ : load d₂ b₁ = some b₂)
    (hn : b₂.gens.length ≤ b₁.gens.length) :
    (resetPower b₂).gens.map (·.pg) = (b₁.gens.map (·.pg)).take b₂.gens.length ∧
    (getGeneratorMargins b₂).map (·.1) = (b₁.gens.map (·.pg)).take b₂.gens.length := by
  have e1 : b₁.savePg = b₁.gens.map Gen.pg := by simpa [fresh] using load_savePg h₁
  have e2 := load_savePg h₂
  rw [e1] at e2
  have ht : b₂.savePg.take b₂.gens.length = (b₁.gens.map Gen.pg).take b₂.gens.length := by
    rw [e2, List.take_append_of_le_length (by simpa using hn)]
  refine ⟨?_, ?_⟩
  · show (restorePg b₂.gens b₂.savePg).map Gen.pg = _
    rw [restorePg_pg _ _ (by rw [e2]; simp), ht]
  · rw [← ht]
    unfold getGeneratorMargins
    rw [List.map_map]
    generalize b₂.savePg = s
    generalize b₂.gens = gs
    show (gs.zip s).map (fun e => e.2) = _
    induction gs generalizing s with
    | nil => simp
    | cons g gs ih =>
      cases s with
      | nil => simp
      | cons p s => simp [ih]

/-- C134 violated: a generator switched off and on again with `setGeneratorStatus` has lost its reactive power, and
resetting the power does not bring it back. -/
theorem C134_reactive_violated (tag : String) (s : Int) (hs : s ≠ 0) (b : Bus) (d e : Data) (i : Nat)
    (hi : genIndex tag b = some i) (g : Gen)
    (hg : (resetPower (setGeneratorStatus tag s (setGeneratorStatus tag 0 b d).1 e).1).gens[i]? = some g) :
    g.qg = 0 := by
  have keep : ∀ (gs : List Gen) (ps : List ℝ), ((restorePg gs ps)[i]?).map Gen.qg = (gs[i]?).map Gen.qg := by
    intro gs ps
    rw [← List.getElem?_map, ← List.getElem?_map, restorePg_map _ (fun _ _ => rfl)]
  have h0 : genIndex tag (setGeneratorStatus tag 0 b d).1 = some i := by
    have : (setGeneratorStatus tag 0 b d).1.gens =
        b.gens.modify i (fun g => if (0 : Int) = 0 then { g with status := 0, pg := 0, qg := 0 }
          else { g with status := 0 }) := by
      unfold setGeneratorStatus
      rw [hi]
      rfl
    unfold genIndex
    rw [this]
    have q : ∀ l : List Gen, l.findIdx? (fun g => decide (g.id = tag)) =
        (l.map (·.id)).findIdx? (fun x => decide (x = tag)) := by
      intro l; rw [List.findIdx?_map]; rfl
    rw [q, modify_map _ _ (fun g => by simp), ← q]
    exact hi
  have gensOf : ∀ (s : Int) (b : Bus) (d : Data), genIndex tag b = some i →
      (setGeneratorStatus tag s b d).1.gens = b.gens.modify i (fun g =>
        if s = 0 then { g with status := s, pg := 0, qg := 0 } else { g with status := s }) := by
    intro s b d h
    unfold setGeneratorStatus
    rw [h]
    rfl
  have e1 : (setGeneratorStatus tag s (setGeneratorStatus tag 0 b d).1 e).1.gens =
      (b.gens.modify i (fun g => { g with status := 0, pg := 0, qg := 0 })).modify i
        (fun g => { g with status := s }) := by
    rw [gensOf s _ e h0, gensOf 0 b d hi]
    simp [hs]
  have k := keep (setGeneratorStatus tag s (setGeneratorStatus tag 0 b d).1 e).1.gens
    (setGeneratorStatus tag s (setGeneratorStatus tag 0 b d).1 e).1.savePg
  have hg' : (restorePg (setGeneratorStatus tag s (setGeneratorStatus tag 0 b d).1 e).1.gens
    (setGeneratorStatus tag s (setGeneratorStatus tag 0 b d).1 e).1.savePg)[i]? = some g := hg
  rw [hg', e1] at k
  simp only [Option.map_some, List.getElem?_modify, if_true] at k
  cases hb : b.gens[i]? with
  | none => rw [hb] at k; simp at k
  | some x => rw [hb] at k; simpa using k

/-! ### Scaling of generators -/

/-- Generation within its limits. -/
def Gen.ok (g : Gen) : Prop := g.pb ≤ g.pg ∧ g.pg ≤ g.pt

theorem scaleGenL_ok (tag : String) (x : ℝ) (h1 : -1 ≤ x) (h2 : x ≤ 1) :
    ∀ gs : List Gen, (∀ g ∈ gs, g.ok) → ∀ g ∈ scaleGenL tag x gs, g.ok := by
  intro gs
  induction gs with
  | nil => intro _ g hg; simp [scaleGenL] at hg
  | cons a gs ih =>
    intro h g hg
    unfold scaleGenL at hg
    have ha := h a (List.mem_cons_self ..)
    unfold Gen.ok at ha
    by_cases hc : a.id = tag ∧ a.status ≠ 0
    · rw [if_pos hc] at hg
      rcases List.mem_cons.mp hg with rfl | hg
      · by_cases hx : x > 0
        · simp only [hx, if_true, Gen.ok]
          have q1 : 0 ≤ x * (a.pt - a.pg) := mul_nonneg hx.le (by linarith [ha.2])
          have q2 : x * (a.pt - a.pg) ≤ 1 * (a.pt - a.pg) := mul_le_mul_of_nonneg_right h2 (by linarith [ha.2])
          constructor <;> linarith [ha.1, ha.2]
        · simp only [hx, if_false, Gen.ok]
          have q1 : x * (a.pg - a.pb) ≤ 0 := mul_nonpos_of_nonpos_of_nonneg (not_lt.mp hx) (by linarith [ha.1])
          have q2 : -1 * (a.pg - a.pb) ≤ x * (a.pg - a.pb) := mul_le_mul_of_nonneg_right h1 (by linarith [ha.1])
          constructor <;> linarith [ha.1, ha.2]
      · exact h g (List.mem_cons_of_mem _ hg)
    · rw [if_neg hc] at hg
      rcases List.mem_cons.mp hg with rfl | hg
      · exact h g (List.mem_cons_self ..)
      · exact ih (fun g hg => h g (List.mem_cons_of_mem _ hg)) g hg

/-- C135: scaling generators any number of times by factors between -1 and 1 keeps every generator of the bus within
its limits. -/
theorem C135_within (calls : List (String × ℝ)) (h : ∀ c ∈ calls, -1 ≤ c.2 ∧ c.2 ≤ 1) :
    ∀ b : Bus, (∀ g ∈ b.gens, g.pb ≤ g.pg ∧ g.pg ≤ g.pt) →
      ∀ g ∈ (calls.foldl (fun b c => scaleGen c.1 c.2 b) b).gens, g.pb ≤ g.pg ∧ g.pg ≤ g.pt := by
  induction calls with
  | nil => intro b hb; exact hb
  | cons c calls ih =>
    intro b hb
    have hc := h c (List.mem_cons_self ..)
    exact ih (fun c hc => h c (List.mem_cons_of_mem _ hc)) (scaleGen c.1 c.2 b)
      (scaleGenL_ok c.1 c.2 hc.1 hc.2 b.gens hb)

/-- C135: a positive factor never lowers the power of a generator within its limits, a negative factor never raises it,
and a generator out of service keeps its power. -/
theorem C135_direction (tag : String) (x : ℝ) (b : Bus) (hb : ∀ g ∈ b.gens, g.pb ≤ g.pg ∧ g.pg ≤ g.pt) (i : Nat)
    (g g' : Gen) (hg : b.gens[i]? = some g) (hg' : (scaleGen tag x b).gens[i]? = some g') :
    (0 ≤ x → g.pg ≤ g'.pg) ∧ (x ≤ 0 → g'.pg ≤ g.pg) ∧ (g.status = 0 → g' = g) ∧ (g.id ≠ tag → g' = g) := by
  have key : ∀ (gs : List Gen) (i : Nat), (∀ g ∈ gs, g.pb ≤ g.pg ∧ g.pg ≤ g.pt) → gs[i]? = some g →
      (scaleGenL tag x gs)[i]? = some g' →
      (0 ≤ x → g.pg ≤ g'.pg) ∧ (x ≤ 0 → g'.pg ≤ g.pg) ∧ (g.status = 0 → g' = g) ∧ (g.id ≠ tag → g' = g) := by
    intro gs
    induction gs with
    | nil => intro i _ h; simp at h
    | cons a gs ih =>
      intro i hok h h'
      unfold scaleGenL at h'
      have ha := hok a (List.mem_cons_self ..)
      by_cases hc : a.id = tag ∧ a.status ≠ 0
      · rw [if_pos hc] at h'
        cases i with
        | zero =>
          simp only [List.getElem?_cons_zero, Option.some.injEq] at h h'
          subst h
          subst h'
          refine ⟨fun h0 => ?_, fun h0 => ?_, fun h0 => absurd h0 hc.2, fun h0 => absurd hc.1 h0⟩
          · by_cases hx : x > 0
            · simp only [hx, if_true]
              have := mul_nonneg h0 (sub_nonneg.mpr ha.2)
              linarith
            · simp only [hx, if_false]
              have : x = 0 := le_antisymm (not_lt.mp hx) h0
              rw [this]; simp
          · rw [if_neg (not_lt.mpr h0)]
            have := mul_nonpos_of_nonpos_of_nonneg h0 (sub_nonneg.mpr ha.1)
            show a.pg + x * (a.pg - a.pb) ≤ a.pg
            linarith
        | succ i =>
          simp only [List.getElem?_cons_succ] at h h'
          rw [h] at h'
          simp only [Option.some.injEq] at h'
          subst h'
          exact ⟨fun _ => le_refl _, fun _ => le_refl _, fun _ => rfl, fun _ => rfl⟩
      · rw [if_neg hc] at h'
        cases i with
        | zero =>
          simp only [List.getElem?_cons_zero, Option.some.injEq] at h h'
          subst h
          subst h'
          exact ⟨fun _ => le_refl _, fun _ => le_refl _, fun _ => rfl, fun _ => rfl⟩
        | succ i =>
          simp only [List.getElem?_cons_succ] at h h'
          exact ih i (fun g hg => hok g (List.mem_cons_of_mem _ hg)) h h'
  exact key b.gens i hb hg hg'

/-- C135 violated for larger factors: a factor above 1 drives a generator that has room left beyond its maximum. -/
theorem C135_overscale_violated (x : ℝ) (hx : 1 < x) (g : Gen) (gs : List Gen) (b : Bus) (hb : b.gens = g :: gs)
    (hs : g.status ≠ 0) (hr : g.pg < g.pt) :
    ∃ g' gs', (scaleGen g.id x b).gens = g' :: gs' ∧ g'.pt = g.pt ∧ g'.pt < g'.pg := by
  refine ⟨{ g with pg := g.pg + x * (g.pt - g.pg) }, gs, ?_, rfl, ?_⟩
  · simp [scaleGen, hb, scaleGenL, hs, lt_trans one_pos hx]
  · have : 1 * (g.pt - g.pg) < x * (g.pt - g.pg) := mul_lt_mul_of_pos_right hx (by linarith)
    show g.pt < g.pg + x * (g.pt - g.pg)
    linarith

/-! ### Participation factors -/

/-- Sum of the participation factors. -/
def Bus.sumFac (b : Bus) : ℝ := (b.gens.map (·.pFac)).sum

/-- The capacity of a generator in service. -/
def Gen.cap (g : Gen) : ℝ := if g.status ≠ 0 then g.pt - g.pb else 0

theorem genOf_fac {r : GenRec} {x : Gen × ℝ} (h : genOf r = some x) : x.1.pFac = x.1.cap := by
  unfold genOf at h
  split at h
  · simp only [Option.some.injEq] at h
    subst h
    simp [Gen.cap]
  · simp at h

theorem loaded_fac (l : List GenRec) : (((l.filterMap genOf).map Prod.fst).map (·.pFac)) =
    ((l.filterMap genOf).map Prod.fst).map Gen.cap := by
  rw [List.map_map, List.map_map]
  apply List.map_congr_left
  intro x hx
  obtain ⟨r, -, hr⟩ := List.mem_filterMap.mp hx
  exact genOf_fac hr

/-- C139: on a loaded bus with several generators of which the ones in service have some capacity in total, each
generator participates with its share of the capacity in service (out of service: not at all), and the shares add up
to 1. -/
theorem C139_shares (d : Data) (b₀ b : Bus) (h : load d b₀ = some b) (hn : 1 < b.gens.length)
    (hc : (b.gens.map (fun g => if g.status ≠ 0 then g.pt - g.pb else 0)).sum ≠ 0) :
    (∀ g ∈ b.gens, g.pFac = (if g.status ≠ 0 then g.pt - g.pb else 0) /
      (b.gens.map (fun g => if g.status ≠ 0 then g.pt - g.pb else 0)).sum) ∧
    (b.gens.map (·.pFac)).sum = 1 := by
  have hshare : ∀ g ∈ b.gens, g.pFac = (if g.status ≠ 0 then g.pt - g.pb else 0) /
      (b.gens.map (fun g => if g.status ≠ 0 then g.pt - g.pb else 0)).sum := by
    have ecap := load_gens h (fun g => if g.status ≠ 0 then g.pt - g.pb else 0) (fun _ _ _ => rfl)
    obtain ⟨⟨gens, hg, e⟩, -⟩ := load_some h
    cases hd : d.gens with
    | none =>
      rw [hd] at hg
      simp only [Option.some.injEq] at hg
      rw [e, ← hg] at hn
      simp at hn
    | some l =>
      rw [hd] at hg ecap
      simp only [Option.getD_some] at hg ecap
      have elen : b.gens.length = ((l.filterMap genOf).map Prod.fst).length := by
        rw [e]
        have := congrArg List.length (normalise_map hg Gen.id (fun _ _ _ => rfl))
        simpa using this
      have ecap' : (((l.filterMap genOf).map Prod.fst).map (fun g => if g.status ≠ 0 then g.pt - g.pb else 0)).sum =
          (b.gens.map (fun g => if g.status ≠ 0 then g.pt - g.pb else 0)).sum := by
        rw [ecap, List.map_map]; rfl
      unfold normalise at hg
      simp only [] at hg
      rw [if_pos ⟨by rw [ecap']; exact hc, by rw [← elen]; exact hn⟩, ecap'] at hg
      simp only [Option.some.injEq] at hg
      intro g hgm
      rw [e, ← hg] at hgm
      obtain ⟨k, hk, rfl⟩ := List.mem_map.mp hgm
      show k.pFac / _ = _
      congr 1
      obtain ⟨x, hx, rfl⟩ := List.mem_map.mp hk
      obtain ⟨r, -, hr⟩ := List.mem_filterMap.mp hx
      exact genOf_fac hr
  refine ⟨hshare, ?_⟩
  rw [List.map_congr_left hshare]
  have : ∀ (l : List Gen) (f : Gen → ℝ) (c : ℝ), (l.map (fun g => f g / c)).sum = (l.map f).sum / c := by
    intro l f c
    induction l with
    | nil => simp
    | cons a l ih => simp [ih, add_div]
  rw [this, div_self hc]

/-- C139: a single generator takes everything. -/
theorem C139_single (d : Data) (b₀ b : Bus) (h : load d b₀ = some b) (g : Gen) (hn : b.gens = [g]) : g.pFac = 1 := by
  obtain ⟨⟨gens, hg, e⟩, -⟩ := load_some h
  cases hd : d.gens with
  | none =>
    rw [hd] at hg
    simp only [Option.some.injEq] at hg
    rw [e, ← hg] at hn
    simp at hn
  | some l =>
    rw [hd] at hg
    simp only [Option.getD_some] at hg
    rw [e] at hn
    have elen : ((l.filterMap genOf).map Prod.fst).length = 1 := by
      have := congrArg List.length (normalise_map hg Gen.id (fun _ _ _ => rfl))
      rw [hn] at this
      simpa using this.symm
    unfold normalise at hg
    simp only [] at hg
    rw [if_neg (by rw [elen]; simp)] at hg
    generalize (l.filterMap genOf).map Prod.fst = gs at hg elen
    cases gs with
    | nil => simp at elen
    | cons a gs =>
      simp only [Option.some.injEq] at hg
      rw [← hg] at hn
      simp only [List.cons.injEq] at hn
      rw [← hn.1]

/-- C139 violated: data that announce generators none of which is complete make `load` write outside the array of
participation factors. -/
theorem C139_empty_violated (d : Data) (l : List GenRec) (b₀ : Bus) (h : d.gens = some l)
    (hl : ∀ r ∈ l, genOf r = none) : load d b₀ = none := by
  unfold load
  simp only [h, Option.getD_some]
  have : l.filterMap genOf = [] := List.filterMap_eq_nil_iff.mpr hl
  rw [this]
  simp [normalise]

/-- C139: the generators of a loaded bus are those of the data, in order, each with its own name, status, limits and
scheduled power (0 when it is out of service). -/
theorem C139_records (d : Data) (b₀ b : Bus) (h : load d b₀ = some b) (l : List GenRec) (hl : d.gens = some l)
    (hc : ∀ r ∈ l, r.pg.isSome ∧ r.qg.isSome ∧ r.vs.isSome ∧ r.stat.isSome ∧ r.qmax.isSome ∧ r.qmin.isSome) :
    b.gens.map (fun g => (g.id, g.status, g.pt, g.pb, g.pg, g.qg)) =
      l.map (fun r => (r.id.getD "-1", r.stat.getD 0, r.pmax.getD 0, r.pmin.getD 0,
        if r.stat = some 0 then 0 else r.pg.getD 0, if r.stat = some 0 then 0 else r.qg.getD 0)) := by
  rw [load_gens h (fun g => (g.id, g.status, g.pt, g.pb, g.pg, g.qg)) (fun _ _ _ => rfl), hl, Option.getD_some]
  clear hl h
  induction l with
  | nil => rfl
  | cons r l ih =>
    obtain ⟨h1, h2, h3, h4, h5, h6⟩ := hc r (by simp)
    obtain ⟨pg, hpg⟩ := Option.isSome_iff_exists.mp h1
    obtain ⟨qg, hqg⟩ := Option.isSome_iff_exists.mp h2
    obtain ⟨vs, hvs⟩ := Option.isSome_iff_exists.mp h3
    obtain ⟨st, hst⟩ := Option.isSome_iff_exists.mp h4
    obtain ⟨qx, hqx⟩ := Option.isSome_iff_exists.mp h5
    obtain ⟨qn, hqn⟩ := Option.isSome_iff_exists.mp h6
    have := ih (fun r hr => hc r (by simp [hr]))
    simp only [List.filterMap_cons, genOf, hpg, hqg, hvs, hst, hqx, hqn, List.map_cons] at this ⊢
    rw [this]
    simp

/-- Sum over the loads in service. -/
noncomputable def demand (f : Load → ℝ) (b : Bus) : ℝ := ((b.loads.filter (fun l => l.status = 1)).map f).sum

theorem loadSum_eq (f : Load → ℝ) (b : Bus) : loadSum f b = demand f b := by
  unfold loadSum demand
  induction b.loads with
  | nil => rfl
  | cons l ls ih =>
    by_cases hl : l.status = 1 <;> simp [hl, ih]

/-- C139, saved results: on a reference bus whose factors add up to 1 the saved generation of the generators adds up to
the injection plus the load in service (per unit), real and reactive; on another bus with a held voltage the reactive
power does, and the real power of each generator is the scheduled one. -/
theorem C139_saved (pinj qinj : ℝ) (b : Bus) (hf : (b.gens.map (·.pFac)).sum = 1) :
    (b.ref = true →
      ((saveGen pinj qinj b).map (·.1)).sum = pinj + demand Load.pl b / b.sbase) ∧
    (b.ref = true ∨ b.isPV = true →
      ((saveGen pinj qinj b).map (·.2)).sum = qinj + demand Load.ql b / b.sbase) ∧
    (b.ref = false → (saveGen pinj qinj b).map (·.1) = b.gens.map (fun g => g.pg / b.sbase)) := by
  simp only [← loadSum_eq]
  have hs : ∀ c : ℝ, (b.gens.map (fun g => g.pFac * c)).sum = c := by
    intro c
    rw [List.sum_map_mul_right, hf, one_mul]
  refine ⟨fun h => ?_, fun h => ?_, fun h => ?_⟩
  · rw [← hs (pinj + loadSum Load.pl b / b.sbase)]
    unfold saveGen
    simp [h, List.map_map, Function.comp_def]
  · rw [← hs (qinj + loadSum Load.ql b / b.sbase)]
    unfold saveGen
    cases hr : b.ref with
    | true => simp [List.map_map, Function.comp_def]
    | false =>
      have hp : b.isPV = true := by simpa [hr] using h
      simp [hp, List.map_map, Function.comp_def]
  · unfold saveGen
    rw [List.map_map]
    apply List.map_congr_left
    intro g _
    cases hp : b.isPV <;> simp [h, hp]

theorem setGenStatusL_sum (tag : String) : ∀ (gs : List Gen) (g : Gen), gs.find? (fun g => decide (tag = g.id)) = some g →
    ((setGenStatusL tag false gs).map (·.pFac)).sum = (gs.map (·.pFac)).sum - g.pFac := by
  intro gs
  induction gs with
  | nil => intro g h; simp at h
  | cons a gs ih =>
    intro g h
    unfold setGenStatusL
    by_cases hc : tag = a.id
    · rw [List.find?_cons_of_pos (by simpa using hc)] at h
      simp only [Option.some.injEq] at h
      subst h
      simp [hc]
    · rw [List.find?_cons_of_neg (by simpa using hc)] at h
      rw [if_neg hc, List.map_cons, List.sum_cons, ih g h, List.map_cons, List.sum_cons]
      ring

/-- C139 violated after an outage: when a generator of a bus with a held voltage is taken out of service, the factors of
the others are not raised, and the saved reactive power falls short by the share of the lost generator. -/
theorem C139_outage_violated (tag : String) (pinj qinj : ℝ) (b : Bus) (g : Gen)
    (hg : b.gens.find? (fun g => decide (tag = g.id)) = some g) (hf : (b.gens.map (·.pFac)).sum = 1)
    (hp : b.ref = true ∨ b.isPV = true) :
    ((saveGen pinj qinj (setGenStatus tag false b)).map (·.2)).sum =
      (1 - g.pFac) * (qinj + demand Load.ql b / b.sbase) := by
  simp only [← loadSum_eq]
  have hs := setGenStatusL_sum tag b.gens g hg
  rw [hf] at hs
  rw [← hs, ← List.sum_map_mul_right]
  have e1 : (setGenStatus tag false b).gens = setGenStatusL tag false b.gens := rfl
  have e2 : loadSum Load.ql (setGenStatus tag false b) = loadSum Load.ql b := rfl
  unfold saveGen
  rw [List.map_map, e1]
  congr 1
  apply List.map_congr_left
  intro x _
  simp only [e2, Function.comp_def]
  have e3 : (setGenStatus tag false b).ref = b.ref := rfl
  have e4 : (setGenStatus tag false b).isPV = b.isPV := rfl
  have e5 : (setGenStatus tag false b).sbase = b.sbase := rfl
  rw [e3, e4, e5]
  cases hr : b.ref with
  | true => simp
  | false =>
    have : b.isPV = true := by simpa [hr] using hp
    simp [this]

/-- C139 violated: the only generator of a reference bus gets the whole generation even when it is out of service. -/
theorem C139_offline_violated (d : Data) (b₀ b : Bus) (h : load d b₀ = some b) (g : Gen) (hn : b.gens = [g])
    (hs : g.status = 0) (hr : b.ref = true) (pinj qinj : ℝ) :
    saveGen pinj qinj b = [(pinj + demand Load.pl b / b.sbase, qinj + demand Load.ql b / b.sbase)] ∧
    getGenStatus g.id b = false := by
  simp only [← loadSum_eq]
  have := C139_single d b₀ b h g hn
  constructor
  · simp [saveGen, hn, hr, this]
  · simp [getGenStatus, hn, hs]

/-! ### Outage and return -/

/-- The state of a generator that `setGenStatus` can reach from `g`. -/
def Gen.version (g : Gen) (on : Bool) : Gen :=
  if on then { g with status := 1, pFac := g.pFacOrig, qmax := g.qmaxOrig, qmin := g.qminOrig }
  else { g with status := 0, pFac := 0, qmax := 0, qmin := 0 }

theorem load_orig {d : Data} {b₀ b : Bus} (h : load d b₀ = some b) (g : Gen) (hg : g ∈ b.gens) :
    g.qmax = g.qmaxOrig ∧ g.qmin = g.qminOrig ∧ (g.status = 0 → g.qmax = 0 ∧ g.qmin = 0 ∧ g.pg = 0 ∧ g.qg = 0) ∧
    (g.status ≠ 0 → g.pFac = g.pFacOrig) := by
  have hrec : ∀ (r : GenRec) (x : Gen × ℝ), genOf r = some x →
      x.1.qmax = x.1.qmaxOrig ∧ x.1.qmin = x.1.qminOrig ∧
      (x.1.status = 0 → x.1.qmax = 0 ∧ x.1.qmin = 0 ∧ x.1.pg = 0 ∧ x.1.qg = 0) ∧
      (x.1.status ≠ 0 → x.1.pFac = x.1.pFacOrig) := by
    intro r x hx
    unfold genOf at hx
    split at hx
    · simp only [Option.some.injEq] at hx
      subst hx
      refine ⟨rfl, rfl, fun h => ?_, fun h => ?_⟩
      · simp only at h; simp [h]
      · simp only at h; simp [h]
    · simp at hx
  obtain ⟨⟨gens, hg', e⟩, -⟩ := load_some h
  rw [e] at hg
  cases hd : d.gens with
  | none =>
    rw [hd] at hg'
    simp only [Option.some.injEq] at hg'
    rw [← hg'] at hg
    simp at hg
  | some l =>
    rw [hd] at hg'
    simp only [Option.getD_some] at hg'
    have hm : ∀ k ∈ (l.filterMap genOf).map Prod.fst, k.qmax = k.qmaxOrig ∧ k.qmin = k.qminOrig ∧
        (k.status = 0 → k.qmax = 0 ∧ k.qmin = 0 ∧ k.pg = 0 ∧ k.qg = 0) ∧ (k.status ≠ 0 → k.pFac = k.pFacOrig) := by
      intro k hk
      obtain ⟨x, hx, rfl⟩ := List.mem_map.mp hk
      obtain ⟨r, -, hr⟩ := List.mem_filterMap.mp hx
      exact hrec r x hr
    unfold normalise at hg'
    simp only [] at hg'
    split at hg'
    · simp only [Option.some.injEq] at hg'
      rw [← hg'] at hg
      obtain ⟨k, hk, rfl⟩ := List.mem_map.mp hg
      obtain ⟨a1, a2, a3, -⟩ := hm k hk
      exact ⟨a1, a2, a3, fun _ => rfl⟩
    · generalize (l.filterMap genOf).map Prod.fst = gs at hg' hm
      cases gs with
      | nil => simp at hg'
      | cons a gs =>
        simp only [Option.some.injEq] at hg'
        rw [← hg'] at hg
        rcases List.mem_cons.mp hg with rfl | hg
        · obtain ⟨a1, a2, a3, -⟩ := hm a (List.mem_cons_self ..)
          exact ⟨a1, a2, a3, fun _ => rfl⟩
        · exact hm g (List.mem_cons_of_mem _ hg)

theorem setGenStatusL_rel (tag : String) (s : Bool) : ∀ gs ks : List Gen,
    List.Forall₂ (fun g k => k = g ∨ ∃ o, k = g.version o) gs ks →
    List.Forall₂ (fun g k => k = g ∨ ∃ o, k = g.version o) gs (setGenStatusL tag s ks) := by
  intro gs ks h
  induction h with
  | nil => exact List.Forall₂.nil
  | cons hk h ih =>
    next g k gs ks =>
    unfold setGenStatusL
    by_cases hc : tag = k.id
    · rw [if_pos hc]
      refine List.Forall₂.cons (Or.inr ⟨s, ?_⟩) h
      rcases hk with rfl | ⟨o, rfl⟩
      · cases s <;> simp [Gen.version]
      · cases s <;> cases o <;> simp [Gen.version]
    · rw [if_neg hc]
      exact List.Forall₂.cons hk ih

/-- C140: take generators of a loaded bus out of service and put them back in any order and any number of times; when in
the end every generator has the status it was loaded with, the bus is as loaded (participation factors and reactive
limits included).

Partial: statuses other than 0 and 1 are excluded, and so is a generator that is out of service but participates (the
first one of a bus without capacity data, see `C139_offline_violated`). -/
theorem C140_return_partial (d : Data) (b₀ b : Bus) (h : load d b₀ = some b)
    (hst : ∀ g ∈ b.gens, g.status = 1 ∨ (g.status = 0 ∧ g.pFac = 0)) (calls : List (String × Bool))
    (he : ((calls.foldl (fun b c => setGenStatus c.1 c.2 b) b).gens.map (·.status)) = b.gens.map (·.status)) :
    calls.foldl (fun b c => setGenStatus c.1 c.2 b) b = b := by
  have hrel : ∀ (calls : List (String × Bool)) (b' : Bus),
      List.Forall₂ (fun g k => k = g ∨ ∃ o, k = g.version o) b.gens b'.gens →
      List.Forall₂ (fun g k => k = g ∨ ∃ o, k = g.version o) b.gens
        (calls.foldl (fun b c => setGenStatus c.1 c.2 b) b').gens := by
    intro calls
    induction calls with
    | nil => intro b' h; exact h
    | cons c calls ih =>
      intro b' h
      exact ih _ (setGenStatusL_rel c.1 c.2 _ _ h)
  have hrest : ∀ (calls : List (String × Bool)) (b' : Bus),
      calls.foldl (fun b c => setGenStatus c.1 c.2 b) b' =
        { b' with gens := (calls.foldl (fun b c => setGenStatus c.1 c.2 b) b').gens } := by
    intro calls
    induction calls with
    | nil => intro b'; rfl
    | cons c calls ih =>
      intro b'
      show calls.foldl _ (setGenStatus c.1 c.2 b') = _
      rw [ih]
      rfl
  have hself : ∀ l : List Gen, List.Forall₂ (fun g k => k = g ∨ ∃ o, k = g.version o) l l := by
    intro l
    induction l with
    | nil => exact List.Forall₂.nil
    | cons a l ih => exact List.Forall₂.cons (Or.inl rfl) ih
  have hr := hrel calls b (hself b.gens)
  have hgens : (calls.foldl (fun b c => setGenStatus c.1 c.2 b) b).gens = b.gens := by
    have horig : ∀ g ∈ b.gens, _ := fun g hg => load_orig h g hg
    generalize (calls.foldl (fun b c => setGenStatus c.1 c.2 b) b).gens = ks at hr he
    generalize b.gens = gs at hr he hst horig
    induction hr with
    | nil => rfl
    | cons hk hr ih =>
      next g k gs ks =>
      simp only [List.map_cons, List.cons.injEq] at he
      have q : k = g := by
        rcases hk with rfl | ⟨o, rfl⟩
        · rfl
        · obtain ⟨a1, a2, a3, a4⟩ := horig g (List.mem_cons_self ..)
          have hs := hst g (List.mem_cons_self ..)
          have he1 := he.1
          cases o with
          | true =>
            simp only [Gen.version, if_true] at he1 ⊢
            have a5 := a4 (by omega)
            cases g
            simp only at he1 a1 a2 a5
            subst he1 a1 a2 a5
            rfl
          | false =>
            simp only [Gen.version] at he1 ⊢
            simp only [Bool.false_eq_true, if_false] at he1 ⊢
            have a5 := a3 he1.symm
            have a6 : g.pFac = 0 := by
              rcases hs with hs | hs
              · omega
              · exact hs.2
            obtain ⟨b1, b2, -⟩ := a5
            cases g
            simp only at he1 a6 b1 b2
            subst he1 a6 b1 b2
            rfl
      rw [q, ih he.2 (fun g hg => hst g (List.mem_cons_of_mem _ hg)) (fun g hg => horig g (List.mem_cons_of_mem _ hg))]
  rw [hrest, hgens]

/-- C140 violated: a generator that is out of service in the data cannot be put into service: on a bus with several
generators and capacity in service, it keeps zero power, zero reactive limits and zero participation, although its
status is now 1. -/
theorem C140_switch_on_violated (d : Data) (b₀ b : Bus) (h : load d b₀ = some b) (hn : 1 < b.gens.length)
    (hc : (b.gens.map (fun g => if g.status ≠ 0 then g.pt - g.pb else 0)).sum ≠ 0) (g : Gen) (tag : String)
    (hg : b.gens.find? (fun g => decide (tag = g.id)) = some g) (hs : g.status = 0) :
    ∃ g', (setGenStatus tag true b).gens.find? (fun g => decide (tag = g.id)) = some g' ∧
      g'.status = 1 ∧ g'.pg = 0 ∧ g'.qg = 0 ∧ g'.qmax = 0 ∧ g'.qmin = 0 ∧ g'.pFac = 0 := by
  have hm := List.mem_of_find?_eq_some hg
  obtain ⟨a1, a2, a3, -⟩ := load_orig h g hm
  obtain ⟨a5, a6, a7, a8⟩ := a3 hs
  have hfac : g.pFac = 0 := by
    rw [(C139_shares d b₀ b h hn hc).1 g hm]
    simp [hs]
  have horig : g.pFacOrig = g.pFac := by
    obtain ⟨⟨gens, hg', e⟩, -⟩ := load_some h
    have ecap := load_gens h (fun g => if g.status ≠ 0 then g.pt - g.pb else 0) (fun _ _ _ => rfl)
    cases hd : d.gens with
    | none =>
      rw [hd] at hg'
      simp only [Option.some.injEq] at hg'
      rw [e, ← hg'] at hn
      simp at hn
    | some l =>
      rw [hd] at hg' ecap
      simp only [Option.getD_some] at hg' ecap
      have elen : b.gens.length = ((l.filterMap genOf).map Prod.fst).length := by
        rw [e]
        have := congrArg List.length (normalise_map hg' Gen.id (fun _ _ _ => rfl))
        simpa using this
      have ecap' : (((l.filterMap genOf).map Prod.fst).map (fun g => if g.status ≠ 0 then g.pt - g.pb else 0)).sum =
          (b.gens.map (fun g => if g.status ≠ 0 then g.pt - g.pb else 0)).sum := by
        rw [ecap, List.map_map]; rfl
      unfold normalise at hg'
      simp only [] at hg'
      rw [if_pos ⟨by rw [ecap']; exact hc, by rw [← elen]; exact hn⟩] at hg'
      simp only [Option.some.injEq] at hg'
      rw [e, ← hg'] at hm
      obtain ⟨k, -, rfl⟩ := List.mem_map.mp hm
      rfl
  refine ⟨g.version true, ?_, rfl, a7, a8, ?_, ?_, ?_⟩
  · show (setGenStatusL tag true b.gens).find? _ = _
    generalize b.gens = gs at hg
    induction gs with
    | nil => simp at hg
    | cons a gs ih =>
      unfold setGenStatusL
      by_cases ht : tag = a.id
      · rw [List.find?_cons_of_pos (by simpa using ht)] at hg
        simp only [Option.some.injEq] at hg
        subst hg
        rw [if_pos ht, List.find?_cons_of_pos (by simpa using ht)]
        rfl
      · rw [List.find?_cons_of_neg (by simpa using ht)] at hg
        rw [if_neg ht, List.find?_cons_of_neg (by simpa using ht), ih hg]
  · show g.qmaxOrig = 0; rw [← a1, a5]
  · show g.qminOrig = 0; rw [← a2, a6]
  · show g.pFacOrig = 0; rw [horig, hfac]

end GridPACK.PFBusData
