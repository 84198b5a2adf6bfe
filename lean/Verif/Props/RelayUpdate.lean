import Verif.Model.RelayUpdate
import Verif.Props.Relay
import Verif.Props.GhostUpdate
import Mathlib.Tactic.Ring
import Mathlib.Tactic.Linarith
import Mathlib.Tactic.LinearCombination

/-! Theorems about the use of relays by buses and branches. -/
namespace GridPACK.RelayUpdate

open GridPACK.Relay

/-! ### Specification -/

/-- Every relay of the bus has processed the readings of this step; those of generators out of service are idle. -/
def Bus.Stepped (dt : ℝ) (b b' : Bus) : Prop :=
  b'.loads.map LoadRelay.st = b.loads.map (fun r => lvUpdate r.p dt r.st b.volt) ∧
  b'.gens.map (fun g => g.relays.map GenRelay.st) = b.gens.map (fun g =>
    if g.status then g.relays.map (fun r => frUpdate r.p dt r.st b.freq) else g.relays.map GenRelay.st)

/-- Every relay of the branch has processed the readings of this step. -/
def Branch.Stepped (dt : ℝ) (b b' : Branch) : Prop :=
  b'.relays.map LineRelay.st = b.relays.map (fun r => diUpdate r.p dt r.st (b.volt, b.curr r.idx))

/-! ### One bus -/

theorem loads_st (dt : ℝ) (volt loadY : ℂ) (rs : List LoadRelay) (y : ℂ) (f : Bool) :
    (updateLoads dt volt loadY rs y f).1.map LoadRelay.st = rs.map (fun r => lvUpdate r.p dt r.st volt) := by
  induction rs generalizing y f with
  | nil => rfl
  | cons r rs ih =>
    simp only [updateLoads]
    split <;> simp [ih]

theorem genRelays_st (dt freq : ℝ) (ya : ℂ) (rs : List GenRelay) (s : Bool) (y : ℂ) (f : Bool) :
    (updateGenRelays dt freq ya rs s y f).1.map GenRelay.st = rs.map (fun r => frUpdate r.p dt r.st freq) := by
  induction rs generalizing s y f with
  | nil => rfl
  | cons r rs ih =>
    simp only [updateGenRelays]
    split <;> simp [ih]

theorem gens_st (dt freq : ℝ) (gs : List Gen) (y : ℂ) (f : Bool) :
    (updateGens dt freq gs y f).1.map (fun g => g.relays.map GenRelay.st) = gs.map (fun g =>
      if g.status then g.relays.map (fun r => frUpdate r.p dt r.st freq) else g.relays.map GenRelay.st) := by
  induction gs generalizing y f with
  | nil => rfl
  | cons g gs ih =>
    simp only [updateGens]
    cases hg : g.status
    · simp [ih, hg]
    · simp [ih, hg, genRelays_st]

theorem bus_stepped (dt : ℝ) (b : Bus) : b.Stepped dt (b.update dt).1 :=
  ⟨loads_st _ _ _ _ _ _, gens_st _ _ _ _ _⟩

/-! ### C101: all relays are updated in each step -/

theorem updateBuses_true (dt : ℝ) (bs : List Bus) : updateBuses dt bs true = (bs, true) := by
  induction bs with
  | nil => rfl
  | cons b bs ih => simp [updateBuses, ih]

theorem updateBuses_append (dt : ℝ) (pre : List Bus) (h : ∀ b ∈ pre, (b.update dt).2 = false) (post : List Bus) :
    updateBuses dt (pre ++ post) false =
      (pre.map (fun b => (b.update dt).1) ++ (updateBuses dt post false).1, (updateBuses dt post false).2) := by
  induction pre with
  | nil => rfl
  | cons b pre ih =>
    have hb := h b (by simp)
    have := ih (fun x hx => h x (by simp [hx]))
    simp [updateBuses, hb, this]

/-- **C101** In each time step every relay of every bus processes the readings of that step.

Partial: no bus but the last may trip in that step (see `C101_skipped_violated`). -/
theorem C101_buses_partial (dt : ℝ) (bs : List Bus) (h : ∀ b ∈ bs.dropLast, (b.update dt).2 = false) (i : Nat) (b : Bus)
    (hb : bs[i]? = some b) :
    ∃ b', (updateBuses dt bs false).1[i]? = some b' ∧ b.Stepped dt b' := by
  have : (updateBuses dt bs false).1 = bs.map (fun b => (b.update dt).1) := by
    rcases List.eq_nil_or_concat bs with rfl | ⟨init, last, rfl⟩
    · rfl
    · rw [List.concat_eq_append] at h ⊢
      rw [List.dropLast_concat] at h
      rw [updateBuses_append dt init h]
      simp [updateBuses]
  rw [this, List.getElem?_map, hb]
  exact ⟨_, rfl, bus_stepped dt b⟩

/-- **C101, violated**: after the first bus that trips in a time step, the relays of all following buses do not
process the readings of that step; their timers stand still. -/
theorem C101_skipped_violated (dt : ℝ) (pre : List Bus) (b : Bus) (post : List Bus)
    (hpre : ∀ x ∈ pre, (x.update dt).2 = false) (hb : (b.update dt).2 = true) :
    updateBuses dt (pre ++ b :: post) false = (pre.map (fun b => (b.update dt).1) ++ (b.update dt).1 :: post, true) := by
  rw [updateBuses_append dt pre hpre]
  simp [updateBuses, hb, updateBuses_true]

/-! Line relays -/

theorem line_st (dt : ℝ) (volt : ℂ) (curr : Nat → ℂ) (rs : List LineRelay) (st : Nat → Bool) (nt : List Nat) (f : Bool) :
    (updateLine dt volt curr rs st nt f).relays.map LineRelay.st
      = rs.map (fun r => diUpdate r.p dt r.st (volt, curr r.idx)) := by
  induction rs generalizing st nt f with
  | nil => rfl
  | cons r rs ih =>
    simp only [updateLine]
    split <;> simp [ih]

theorem branch_stepped (dt : ℝ) (k : Nat) (b : Branch) (fl : Nat → BusFlags) : b.Stepped dt (b.update dt k fl).1 :=
  line_st _ _ _ _ _ _ _

/-- The branch and its flag do not depend on the position or the bus flags. -/
theorem branch_update_indep (dt : ℝ) (b : Branch) (k k' : Nat) (fl fl' : Nat → BusFlags) :
    (b.update dt k fl).1 = (b.update dt k' fl').1 ∧ (b.update dt k fl).2.2 = (b.update dt k' fl').2.2 := ⟨rfl, rfl⟩

/-- A relay of the branch trips in this step. -/
def Branch.trips (dt : ℝ) (b : Branch) : Prop := (updateLine dt b.volt b.curr b.relays b.status [] false).flag = true

theorem branch_flag (dt : ℝ) (b : Branch) (k : Nat) (fl : Nat → BusFlags) :
    (b.update dt k fl).2.2 = true ↔ b.trips dt := Iff.rfl

theorem updateBranches_true (dt : ℝ) (k : Nat) (bs : List Branch) (fl : Nat → BusFlags) :
    updateBranches dt k bs fl true = (bs, fl, true) := by
  induction bs generalizing k with
  | nil => rfl
  | cons b bs ih => simp [updateBranches, ih]

/-- The bus flags after a list of branches none of which trips. -/
theorem updateBranches_append (dt : ℝ) (k : Nat) (pre : List Branch) (h : ∀ b ∈ pre, ¬ b.trips dt) (post : List Branch)
    (fl : Nat → BusFlags) :
    ∃ fl', (∀ i, fl' i = fl i ∨ fl' i = ⟨false, false, none⟩) ∧
      updateBranches dt k (pre ++ post) fl false =
        (pre.map (fun b => (b.update dt 0 fl).1) ++ (updateBranches dt (k + pre.length) post fl' false).1,
          (updateBranches dt (k + pre.length) post fl' false).2) := by
  induction pre generalizing k fl with
  | nil => exact ⟨fl, fun i => Or.inl rfl, rfl⟩
  | cons b pre ih =>
    have hb : (b.update dt k fl).2.2 = false := by
      have := h b (by simp)
      rw [← branch_flag dt b k fl] at this
      simpa using this
    obtain ⟨fl', hfl, he⟩ := ih (k + 1) (fun x hx => h x (by simp [hx])) (b.update dt k fl).2.1
    refine ⟨fl', ?_, ?_⟩
    · intro i
      rcases hfl i with h1 | h1
      · rw [h1]
        have hb' : (updateLine dt b.volt b.curr b.relays b.status [] false).flag = false := hb
        simp only [Branch.update, hb']
        by_cases hi : i = b.bus1 ∨ i = b.bus2
        · right; simp [hi]
        · left; simp [hi]
      · exact Or.inr h1
    · simp only [List.cons_append, updateBranches, Bool.false_eq_true, if_false, hb]
      rw [he]
      simp only [List.map_cons, List.length_cons, List.cons_append]
      rw [show k + 1 + pre.length = k + (pre.length + 1) by omega]
      rfl

/-- **C101** for line relays.  Partial: no branch but the last may trip in that step. -/
theorem C101_branches_partial (dt : ℝ) (bs : List Branch) (fl : Nat → BusFlags) (h : ∀ b ∈ bs.dropLast, ¬ b.trips dt)
    (i : Nat) (b : Branch) (hb : bs[i]? = some b) :
    ∃ b', (updateBranches dt 0 bs fl false).1[i]? = some b' ∧ b.Stepped dt b' := by
  have : (updateBranches dt 0 bs fl false).1 = bs.map (fun b => (b.update dt 0 fl).1) := by
    rcases List.eq_nil_or_concat bs with rfl | ⟨init, last, rfl⟩
    · rfl
    · rw [List.concat_eq_append] at h ⊢
      rw [List.dropLast_concat] at h
      obtain ⟨fl', _, he⟩ := updateBranches_append dt 0 init h [last] fl
      rw [he]
      simp only [updateBranches, Bool.false_eq_true, if_false, List.map_append, List.map_cons, List.map_nil]
      rfl
  rw [this, List.getElem?_map, hb]
  exact ⟨_, rfl, branch_stepped dt 0 b fl⟩

/-- **C101, violated** for line relays: the branches after the first one that trips are left as they are. -/
theorem C101_branches_skipped_violated (dt : ℝ) (pre : List Branch) (b : Branch) (post : List Branch)
    (fl : Nat → BusFlags) (hpre : ∀ x ∈ pre, ¬ x.trips dt) (hb : b.trips dt) :
    (updateBranches dt 0 (pre ++ b :: post) fl false).1 =
      pre.map (fun b => (b.update dt 0 fl).1) ++ (b.update dt 0 fl).1 :: post := by
  obtain ⟨fl', _, he⟩ := updateBranches_append dt 0 pre hpre (b :: post) fl
  rw [he]
  have hb' : (b.update dt (0 + pre.length) fl').2.2 = true := (branch_flag _ _ _ _).2 hb
  simp only [updateBranches, Bool.false_eq_true, if_false, hb', updateBranches_true]
  rfl

/-! ### C102: shed load and tripped generators -/

/-- Load shares of the relays that have acted. -/
noncomputable def shedShare (rs : List LoadRelay) : ℝ := ((rs.filter (fun r => !r.op)).map LoadRelay.frac).sum

/-- Number of relays that have acted. -/
def acted (rs : List GenRelay) : Nat := rs.countP (fun r => !r.op)

/-- Sum of the admittances of the generators that a relay took out of service. -/
noncomputable def trippedY (gs : List Gen) : ℂ := ((gs.filter (fun g => !g.service)).map Gen.y).sum

theorem loads_y (dt : ℝ) (volt loadY : ℂ) (rs : List LoadRelay) (y : ℂ) (f : Bool) :
    (updateLoads dt volt loadY rs y f).2.1 + loadY * shedShare (updateLoads dt volt loadY rs y f).1
      = y + loadY * shedShare rs := by
  induction rs generalizing y f with
  | nil => rfl
  | cons r rs ih =>
    simp only [updateLoads]
    split
    · rename_i hc
      simp only [Bool.and_eq_true] at hc
      have := ih (y - loadY * r.frac) true
      have h1 : shedShare ({ r with st := lvUpdate r.p dt r.st volt, op := false } ::
          (updateLoads dt volt loadY rs (y - loadY * r.frac) true).1)
          = r.frac + shedShare (updateLoads dt volt loadY rs (y - loadY * r.frac) true).1 := by
        simp [shedShare]
      have h2 : shedShare (r :: rs) = shedShare rs := by simp [shedShare, hc.2]
      dsimp only
      rw [h1, h2]
      push_cast
      linear_combination this
    · have := ih y f
      have h1 : shedShare ({ r with st := lvUpdate r.p dt r.st volt } :: (updateLoads dt volt loadY rs y f).1)
          = (if r.op then 0 else r.frac) + shedShare (updateLoads dt volt loadY rs y f).1 := by
        cases h : r.op <;> simp [shedShare, h]
      have h2 : shedShare (r :: rs) = (if r.op then 0 else r.frac) + shedShare rs := by
        cases h : r.op <;> simp [shedShare, h]
      dsimp only
      rw [h1, h2]
      push_cast
      linear_combination this

theorem genRelays_y (dt freq : ℝ) (ya : ℂ) (rs : List GenRelay) (s : Bool) (y : ℂ) (f : Bool) :
    (updateGenRelays dt freq ya rs s y f).2.2.1 + ya * acted (updateGenRelays dt freq ya rs s y f).1
      = y + ya * acted rs := by
  induction rs generalizing s y f with
  | nil => rfl
  | cons r rs ih =>
    simp only [updateGenRelays]
    split
    · rename_i hc
      simp only [Bool.and_eq_true] at hc
      have := ih false (y - ya) true
      dsimp only
      simp only [acted, List.countP_cons, hc.2] at this ⊢
      simp only [Bool.not_false, if_true, Bool.not_true, Bool.false_eq_true, if_false]
      push_cast
      linear_combination this
    · have := ih s y f
      dsimp only
      simp only [acted, List.countP_cons] at this ⊢
      push_cast
      linear_combination this

/-- Sum over all generators of the admittance times the number of relays that have acted. -/
noncomputable def relayY (gs : List Gen) : ℂ := (gs.map (fun g => g.y * (acted g.relays : ℂ))).sum

theorem gens_y (dt freq : ℝ) (gs : List Gen) (y : ℂ) (f : Bool) :
    (updateGens dt freq gs y f).2.1 + relayY (updateGens dt freq gs y f).1 = y + relayY gs := by
  induction gs generalizing y f with
  | nil => rfl
  | cons g gs ih =>
    simp only [updateGens]
    cases hg : g.status
    · have := ih y f
      simp only [relayY, Bool.not_false, if_true, List.map_cons, List.sum_cons] at this ⊢
      linear_combination this
    · have h1 := genRelays_y dt freq g.y g.relays g.service y f
      have := ih (updateGenRelays dt freq g.y g.relays g.service y f).2.2.1
        (updateGenRelays dt freq g.y g.relays g.service y f).2.2.2
      simp only [relayY, Bool.not_true, Bool.false_eq_true, if_false, List.map_cons, List.sum_cons] at this ⊢
      linear_combination this + h1

/-- A bus in the simulation: readings of voltage and frequency come in, the relays are updated. -/
noncomputable def simulate (dt : ℝ) (b : Bus) (r : ℂ × ℝ) : Bus := ({ b with volt := r.1, freq := r.2 }.update dt).1

theorem simulate_y (dt : ℝ) (b : Bus) (r : ℂ × ℝ) :
    (simulate dt b r).loadY = b.loadY ∧
    (simulate dt b r).y + b.loadY * shedShare (simulate dt b r).loads + relayY (simulate dt b r).gens
      = b.y + b.loadY * shedShare b.loads + relayY b.gens := by
  refine ⟨rfl, ?_⟩
  have h1 := loads_y dt r.1 b.loadY b.loads b.y false
  have h2 := gens_y dt r.2 b.gens (updateLoads dt r.1 b.loadY b.loads b.y false).2.1
    (updateLoads dt r.1 b.loadY b.loads b.y false).2.2
  show (updateGens dt r.2 b.gens (updateLoads dt r.1 b.loadY b.loads b.y false).2.1
    (updateLoads dt r.1 b.loadY b.loads b.y false).2.2).2.1
      + b.loadY * shedShare (updateLoads dt r.1 b.loadY b.loads b.y false).1 + relayY (updateGens dt r.2 b.gens
      (updateLoads dt r.1 b.loadY b.loads b.y false).2.1 (updateLoads dt r.1 b.loadY b.loads b.y false).2.2).1 = _
  linear_combination h1 + h2

theorem run_y (dt : ℝ) (b : Bus) (r : Nat → ℂ × ℝ) (k : Nat) :
    (after (simulate dt) b r k).loadY = b.loadY ∧
    (after (simulate dt) b r k).y + b.loadY * shedShare (after (simulate dt) b r k).loads
      + relayY (after (simulate dt) b r k).gens = b.y + b.loadY * shedShare b.loads + relayY b.gens := by
  induction k with
  | zero => exact ⟨rfl, rfl⟩
  | succ k ih =>
    have := simulate_y dt (after (simulate dt) b r k) (r k)
    rw [ih.1] at this
    exact ⟨this.1, this.2.trans ih.2⟩

/-- A relay that has not acted yet. -/
def Fresh (b : Bus) : Prop :=
  (∀ r ∈ b.loads, r.st = lvReset ∧ r.op = true) ∧
  (∀ g ∈ b.gens, g.service = true ∧ ∀ r ∈ g.relays, r.st = frReset ∧ r.op = true)

theorem fresh_share (rs : List LoadRelay) (h : ∀ r ∈ rs, r.op = true) : shedShare rs = 0 := by
  unfold shedShare
  rw [List.filter_eq_nil_iff.2 (fun r hr => by simp [h r hr])]
  rfl

theorem fresh_relayY (gs : List Gen) (h : ∀ g ∈ gs, ∀ r ∈ g.relays, r.op = true) : relayY gs = 0 := by
  unfold relayY
  apply List.sum_eq_zero
  intro x hx
  obtain ⟨g, hg, rfl⟩ := List.mem_map.mp hx
  have : acted g.relays = 0 := by
    unfold acted
    rw [List.countP_eq_zero]
    intro r hr
    simp [h g hg r hr]
  rw [this]; simp

/-- A property of generators kept in each step: constants and the relation of service status and relays. -/
theorem genRelays_service (dt freq : ℝ) (ya : ℂ) (rs : List GenRelay) (s : Bool) (y : ℂ) (f : Bool)
    (hs : s = false → True) :
    ((updateGenRelays dt freq ya rs s y f).2.1 = false ↔
      s = false ∨ acted rs < acted (updateGenRelays dt freq ya rs s y f).1) ∧
    acted rs ≤ acted (updateGenRelays dt freq ya rs s y f).1 ∧
    (updateGenRelays dt freq ya rs s y f).1.length = rs.length := by
  induction rs generalizing s y f with
  | nil => simp [updateGenRelays]
  | cons r rs ih =>
    simp only [updateGenRelays]
    split
    · rename_i hc
      simp only [Bool.and_eq_true] at hc
      obtain ⟨h1, h2, h3⟩ := ih false (y - ya) true (fun _ => trivial)
      dsimp only
      have e1 : acted (r :: rs) = acted rs := by simp [acted, hc.2]
      have e2 : acted ({ r with st := frUpdate r.p dt r.st freq, op := false } ::
          (updateGenRelays dt freq ya rs false (y - ya) true).1)
          = acted (updateGenRelays dt freq ya rs false (y - ya) true).1 + 1 := by simp [acted]
      rw [e1, e2]
      refine ⟨⟨fun _ => Or.inr (by omega), fun _ => h1.2 (Or.inl rfl)⟩, by omega, by simp [h3]⟩
    · obtain ⟨h1, h2, h3⟩ := ih s y f hs
      dsimp only
      have e2 : acted ({ r with st := frUpdate r.p dt r.st freq } :: (updateGenRelays dt freq ya rs s y f).1)
          + acted rs = acted (updateGenRelays dt freq ya rs s y f).1 + acted (r :: rs) := by
        cases h : r.op <;> simp [acted, h] <;> omega
      refine ⟨h1.trans ⟨fun h => h.imp id (fun h => by omega), fun h => h.imp id (fun h => by omega)⟩, by omega,
        by simp [h3]⟩

/-- Service status, number of relays and relays that acted stay consistent. -/
def Gen.Consistent (g : Gen) : Prop := (g.service = false ↔ 0 < acted g.relays)

theorem gens_consistent (dt freq : ℝ) (m : Nat) (gs : List Gen) (y : ℂ) (f : Bool)
    (h : ∀ g ∈ gs, g.Consistent ∧ g.relays.length ≤ m) :
    ∀ g ∈ (updateGens dt freq gs y f).1, g.Consistent ∧ g.relays.length ≤ m := by
  induction gs generalizing y f with
  | nil => simp [updateGens]
  | cons g gs ih =>
    have hg := h g (by simp)
    simp only [updateGens]
    split
    · intro x hx
      rcases List.mem_cons.mp hx with rfl | hx
      · exact hg
      · exact ih _ _ (fun y hy => h y (by simp [hy])) x hx
    · intro x hx
      rcases List.mem_cons.mp hx with rfl | hx
      · obtain ⟨h1, h2, h3⟩ := genRelays_service dt freq g.y g.relays g.service y f (fun _ => trivial)
        refine ⟨?_, by dsimp only; omega⟩
        unfold Gen.Consistent at hg ⊢
        dsimp only
        rw [h1, hg.1]
        omega
      · exact ih _ _ (fun y hy => h y (by simp [hy])) x hx

theorem run_consistent (dt : ℝ) (m : Nat) (b : Bus) (h : ∀ g ∈ b.gens, g.Consistent ∧ g.relays.length ≤ m)
    (r : Nat → ℂ × ℝ) (k : Nat) :
    ∀ g ∈ (after (simulate dt) b r k).gens, g.Consistent ∧ g.relays.length ≤ m := by
  induction k with
  | zero => exact h
  | succ k ih => exact gens_consistent dt _ m _ _ _ ih

theorem fresh_consistent (b : Bus) (hf : Fresh b) : ∀ g ∈ b.gens, g.Consistent := by
  intro g hg
  obtain ⟨h1, h2⟩ := hf.2 g hg
  have : acted g.relays = 0 := by
    unfold acted
    rw [List.countP_eq_zero]
    intro r hr
    simp [(h2 r hr).2]
  unfold Gen.Consistent
  rw [this, h1]
  simp

/-- **C102** From the start of a simulation, for all readings, the admittance of a bus is the original one, less the
load shares of the load relays that have acted and less the admittance of each generator taken out of service.

Partial: at most one relay per generator (see `C102_two_relays_violated`). -/
theorem C102_admittance_partial (dt : ℝ) (b : Bus) (hf : Fresh b) (h1 : ∀ g ∈ b.gens, g.relays.length ≤ 1)
    (r : Nat → ℂ × ℝ) (k : Nat) :
    (after (simulate dt) b r k).y = b.y - b.loadY * shedShare (after (simulate dt) b r k).loads
      - trippedY (after (simulate dt) b r k).gens := by
  have hy := (run_y dt b r k).2
  rw [fresh_share b.loads (fun r hr => (hf.1 r hr).2), fresh_relayY b.gens (fun g hg r hr => ((hf.2 g hg).2 r hr).2)] at hy
  have hc := run_consistent dt 1 b (fun g hg => ⟨fresh_consistent b hf g hg, h1 g hg⟩) r k
  have : relayY (after (simulate dt) b r k).gens = trippedY (after (simulate dt) b r k).gens := by
    generalize (after (simulate dt) b r k).gens = gs at hc
    induction gs with
    | nil => rfl
    | cons g gs ih =>
      have := ih (fun x hx => hc x (by simp [hx]))
      obtain ⟨ha, hb⟩ := hc g (by simp)
      have hle : acted g.relays ≤ 1 := le_trans List.countP_le_length hb
      unfold relayY trippedY at this ⊢
      rw [List.map_cons, List.sum_cons, this]
      cases hs : g.service
      · have : acted g.relays = 1 := by have := ha.1 hs; omega
        simp [hs, this]
      · have : acted g.relays = 0 := by
          by_contra hne
          have := ha.2 (by omega)
          rw [hs] at this; cases this
        simp [hs, this]
  rw [this] at hy
  push_cast at hy
  linear_combination hy

/-! Which relays have acted -/

/-- One load relay in one step. -/
noncomputable def stepLoad (dt : ℝ) (r : LoadRelay) (v : ℂ) : LoadRelay :=
  { r with st := lvUpdate r.p dt r.st v
           op := r.op && !((lvUpdate r.p dt r.st v).shed && !(lvUpdate r.p dt r.st v).shedPrev) }

theorem updateLoads_map (dt : ℝ) (volt loadY : ℂ) (rs : List LoadRelay) (y : ℂ) (f : Bool) :
    (updateLoads dt volt loadY rs y f).1 = rs.map (fun r => stepLoad dt r volt) := by
  induction rs generalizing y f with
  | nil => rfl
  | cons r rs ih =>
    simp only [updateLoads]
    split
    · rename_i hc
      simp only [Bool.and_eq_true, Bool.not_eq_true'] at hc
      simp [ih, stepLoad, hc]
    · rename_i hc
      simp only [ih, stepLoad, List.map_cons]
      congr 1
      cases h1 : r.op
      · simp
      · simp only [h1, Bool.and_true] at hc
        simp [hc]

theorem run_loads (dt : ℝ) (b : Bus) (r : Nat → ℂ × ℝ) (k : Nat) :
    (after (simulate dt) b r k).loads = b.loads.map (fun l => after (stepLoad dt) l (fun i => (r i).1) k) := by
  induction k with
  | zero => simp [after]
  | succ k ih =>
    show (updateLoads dt (r k).1 _ (after (simulate dt) b r k).loads _ _).1 = _
    rw [updateLoads_map, ih, List.map_map]
    rfl

theorem stepLoad_run (dt : ℝ) (l : LoadRelay) (hl : l.st = lvReset ∧ l.op = true) (v : Nat → ℂ) (k : Nat) :
    (after (stepLoad dt) l v k).p = l.p ∧ (after (stepLoad dt) l v k).frac = l.frac ∧
    (after (stepLoad dt) l v k).st = after (lvUpdate l.p dt) lvReset v k ∧
    ((after (stepLoad dt) l v k).op = false ↔ ∃ i, i ≤ k ∧ (after (lvUpdate l.p dt) lvReset v i).shed = true) := by
  induction k with
  | zero =>
    refine ⟨rfl, rfl, hl.1, ?_⟩
    constructor
    · intro h
      have : l.op = false := h
      rw [hl.2] at this; cases this
    · rintro ⟨i, hi, hs⟩
      have : i = 0 := by omega
      subst this
      simp [after, lvReset] at hs
  | succ k ih =>
    obtain ⟨h1, h2, h3, h4⟩ := ih
    have hst : lvUpdate (after (stepLoad dt) l v k).p dt (after (stepLoad dt) l v k).st (v k)
        = after (lvUpdate l.p dt) lvReset v (k + 1) := by rw [h1, h3]; rfl
    have hprev := C98_previous l.p dt v k
    refine ⟨h1, h2, hst, ?_⟩
    show ((after (stepLoad dt) l v k).op && !((lvUpdate (after (stepLoad dt) l v k).p dt (after (stepLoad dt) l v k).st
      (v k)).shed && !(lvUpdate (after (stepLoad dt) l v k).p dt (after (stepLoad dt) l v k).st (v k)).shedPrev)) = false ↔ _
    rw [hst, hprev]
    constructor
    · intro h
      cases hop : (after (stepLoad dt) l v k).op
      · obtain ⟨i, hi, hs⟩ := h4.1 hop
        exact ⟨i, by omega, hs⟩
      · rw [hop] at h
        refine ⟨k + 1, le_refl _, ?_⟩
        cases hsh : (after (lvUpdate l.p dt) lvReset v (k + 1)).shed
        · rw [hsh] at h; simp at h
        · rfl
    · rintro ⟨i, hi, hs⟩
      by_cases hik : i ≤ k
      · have := h4.2 ⟨i, hik, hs⟩
        simp [this]
      · have : i = k + 1 := by omega
        subst this
        cases hsh : (after (lvUpdate l.p dt) lvReset v k).shed
        · simp [hs]
        · have := h4.2 ⟨k, le_refl _, hsh⟩
          simp [this]

/-- **C102** The load shares removed up to step `k` are exactly those of the relays that have given the trip signal
in one of the steps up to `k`; a share is removed once however often the signal is given. -/
theorem C102_shed_once (dt : ℝ) (b : Bus) (hf : Fresh b) (hg : b.gens = []) (r : Nat → ℂ × ℝ) (k : Nat)
    (sig : LoadRelay → Bool)
    (hsig : ∀ l ∈ b.loads, sig l = true ↔ ∃ i, i ≤ k ∧ (after (lvUpdate l.p dt) lvReset (fun i => (r i).1) i).shed = true) :
    (after (simulate dt) b r k).y = b.y - b.loadY * (((b.loads.filter sig).map LoadRelay.frac).sum : ℝ) := by
  have h := C102_admittance_partial dt b hf (by simp [hg]) r k
  have hgens : (after (simulate dt) b r k).gens = [] := by
    clear h hsig
    induction k with
    | zero => exact hg
    | succ k ih =>
      show (updateGens dt _ (after (simulate dt) b r k).gens _ _).1 = []
      rw [ih]; rfl
  rw [hgens] at h
  have hs : shedShare (after (simulate dt) b r k).loads = ((b.loads.filter sig).map LoadRelay.frac).sum := by
    rw [run_loads]
    unfold shedShare
    have hall : ∀ l ∈ b.loads, (!(after (stepLoad dt) l (fun i => (r i).1) k).op) = sig l ∧
        (after (stepLoad dt) l (fun i => (r i).1) k).frac = l.frac := by
      intro l hl
      obtain ⟨_, h2, _, h4⟩ := stepLoad_run dt l (hf.1 l hl) (fun i => (r i).1) k
      refine ⟨?_, h2⟩
      rw [← hsig l hl] at h4
      cases h5 : sig l
      · rw [h5] at h4; simpa using h4
      · rw [h5] at h4; simpa using h4
    clear h
    generalize b.loads = ls at hall
    induction ls with
    | nil => rfl
    | cons l ls ih =>
      have h1 := hall l (by simp)
      have h2 := ih (fun x hx => hall x (by simp [hx]))
      rw [List.map_cons, List.filter_cons, List.filter_cons, h1.1]
      cases sig l
      · simpa using h2
      · simp only [if_true, List.map_cons, List.sum_cons, h1.2]
        rw [h2]
  rw [hs] at h
  simpa [trippedY] using h

/-- One generator relay in one step. -/
noncomputable def stepGen (dt : ℝ) (r : GenRelay) (f : ℝ) : GenRelay :=
  { r with st := frUpdate r.p dt r.st f
           op := r.op && !((frUpdate r.p dt r.st f).trip && !(frUpdate r.p dt r.st f).tripPrev) }

theorem updateGenRelays_map (dt freq : ℝ) (ya : ℂ) (rs : List GenRelay) (s : Bool) (y : ℂ) (f : Bool) :
    (updateGenRelays dt freq ya rs s y f).1 = rs.map (fun r => stepGen dt r freq) := by
  induction rs generalizing s y f with
  | nil => rfl
  | cons r rs ih =>
    simp only [updateGenRelays]
    split
    · rename_i hc
      simp only [Bool.and_eq_true, Bool.not_eq_true'] at hc
      simp [ih, stepGen, hc]
    · rename_i hc
      simp only [ih, stepGen, List.map_cons]
      congr 1
      cases h1 : r.op
      · simp
      · simp only [h1, Bool.and_true] at hc
        simp [hc]

theorem updateGens_map (dt freq : ℝ) (gs : List Gen) (y : ℂ) (f : Bool) :
    (updateGens dt freq gs y f).1.map (fun g => (g.status, g.y, g.relays)) = gs.map (fun g =>
      (g.status, g.y, if g.status then g.relays.map (fun r => stepGen dt r freq) else g.relays)) := by
  induction gs generalizing y f with
  | nil => rfl
  | cons g gs ih =>
    simp only [updateGens]
    cases hg : g.status
    · simp [ih, hg]
    · simp [ih, hg, updateGenRelays_map]

theorem run_gens (dt : ℝ) (b : Bus) (hon : ∀ g ∈ b.gens, g.status = true) (r : Nat → ℂ × ℝ) (k : Nat) :
    (after (simulate dt) b r k).gens.map (fun g => (g.status, g.y, g.relays)) = b.gens.map (fun g =>
      (true, g.y, g.relays.map (fun l => after (stepGen dt) l (fun i => (r i).2) k))) := by
  induction k with
  | zero =>
    apply List.map_congr_left
    intro g hg
    simp [after, hon g hg]
  | succ k ih =>
    show (updateGens dt (r k).2 (after (simulate dt) b r k).gens _ _).1.map _ = _
    rw [updateGens_map]
    have : (fun g : Gen => (g.status, g.y, if g.status then g.relays.map (fun x => stepGen dt x (r k).2) else g.relays))
        = (fun t : Bool × ℂ × List GenRelay => (t.1, t.2.1, if t.1 then t.2.2.map (fun x => stepGen dt x (r k).2) else t.2.2))
          ∘ (fun g : Gen => (g.status, g.y, g.relays)) := rfl
    rw [this, ← List.map_map, ih, List.map_map]
    apply List.map_congr_left
    intro g _
    simp only [Function.comp, if_true, List.map_map]
    rfl

theorem stepGen_run (dt : ℝ) (l : GenRelay) (hl : l.st = frReset ∧ l.op = true) (v : Nat → ℝ) (k : Nat) :
    (after (stepGen dt) l v k).p = l.p ∧
    (after (stepGen dt) l v k).st = after (frUpdate l.p dt) frReset v k ∧
    ((after (stepGen dt) l v k).op = false ↔ ∃ i, i ≤ k ∧ (after (frUpdate l.p dt) frReset v i).trip = true) := by
  induction k with
  | zero =>
    refine ⟨rfl, hl.1, ?_⟩
    constructor
    · intro h
      have : l.op = false := h
      rw [hl.2] at this; cases this
    · rintro ⟨i, hi, hs⟩
      have : i = 0 := by omega
      subst this
      simp [after, frReset] at hs
  | succ k ih =>
    obtain ⟨h1, h3, h4⟩ := ih
    have hst : frUpdate (after (stepGen dt) l v k).p dt (after (stepGen dt) l v k).st (v k)
        = after (frUpdate l.p dt) frReset v (k + 1) := by rw [h1, h3]; rfl
    have hprev := C99_previous l.p dt v k
    refine ⟨h1, hst, ?_⟩
    show ((after (stepGen dt) l v k).op && !((frUpdate (after (stepGen dt) l v k).p dt (after (stepGen dt) l v k).st
      (v k)).trip && !(frUpdate (after (stepGen dt) l v k).p dt (after (stepGen dt) l v k).st (v k)).tripPrev)) = false ↔ _
    rw [hst, hprev]
    constructor
    · intro h
      cases hop : (after (stepGen dt) l v k).op
      · obtain ⟨i, hi, hs⟩ := h4.1 hop
        exact ⟨i, by omega, hs⟩
      · rw [hop] at h
        refine ⟨k + 1, le_refl _, ?_⟩
        cases hsh : (after (frUpdate l.p dt) frReset v (k + 1)).trip
        · rw [hsh] at h; simp at h
        · rfl
    · rintro ⟨i, hi, hs⟩
      by_cases hik : i ≤ k
      · have := h4.2 ⟨i, hik, hs⟩
        simp [this]
      · have : i = k + 1 := by omega
        subst this
        cases hsh : (after (frUpdate l.p dt) frReset v k).trip
        · simp [hs]
        · have := h4.2 ⟨k, le_refl _, hsh⟩
          simp [this]

/-- The relay has given the trip signal in one of the first `k` steps. -/
def Signalled (dt : ℝ) (freq : Nat → ℝ) (k : Nat) (l : GenRelay) : Prop :=
  ∃ i, i ≤ k ∧ (after (frUpdate l.p dt) frReset freq i).trip = true

theorem run_acted (dt : ℝ) (rs : List GenRelay) (hf : ∀ l ∈ rs, l.st = frReset ∧ l.op = true) (freq : Nat → ℝ) (k : Nat)
    (sig : GenRelay → Bool) (hsig : ∀ l ∈ rs, sig l = true ↔ Signalled dt freq k l) :
    acted (rs.map (fun l => after (stepGen dt) l freq k)) = rs.countP sig := by
  unfold acted
  rw [List.countP_map]
  apply List.countP_congr
  intro l hl
  have := (stepGen_run dt l (hf l hl) freq k).2.2
  rw [hsig l hl]
  unfold Signalled
  rw [← this]
  simp

/-- **C102** A generator in service at the start is out of service after `k` steps exactly if one of its relays has
given the trip signal in one of these steps. -/
theorem C102_generators (dt : ℝ) (b : Bus) (hf : Fresh b) (hon : ∀ g ∈ b.gens, g.status = true) (r : Nat → ℂ × ℝ)
    (k i : Nat) (g : Gen) (hg : b.gens[i]? = some g) :
    ∃ g', (after (simulate dt) b r k).gens[i]? = some g' ∧ g'.y = g.y ∧
      (g'.service = false ↔ ∃ l ∈ g.relays, Signalled dt (fun i => (r i).2) k l) := by
  have hmem : g ∈ b.gens := List.mem_of_getElem? hg
  have h := congrArg (fun t => t[i]?) (run_gens dt b hon r k)
  simp only [List.getElem?_map, hg, Option.map_some, Option.map_eq_some_iff] at h
  obtain ⟨g', hg', he⟩ := h
  simp only [Prod.mk.injEq] at he
  refine ⟨g', hg', he.2.1, ?_⟩
  have hm : g' ∈ (after (simulate dt) b r k).gens := List.mem_of_getElem? hg'
  have hc := (run_consistent dt (g'.relays.length + (b.gens.map (fun g => g.relays.length)).sum) b
    (fun x hx => ⟨fresh_consistent b hf x hx, by
      have : x.relays.length ≤ (b.gens.map (fun g => g.relays.length)).sum :=
        List.le_sum_of_mem (List.mem_map.mpr ⟨x, hx, rfl⟩)
      omega⟩) r k g' hm).1
  unfold Gen.Consistent at hc
  rw [hc, he.2.2]
  classical
  rw [run_acted dt g.relays ((hf.2 g hmem).2) _ k (fun l => decide (Signalled dt (fun i => (r i).2) k l)) (by simp)]
  rw [List.countP_pos_iff]
  simp

/-- **C102, violated**: a generator with two relays that both give the trip signal, at the same time or at different
times, has its admittance removed twice. -/
theorem C102_two_relays_violated (dt : ℝ) (b : Bus) (hf : Fresh b) (g : Gen) (hg : b.gens = [g]) (hl : b.loads = [])
    (hon : g.status = true) (l1 l2 : GenRelay) (h2 : g.relays = [l1, l2]) (r : Nat → ℂ × ℝ) (k : Nat)
    (s1 : Signalled dt (fun i => (r i).2) k l1) (s2 : Signalled dt (fun i => (r i).2) k l2) :
    (after (simulate dt) b r k).y = b.y - 2 * g.y := by
  have hy := (run_y dt b r k).2
  rw [fresh_share b.loads (fun r hr => (hf.1 r hr).2), fresh_relayY b.gens (fun g hg r hr => ((hf.2 g hg).2 r hr).2),
    run_loads, hl] at hy
  have h := run_gens dt b (by simp [hg, hon]) r k
  have hrel : relayY (after (simulate dt) b r k).gens = g.y * 2 := by
    have e : relayY (after (simulate dt) b r k).gens = (((after (simulate dt) b r k).gens.map
        (fun g => (g.status, g.y, g.relays))).map (fun t => t.2.1 * (acted t.2.2 : ℂ))).sum := by
      rw [List.map_map]; rfl
    rw [e, h, hg]
    simp only [List.map_cons, List.map_nil, List.sum_cons, List.sum_nil, add_zero]
    classical
    rw [run_acted dt g.relays ((hf.2 g (by simp [hg])).2) _ k
      (fun l => decide (Signalled dt (fun i => (r i).2) k l)) (by simp), h2]
    simp [s1, s2]
  rw [hrel] at hy
  simp only [List.map_nil, shedShare, List.filter_nil, List.sum_nil] at hy
  push_cast at hy
  linear_combination hy

/-- Two frequency relays for different bands on one generator: with a frequency of 62 both signal. -/
example (y : ℂ) : ∃ k, (after (simulate 0.01) ⟨0, 0, y, 0, [], [⟨true, true, 5, [⟨⟨58, 61.5, 0.1, 0.05⟩, frReset, true⟩,
    ⟨⟨57, 61.8, 0.1, 0.05⟩, frReset, true⟩]⟩], false⟩ (fun _ => (1, 62)) k).y = y - 10 := by
  obtain ⟨k1, hk1, h1⟩ := (C99_trips_partial ⟨58, 61.5, 0.1, 0.05⟩ 0.01 (by norm_num) (by norm_num) (fun _ => 62) 20).2
    ⟨0, 9, 14, by norm_num, by norm_num, by norm_num, Or.inr fun j _ _ => by norm_num, by norm_num [lasts],
      by norm_num [lasts]⟩
  obtain ⟨k2, hk2, h2⟩ := (C99_trips_partial ⟨57, 61.8, 0.1, 0.05⟩ 0.01 (by norm_num) (by norm_num) (fun _ => 62) 20).2
    ⟨0, 9, 14, by norm_num, by norm_num, by norm_num, Or.inr fun j _ _ => by norm_num, by norm_num [lasts],
      by norm_num [lasts]⟩
  refine ⟨20, ?_⟩
  have := C102_two_relays_violated 0.01 ⟨0, 0, y, 0, [], [⟨true, true, 5, [⟨⟨58, 61.5, 0.1, 0.05⟩, frReset, true⟩,
    ⟨⟨57, 61.8, 0.1, 0.05⟩, frReset, true⟩]⟩], false⟩ ⟨by simp, by simp⟩ _ rfl rfl rfl _ _ rfl (fun _ => (1, 62)) 20
    ⟨k1, hk1, h1⟩ ⟨k2, hk2, h2⟩
  rw [this]
  norm_num

/-! ### C103: circuits tripped by line relays -/

/-- The circuits of the relays that act in this step. -/
noncomputable def trippedNow (dt : ℝ) (b : Branch) : List Nat :=
  (b.relays.filter (fun r => (diUpdate r.p dt r.st (b.volt, b.curr r.idx)).trip
    && !(diUpdate r.p dt r.st (b.volt, b.curr r.idx)).tripPrev && r.op)).map LineRelay.idx

theorem updateLine_spec (dt : ℝ) (volt : ℂ) (curr : Nat → ℂ) (rs : List LineRelay) (st : Nat → Bool) (nt : List Nat)
    (f : Bool) :
    let new := (rs.filter (fun r => (diUpdate r.p dt r.st (volt, curr r.idx)).trip
      && !(diUpdate r.p dt r.st (volt, curr r.idx)).tripPrev && r.op)).map LineRelay.idx
    (updateLine dt volt curr rs st nt f).newTrip = nt ++ new ∧
    (updateLine dt volt curr rs st nt f).flag = (f || !new.isEmpty) ∧
    (∀ i, (updateLine dt volt curr rs st nt f).status i = (st i && !new.contains i)) := by
  induction rs generalizing st nt f with
  | nil => simp [updateLine]
  | cons r rs ih =>
    simp only [updateLine]
    split
    · rename_i hc
      obtain ⟨h1, h2, h3⟩ := ih (fun i => if i = r.idx then false else st i) (nt ++ [r.idx]) true
      rw [List.filter_cons, if_pos hc]
      refine ⟨by rw [h1]; simp, by rw [h2]; simp, ?_⟩
      intro i
      rw [h3]
      by_cases hi : i = r.idx
      · simp [hi]
      · have : (i == r.idx) = false := by simpa using hi
        simp [hi, this]
    · rename_i hc
      obtain ⟨h1, h2, h3⟩ := ih st nt f
      rw [List.filter_cons, if_neg hc]
      exact ⟨h1, h2, h3⟩

theorem trips_iff_now (dt : ℝ) (b : Branch) : b.trips dt ↔ trippedNow dt b ≠ [] := by
  unfold Branch.trips
  rw [(updateLine_spec dt b.volt b.curr b.relays b.status [] false).2.1]
  unfold trippedNow
  simp

theorem branch_newTrip (dt : ℝ) (k : Nat) (b : Branch) (fl : Nat → BusFlags) :
    (b.update dt k fl).1.newTrip = trippedNow dt b ∧ (b.update dt k fl).1.z = b.z ∧
    (∀ i, (b.update dt k fl).1.status i = (b.status i && !(trippedNow dt b).contains i)) := by
  obtain ⟨h1, _, h3⟩ := updateLine_spec dt b.volt b.curr b.relays b.status [] false
  exact ⟨h1.trans (List.nil_append _), rfl, h3⟩

/-- The series admittances of the given circuits. -/
noncomputable def circuitsY (b : Branch) (cs : List Nat) : ℂ := (cs.map (fun i => 1 / b.z i)).sum

theorem factor_eq (dt : ℝ) (k : Nat) (b : Branch) (fl : Nat → BusFlags) :
    (b.update dt k fl).1.factor = -circuitsY b (trippedNow dt b) := by
  obtain ⟨h1, h2, _⟩ := branch_newTrip dt k b fl
  unfold Branch.factor circuitsY
  rw [h1, h2]
  generalize trippedNow dt b = l
  induction l with
  | nil => simp
  | cons a l ih => simp only [List.map_cons, List.sum_cons, ih]; ring

/-- **C103** If the relays of one branch trip circuits and no relay of another branch does, the diagonal elements of
its two end buses lose the series admittances of these circuits, its off-diagonal elements gain them, and no other
element changes; the circuits are marked out of service and no others.

Partial: the flags of buses and branches must be clear before the step (see `C103_stale_violated`), a circuit has one
relay (see `C103_two_relays_violated`), and one branch trips at a time (see `C101_branches_skipped_violated`). -/
theorem C103_one_branch_partial (dt : ℝ) (pre : List Branch) (b : Branch) (post : List Branch) (fl : Nat → BusFlags)
    (hfl : ∀ i, fl i = ⟨false, false, none⟩) (hclear : ∀ x ∈ post, x.tripFlag = false)
    (hpre : ∀ x ∈ pre, trippedNow dt x = []) (_hpost : ∀ x ∈ post, trippedNow dt x = []) (hb : trippedNow dt b ≠ [])
    (hone : (b.relays.map LineRelay.idx).Nodup) :
    let t := updateBranches dt 0 (pre ++ b :: post) fl false
    (trippedNow dt b).Nodup ∧
    (∀ i, diagChange t.1 t.2.1 i = if i = b.bus1 ∨ i = b.bus2 then -circuitsY b (trippedNow dt b) else 0) ∧
    (∀ j x, t.1[j]? = some x → x.offDiagChange = if j = pre.length then circuitsY b (trippedNow dt b) else 0) ∧
    (∀ x, t.1[pre.length]? = some x → ∀ c, x.status c = (b.status c && !(trippedNow dt b).contains c)) := by
  intro t
  have hbt : b.trips dt := (trips_iff_now dt b).2 hb
  have hpre' : ∀ x ∈ pre, ¬ x.trips dt := fun x hx h => (trips_iff_now dt x).1 h (hpre x hx)
  have ht1 : t.1 = pre.map (fun b => (b.update dt 0 fl).1) ++ (b.update dt 0 fl).1 :: post :=
    C101_branches_skipped_violated dt pre b post fl hpre' hbt
  have ht2 : t.2.1 = (fun i => if i = b.bus1 ∨ i = b.bus2 then
      (⟨decide (i = b.bus1), decide (i = b.bus2), some pre.length⟩ : BusFlags) else ⟨false, false, none⟩) := by
    obtain ⟨fl', hfl', he⟩ := updateBranches_append dt 0 pre hpre' (b :: post) fl
    have hfl'' : ∀ i, fl' i = ⟨false, false, none⟩ := fun i => (hfl' i).elim (fun h => h.trans (hfl i)) id
    have hflag : (updateLine dt b.volt b.curr b.relays b.status [] false).flag = true := hbt
    show (updateBranches dt 0 (pre ++ b :: post) fl false).2.1 = _
    rw [he]
    have hb' : (b.update dt (0 + pre.length) fl').2.2 = true := hbt
    simp only [updateBranches, Bool.false_eq_true, if_false, hb', updateBranches_true]
    funext i
    simp only [Branch.update, hflag, if_true, hfl'']
    by_cases h1 : i = b.bus1 <;> by_cases h2 : i = b.bus2
    all_goals (try subst h1)
    all_goals (try rw [if_neg (show ¬ (i = b.bus1 ∨ i = b.bus2) by tauto)])
    all_goals simp_all
  refine ⟨?_, ?_, ?_, ?_⟩
  · unfold trippedNow
    exact hone.sublist (List.filter_sublist.map _)
  · intro i
    unfold diagChange
    rw [ht2]
    by_cases hi : i = b.bus1 ∨ i = b.bus2
    · simp only [if_pos hi]
      have hor : (decide (i = b.bus1) || decide (i = b.bus2)) = true := by simpa using hi
      rw [if_pos hor, ht1]
      rw [List.getElem?_append_right (by simp)]
      simp [factor_eq]
    · simp [hi]
  · intro j x hx
    rw [ht1] at hx
    by_cases hj : j < pre.length
    · rw [List.getElem?_append_left (by simpa using hj), List.getElem?_map, Option.map_eq_some_iff] at hx
      obtain ⟨y, hy, rfl⟩ := hx
      have hy' : ¬ y.trips dt := hpre' y (List.mem_of_getElem? hy)
      have : (y.update dt 0 fl).1.tripFlag = false := by
        have : ¬ (y.update dt 0 fl).1.tripFlag = true := hy'
        simpa using this
      unfold Branch.offDiagChange
      rw [this, if_neg (show ¬ j = pre.length by omega)]
      rfl
    · rw [List.getElem?_append_right (by simpa using hj)] at hx
      simp only [List.length_map] at hx
      by_cases hj' : j = pre.length
      · subst hj'
        simp only [Nat.sub_self, List.getElem?_cons_zero, Option.some.injEq] at hx
        subst hx
        have : (b.update dt 0 fl).1.tripFlag = true := hbt
        unfold Branch.offDiagChange
        rw [this, factor_eq]
        simp
      · obtain ⟨m, hm⟩ : ∃ m, j - pre.length = m + 1 := ⟨j - pre.length - 1, by omega⟩
        rw [hm, List.getElem?_cons_succ] at hx
        unfold Branch.offDiagChange
        rw [hclear x (List.mem_of_getElem? hx), if_neg hj']
        rfl
  · intro x hx c
    rw [ht1, List.getElem?_append_right (by simp)] at hx
    simp only [List.length_map, Nat.sub_self, List.getElem?_cons_zero, Option.some.injEq] at hx
    subst hx
    exact (branch_newTrip dt 0 b fl).2.2 c

/-- **C103** If no relay trips, nothing changes. -/
theorem C103_none (dt : ℝ) (bs : List Branch) (fl : Nat → BusFlags) (hfl : ∀ i, fl i = ⟨false, false, none⟩)
    (h : ∀ x ∈ bs, trippedNow dt x = []) :
    let t := updateBranches dt 0 bs fl false
    t.2.2 = false ∧ (∀ i, diagChange t.1 t.2.1 i = 0) ∧ (∀ x ∈ t.1, x.offDiagChange = 0) := by
  intro t
  have h' : ∀ x ∈ bs, ¬ x.trips dt := fun x hx ht => (trips_iff_now dt x).1 ht (h x hx)
  obtain ⟨fl', hfl', he⟩ := updateBranches_append dt 0 bs h' [] fl
  rw [List.append_nil] at he
  have ht : t = (bs.map (fun b => (b.update dt 0 fl).1) ++ [], fl', false) := he
  rw [ht]
  refine ⟨rfl, ?_, ?_⟩
  · intro i
    have : fl' i = ⟨false, false, none⟩ := (hfl' i).elim (fun h => h.trans (hfl i)) id
    simp [diagChange, this]
  · intro x hx
    simp only [List.append_nil, List.mem_map] at hx
    obtain ⟨y, hy, rfl⟩ := hx
    have : (y.update dt 0 fl).1.tripFlag = false := by
      have : ¬ (y.update dt 0 fl).1.tripFlag = true := h' y hy
      simpa using this
    unfold Branch.offDiagChange
    rw [this]; rfl

/-- **C103, violated**: a branch that tripped in the step before and follows the branch that trips now is not updated,
so it adds the admittances of its circuits to its off-diagonal elements a second time. -/
theorem C103_stale_violated (dt : ℝ) (pre : List Branch) (b : Branch) (mid : List Branch) (c : Branch) (post : List Branch)
    (fl fl0 : Nat → BusFlags) (k : Nat) (hpre : ∀ x ∈ pre, trippedNow dt x = []) (hb : trippedNow dt b ≠ [])
    (hc : trippedNow dt c ≠ []) :
    ∃ x, (updateBranches dt 0 (pre ++ b :: (mid ++ (c.update dt k fl0).1 :: post)) fl false).1[pre.length + 1 + mid.length]?
      = some x ∧ x.offDiagChange = circuitsY c (trippedNow dt c) := by
  have hpre' : ∀ x ∈ pre, ¬ x.trips dt := fun x hx h => (trips_iff_now dt x).1 h (hpre x hx)
  rw [C101_branches_skipped_violated dt pre b _ fl hpre' ((trips_iff_now dt b).2 hb)]
  refine ⟨(c.update dt k fl0).1, ?_, ?_⟩
  · rw [List.getElem?_append_right (by simp; omega)]
    simp only [List.length_map]
    rw [show pre.length + 1 + mid.length - pre.length = mid.length + 1 by omega, List.getElem?_cons_succ,
      List.getElem?_append_right (le_refl _)]
    simp
  · have : (c.update dt k fl0).1.tripFlag = true := (trips_iff_now dt c).2 hc
    unfold Branch.offDiagChange
    rw [this, factor_eq]
    simp

/-- **C103, violated**: two relays of the same circuit that act in the same step remove it twice. -/
theorem C103_two_relays_violated (dt : ℝ) (k : Nat) (b : Branch) (fl : Nat → BusFlags) (l1 l2 : LineRelay) (c : Nat)
    (hr : b.relays = [l1, l2]) (h1 : l1.idx = c) (h2 : l2.idx = c)
    (a1 : (diUpdate l1.p dt l1.st (b.volt, b.curr c)).trip = true ∧
      (diUpdate l1.p dt l1.st (b.volt, b.curr c)).tripPrev = false ∧ l1.op = true)
    (a2 : (diUpdate l2.p dt l2.st (b.volt, b.curr c)).trip = true ∧
      (diUpdate l2.p dt l2.st (b.volt, b.curr c)).tripPrev = false ∧ l2.op = true) :
    (b.update dt k fl).1.factor = -(2 * (1 / b.z c)) := by
  rw [factor_eq]
  have : trippedNow dt b = [c, c] := by
    unfold trippedNow
    rw [hr]
    simp [h1, h2, a1, a2]
  rw [this]
  simp only [circuitsY, List.map_cons, List.map_nil, List.sum_cons, List.sum_nil]
  ring

/-- **C103, violated**: a circuit already out of service is removed again when a second relay of it acts later. -/
theorem C103_tripped_again_violated (dt : ℝ) (k : Nat) (b : Branch) (fl : Nat → BusFlags) (l : LineRelay)
    (hr : l ∈ b.relays) (_hout : b.status l.idx = false)
    (a : (diUpdate l.p dt l.st (b.volt, b.curr l.idx)).trip = true ∧
      (diUpdate l.p dt l.st (b.volt, b.curr l.idx)).tripPrev = false ∧ l.op = true)
    (hone : ∀ l' ∈ b.relays, l' ≠ l → l'.op = false) (hnd : b.relays.Nodup) :
    (b.update dt k fl).1.factor = -(1 / b.z l.idx) := by
  rw [factor_eq]
  have : trippedNow dt b = [l.idx] := by
    unfold trippedNow
    have hfilter : b.relays.filter (fun r => (diUpdate r.p dt r.st (b.volt, b.curr r.idx)).trip
        && !(diUpdate r.p dt r.st (b.volt, b.curr r.idx)).tripPrev && r.op) = [l] := by
      clear fl k
      obtain ⟨s, t, hst⟩ := List.append_of_mem hr
      rw [hst] at hone hnd ⊢
      have hs : ∀ x ∈ s, x ≠ l := by
        rintro x hx rfl
        have := (List.nodup_append.1 hnd).2.2 x hx x (by simp)
        exact this rfl
      have ht : ∀ x ∈ t, x ≠ l := by
        rintro x hx rfl
        exact (List.nodup_cons.1 (List.nodup_append.1 hnd).2.1).1 hx
      rw [List.filter_append, List.filter_cons, if_pos (by simp [a]), List.filter_eq_nil_iff.2, List.filter_eq_nil_iff.2]
      · rfl
      · intro x hx
        simp [hone x (by simp [hx]) (ht x hx)]
      · intro x hx
        simp [hone x (by simp [hx]) (hs x hx)]
    rw [hfilter]
    rfl
  rw [this]
  simp [circuitsY]

/-! ### C104: processes agree on trips -/

theorem updateBuses_flag (dt : ℝ) (bs : List Bus) (f : Bool) :
    (updateBuses dt bs f).2 = true ↔ f = true ∨ ∃ b ∈ bs, (b.update dt).2 = true := by
  induction bs generalizing f with
  | nil => simp [updateBuses]
  | cons b bs ih =>
    simp only [updateBuses]
    cases f
    · simp [ih]
    · simp [ih]

/-- A load or generator relay of the bus acts in this step. -/
def Bus.acts (dt : ℝ) (b : Bus) : Prop :=
  (∃ r ∈ b.loads, r.op = true ∧ (lvUpdate r.p dt r.st b.volt).shed = true ∧ (lvUpdate r.p dt r.st b.volt).shedPrev = false) ∨
  (∃ g ∈ b.gens, g.status = true ∧ ∃ r ∈ g.relays, r.op = true ∧ (frUpdate r.p dt r.st b.freq).trip = true ∧
    (frUpdate r.p dt r.st b.freq).tripPrev = false)

theorem loads_flag (dt : ℝ) (volt loadY : ℂ) (rs : List LoadRelay) (y : ℂ) (f : Bool) :
    (updateLoads dt volt loadY rs y f).2.2 = true ↔ f = true ∨
      ∃ r ∈ rs, r.op = true ∧ (lvUpdate r.p dt r.st volt).shed = true ∧ (lvUpdate r.p dt r.st volt).shedPrev = false := by
  induction rs generalizing y f with
  | nil => simp [updateLoads]
  | cons r rs ih =>
    simp only [updateLoads]
    split
    · rename_i hc
      simp only [Bool.and_eq_true, Bool.not_eq_true'] at hc
      simp only [ih, true_or, true_iff]
      exact Or.inr ⟨r, by simp, hc.2, hc.1.1, hc.1.2⟩
    · rename_i hc
      simp only [Bool.and_eq_true, Bool.not_eq_true'] at hc
      simp only [ih, List.exists_mem_cons_iff]
      tauto

theorem genRelays_flag (dt freq : ℝ) (ya : ℂ) (rs : List GenRelay) (s : Bool) (y : ℂ) (f : Bool) :
    (updateGenRelays dt freq ya rs s y f).2.2.2 = true ↔ f = true ∨
      ∃ r ∈ rs, r.op = true ∧ (frUpdate r.p dt r.st freq).trip = true ∧ (frUpdate r.p dt r.st freq).tripPrev = false := by
  induction rs generalizing s y f with
  | nil => simp [updateGenRelays]
  | cons r rs ih =>
    simp only [updateGenRelays]
    split
    · rename_i hc
      simp only [Bool.and_eq_true, Bool.not_eq_true'] at hc
      simp only [ih, true_or, true_iff]
      exact Or.inr ⟨r, by simp, hc.2, hc.1.1, hc.1.2⟩
    · rename_i hc
      simp only [Bool.and_eq_true, Bool.not_eq_true'] at hc
      simp only [ih, List.exists_mem_cons_iff]
      tauto

theorem gens_flag (dt freq : ℝ) (gs : List Gen) (y : ℂ) (f : Bool) :
    (updateGens dt freq gs y f).2.2 = true ↔ f = true ∨ ∃ g ∈ gs, g.status = true ∧ ∃ r ∈ g.relays, r.op = true ∧
      (frUpdate r.p dt r.st freq).trip = true ∧ (frUpdate r.p dt r.st freq).tripPrev = false := by
  induction gs generalizing y f with
  | nil => simp [updateGens]
  | cons g gs ih =>
    simp only [updateGens]
    cases hg : g.status
    · simp only [Bool.not_false, if_true, ih, List.exists_mem_cons_iff, hg]
      simp
    · simp only [Bool.not_true, Bool.false_eq_true, if_false, ih, genRelays_flag, List.exists_mem_cons_iff, hg, true_and]
      rw [or_assoc]

theorem bus_flag (dt : ℝ) (b : Bus) : (b.update dt).2 = true ↔ b.acts dt := by
  show (updateGens dt b.freq b.gens _ _).2.2 = true ↔ _
  rw [gens_flag, loads_flag]
  unfold Bus.acts
  simp

/-- **C104** Every process is told whether a bus relay has acted on some process. -/
theorem C104_bus (dt : ℝ) (n : Nat) (buses : Nat → List Bus) (me : Nat) :
    updateBusRelay dt n buses me = true ↔ ∃ p, p < n ∧ ∃ b ∈ buses p, b.acts dt := by
  unfold updateBusRelay
  rw [GhostUpdate.C20_checkTrueSomewhere]
  simp [updateBuses_flag, bus_flag]

/-- **C104, violated**: for line relays, a process on which a branch trips and a process on which none does get
different answers, and only the first calls the collective update of the matrix. -/
theorem C104_branch_violated (dt : ℝ) (branches : Nat → List Branch) (fl : Nat → Nat → BusFlags) (p q : Nat)
    (hp : ∃ b ∈ branches p, trippedNow dt b ≠ []) (hq : ∀ b ∈ branches q, trippedNow dt b = []) :
    updateBranchRelay dt branches fl p = true ∧ updateBranchRelay dt branches fl q = false := by
  have key : ∀ (bs : List Branch) (k : Nat) (fl : Nat → BusFlags) (f : Bool),
      (updateBranches dt k bs fl f).2.2 = true ↔ f = true ∨ ∃ b ∈ bs, b.trips dt := by
    intro bs
    induction bs with
    | nil => simp [updateBranches]
    | cons b bs ih =>
      intro k fl f
      simp only [updateBranches]
      cases f
      · simp only [Bool.false_eq_true, if_false, ih, branch_flag, false_or, List.exists_mem_cons_iff]
      · simp [ih]
  constructor
  · obtain ⟨b, hb, h⟩ := hp
    exact (key _ _ _ _).2 (Or.inr ⟨b, hb, (trips_iff_now dt b).2 h⟩)
  · have : ¬ updateBranchRelay dt branches fl q = true := by
      intro h
      rcases (key _ _ _ _).1 h with h | ⟨b, hb, h⟩
      · cases h
      · exact (trips_iff_now dt b).1 h (hq b hb)
    simpa using this

/-! ### Examples -/

/-- A relay without delays. -/
def instant (idx : Nat) : LineRelay := ⟨⟨0, 2, 0, 0, 4, 30, 0⟩, idx, diReset, true⟩

/-- A branch with two circuits between the given buses, with a relay on the first and one on the second circuit; the
current flows in the given circuit only, the voltage is zero. -/
noncomputable def shorted (b1 b2 c : Nat) : Branch :=
  ⟨b1, b2, 0, fun i => if i = c then 1 else 0, fun i => if i = 0 then 2 else 4, fun _ => true, [instant 0, instant 1], [], false⟩

theorem instant_trips (idx : Nat) (u : ℂ) : (diUpdate (instant idx).p 1 (instant idx).st (0, u)).trip = decide (u ≠ 0) ∧
    (diUpdate (instant idx).p 1 (instant idx).st (0, u)).tripPrev = false := by
  by_cases hu : u = 0
  · subst hu
    norm_num [instant, diUpdate, diReset, within]
  · simp [instant, diUpdate, diReset, within, hu]

theorem shorted_now (b1 b2 c : Nat) (hc : c < 2) : trippedNow 1 (shorted b1 b2 c) = [c] := by
  have h0 := instant_trips 0
  have h1 := instant_trips 1
  unfold trippedNow shorted
  simp only [List.filter_cons, List.filter_nil, h0, h1, (show (instant 0).idx = 0 from rfl),
    (show (instant 1).idx = 1 from rfl), (show (instant 0).op = true from rfl), (show (instant 1).op = true from rfl)]
  rcases (show c = 0 ∨ c = 1 by omega) with rfl | rfl <;> simp [instant]

theorem shorted_none (b1 b2 : Nat) : trippedNow 1 (shorted b1 b2 2) = [] := by
  have h0 := instant_trips 0
  have h1 := instant_trips 1
  unfold trippedNow shorted
  simp only [List.filter_cons, List.filter_nil, h0, h1, (show (instant 0).idx = 0 from rfl),
    (show (instant 1).idx = 1 from rfl), (show (instant 0).op = true from rfl), (show (instant 1).op = true from rfl)]
  simp

/-- The second of three branches trips its second circuit. -/
example : diagChange (updateBranches 1 0 [shorted 0 1 2, shorted 1 2 1, shorted 2 0 2] (fun _ => ⟨false, false, none⟩) false).1
    (updateBranches 1 0 [shorted 0 1 2, shorted 1 2 1, shorted 2 0 2] (fun _ => ⟨false, false, none⟩) false).2.1 1
    = -(1 / 4) := by
  have := (C103_one_branch_partial 1 [shorted 0 1 2] (shorted 1 2 1) [shorted 2 0 2] (fun _ => ⟨false, false, none⟩)
    (fun _ => rfl) (by intro x hx; rw [List.mem_singleton.mp hx]; rfl)
    (by intro x hx; rw [List.mem_singleton.mp hx]; exact shorted_none 0 1)
    (by intro x hx; rw [List.mem_singleton.mp hx]; exact shorted_none 2 0)
    (by rw [shorted_now 1 2 1 (by norm_num)]; simp) (by simp [shorted, instant])).2.1 1
  rw [shorted_now 1 2 1 (by norm_num)] at this
  rw [show [shorted 0 1 2, shorted 1 2 1, shorted 2 0 2] = [shorted 0 1 2] ++ shorted 1 2 1 :: [shorted 2 0 2] from rfl, this]
  rw [if_pos (show 1 = (shorted 1 2 1).bus1 ∨ 1 = (shorted 1 2 1).bus2 from Or.inl rfl)]
  simp [circuitsY, shorted]

/-- The premises of `C103_stale_violated`: the third branch tripped before, now the first one does. -/
example : ∃ x, (updateBranches 1 0 ([] ++ shorted 0 1 0 :: ([] ++ ((shorted 1 2 1).update 1 2 (fun _ => ⟨false, false, none⟩)).1
    :: [])) (fun _ => ⟨false, false, none⟩) false).1[([] : List Branch).length + 1 + ([] : List Branch).length]? = some x ∧
    x.offDiagChange = circuitsY (shorted 1 2 1) (trippedNow 1 (shorted 1 2 1)) :=
  C103_stale_violated 1 [] (shorted 0 1 0) [] (shorted 1 2 1) [] _ _ 2 (by simp)
    (by rw [shorted_now 0 1 0 (by norm_num)]; simp) (by rw [shorted_now 1 2 1 (by norm_num)]; simp)

/-- Two processes; a branch trips on the first only. -/
example : updateBranchRelay 1 (fun p => if p = 0 then [shorted 0 1 0] else [shorted 1 2 2])
    (fun _ _ => ⟨false, false, none⟩) 0 = true ∧
    updateBranchRelay 1 (fun p => if p = 0 then [shorted 0 1 0] else [shorted 1 2 2]) (fun _ _ => ⟨false, false, none⟩) 1
      = false :=
  C104_branch_violated 1 _ _ 0 1 ⟨shorted 0 1 0, by simp, by rw [shorted_now 0 1 0 (by norm_num)]; simp⟩
    (by intro b hb; simp only [one_ne_zero, if_false, List.mem_singleton] at hb; rw [hb]; exact shorted_none 1 2)

/-- A bus whose load relay acts at once. -/
noncomputable def sheds : Bus := ⟨0, 60, 3, 2, [⟨⟨0.8, 0.5, 0.5⟩, 0.25, lvReset, true⟩], [], false⟩

theorem sheds_acts : (sheds.update 1).2 = true := by
  rw [bus_flag]
  left
  refine ⟨⟨⟨0.8, 0.5, 0.5⟩, 0.25, lvReset, true⟩, by simp [sheds], rfl, ?_, ?_⟩ <;>
    norm_num [lvUpdate, lvReset, sheds]

/-- The second bus is not updated in the step in which the first one trips. -/
example : (updateBuses 1 [sheds, sheds] false).1[1]? = some sheds := by
  have := C101_skipped_violated 1 [] sheds [sheds] (by simp) sheds_acts
  rw [show [sheds, sheds] = [] ++ sheds :: [sheds] from rfl, this]
  rfl

end GridPACK.RelayUpdate
