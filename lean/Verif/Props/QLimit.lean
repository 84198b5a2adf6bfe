import Verif.Model.QLimit
import Verif.Props.GhostUpdate
import Mathlib.Tactic.Ring
import Mathlib.Tactic.Linarith
import Mathlib.Tactic.FieldSimp
import Mathlib.Tactic.NormNum

/-! C47, C48: conversion at a reactive limit and its undoing.  C85: the check itself. -/
namespace GridPACK.QLimit

/-! ### Specification -/

/-- Generators in service. -/
def Bus.on (b : Bus) : List Gen := ((b.gstatus.zip b.gens).filter (fun e => e.1 = 1)).map (·.2)

/-- Loads in service. -/
def Bus.onLoads (b : Bus) : List Load := b.loads.filter (fun l => l.status = 1)

/-- Total of a quantity. -/
noncomputable def total {α : Type} (f : α → ℝ) (l : List α) : ℝ := (l.map f).sum

/-- Scheduled injection (per unit). -/
noncomputable def Bus.scheduled (b : Bus) : ℝ × ℝ :=
  ((total Gen.pg b.on - total Load.pl b.onLoads) / b.sbase,
   (total Gen.qg b.on - total Load.ql b.onLoads) / b.sbase)

/-- Reactive power the generators of the bus have to produce. -/
noncomputable def Bus.neededQ (b : Bus) : ℝ := b.qinj * b.sbase + total Load.ql b.onLoads

theorem genSum_eq (f : Gen → ℝ) (b : Bus) : genSum f b.gstatus b.gens = total f b.on := by
  unfold genSum total Bus.on
  induction b.gstatus.zip b.gens with
  | nil => rfl
  | cons a l ih =>
    by_cases h : a.1 = 1
    · rw [List.filter_cons_of_pos (by simpa using h)]; simp [h, ih]
    · rw [List.filter_cons_of_neg (by simpa using h)]; simp [h, ih]

theorem loadSum_eq (f : Load → ℝ) (b : Bus) : loadSum f b.loads = total f b.onLoads := by
  unfold loadSum total Bus.onLoads
  induction b.loads with
  | nil => rfl
  | cons a l ih =>
    by_cases h : a.status = 1
    · rw [List.filter_cons_of_pos (by simpa using h)]; simp [h, ih]
    · rw [List.filter_cons_of_neg (by simpa using h)]; simp [h, ih]

/-- The code's scheduled power is generation minus load, also without generators. -/
theorem setSBus_eq (b : Bus) : setSBus b = b.scheduled := by
  unfold setSBus Bus.scheduled
  simp only [genSum_eq, loadSum_eq]
  split
  · rfl
  · next h =>
    have hon : b.on = [] := by
      unfold Bus.on
      rw [List.map_eq_nil_iff, List.filter_eq_nil_iff]
      intro e he h1
      apply h
      have hl : 0 < b.gstatus.length := by
        cases hg : b.gstatus with
        | nil => rw [hg] at he; simp at he
        | cons a l => simp
      refine ⟨hl, ?_⟩
      rw [List.any_eq_true]
      exact ⟨e, he, h1⟩
    simp [hon, total]

/-! ### C85 -/

/-- C85, one bus: the check reports a bus exactly if it is voltage-controlled and needs reactive power outside
the summed limits of its generators in service; it does not crash when the exchange buffer is set. -/
theorem C85_bus (b : Bus) (hp : b.pvPtr.isSome) :
    ∃ b', chkQlim b = some (b', decide (b.isPV = true ∧
      (b.neededQ > total Gen.qmax b.on ∨ b.neededQ < total Gen.qmin b.on))) := by
  unfold chkQlim qval Bus.neededQ
  simp only [genSum_eq, loadSum_eq]
  cases hpv : b.isPV
  · simp
  · by_cases h1 : b.qinj * b.sbase + total Load.ql b.onLoads > total Gen.qmax b.on
    · have : b.pvPtr.isNone = false := by
        cases h : b.pvPtr <;> simp [h] at hp ⊢
      simp [h1, this]
    · by_cases h2 : b.qinj * b.sbase + total Load.ql b.onLoads < total Gen.qmin b.on
      · simp [h1, h2]
      · simp [h1, h2]

theorem busOk_eq (rs : List Bool) : busOk rs = true ↔ ∀ r ∈ rs, r = false := by
  unfold busOk
  have : ∀ (l : List Bool) (a : Bool),
      l.foldl (fun ok r => if r then false else ok) a = true ↔ a = true ∧ ∀ r ∈ l, r = false := by
    intro l
    induction l with
    | nil => intro a; simp
    | cons x l ih =>
      intro a
      rw [List.foldl_cons, ih]
      cases x <;> simp
  rw [this]; simp

/-- C85, all processes: the call returns true, on every process, exactly if no bus of any process was
reported. -/
theorem C85_network (n : Nat) (rs : Nat → List Bool) :
    checkQlimViolations n rs = true ↔ ∀ p, p < n → ∀ r ∈ rs p, r = false := by
  unfold checkQlimViolations
  rw [GhostUpdate.C20_checkTrue]
  constructor
  · intro h p hp; exact (busOk_eq _).mp (h p hp)
  · intro h p hp; exact (busOk_eq _).mpr (h p hp)

/-- C85 fails for the version with an area: its answer is true exactly if *every* bus of the area was
reported. -/
theorem C85_area_violated (area : Int) (n : Nat) (rs : Nat → List (Int × Bool)) :
    checkQlimViolationsArea area n rs = true ↔ ∀ p, p < n → ∀ r ∈ rs p, r.1 = area → r.2 = true := by
  have key : ∀ (l : List (Int × Bool)) (a : Bool),
      l.foldl (fun ok r => if r.1 = area then (if !r.2 then false else ok) else ok) a = true ↔
        a = true ∧ ∀ r ∈ l, r.1 = area → r.2 = true := by
    intro l
    induction l with
    | nil => intro a; simp
    | cons x l ih =>
      intro a
      rw [List.foldl_cons, ih]
      by_cases hx : x.1 = area
      · cases h2 : x.2 <;> simp [hx, h2]
      · simp [hx]
  unfold checkQlimViolationsArea
  rw [GhostUpdate.C20_checkTrue]
  constructor
  · intro h p hp; exact ((key _ _).mp (h p hp)).2
  · intro h p hp; exact (key _ _).mpr ⟨rfl, h p hp⟩

/-! ### C47 -/

theorem convert_onLoads (b : Bus) (q : Gen → ℝ) (lim : ℝ) (f : Load → ℝ) (x : ℝ)
    (hf : ∀ l : Load, f ⟨l.status, total Load.pl b.onLoads - total Gen.pg b.on,
      total Load.ql b.onLoads - lim⟩ = x) :
    total f (convert b q lim).onLoads = b.onLoads.length * x := by
  unfold convert Bus.onLoads total
  simp only [genSum_eq, loadSum_eq]
  have : ∀ l : List Load, ((List.filter (fun l => decide (l.status = 1)) (l.map (fun l =>
      if l.status = 1 then (⟨l.status, total Load.pl b.onLoads - total Gen.pg b.on,
        total Load.ql b.onLoads - lim⟩ : Load) else l))).map f).sum =
      (l.filter (fun l => l.status = 1)).length * x := by
    intro l
    induction l with
    | nil => simp
    | cons a l ih =>
      by_cases h : a.status = 1
      · rw [List.map_cons, if_pos h, List.filter_cons_of_pos (by simpa using h),
          List.filter_cons_of_pos (by simpa using h), List.map_cons, List.sum_cons, ih, hf,
          List.length_cons]
        push_cast; ring
      · rw [List.map_cons, if_neg h, List.filter_cons_of_neg (by simpa using h),
          List.filter_cons_of_neg (by simpa using h), ih]
  exact this b.loads

theorem convert_on (b : Bus) (q : Gen → ℝ) (lim : ℝ) : (convert b q lim).on = [] := by
  unfold convert Bus.on
  rw [List.map_eq_nil_iff, List.filter_eq_nil_iff]
  intro e he
  have := (List.of_mem_zip he).1
  simp only [List.mem_map] at this
  obtain ⟨_, _, h⟩ := this
  simp [← h]

/-- C47, exact form, for every bus that the check converts: with `m` loads in service the scheduled injection
becomes `m` times what it should be (the real power as before, the reactive power the violated limit minus the
load), and the bus is no longer voltage-controlled. -/
theorem C47_exact (b b' : Bus) (h : chkQlim b = some (b', true)) :
    ∃ lim, ((b.neededQ > total Gen.qmax b.on ∧ lim = total Gen.qmax b.on) ∨
        (b.neededQ < total Gen.qmin b.on ∧ lim = total Gen.qmin b.on)) ∧
      b'.isPV = false ∧
      setSBus b' = (b.onLoads.length * (setSBus b).1,
        b.onLoads.length * ((lim - total Load.ql b.onLoads) / b.sbase)) := by
  have key : ∀ (q : Gen → ℝ) (lim : ℝ), setSBus (convert b q lim) =
      (b.onLoads.length * (setSBus b).1,
        b.onLoads.length * ((lim - total Load.ql b.onLoads) / b.sbase)) := by
    intro q lim
    rw [setSBus_eq, setSBus_eq]
    unfold Bus.scheduled
    rw [convert_on, convert_onLoads b q lim Load.pl (total Load.pl b.onLoads - total Gen.pg b.on) (fun l => rfl),
      convert_onLoads b q lim Load.ql (total Load.ql b.onLoads - lim) (fun l => rfl)]
    have hs : (convert b q lim).sbase = b.sbase := rfl
    rw [hs]
    simp only [total, List.map_nil, List.sum_nil]
    refine Prod.ext ?_ ?_ <;> simp only <;> ring
  unfold chkQlim qval at h
  simp only [genSum_eq, loadSum_eq] at h
  unfold Bus.neededQ
  cases hpv : b.isPV
  · simp [hpv] at h
  · simp only [hpv, if_true] at h
    by_cases h1 : b.qinj * b.sbase + total Load.ql b.onLoads > total Gen.qmax b.on
    · rw [if_pos h1] at h
      cases hn : b.pvPtr.isNone
      · simp [hn] at h
        refine ⟨_, Or.inl ⟨h1, rfl⟩, ?_, ?_⟩
        · rw [← h]; rfl
        · rw [← h]; exact key _ _
      · simp [hn] at h
    · rw [if_neg h1] at h
      by_cases h2 : b.qinj * b.sbase + total Load.ql b.onLoads < total Gen.qmin b.on
      · rw [if_pos h2] at h
        simp at h
        refine ⟨_, Or.inr ⟨h2, rfl⟩, ?_, ?_⟩
        · rw [← h]; rfl
        · rw [← h]; exact key _ _
      · rw [if_neg h2] at h
        simp at h

/-- C47 for a bus with exactly one load in service: the real injection is kept and the reactive injection is
the violated limit minus the load.  (Missing: other numbers of loads, where the claim is false.) -/
theorem C47_one_load_partial (b b' : Bus) (h : chkQlim b = some (b', true)) (h1 : b.onLoads.length = 1) :
    (setSBus b').1 = (setSBus b).1 ∧
    ((b.neededQ > total Gen.qmax b.on ∧
        (setSBus b').2 = (total Gen.qmax b.on - total Load.ql b.onLoads) / b.sbase) ∨
     (b.neededQ < total Gen.qmin b.on ∧
        (setSBus b').2 = (total Gen.qmin b.on - total Load.ql b.onLoads) / b.sbase)) := by
  obtain ⟨lim, hlim, -, hs⟩ := C47_exact b b' h
  rw [hs, h1]
  simp only [Nat.cast_one, one_mul, true_and]
  rcases hlim with ⟨g, rfl⟩ | ⟨g, rfl⟩
  · exact Or.inl ⟨g, rfl⟩
  · exact Or.inr ⟨g, rfl⟩

/-- C47 fails for every other number of loads: the injection is lost without a load and multiplied with
several. -/
theorem C47_violated (b b' : Bus) (h : chkQlim b = some (b', true)) (h1 : b.onLoads.length ≠ 1)
    (h0 : (setSBus b).1 ≠ 0) : (setSBus b').1 ≠ (setSBus b).1 := by
  obtain ⟨lim, -, -, hs⟩ := C47_exact b b' h
  rw [hs]
  simp only
  intro hc
  apply h1
  have : ((b.onLoads.length : ℝ) - 1) * (setSBus b).1 = 0 := by linarith
  rcases mul_eq_zero.mp this with h2 | h2
  · have : (b.onLoads.length : ℝ) = 1 := by linarith
    exact_mod_cast this
  · exact absurd h2 h0

/-- A crash at the upper limit when no exchange buffer is set. -/
theorem C47_no_buffer_violated (b : Bus) (hp : b.isPV = true) (hb : b.pvPtr = none)
    (h : b.neededQ > total Gen.qmax b.on) : chkQlim b = none := by
  unfold chkQlim qval
  simp only [genSum_eq, loadSum_eq]
  unfold Bus.neededQ at h
  simp [hp, hb, h]

/-! ### C48 -/

/-- C48, the part that holds: for a bus that the check converts and whose save area is empty (first check
after loading), clearing restores generator status, bus type and the exchanged bus type.  (Missing: loads and
generator reactive power, and every other bus, see below.) -/
theorem C48_converted_partial (b b' : Bus) (h : chkQlim b = some (b', true)) (hs : b.gstatusSave = []) :
    ∃ b'', clearQlim b' = some b'' ∧ b''.gstatus = b.gstatus ∧ b''.isPV = b.isPV ∧
      b''.pvPtr = b.pvPtr.map (fun _ => b.isPV) := by
  have key : ∀ q lim, b' = convert b q lim →
      ∃ b'', clearQlim b' = some b'' ∧ b''.gstatus = b.gstatus ∧ b''.isPV = b.isPV ∧
        b''.pvPtr = b.pvPtr.map (fun _ => b.isPV) := by
    intro q lim hb
    subst hb
    refine ⟨_, rfl, ?_, rfl, ?_⟩
    · simp [convert, hs]
    · cases hq : b.pvPtr <;> simp [convert, hq]
  unfold chkQlim at h
  cases hpv : b.isPV
  · simp [hpv] at h
  · simp only [hpv, if_true] at h
    rw [← hpv]
    by_cases h1 : qval b > genSum Gen.qmax b.gstatus b.gens
    · rw [if_pos h1] at h
      cases hn : b.pvPtr.isNone
      · simp [hn] at h
        exact key _ _ h.symm
      · simp [hn] at h
    · rw [if_neg h1] at h
      by_cases h2 : qval b < genSum Gen.qmin b.gstatus b.gens
      · rw [if_pos h2] at h
        simp at h
        exact key _ _ h.symm
      · rw [if_neg h2] at h
        simp at h

/-- C48 fails for loads: every load in service keeps the value the conversion gave it. -/
theorem C48_loads_violated (b b' b'' : Bus) (l : Load) (h : chkQlim b = some (b', true))
    (hc : clearQlim b' = some b'') (hl : b.loads = [l]) (hst : l.status = 1)
    (hg : total Gen.pg b.on ≠ 0) : b''.loads ≠ b.loads := by
  have hll : b''.loads = b'.loads := by
    unfold clearQlim at hc
    cases hs : b'.save2 with
    | none => rw [hs] at hc; cases hc
    | some v => rw [hs] at hc; simp at hc; rw [← hc]
  have key : ∀ q lim, b' = convert b q lim → b''.loads ≠ b.loads := by
    intro q lim hb
    rw [hll, hb, hl]
    unfold convert
    simp only [genSum_eq, hl, List.map_cons, List.map_nil, hst, if_true]
    intro hx
    have := congrArg (fun x => x.map Load.pl) hx
    simp [loadSum, hst] at this
    exact hg this
  unfold chkQlim at h
  cases hpv : b.isPV
  · simp [hpv] at h
  · simp only [hpv, if_true] at h
    by_cases h1 : qval b > genSum Gen.qmax b.gstatus b.gens
    · rw [if_pos h1] at h
      cases hn : b.pvPtr.isNone
      · simp [hn] at h
        exact key _ _ h.symm
      · simp [hn] at h
    · rw [if_neg h1] at h
      by_cases h2 : qval b < genSum Gen.qmin b.gstatus b.gens
      · rw [if_pos h2] at h
        simp at h
        exact key _ _ h.symm
      · rw [if_neg h2] at h
        simp at h

/-- C48 fails for voltage-controlled buses that were *not* converted: clearing empties the list of generator
statuses, so that the bus has no generation any more. -/
theorem C48_not_converted_violated (b b' : Bus) (h : chkQlim b = some (b', false)) (hpv : b.isPV = true)
    (hs : b.gstatusSave = []) :
    ∃ b'', clearQlim b' = some b'' ∧ b''.gstatus = [] ∧ (setSBus b'').1 = -total Load.pl b.onLoads / b.sbase := by
  unfold chkQlim at h
  simp only [hpv, if_true] at h
  by_cases h1 : qval b > genSum Gen.qmax b.gstatus b.gens
  · rw [if_pos h1] at h
    cases hn : b.pvPtr.isNone <;> simp [hn] at h
  · rw [if_neg h1] at h
    by_cases h2 : qval b < genSum Gen.qmin b.gstatus b.gens
    · rw [if_pos h2] at h; simp at h
    · rw [if_neg h2] at h
      simp at h
      subst h
      refine ⟨_, rfl, hs, ?_⟩
      rw [setSBus_eq]
      unfold Bus.scheduled Bus.on Bus.onLoads
      simp [total, hs]

/-- C48 fails for load buses: their save flag was never written, so clearing gives them an indeterminate bus
type. -/
theorem C48_load_bus_violated (b b' : Bus) (r : Bool) (h : chkQlim b = some (b', r)) (hpv : b.isPV = false)
    (hs : b.save2 = none) : clearQlim b' = none := by
  unfold chkQlim at h
  simp [hpv] at h
  obtain ⟨rfl, -⟩ := h
  unfold clearQlim
  simp [hs]

/-- C48 fails the second time: the save area is not emptied, so after the second conversion and clearing there
are twice as many statuses as generators. -/
theorem C48_second_time_violated (b b1 b2 b3 b4 : Bus) (h1 : chkQlim b = some (b1, true))
    (c1 : clearQlim b1 = some b2) (b2' : Bus) (hb : b2'.gstatus = b2.gstatus ∧ b2'.gstatusSave = b2.gstatusSave)
    (h2 : chkQlim b2' = some (b3, true)) (c2 : clearQlim b3 = some b4) (hs : b.gstatusSave = []) :
    b4.gstatus = b.gstatus ++ b.gstatus := by
  have conv : ∀ (x y : Bus), chkQlim x = some (y, true) → y.gstatusSave = x.gstatusSave ++ x.gstatus := by
    intro x y h
    unfold chkQlim at h
    cases hpv : x.isPV
    · simp [hpv] at h
    · simp only [hpv, if_true] at h
      by_cases g1 : qval x > genSum Gen.qmax x.gstatus x.gens
      · rw [if_pos g1] at h
        cases hn : x.pvPtr.isNone
        · simp [hn] at h
          rw [← h]; rfl
        · simp [hn] at h
      · rw [if_neg g1] at h
        by_cases g2 : qval x < genSum Gen.qmin x.gstatus x.gens
        · rw [if_pos g2] at h
          simp at h
          rw [← h]; rfl
        · rw [if_neg g2] at h
          simp at h
  have clr : ∀ (x y : Bus), clearQlim x = some y → y.gstatus = x.gstatusSave ∧ y.gstatusSave = x.gstatusSave := by
    intro x y h
    unfold clearQlim at h
    cases hs : x.save2 with
    | none => rw [hs] at h; cases h
    | some v => rw [hs] at h; simp at h; rw [← h]; exact ⟨rfl, rfl⟩
  obtain ⟨e1, e2⟩ := clr _ _ c1
  obtain ⟨e3, -⟩ := clr _ _ c2
  rw [e3, conv _ _ h2, hb.1, hb.2, e1, e2, conv _ _ h1, hs, List.nil_append]

/-! ### Examples -/

/-- One generator with limits ±10, one load; 50 MVar are needed. -/
noncomputable def sampleBus : Bus where
  isPV := true
  save2 := none
  pvPtr := some true
  gstatus := [1]
  gstatusSave := []
  gens := [⟨40, 0, 10, -10⟩]
  loads := [⟨1, 20, 5⟩]
  pinj := 0.2
  qinj := 0.45
  sbase := 100
  area := 1

/-- The bus is converted (hypothesis of the conversion theorems). -/
theorem sample_converted : chkQlim sampleBus = some (convert sampleBus Gen.qmax 10, true) := by
  have h1 : genSum Gen.qmax sampleBus.gstatus sampleBus.gens = 10 := by simp [genSum, sampleBus]
  have h2 : qval sampleBus = 50 := by
    unfold qval sampleBus loadSum; norm_num
  unfold chkQlim
  rw [h1, h2]
  simp [sampleBus]
  norm_num

example : sampleBus.onLoads.length = 1 ∧ (setSBus sampleBus).1 = 0.2 := by
  constructor
  · simp [Bus.onLoads, sampleBus]
  · rw [setSBus_eq]
    simp only [Bus.scheduled, Bus.on, Bus.onLoads, total, sampleBus]
    norm_num

example : (setSBus (convert sampleBus Gen.qmax 10)).1 = (setSBus sampleBus).1 :=
  (C47_one_load_partial _ _ sample_converted (by simp [Bus.onLoads, sampleBus])).1

end GridPACK.QLimit
