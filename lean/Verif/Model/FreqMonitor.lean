import Mathlib.Data.Real.Basic

/-! Model of the monitoring of generator frequencies in a dynamic simulation.

* src/applications/modules/dynamic_simulation_full_y/dsf_components.cpp 933-940 (`DSFullBus::load`), 2649-2718 (the two
  functions `checkFrequency` of a bus)
* src/applications/modules/dynamic_simulation_full_y/dsf_app_module.cpp 1494-1556 (`checkFrequency`,
  `setFrequencyMonitoring`, `frequencyOK`), 1259-1263 (use in `solve`)

Times and frequencies are real; every generator of a bus has a model (see C153 for the others). -/
namespace GridPACK.FreqMonitor

/-- Entry `i` of `p_upStartedMonitoring`, `p_upIntervalStart`, `p_downStartedMonitoring`, `p_downIntervalStart`,
`p_previousFrequency`. -/
structure Mon where
  up : Bool
  upStart : ℝ
  down : Bool
  downStart : ℝ
  prev : ℝ

/-- The entry that `load` appends (935-940). -/
def Mon.new : Mon := ⟨false, 0, false, 0, 0⟩

open Classical in
/-- The check for upward drift (2663-2677): the new flag and start, and whether a violation is found. -/
noncomputable def Mon.upCheck (m : Mon) (time freq : ℝ) : Bool × ℝ × Bool :=
  if m.up = false then
    if freq > 61 then (true, time, false) else (false, m.upStart, false)
  else if freq - m.prev > 0 ∧ freq > 61 then (true, m.upStart, decide (time - m.upStart ≥ 1 / 2))
  else (false, m.upStart, false)

open Classical in
/-- The check for downward drift (2678-2691). -/
noncomputable def Mon.downCheck (m : Mon) (time freq : ℝ) : Bool × ℝ × Bool :=
  if m.down = false then
    if freq < 59 then (true, time, false) else (false, m.downStart, false)
  else if freq - m.prev < 0 ∧ freq < 59 then (true, m.downStart, decide (time - m.downStart ≥ 1 / 2))
  else (false, m.downStart, false)

/-- The checks for one generator (2659-2692): the new entry and whether the generator is all right. -/
noncomputable def Mon.step (m : Mon) (time freq : ℝ) : Mon × Bool :=
  let u := m.upCheck time freq
  let d := m.downCheck time freq
  (⟨u.1, u.2.1, d.1, d.2.1, freq⟩, !u.2.2 && !d.2.2)

/-- The entry after the samples 0 … `n`-1. -/
noncomputable def Mon.after (m : Mon) (t f : ℕ → ℝ) : ℕ → Mon
  | 0 => m
  | n + 1 => ((m.after t f n).step (t n) (f n)).1

/-- The verdict at sample `n`. -/
noncomputable def Mon.ok (m : Mon) (t f : ℕ → ℝ) (n : ℕ) : Bool := ((m.after t f n).step (t n) (f n)).2

/-! ### Buses -/

/-- A generator: whether it is watched and its speed, and the entries of the bus.  `checkFrequency(start,time)` of a bus
(2649-2697): generator `i` uses entry `i`. -/
noncomputable def busCheck (start time : ℝ) (gens : List (Bool × ℝ)) (mons : List Mon) : List Mon × Bool :=
  open Classical in
  if time ≥ start then
    (mons.mapIdx (fun i m => match gens[i]? with
      | some (true, w) => (m.step time (60 * w)).1
      | _ => m),
     (gens.mapIdx (fun i g => !g.1 || ((mons.getD i Mon.new).step time (60 * g.2)).2)).all (fun b => b))
  else (mons, true)

/-- The entries after `load` has been called again for a bus with `n` generators (933-940): none of the vectors is cleared. -/
def reload (n : ℕ) (mons : List Mon) : List Mon := mons ++ List.replicate n Mon.new

/-- `checkFrequency(start,time)` of the module (1494-1511) on all processes: `checkTrue` is the conjunction over the processes
(C39); copies of buses are not looked at.  The members of a process: whether it owns the bus, its number, its generators and
entries.  The result of the call and the numbers in `p_violations` of every process. -/
noncomputable def netCheck (start time : ℝ) (procs : List (List (Bool × ℤ × List (Bool × ℝ) × List Mon))) :
    Bool × List (List ℤ) :=
  let bad (b : Bool × ℤ × List (Bool × ℝ) × List Mon) : Bool := b.1 && !(busCheck start time b.2.2.1 b.2.2.2).2
  (procs.all (fun bs => bs.all (fun b => !bad b)), procs.map (fun bs => (bs.filter bad).map (fun b => b.2.1)))

/-- `checkFrequency(limit)` of a bus (2704-2718); not called by the simulation. -/
noncomputable def limitCheck (limit : ℝ) (gens : List (Bool × ℝ)) : Bool :=
  open Classical in gens.all (fun g => !g.1 || !decide (60 * g.2 > limit))

/-- `p_frequencyOK` after the samples 0 … `n`-1 of one generator (630, 1259-1263); `limit` is the maximum given to
`setFrequencyMonitoring` (1519-1524), which nothing reads. -/
noncomputable def frequencyOK (_limit : ℝ) (m : Mon) (t f : ℕ → ℝ) : ℕ → Bool
  | 0 => true
  | n + 1 => frequencyOK _limit m t f n && m.ok t f n

end GridPACK.FreqMonitor
