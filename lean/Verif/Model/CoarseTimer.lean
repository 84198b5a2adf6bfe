import Mathlib.Analysis.Real.Sqrt

/-! Model of `CoarseTimer` (src/timer/coarse_timer.cpp).  Times are real numbers supplied by the clock. -/
namespace GridPACK.CoarseTimer

abbrev Title := List Char

/-- Data members: the vectors of all categories and the map from titles to handles. -/
structure Timer where
  titleMap : List (Title × Nat)
  title : List Title
  start : List Real
  time : List Real
  istart : List Int
  istop : List Int
  profile : Bool

/-- Constructor (254-263). -/
def empty : Timer := ⟨[], [], [], [], [], [], true⟩

/-- `createCategory` (35-51). -/
def createCategory (t : Timer) (title : Title) : Timer × Nat :=
  match t.titleMap.lookup title with
  | some i => (t, i)
  | none =>
    ({ t with titleMap := (title, t.title.length) :: t.titleMap, title := t.title ++ [title],
              start := t.start ++ [0], time := t.time ++ [0], istart := t.istart ++ [0],
              istop := t.istop ++ [0] }, t.title.length)

/-- `start` (57-62) at clock time `now`. -/
def startTimer (t : Timer) (idx : Nat) (now : Real) : Timer :=
  if t.profile then { t with start := t.start.set idx now, istart := t.istart.modify idx (· + 1) } else t

/-- `stop` (68-73) at clock time `now`. -/
noncomputable def stopTimer (t : Timer) (idx : Nat) (now : Real) : Timer :=
  if t.profile then
    { t with time := t.time.modify idx (fun x => x + (now - t.start.getD idx 0)),
             istop := t.istop.modify idx (· + 1) }
  else t

/-- `configTimer` (236-239). -/
def configTimer (t : Timer) (flag : Bool) : Timer := { t with profile := flag }

/-! ### Collective calls of `dump` (78-159) -/

inductive Coll
  | reduceSizeMin
  | reduceSizeMax
  | reduceCheck
  | reduceCount
  | reduceTime
deriving DecidableEq

/-- The calls made by the process of rank `me`, when the numbers of categories are `sizes`: process 0
returns early when the numbers differ (99-105), all others go on. -/
def dumpCalls (sizes : List Nat) (me : Nat) : List Coll :=
  [.reduceSizeMin, .reduceSizeMax] ++
  (if (∃ a ∈ sizes, ∃ b ∈ sizes, a ≠ b) ∧ me = 0 then []
   else (List.replicate (sizes.getD me 0) [Coll.reduceCheck, .reduceCount, .reduceTime]).flatten)

/-! ### Statistics of one category (120-141) -/

structure Stats where
  ok : Bool
  avg : Real
  max : Real
  min : Real
  rms : Real

open Classical in
/-- Loop over the processes (125-131); entries are (difference of stops and starts, time). -/
noncomputable def statStep (s : Bool × Real × Real × Real × Real) (e : Int × Real) :
    Bool × Real × Real × Real × Real :=
  (s.1 && decide (e.1 = 0), if s.2.1 < e.2 then e.2 else s.2.1, if s.2.2.1 > e.2 then e.2 else s.2.2.1,
   s.2.2.2.1 + e.2, s.2.2.2.2 + e.2 * e.2)

open Classical in
noncomputable def stats (e0 : Int × Real) (es : List (Int × Real)) : Stats :=
  let r := (e0 :: es).foldl statStep (true, e0.2, e0.2, 0, 0)
  let n : Nat := es.length + 1
  let avg := r.2.2.2.1 / n
  let rms := r.2.2.2.2 - n * avg * avg
  let rms := if n > 1 then (if rms / ((n - 1 : Nat) : Real) > 0 then Real.sqrt (rms / ((n - 1 : Nat) : Real))
    else rms / ((n - 1 : Nat) : Real)) else -1
  ⟨r.1, avg, r.2.1, r.2.2.1, rms⟩

end GridPACK.CoarseTimer
