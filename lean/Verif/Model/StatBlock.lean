import Mathlib.Analysis.Real.Sqrt

/-! Model of `StatBlock` (src/analysis/stat_block.cpp): `writeMeanAndRMS` 275-452, `writeMinAndMax`
460-657, `writeMaskValueCount` 666-776, `sumColumnValues` 785-878, and the division of the table into
blocks.

Doubles are modelled as real numbers (no rounding); formatting of the output is left out. -/
namespace GridPACK.StatBlock

/-- One table entry: value and mask. -/
abbrev Entry := Real × Int

/-! ### Blocks -/

/-- `nblock` (286-289): division and the loop that rounds up. -/
def nblockLoop (n B : Nat) : Nat → Nat → Nat
  | 0, nb => nb
  | fuel + 1, nb => if n > nb * B then nblockLoop n B fuel (nb + 1) else nb

def nblock (n B : Nat) : Nat := nblockLoop n B (n + 1) (n / B)

/-- Rows of task `itask` (317-322): `ilo .. ihi` with `ihi` cut at `n-1`. -/
def blockRows (n B itask : Nat) : List Nat :=
  let ilo := itask * B
  let ihi : Int := (itask + 1) * B - 1
  let ihi := if ihi ≥ (n : Int) then (n : Int) - 1 else ihi
  if (ilo : Int) ≤ ihi then List.range' ilo (ihi - ilo + 1).toNat else []

/-! ### Rows -/

/-- State of the scan of `writeMinAndMax` (522-540). -/
structure MinMax where
  min : Real
  jmin : Nat
  max : Real
  jmax : Nat

open Classical in
/-- Body of the loop over the columns (530-539). -/
noncomputable def minMaxStep (mval : Int) (st : MinMax) (e : Entry × Nat) : MinMax :=
  if e.1.2 ≥ mval then
    { min := if e.1.1 < st.min then e.1.1 else st.min,
      jmin := if e.1.1 < st.min then e.2 else st.jmin,
      max := if e.1.1 > st.max then e.1.1 else st.max,
      jmax := if e.1.1 > st.max then e.2 else st.jmax }
  else st

/-- Result for a row whose first entry is `e0`. -/
noncomputable def rowMinMax (mval : Int) (e0 : Entry) (es : List Entry) : MinMax :=
  (e0 :: es).zipIdx.foldl (minMaxStep mval) ⟨e0.1, 0, e0.1, 0⟩

/-- Accumulators of `writeMeanAndRMS` (335-352). -/
structure Sums where
  ncnt : Nat
  avg : Real
  avg2 : Real
  diff2 : Real

noncomputable def sumStep (mval : Int) (base : Real) (s : Sums) (e : Entry × Nat) : Sums :=
  if e.1.2 ≥ mval then
    { ncnt := s.ncnt + 1, avg := s.avg + e.1.1, avg2 := s.avg2 + e.1.1 * e.1.1,
      diff2 := if e.2 > 0 then s.diff2 + (e.1.1 - base) * (e.1.1 - base) else s.diff2 }
  else s

open Classical in
/-- Final arithmetic (353-376): average, deviation from the average, deviation from the base case. -/
noncomputable def finish (s : Sums) : Real × Real × Real :=
  let avg := if s.ncnt > 0 then s.avg / s.ncnt else 0
  let avg2 := if s.ncnt > 0 then s.avg2 else 0
  let diff2 := if s.ncnt > 0 then s.diff2 else 0
  let avg2 := if s.ncnt > 1 then (avg2 - s.ncnt * avg * avg) / ((s.ncnt - 1 : Nat) : Real) else 0
  let diff2 := if s.ncnt > 1 then diff2 / ((s.ncnt - 1 : Nat) : Real) else 0
  (avg, if avg2 > 0 then Real.sqrt avg2 else 0, if diff2 > 0 then Real.sqrt diff2 else 0)

noncomputable def rowStats (mval : Int) (e0 : Entry) (es : List Entry) : Real × Real × Real :=
  finish ((e0 :: es).zipIdx.foldl (sumStep mval e0.1) ⟨0, 0, 0, 0⟩)

/-- Row count of `writeMaskValueCount` (717-724): entries whose mask equals `mval`. -/
def maskCount (mval : Int) (es : List Entry) : Nat :=
  es.foldl (fun n e => if e.2 = mval then n + 1 else n) 0

/-- Column sum and "average" of `sumColumnValues` (838-846, 870-871). -/
noncomputable def columnSum (mval : Int) (col : List Entry) : Real × Real :=
  let s := col.foldl (fun s e => if e.2 ≥ mval then s + e.1 else s) 0
  (s, if col.length > 0 then s / col.length else 0)

end GridPACK.StatBlock
