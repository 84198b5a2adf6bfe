/-! Model of `GlobalStore` (src/parallel/global_store.hpp).

All processes call `upload` together.  A Global Array is a function from positions to values; writes of different
processes take effect in any order (parameter `ws`).  `NGA_Put` and `NGA_Get` need a range with at least one
element; any other range is the outcome `badRegion`.  Indices are unbounded integers. -/
namespace GridPACK.GlobalStore

variable {V : Type}

/-- A vector added on a process: index and data (`addVector`, 74-78). -/
abbrev Added (V : Type) := Int × List V

/-- What is kept after `upload`: `p_numVecs`, `p_begin`, `p_end` and the global array; `ga = none` if it was
never created. -/
structure Store (V : Type) where
  numVecs : Int
  bgn : Nat → Nat
  fin : Nat → Nat
  ga : Option (Nat → V)

/-- Largest index, at least 0, over all processes (89-102). -/
def maxIdx (n : Nat) (adds : Nat → List (Added V)) : Int :=
  ((List.range n).flatMap adds).foldl (fun m x => if x.1 > m then x.1 else m) 0

/-- Element-wise sum over all processes (`p_comm.sum`). -/
def sumOver (n : Nat) (f : Nat → Nat → Nat) (i : Nat) : Nat := ((List.range n).map (fun p => f p i)).sum

/-- How often each index is used on a process (115-118). -/
def localCount (l : List (Added V)) : Nat → Nat :=
  l.foldl (fun c x => fun i => if i = x.1.toNat then c i + 1 else c i) (fun _ => 0)

/-- Sizes entered by a process (132-134). -/
def localSize (l : List (Added V)) : Nat → Nat :=
  l.foldl (fun c x => fun i => if i = x.1.toNat then x.2.length else c i) (fun _ => 0)

/-- Size of each vector (132-135). -/
def size (n : Nat) (adds : Nat → List (Added V)) : Nat → Nat := sumOver n (fun p => localSize (adds p))

/-- `p_begin` (136-139). -/
def start (s : Nat → Nat) : Nat → Nat
  | 0 => 0
  | i + 1 => start s i + s i

/-- The elements that `NGA_Put` writes for one vector (161-167). -/
def puts (s : Nat → Nat) (x : Added V) : List (Nat × V) :=
  x.2.zipIdx.map (fun e => (start s x.1.toNat + e.2, e.1))

/-- All elements written by all processes. -/
def allPuts (n : Nat) (adds : Nat → List (Added V)) : List (Nat × V) :=
  ((List.range n).flatMap adds).flatMap (puts (size n adds))

/-- One element written to a global array. -/
def put (g : Nat → V) (w : Nat × V) : Nat → V := fun i => if i = w.1 then w.2 else g i

inductive Uploaded (V : Type)
  /-- some process throws on a negative index before the others are reached (92-98) -/
  | negative
  /-- every process throws because an index is used twice (119-127) -/
  | duplicate
  /-- empty range passed to `NGA_Put` -/
  | badRegion
  | ok (s : Store V)

open Classical in
/-- `upload` (84-172).  `garbage` is the content of a new global array. -/
noncomputable def upload (n : Nat) (adds : Nat → List (Added V)) (garbage : Nat → V) (ws : List (Nat × V)) :
    Uploaded V :=
  if ∃ p, p < n ∧ ∃ x ∈ adds p, x.1 < 0 then .negative
  else
    let nsize := (maxIdx n adds + 1).toNat
    if ∃ i, i < nsize ∧ sumOver n (fun p => localCount (adds p)) i > 1 then .duplicate
    else
      let s := size n adds
      let ndata := ((List.range nsize).map s).sum
      if ndata < 1 then .ok ⟨nsize, start s, fun i => start s i + s i, none⟩
      else if ∃ p, p < n ∧ ∃ x ∈ adds p, x.2 = [] then .badRegion
      else .ok ⟨nsize, start s, fun i => start s i + s i, some (ws.foldl put garbage)⟩

/-- Two rounds of adding and uploading: the pending vectors are dropped after the first (168-169), and the second
replaces `p_numVecs`, `p_begin`, `p_end` and the global array. -/
noncomputable def uploadTwice (n : Nat) (adds1 adds2 : Nat → List (Added V)) (garbage : Nat → V)
    (ws1 ws2 : List (Nat × V)) : Uploaded V :=
  match upload n adds1 garbage ws1 with
  | .ok _ => upload n adds2 garbage ws2
  | r => r

inductive Got (V : Type)
  | throws
  /-- empty range passed to `NGA_Get`, or no global array -/
  | badRegion
  | vec (l : List V)

/-- `getVector` (179-201). -/
def getVector (s : Store V) (idx : Int) : Got V :=
  if idx < 0 ∨ idx ≥ s.numVecs then .throws
  else
    match s.ga with
    | none => .badRegion
    | some g =>
      let lo := s.bgn idx.toNat
      let hi := s.fin idx.toNat
      if hi ≤ lo then .badRegion else .vec ((List.range' lo (hi - lo)).map g)

end GridPACK.GlobalStore
