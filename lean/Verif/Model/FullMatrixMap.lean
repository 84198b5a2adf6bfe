/-! Model of `FullMatrixMap` (src/mapper/full_map.hpp).

A component's answer to `matrixDiagSize`/`matrixForwardSize`/`matrixReverseSize` together with the
corresponding `...Values` call is a `Block`: `none` = the size call returns false; `vals = none` = the
values call returns false; otherwise `vals icnt` is `values[icnt]`.

Simplifications: a component answers the same whenever asked and fills the whole block; sizes are
natural numbers; timers, the preallocation counts (`p_maxcol`, `p_nz_per_row`, 555-624) and the
`DBG_CHECK` code are left out; real and complex versions are one definition.  Writes of different
processes to a global array or to the matrix may take effect in any order. -/
namespace GridPACK.FullMatrixMap

structure Block (V : Type) where
  rows : Nat
  cols : Nat
  vals : Option (Nat → V)

structure Bus (V : Type) where
  active : Bool
  index : Nat
  diag : Option (Block V)

structure Branch (V : Type) where
  idx : Nat
  jdx : Nat
  fwd : Option (Block V)
  rev : Option (Block V)

structure Proc (V : Type) where
  buses : List (Bus V)
  branches : List (Branch V)

variable {V : Type}

/-- `getActiveBuses` (415-424). -/
def activeCount (p : Proc V) : Nat := p.buses.countP (·.active)

/-- `p_totalBuses` (434-438). -/
def total (ps : List (Proc V)) : Nat := (ps.map activeCount).sum

/-- One scattered element: only positive sizes are scattered (571-580, 648-657, 678-687). -/
def sized (index size : Nat) : List (Nat × Nat) := if size > 0 then [(index, size)] else []

/-- Row sizes scattered by one process: `loadBusArrays` (544-620), `loadForwardBranchArrays`
(633-661), `loadReverseBranchArrays` (663-691).  Ghost buses scatter too. -/
def scatterI (p : Proc V) : List (Nat × Nat) :=
  p.buses.flatMap (fun b => match b.diag with | some k => sized b.index k.rows | none => []) ++
  p.branches.flatMap (fun b => match b.fwd with | some k => sized b.idx k.rows | none => []) ++
  p.branches.flatMap (fun b => match b.rev with | some k => sized b.jdx k.rows | none => [])

/-- Column sizes scattered by one process. -/
def scatterJ (p : Proc V) : List (Nat × Nat) :=
  p.buses.flatMap (fun b => match b.diag with | some k => sized b.index k.cols | none => []) ++
  p.branches.flatMap (fun b => match b.fwd with | some k => sized b.jdx k.cols | none => []) ++
  p.branches.flatMap (fun b => match b.rev with | some k => sized b.idx k.cols | none => [])

/-- One element written to a global array. -/
def put (g : Nat → Nat) (w : Nat × Nat) : Nat → Nat := fun i => if i = w.1 then w.2 else g i

/-- A zeroed global array after writes taking effect in the order `ws`. -/
def global (ws : List (Nat × Nat)) : Nat → Nat := ws.foldl put (fun _ => 0)

/-- Loop step for `p_minRowIndex` (749-757). -/
def minStep (m : Nat) (b : Bus V) : Nat := if b.active then (if b.index < m then b.index else m) else m

/-- Loop step for `p_maxRowIndex`. -/
def maxStep (m : Nat) (b : Bus V) : Nat := if b.active then (if b.index > m then b.index else m) else m

def minRow (tot : Nat) (p : Proc V) : Nat := p.buses.foldl minStep tot
def maxRow (p : Proc V) : Nat := p.buses.foldl maxStep 0

/-- `nRows` (760), the length of the arrays allocated at 761-762 and 855-856; the allocation is
invalid if it is negative, and lines 857-858 write past the end if it is 0. -/
def nRows (tot : Nat) (p : Proc V) : Int := (maxRow p : Int) - minRow tot p + 1

/-- `iSizes` (764): the sizes of the rows `min..max`. -/
def localSizes (g : Nat → Nat) (tot : Nat) (p : Proc V) : List Nat :=
  (List.range' (minRow tot p) (nRows tot p).toNat).map g

/-- `p_rowBlockSize` (769-783). -/
def blockSize (g : Nat → Nat) (tot : Nat) (p : Proc V) : Nat := (localSizes g tot p).sum

/-- `offsetArrayISize` (789-807). -/
def procOffset (g : Nat → Nat) (tot : Nat) (ps : List (Proc V)) (me : Nat) : Nat :=
  ((ps.map (blockSize g tot)).take me).sum

/-- `iOffsets` (857-862). -/
def offsetLoop : Nat → List Nat → List Nat
  | _, [] => []
  | o, n :: l => o :: offsetLoop (o + n) l

/-- The offsets put into the global offset array by one process (865-868). -/
def puts (g : Nat → Nat) (tot : Nat) (ps : List (Proc V)) (me : Nat) (p : Proc V) :
    List (Nat × Nat) :=
  (List.range' (minRow tot p) (nRows tot p).toNat).zip
    (offsetLoop (procOffset g tot ps me) (localSizes g tot p))

def allPuts (g : Nat → Nat) (tot : Nat) (ps : List (Proc V)) : List (Nat × Nat) :=
  ps.zipIdx.flatMap (fun e => puts g tot ps e.2 e.1)

/-- Blocks loaded by one process with their row and column index: `loadBusData` (931-969) over
active buses, `loadBranchData` (1114-1184): forward blocks whose row index lies between
`p_minRowIndex` and `p_maxRowIndex`, reverse blocks whose row index `jdx` does. -/
def contributions (tot : Nat) (p : Proc V) : List (Nat × Nat × Block V) :=
  p.buses.flatMap (fun b => if b.active then
      (match b.diag with | some k => [(b.index, b.index, k)] | none => []) else []) ++
  p.branches.flatMap (fun b =>
    (match b.fwd with
      | some k => if minRow tot p ≤ b.idx ∧ b.idx ≤ maxRow p then [(b.idx, b.jdx, k)] else []
      | none => []) ++
    (match b.rev with
      | some k => if minRow tot p ≤ b.jdx ∧ b.jdx ≤ maxRow p then [(b.jdx, b.idx, k)] else []
      | none => []))

/-- Positions visited by the double loop (948-961), outer loop over columns. -/
def positions (io jo : Nat) (k : Block V) : List (Nat × Nat) :=
  (List.range k.cols).flatMap (fun c => (List.range k.rows).map (fun r => (io + r, jo + c)))

/-- Elements set or added for one block: `icnt` counts the positions. -/
def blockWrites (offI offJ : Nat → Nat) (c : Nat × Nat × Block V) : List ((Nat × Nat) × V) :=
  match c.2.2.vals with
  | none => []
  | some f => (positions (offI c.1) (offJ c.2.1) c.2.2).zipIdx.map (fun e => (e.1, f e.2))

/-- All elements set or added by all processes. -/
def allWrites (tot : Nat) (offI offJ : Nat → Nat) (ps : List (Proc V)) : List ((Nat × Nat) × V) :=
  ps.flatMap (fun p => (contributions tot p).flatMap (blockWrites offI offJ))

/-- `Matrix::setElement`. -/
def setElement (m : Nat × Nat → V) (w : (Nat × Nat) × V) : Nat × Nat → V :=
  fun rc => if rc = w.1 then w.2 else m rc

/-- `Matrix::addElement`. -/
def addElement [Add V] (m : Nat × Nat → V) (w : (Nat × Nat) × V) : Nat × Nat → V :=
  fun rc => if rc = w.1 then m rc + w.2 else m rc

/-- `mapToMatrix` (102-138, 233-252): zero matrix, elements set in the order `ws`;
`overwriteMatrix` (304-311) starts from an existing matrix. -/
def setAll (m : Nat × Nat → V) (ws : List ((Nat × Nat) × V)) : Nat × Nat → V :=
  ws.foldl setElement m

/-- `incrementMatrix` (328-335). -/
def addAll [Add V] (m : Nat × Nat → V) (ws : List ((Nat × Nat) × V)) : Nat × Nat → V :=
  ws.foldl addElement m

/-- `p_maxIBlock` (771-775, 784-787) after the maximum over processes: largest row size. -/
def maxBlock (g : Nat → Nat) (tot : Nat) (ps : List (Proc V)) : Nat :=
  (ps.map (fun p => (localSizes g tot p).foldl max 0)).foldl max 0

end GridPACK.FullMatrixMap
