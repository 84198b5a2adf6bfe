/-! Model of the index assignment of the generalised mappers: `GenMatrixMap`
(src/mapper/gen_matrix_map.hpp), `GenVectorMap` (src/mapper/gen_vector_map.hpp) and `GenSlabMap`
(src/mapper/gen_slab_map.hpp), and of the branch part of `GenMatrixMap::loadBranchData`.

The three mappers (and rows and columns of the matrix mapper) run the same code with different size
functions (`matrixNumRows`, `matrixNumCols`, `vectorNumElements`, `slabSize`), so there is one model
with a size per component.  Simplifications: sizes are natural numbers and the same whenever asked;
the two work arrays of offsets are one function on components; allocation failures and timers are
left out.  Scatter writes of different processes may take effect in any order. -/
namespace GridPACK.GenMap

/-- `nbrs` = `getConnectedBranches`. -/
structure Bus where
  active : Bool
  gid : Nat
  size : Nat
  nbrs : List Nat
deriving DecidableEq, Repr

/-- `b1`, `b2` = `getBranchEndpoints`. -/
structure Branch where
  active : Bool
  gid : Nat
  size : Nat
  b1 : Nat
  b2 : Nat
deriving DecidableEq, Repr

structure Proc where
  buses : List Bus
  branches : List Branch
deriving DecidableEq, Repr

/-- A local component: bus or branch with its local index. -/
inductive Comp
  | bus (i : Nat)
  | branch (j : Nat)
deriving DecidableEq, Repr

def activeBus (p : Proc) (i : Nat) : Bool := ((p.buses[i]?).map (·.active)).getD false
def activeBranch (p : Proc) (j : Nat) : Bool := ((p.branches[j]?).map (·.active)).getD false
def nbrs (p : Proc) (i : Nat) : List Nat := ((p.buses[i]?).map (·.nbrs)).getD []
def from_ (p : Proc) (j : Nat) : Nat := ((p.branches[j]?).map (·.b1)).getD 0
def to_ (p : Proc) (j : Nat) : Nat := ((p.branches[j]?).map (·.b2)).getD 0
def size (p : Proc) : Comp → Nat
  | .bus i => ((p.buses[i]?).map (·.size)).getD 0
  | .branch j => ((p.branches[j]?).map (·.size)).getD 0

/-- `isLocalBranch` (gen_matrix_map.hpp:195-203). -/
def isLocalBranch (p : Proc) (j : Nat) : Bool := activeBus p (from_ p j) && activeBus p (to_ p j)

/-- Number of rows of the process in `getDimensions` (209-236). -/
def dimension (p : Proc) : Nat :=
  (p.buses.map (fun b => if b.active then b.size else 0)).sum +
  (p.branches.map (fun b => if b.active then b.size else 0)).sum

/-- `p_iDim` (244-255). -/
def totalDim (ps : List Proc) : Nat := (ps.map dimension).sum

/-- `p_row_Offsets[me]` (246-254). -/
def procOffset (ps : List Proc) (me : Nat) : Nat := ((ps.map dimension).take me).sum

/-- Counter `icnt` and the offset arrays. -/
structure St where
  icnt : Nat
  off : Comp → Nat

/-- Record an offset and advance the counter. -/
def assign (p : Proc) (st : St) (c : Comp) : St :=
  { icnt := st.icnt + size p c, off := fun x => if x = c then st.icnt else st.off x }

/-- Body of the inner loop of `setOffsets` (291-312). -/
def branchStep (p : Proc) (i : Nat) (st : St) (j : Nat) : St :=
  if isLocalBranch p j then
    if from_ p j = i then assign p st (.branch j) else st
  else
    if activeBranch p j then assign p st (.branch j) else st

/-- Body of the outer loop of `setOffsets` (282-314). -/
def busStep (p : Proc) (st : St) (i : Nat) : St :=
  if activeBus p i then (nbrs p i).foldl (branchStep p i) (assign p st (.bus i)) else st

/-- The loop of `setOffsets` (261-314). -/
def setOffsets (p : Proc) : St :=
  (List.range p.buses.length).foldl (busStep p) { icnt := 0, off := fun _ => 0 }

/-- Owned components. -/
def owned (p : Proc) : List Comp :=
  ((List.range p.buses.length).filter (activeBus p)).map Comp.bus ++
  ((List.range p.branches.length).filter (activeBranch p)).map Comp.branch

/-- Global key of a component: kind and global index. -/
def key (p : Proc) : Comp → Comp
  | .bus i => .bus (((p.buses[i]?).map (·.gid)).getD 0)
  | .branch j => .branch (((p.branches[j]?).map (·.gid)).getD 0)

/-- Offsets scattered by process `me` (317-360, 451-454). -/
def scatter (ps : List Proc) (me : Nat) (p : Proc) : List (Comp × Nat) :=
  (owned p).map (fun c => (key p c, (setOffsets p).off c + procOffset ps me))

def allScatter (ps : List Proc) : List (Comp × Nat) :=
  ps.zipIdx.flatMap (fun e => scatter ps e.2 e.1)

/-- One element written to a global array. -/
def put (g : Comp → Nat) (w : Comp × Nat) : Comp → Nat := fun i => if i = w.1 then w.2 else g i

/-- The zeroed global arrays after the writes. -/
def global (ws : List (Comp × Nat)) : Comp → Nat := ws.foldl put (fun _ => 0)

/-- Indices handed to a component, owned or ghost, by `setIndices` (477-545). -/
def indices (g : Comp → Nat) (p : Proc) (c : Comp) : List Nat :=
  (List.range (size p c)).map (fun j => g (key p c) + j)

/-! ### Loading branch values -/

/-- The copy of a branch on one process: ownership flag, the row range `p_minRowIndex..p_maxRowIndex`
of the process (565-570), and the branch's own column count and row indices as read at 684-687. -/
structure BranchCopy where
  active : Bool
  minRow : Int
  maxRow : Int
deriving DecidableEq, Repr

/-- Condition of `loadBranchData` (691-702) for entering an element in row `r`, column `c`; `ncols`
= `matrixNumCols`, `rmin`/`rmax` = `matrixGetRowIndex(0)`, `matrixGetRowIndex(ncols-1)`. -/
def enters (b : BranchCopy) (ncols : Nat) (rmin rmax r c : Int) : Bool :=
  if r ≥ b.minRow ∧ r ≤ b.maxRow then
    if ncols > 0 then
      if c ≥ rmin ∧ c ≤ rmax then b.active else true
    else true
  else false

end GridPACK.GenMap
