import Verif.Model.GenMap

/-! Model of the transfer of values by `GenVectorMap` (src/mapper/gen_vector_map.hpp 76-188, 456-514) and `GenSlabMap`
(src/mapper/gen_slab_map.hpp 76-231, 318-350, 573-640), and of the check of the number of columns of `GenSlabMap`
(279-348).  The indices are those of `Model/GenMap.lean`.

The vector mapper moves one number per index and the slab mapper one row of `p_nColumns` numbers; the type `α` stands
for either.  A vector or matrix is a function of the index; `setElement` of different processes may take effect in any
order, the values are there after `ready()`.  The work arrays of a process are large enough by construction
(`p_maxValues` is the largest size) and are left out. -/
namespace GridPACK.GenTransfer
open GenMap

variable {α : Type}

/-- Own buses and own branches of a process in the order of the loops. -/
def ownedBuses (p : Proc) : List Comp := ((List.range p.buses.length).filter (activeBus p)).map Comp.bus
def ownedBranches (p : Proc) : List Comp := ((List.range p.branches.length).filter (activeBranch p)).map Comp.branch

/-- `p_minIndex` and one more than `p_maxIndex` (gen_vector_map.hpp 243-249). -/
def minIndex (ps : List Proc) (me : Nat) : Nat := procOffset ps me
def endIndex (ps : List Proc) (me : Nat) (p : Proc) : Nat := procOffset ps me + dimension p

/-- What one component wants to write: index and value (`vectorGetElementValues`, `slabGetValues`). -/
def compWrites (g : Comp → Nat) (p : Proc) (vals : Comp → Nat → α) (c : Comp) : List (Nat × α) :=
  (List.range (size p c)).map (fun j => (g (key p c) + j, vals c j))

/-- `loadBusData` (gen_vector_map.hpp 461-481). -/
def loadBusData (g : Comp → Nat) (p : Proc) (vals : Comp → Nat → α) : List (Nat × α) :=
  (ownedBuses p).flatMap (compWrites g p vals)

/-- `loadBranchData` (488-512): only indices inside the block of the process. -/
def loadBranchData (ps : List Proc) (me : Nat) (g : Comp → Nat) (p : Proc) (vals : Comp → Nat → α) :
    List (Nat × α) :=
  ((ownedBranches p).flatMap (compWrites g p vals)).filter
    (fun w => decide (minIndex ps me ≤ w.1) && decide (w.1 < endIndex ps me p))

/-- All writes of all processes; `vals me` are the values of the components of process `me`. -/
def allWrites (ps : List Proc) (g : Comp → Nat) (vals : Nat → Comp → Nat → α) : List (Nat × α) :=
  ps.zipIdx.flatMap (fun e => loadBusData g e.1 (vals e.2) ++ loadBranchData ps e.2 g e.1 (vals e.2))

/-- One `setElement`. -/
def setElement (x : Nat → α) (w : Nat × α) : Nat → α := fun i => if i = w.1 then w.2 else x i

/-- `mapToVector`, `mapToMatrix` (76-128): a zero vector with the writes `ws` in some order. -/
def mapTo (zero : α) (ws : List (Nat × α)) : Nat → α := ws.foldl setElement (fun _ => zero)

/-- `GenVectorMap::mapToNetwork` (137-166): what is handed to each own component. -/
def pushVector (g : Comp → Nat) (p : Proc) (x : Nat → α) : List (Comp × List α) :=
  (ownedBuses p ++ ownedBranches p).map (fun c => (c, (indices g p c).map x))

/-- Cut a list of rows into pieces of given lengths (`vptr += nrows`). -/
def cut : List Nat → List α → List (List α)
  | [], _ => []
  | n :: ns, v => v.take n :: cut ns (v.drop n)

/-- Buses or branches in `GenSlabMap::mapToNetwork` (gen_slab_map.hpp 145-176, 177-208): the row indices of all
components are collected, one block of rows is read and handed out piece by piece. -/
def pushSlabPart (g : Comp → Nat) (p : Proc) (x : Nat → α) (cs : List Comp) : List (Comp × List α) :=
  cs.zip (cut (cs.map (size p)) ((cs.flatMap (indices g p)).map x))

/-- `GenSlabMap::mapToNetwork`. -/
def pushSlab (g : Comp → Nat) (p : Proc) (x : Nat → α) : List (Comp × List α) :=
  pushSlabPart g p x (ownedBuses p) ++ pushSlabPart g p x (ownedBranches p)

/-! ### Number of columns -/

/-- Loop over the own components of one process (279-304): sizes `(rows, columns)`, `nCols` and `okCols`. -/
def colsStep (s : Nat × Bool) (c : Nat × Nat) : Nat × Bool :=
  let n := if s.1 = 0 ∧ c.1 > 0 then c.2 else s.1
  (n, s.2 && !(decide (c.1 > 0) && decide (c.2 ≠ n)))

def localCols (cs : List (Nat × Nat)) : Nat × Bool := cs.foldl colsStep (0, true)

/-- `minCols` and `maxCols` after the operations over all processes (313-328). -/
def minCols (css : List (List (Nat × Nat))) : Option Int :=
  (css.map (fun cs => if (localCols cs).2 then ((localCols cs).1 : Int) else -1)).min?
def maxCols (css : List (List (Nat × Nat))) : Option Int :=
  (css.map (fun cs => ((localCols cs).1 : Int))).max?

/-- The outcome of the constructor on process `me`: `none` for the exception (329-334), otherwise `p_nColumns`. -/
def construct (css : List (List (Nat × Nat))) (me : Nat) : Option Nat :=
  let cs := css.getD me []
  let ok := (localCols cs).2 && decide (maxCols css = minCols css)
  if !ok && decide (me = 0) then none else some (localCols cs).1

end GridPACK.GenTransfer
