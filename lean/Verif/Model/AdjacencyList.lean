import Verif.Model.HashDistr

/-! Model of `AdjacencyList::ready` (src/partition/adjacency_list.cpp:107-293).

`nodes p` : (global index, original index) of the nodes added on process `p`;
`edges p` : original indices of the two ends of the edges added on process `p`. -/
namespace GridPACK.AdjacencyList
open GridPACK.Exchange GridPACK.HashDistr

/-- src/partition/adjacency_list.cpp:156-166: the global array of original indices, indexed by
global index, after the scatter.  Simplification: the scatters of all processes are combined;
global indices are assumed distinct by the theorems, so the order of the writes does not
matter. -/
def gNodes (n : Nat) (nodes : Nat → List (Nat × Int)) (g : Nat) : Option Int :=
  (((List.range n).flatMap nodes).find? (fun x => decide (x.1 = g))).map (·.2)

/-- src/partition/adjacency_list.cpp:181-194: `std::map::insert` keeps the first entry for a key,
so looking an original index up in the map of one block gives the first position holding it. -/
def lookupBlock (g : Nat → Option Int) (block : List Nat) (key : Int) : Option Nat :=
  block.find? (fun i => decide (g i = some key))

/-- src/partition/adjacency_list.cpp:171-204 for one end of one edge on process `me`.  `blocks q`
are the positions of the node array stored on process `q` (`NGA_Distribution`, any layout).  The
initial value 0 is the default constructed pair (src/partition/adjacency_list.hpp:147). -/
def resolveEnd (n me : Nat) (g : Nat → Option Int) (blocks : Nat → List Nat) (key : Int) : Nat :=
  (visitOrder n me).foldl (fun cur q =>
    match lookupBlock g (blocks q) key with
    | some i => i
    | none => cur) 0

/-- src/partition/adjacency_list.cpp:192-203: the edges of process `me` in global indices. -/
def resolved (n : Nat) (nodes : Nat → List (Nat × Int)) (blocks : Nat → List Nat)
    (edges : Nat → List (Int × Int)) (me : Nat) : List (Nat × Nat) :=
  (edges me).map (fun e => (resolveEnd n me (gNodes n nodes) blocks e.1,
    resolveEnd n me (gNodes n nodes) blocks e.2))

/-- src/partition/adjacency_list.cpp:265-271: chunks of a global array read one after the other;
`none` = read of uninitialised data. -/
def readChunks {α : Type} (n total : Nat) (bound : Nat → Nat) (g : Nat → Option α) :
    List Nat → Option (List α)
  | [] => some []
  | idx :: rest =>
    match allSome ((List.range' (chunk n total bound idx).1
        ((chunk n total bound idx).2 - (chunk n total bound idx).1)).map g),
      readChunks n total bound g rest with
    | some a, some b => some (a ++ b)
    | _, _ => none

/-- src/partition/adjacency_list.cpp:257-289: neighbours pushed for local node `i`, for the edges
in the order visited.  `gmap` maps a global index to the first local node having it. -/
def neighbours (localGids : List Nat) (visited : List (Nat × Nat)) (i : Nat) : List Nat :=
  visited.flatMap (fun e =>
    (if localGids.findIdx? (fun g => decide (g = e.1)) = some i then [e.2] else []) ++
    (if localGids.findIdx? (fun g => decide (g = e.2)) = some i then [e.1] else []))

/-- src/partition/adjacency_list.cpp:107-293 for process `me`: the adjacency list of each local
node.  `bound p` is `static_cast<int>(p*(total_edges/nprocs))` (lines 209-214; the array holds two
integers per edge, here one cell), `puts` the order in which the processes store their edges. -/
def ready (n : Nat) (nodes : Nat → List (Nat × Int)) (blocks : Nat → List Nat)
    (edges : Nat → List (Int × Int)) (bound : Nat → Nat) (puts : List Nat) (me : Nat) :
    Option (List (List Nat)) :=
  let res := resolved n nodes blocks edges
  let total := base (fun q => (res q).length) n
  let gids := (nodes me).map (·.1)
  (readChunks n total bound (globalArray res puts) (visitOrder n me)).map
    (fun visited => (List.range gids.length).map (neighbours gids visited))

end GridPACK.AdjacencyList
