/-! Model of `ParMETISGraphWrapper` (src/partition/parmetis/parmetis_graph_wrapper.cpp 64-376) and of the use of it in
`ParMETISGraphPartitionerImpl::p_partition` (parmetis_graph_partitioner_impl.cpp 75-165).

`ids` are the global indices of the nodes added on every process, `nbrs` their adjacency lists (`AdjacencyList`, see
`Model/AdjacencyList.lean`).  Global arrays are functions of the index; puts of different processes into different places are
taken one after the other.  A patch that is empty is refused by Global Arrays (`pnga_locate_region` fails, the program
stops); this is `none`.  ParMETIS itself is a parameter: the destinations it returns on every process. -/
namespace GridPACK.ParmetisWrapper

/-- `GA::put` of `v` at `lo` and following. -/
def put (lo : Nat) (v : List Nat) (a : Nat → Nat) : Nat → Nat :=
  fun i => if lo ≤ i ∧ i < lo + v.length then v.getD (i - lo) 0 else a i

/-- `p_node_lo` (218-229); `p_node_hi` is the next one less 1. -/
def nodeLo (ids : List (List Nat)) (p : Nat) : Nat := ((ids.take p).map List.length).sum

/-- Column 0 of `p_node_data` (95-103). -/
def idColumn (ids : List (List Nat)) : Nat → Nat :=
  (List.range ids.length).foldl (fun a p => put (nodeLo ids p) (ids.getD p []) a) (fun _ => 0)

/-- What process `p` scatters into `p_local_node_id` (126-150): pairs of index and value. -/
def scattered (ids : List (List Nat)) (p : Nat) : List (Nat × Nat) :=
  (List.range (ids.getD p []).length).map (fun k => (idColumn ids (nodeLo ids p + k), nodeLo ids p + k))

/-- `p_local_node_id`. -/
def localNodeId (ids : List (List Nat)) : Nat → Nat :=
  ((List.range ids.length).flatMap (scattered ids)).foldl (fun a w => fun i => if i = w.1 then w.2 else a i) (fun _ => 0)

/-- `p_xadj_gbl`, `p_adjncy_gbl` and `tmp[0]` in the loop over the nodes of a process (177-194). -/
structure Csr where
  xadj : Nat → Nat
  adjncy : Nat → Nat
  tmp : Nat

/-- One node: its neighbours and its number in the ParMETIS order. -/
def rowStep (s : Csr) (e : List Nat × Nat) : Csr :=
  ⟨put (e.2 + 1) [s.tmp + e.1.length] s.xadj, put s.tmp e.1 s.adjncy, s.tmp + e.1.length⟩

/-- The turn of one process (171-196). -/
def procFill (lo : Nat) (rows : List (List Nat)) (s : Csr) : Csr :=
  if rows = [] then s
  else (rows.zipIdx lo).foldl rowStep { s with tmp := s.xadj lo }

/-- The loop over the processes (170-199). -/
def fill (ids : List (List Nat)) (nbrs : List (List (List Nat))) : Csr :=
  (List.range ids.length).foldl (fun s p => procFill (nodeLo ids p) (nbrs.getD p []) s) ⟨fun _ => 0, fun _ => 0, 0⟩

/-- Number of nodes (`p_global_nodes`). -/
def globalNodes (ids : List (List Nat)) : Nat := (ids.map List.length).sum

/-- Entry `p` of `vtxdist` before the sums (258-263). -/
def vtxCount (n np p : Nat) : Nat := ((List.range n).filter (fun i => i % np == p)).length

/-- `vtxdist[p]` (264-271). -/
def vtxdist (n np p : Nat) : Nat := ((List.range p).map (vtxCount n np)).sum

/-- `get` of the places `lo` to before `hi`. -/
def getRange (a : Nat → Nat) (lo hi : Nat) : Option (List Nat) :=
  if lo < hi then some ((List.range' lo (hi - lo)).map a) else none

/-- `get_csr_local` on process `me` (243-316): `xadj` and `adjncy`. -/
def csrLocal (ids : List (List Nat)) (nbrs : List (List (List Nat))) (me : Nat) : Option (List Nat × List Nat) :=
  let n := globalNodes ids
  let np := ids.length
  let g := fill ids nbrs
  (getRange g.xadj (vtxdist n np me) (vtxdist n np (me + 1) + 1)).bind (fun tmp =>
    (getRange g.adjncy (tmp.headD 0) (tmp.getLastD 0)).map (fun nidx =>
      (tmp.map (· - tmp.headD 0), nidx.map (localNodeId ids))))

/-- `set_partition` on all processes (328-350): column 2 afterwards; `old` is the column before. -/
def setPartition (ids : List (List Nat)) (parts : List (List Nat)) (old : Nat → Nat) : Option (Nat → Nat) :=
  (List.range ids.length).foldl (fun (a : Option (Nat → Nat)) p =>
    a.bind (fun a =>
      if vtxdist (globalNodes ids) ids.length p < vtxdist (globalNodes ids) ids.length (p + 1) then
        some (put (vtxdist (globalNodes ids) ids.length p) (parts.getD p []) a) else none)) (some old)

/-- `get_partition` on process `p` (354-372). -/
def getPartition (ids : List (List Nat)) (col : Nat → Nat) (p : Nat) : List Nat :=
  (List.range' (nodeLo ids p) (nodeLo ids (p + 1) - nodeLo ids p)).map col

/-- Column 2 before (146-148): the number of the node. -/
def column2 : Nat → Nat := fun i => i

/-- `p_partition` (75-165): the destinations of the nodes of every process, with `metis` for what ParMETIS returns on every
process for the graph given to it. -/
def partition (metis : List (List Nat × List Nat) → List (List Nat)) (ids : List (List Nat)) (nbrs : List (List (List Nat))) :
    Option (List (List Nat)) :=
  ((List.range ids.length).mapM (csrLocal ids nbrs)).bind (fun graph =>
    (setPartition ids (metis graph) column2).map (fun col => (List.range ids.length).map (getPartition ids col)))

end GridPACK.ParmetisWrapper
