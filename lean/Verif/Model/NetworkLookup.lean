/-! Model of the lookup maps of `BaseNetwork` (src/network/base_network.hpp:2477-2542): `setMap`,
`getLocalBusIndices`, `getLocalBranchIndices`.

A `std::multimap` is a list kept sorted by key; an insertion goes after all entries whose key is
not greater (required by C++11).  `find` is modelled as in the GNU library, where it returns the
first entry with the key (the standard would allow any). -/
namespace GridPACK.NetworkLookup

/-- Order of `int` keys. -/
def ltInt (a b : Int) : Bool := decide (a < b)

/-- Order of `std::pair<int,int>` keys. -/
def ltPair (a b : Int × Int) : Bool :=
  decide (a.1 < b.1) || (!decide (b.1 < a.1) && decide (a.2 < b.2))

/-- `multimap::insert`: before the first entry with a greater key. -/
def insert {K V : Type} (lt : K → K → Bool) (k : K) (v : V) : List (K × V) → List (K × V)
  | [] => [(k, v)]
  | e :: l => if lt k e.1 then (k, v) :: e :: l else e :: insert lt k v l

/-- `find` followed by the loop up to `upper_bound`: skip the entries with smaller keys; if the next
one has a key that is not greater, collect until the first entry with a greater key. -/
def collect {K V : Type} (lt : K → K → Bool) (k : K) (m : List (K × V)) : List V :=
  ((m.dropWhile (fun e => lt e.1 k)).takeWhile (fun e => !lt k e.1)).map (·.2)

/-- The parts of the network used here: original numbers of the local buses, original end points of
the local branches, and the two maps. -/
structure Net where
  buses : List Int := []
  branches : List (Int × Int) := []
  busMap : List (Int × Nat) := []
  branchMap : List ((Int × Int) × Nat) := []
deriving DecidableEq, Repr

/-- One iteration of the loops of `setMap`. -/
def insertEntry {K : Type} (lt : K → K → Bool) (m : List (K × Nat)) (e : K × Nat) : List (K × Nat) :=
  insert lt e.1 e.2 m

/-- `setMap` (2477-2492). -/
def setMap (n : Net) : Net :=
  { n with busMap := n.buses.zipIdx.foldl (insertEntry ltInt) [],
           branchMap := n.branches.zipIdx.foldl (insertEntry ltPair) [] }

/-- `addBus` (401-412). -/
def addBus (n : Net) (idx : Int) : Net := { n with buses := n.buses ++ [idx] }

/-- `addBranch` (418-423). -/
def addBranch (n : Net) (i j : Int) : Net := { n with branches := n.branches ++ [(i, j)] }

/-- `getLocalBusIndices` (2500-2511). -/
def getLocalBusIndices (n : Net) (idx : Int) : List Nat := collect ltInt idx n.busMap

/-- `getLocalBranchIndices` (2519-2542). -/
def getLocalBranchIndices (n : Net) (i j : Int) : List Nat :=
  let ret := collect ltPair (i, j) n.branchMap
  if ret.length = 0 then collect ltPair (j, i) n.branchMap else ret

end GridPACK.NetworkLookup
