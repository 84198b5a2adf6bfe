import Verif.Model.PFBusData

/-! Model of the reports of a dynamic simulation about zones and buses: `DSFullApp::getZoneList`, `getZoneLoads`,
`getZoneGeneratorPower`, `getBusTotalLoadPower`, `getGeneratorPower`
(src/applications/modules/dynamic_simulation_full_y/dsf_app_module.cpp 4335-4600) and the functions of `DSFullBus` they call
(dsf_components.cpp 926-960, 1144-1237, 3104-3177), and of the transfer of generator powers from the power flow (dsf_app_module.cpp 4835-4874).

Doubles are real numbers.  Each process holds a list of buses, some of them active; `communicator().sum` adds vectors of equal
length over all processes.  A `std::map` filled with 0, 1, 2, ... in the order of insertion is the list of its keys in that order.
All processes have a vector to pass (the address of the first element of an empty vector is not looked at).  Optional keys of the
data collection are present; printing is left out. -/
namespace GridPACK.Zones

/-! ### Zones -/

/-- A bus as a process holds it: whether it is active there, its zone and its two powers. -/
structure Local where
  active : Bool
  zone : Int
  p : ℝ
  q : ℝ

/-- Insertion of a key into a map unless it is there (4424-4428, 4468-4471): the keys in the order of insertion. -/
def note (m : List Int) (z : Int) : List Int := if z ∈ m then m else m ++ [z]

/-- The first loop of `getZoneList` (4420-4431). -/
def localMap (bs : List Local) : List Int :=
  (bs.filter (fun b => b.active)).foldl (fun m b => note m b.zone) []

/-- The keys of a map in the order of its iterator: insertion in ascending order. -/
def insertKey (z : Int) : List Int → List Int
  | [] => [z]
  | y :: ys => if z < y then z :: y :: ys else y :: insertKey z ys

def iterated (m : List Int) : List Int := m.foldr insertKey []

/-- `start[i]` (4445-4451) for the vector `sizes` of the numbers of zones found on the processes. -/
def start (sizes : List Nat) (r : Nat) : Nat := (sizes.take r).sum

/-- What process `r` writes into `allzones` (4452-4462). -/
def written (maps : List (List Int)) (r : Nat) (k : Nat) : Int :=
  let s := start (maps.map List.length) r
  if s ≤ k then ((iterated (maps.getD r []))[k - s]?).getD 0 else 0

/-- `allzones` after the sum over the processes (4464). -/
def allZones (maps : List (List Int)) : List Int :=
  (List.range (maps.map List.length).sum).map (fun k => ((List.range maps.length).map (fun r => written maps r k)).sum)

/-- One pass of the inner loop of the sort (4487-4493), for the value `x` at place `i` and the values `ys` at the places after it:
the value that ends at place `i` and the values after it. -/
def pass (x : Int) : List Int → Int × List Int
  | [] => (x, [])
  | y :: ys => if x > y then ((pass y ys).1, x :: (pass y ys).2) else ((pass x ys).1, y :: (pass x ys).2)

theorem pass_length (x : Int) (ys : List Int) : (pass x ys).2.length = ys.length := by
  induction ys generalizing x with
  | nil => rfl
  | cons y ys ih => unfold pass; split <;> simp [ih]

/-- The sort (4486-4494). -/
def sort : List Int → List Int
  | [] => []
  | x :: xs => (pass x xs).1 :: sort (pass x xs).2
termination_by l => l.length
decreasing_by simp [pass_length]

/-- `getZoneList` (4411-4496) on every process. -/
def zoneList (procs : List (List Local)) : List Int :=
  sort ((allZones (procs.map localMap)).foldl note [])

/-- The loop over the buses (4526-4543, 4581-4598): `load_p[idx] += p` for the index of the zone of the bus, if it has one. -/
def addBus (f : Local → ℝ) (zs : List Int) (v : List ℝ) (b : Local) : List ℝ :=
  match zs.idxOf? b.zone with
  | some i => v.modify i (fun x => x + f b)
  | none => v

def localSums (f : Local → ℝ) (zs : List Int) (bs : List Local) : List ℝ :=
  (bs.filter (fun b => b.active)).foldl (addBus f zs) (List.replicate zs.length 0)

/-- `getZoneLoads` (4503-4546), `getZoneGeneratorPower` (4554-4601): the zones and their active and reactive powers. -/
def zoneSums (procs : List (List Local)) : List Int × List ℝ × List ℝ :=
  let zs := zoneList procs
  let add (f : Local → ℝ) := (List.range zs.length).map
    (fun i => (procs.map (fun bs => (localSums f zs bs).getD i 0)).sum)
  (zs, add Local.p, add Local.q)

/-! ### Loads of a bus -/

/-- A load of the data collection; `composite`: its model is CMLDBLU1. -/
structure LoadRec where
  pl : ℝ
  ql : ℝ
  ip : ℝ
  iq : ℝ
  yp : ℝ
  yq : ℝ
  status : Int
  composite : Bool

/-- What the loop leaves: `p_powerflowload_p` and `_q`, `p_powerflowload_status`, `p_npowerflow_load`. -/
structure BusLoads where
  pq : List (ℝ × ℝ)
  status : List Int
  n : Nat

/-- The loop over the loads (1160-1222).  A composite load takes its entry back and sets the number of loads, and with it the
bound of the loop, to 0. -/
def readLoads : List LoadRec → List (ℝ × ℝ) → List Int → BusLoads
  | [], pq, st => ⟨pq, st, pq.length⟩
  | l :: ls, pq, st =>
    let st := st ++ [l.status]
    if l.composite then ⟨pq, st, 0⟩
    else readLoads ls (pq ++ [(l.pl + l.ip + l.yp, l.ql - l.iq - l.yq)]) st

/-- `getTotalLoadPower` (3110-3126). -/
def totalLoad (b : BusLoads) : ℝ × ℝ := (((b.pq.take b.n).map Prod.fst).sum, ((b.pq.take b.n).map Prod.snd).sum)

/-- The sum of the loads of the bus that enter the network equations (1230-1237), in MW and MVar, before the parts of dynamic
loads are taken off. -/
def simulatedLoad (b : BusLoads) : ℝ × ℝ :=
  ((((b.pq.zip b.status).take b.n).map (fun e => if e.2 ≠ 0 then e.1.1 else 0)).sum,
   (((b.pq.zip b.status).take b.n).map (fun e => if e.2 ≠ 0 then e.1.2 else 0)).sum)

/-! ### Generators of a bus -/

/-- `getTotalGeneratorPower` (3133-3150); `pq` are `p_pg`, `p_qg` as loaded (926-953). -/
noncomputable def totalGen (sbase : ℝ) (pq : List (ℝ × ℝ)) : ℝ × ℝ :=
  ((pq.map Prod.fst).sum * sbase, (pq.map Prod.snd).sum * sbase)

/-- `DSFullBus::getGeneratorPower` (3160-3177): the first generator with the id. -/
noncomputable def genPower (sbase : ℝ) (gens : List (String × ℝ × ℝ)) (tag : String) : Option (ℝ × ℝ) :=
  (gens.find? (fun g => g.1 = tag)).map (fun g => (g.2.1 * sbase, g.2.2 * sbase))

/-- `DSFullApp::getGeneratorPower` (4371-4404) on a process: `here` are the active buses of the process with the number asked
for; `none`: the function returns false. -/
noncomputable def askGen (dummy : Bool) (sbase : ℝ) (here : List (List (String × ℝ × ℝ))) (tag : String) : Option (ℝ × ℝ) :=
  match here with
  | [] => if dummy then some (0, 0) else none
  | gens :: _ => (genPower sbase gens tag).or (if dummy then some (0, 0) else none)

/-- The transfer of the generator powers (4861-4873): `GENERATOR_PG`, `GENERATOR_QG` of the simulation are the values
`GENERATOR_PF_PGEN`, `GENERATOR_PF_QGEN` that `saveData` of the power flow has written (`PFBusData.saveGen`). -/
noncomputable def transferred (pinj qinj : ℝ) (b : PFBusData.Bus) : List (ℝ × ℝ) := PFBusData.saveGen pinj qinj b

end GridPACK.Zones
