import Mathlib.Analysis.SpecialFunctions.Trigonometric.Inverse
import Mathlib.Analysis.SpecialFunctions.Complex.Arg
import Verif.Model.StringUtils

/-! Model of the observations of the dynamic simulation (`DSFullApp::setObservations`, `getObservationLists`,
`getObservations_withBusFreq`, src/applications/modules/dynamic_simulation_full_y/dsf_app_module.cpp 1949-2800).

The four kinds of observed elements (generators, loads, buses, buses for their frequency) are handled by four copies
of the same code; the model has one version with the differences as parameters: whether the list of names and the
list of marks are cleared at the beginning.  The reading of the observation block of the configuration is not part
of the model, it begins with the list of names.  A global vector (`Model/GlobalVector.lean`) is its content after
the synchronisation; since no two processes write the same element, the processes are taken one after the other.
Reading or writing outside a vector of the program, and the exception for a global vector without elements, are
`none`.  `p_obs_lGenBus` and `p_obs_lVBusfreq` only matter by their lengths; the reading of `p_obs_vBus` at the
position of a frequency observation (2245, 2263), which may be outside, is left out. -/
namespace GridPACK.Observations

open StringUtils (Str)

/-- The part of a local bus that matters: original index, whether it belongs to the process, identifiers of its
generators, loads and loads with a dynamic model. -/
structure LBus where
  orig : Int
  active : Bool
  gens : List Str
  loads : List Str
  dyn : List Str

/-- Search for a generator (2038-2057): first own bus with this number that has it.  `getLocalBusIndices` gives the
local indices with this number in increasing order (`C18`). -/
def findGen (buses : List LBus) (o : Int × Str) : Option Nat :=
  (List.range buses.length).find? (fun j => (buses[j]?).any (fun b =>
    decide (b.orig = o.1) && b.active && decide (o.2 ∈ b.gens)))

/-- Search for a load (2108-2137). -/
def findLoad (buses : List LBus) (o : Int × Str) : Option Nat :=
  (List.range buses.length).find? (fun j => (buses[j]?).any (fun b =>
    decide (b.orig = o.1) && b.active && (decide (o.2 ∈ b.loads) || decide (o.2 ∈ b.dyn))))

/-- Search for a bus (2174-2185, 2225-2236): there is no `break`, the last one counts. -/
def findBus (buses : List LBus) (o : Int) : Option Nat :=
  (List.range buses.length).reverse.find? (fun j => (buses[j]?).any (fun b =>
    decide (b.orig = o) && b.active))

/-- The members of one kind on one process: names (`p_obs_genBus`, `p_obs_genIDs`), `p_obs_gActive`,
`p_obs_lGenIdx`, `p_obs_lGenIDs`, `p_obs_gUse`, `p_obs_GenIdx`. -/
structure St (ο : Type) where
  names : List ο
  active : List Nat
  lIdx : List Nat
  lNames : List ο
  use : List Bool
  bus : List Int

variable {ο α : Type}

def St.new : St ο := ⟨[], [], [], [], [], []⟩

/-- What is pushed for one observation: position, name, local bus (-1 for one that does not exist), mark. -/
structure Entry (ο : Type) where
  pos : Nat
  name : ο
  bus : Int
  dummy : Bool

/-- The observations found on a process (2034-2068). -/
def foundEntries (find : ο → Option Nat) (names : List ο) : List (Entry ο) :=
  names.zipIdx.filterMap (fun x => (find x.1).map (fun (b : Nat) => ⟨x.2, x.1, (b : Int), false⟩))

/-- `foundGen` after the sum over the processes (2071): is it found on one of the `np` processes? -/
def foundAnywhere (np : Nat) (find : Nat → ο → Option Nat) (o : ο) : Bool :=
  (List.range np).any (fun q => (find q o).isSome)

/-- The observations that do not exist (2074-2086); `m` is the length of `foundGen`. -/
def dummyEntries (np : Nat) (find : Nat → ο → Option Nat) (m : Nat) (names : List ο) : List (Entry ο) :=
  (names.zipIdx.take m).filterMap
    (fun x => if foundAnywhere np find x.1 then none else some ⟨x.2, x.1, -1, true⟩)

/-- `p_comm.sum(&p_obs_gActive[0], p_comm.size())` (2095, 2158, 2213, 2269): the first `np` entries are summed over
the processes. -/
def sumActive (np : Nat) (a : Nat → List Nat) (r : Nat) : Option (List Nat) :=
  if (a r).length < np then none
  else some ((a r).zipIdx.map (fun x =>
    if x.2 < np then ((List.range np).map (fun q => (a q).getD x.2 0)).sum else x.1))

/-- Entries of process `r`. -/
def entries (flag : Bool) (np : Nat) (find : Nat → ο → Option Nat) (m : Nat) (names : List ο) (r : Nat) :
    List (Entry ο) :=
  foundEntries (find r) names ++ (if r = 0 ∧ flag = true then dummyEntries np find m names else [])

/-- Size of the global vectors after `upload`: one more than the largest position; an empty vector throws. -/
def numElems (np : Nat) (es : Nat → List (Entry ο)) : Option Nat :=
  match ((List.range np).flatMap es).map Entry.pos with
  | [] => none
  | p :: ps => some (ps.foldl max p + 1)

/-- One kind in `setObservations` (1953-2280): `keepNames` for loads (`p_obs_loadBus` is not cleared), `keepUse` for
frequencies (`p_obs_vUsefreq` is not cleared); `p_obs_GenIdx` and its like are never cleared.  `flag` is
`reportNonExistingElements`. -/
def setKind (keepNames keepUse flag : Bool) (np : Nat) (find : Nat → ο → Option Nat) (new : List ο)
    (old : Nat → St ο) : Option ((Nat → St ο) × Nat) :=
  let names := fun r => if keepNames then (old r).names ++ new else new
  if names 0 = [] then some (fun r => { old r with names := [] }, 0)
  else
    -- `foundLoad` has one entry for each new name only
    if (List.range np).any (fun r => ((names r).drop new.length).any (fun o => (find r o).isSome)) then none
    else
      let es := fun r => entries flag np find new.length (names r) r
      match numElems np es with
      | none => none
      | some n =>
        let act0 := fun r => (names r).map (fun o => if (find r o).isSome then 1 else 0)
        if (List.range np).any (fun r => (sumActive np act0 r).isNone) then none
        else
          some (fun r => ⟨names r, (sumActive np act0 r).getD [], (es r).map Entry.pos, (es r).map Entry.name,
            (if keepUse then (old r).use else []) ++ (es r).map Entry.dummy,
            (old r).bus ++ (es r).map Entry.bus⟩, n)

/-- Whether position `i` is reported on a process (2296-2300, 2476-2480). -/
def used (flag : Bool) (s : St ο) (i : Nat) : Bool := flag || decide (s.active.getD i 0 ≠ 0)

/-- One kind in `getObservationLists` (2285-2331); for loads the list given by the caller is not cleared. -/
def getList (flag : Bool) (s : St ο) (keep : Bool) (given : List ο) : List ο :=
  (if keep then given else []) ++
    s.names.zipIdx.filterMap (fun x => if used flag s x.2 then some x.1 else none)

/-- The values of a process (2433-2459, 2489-2513, 2533-2552): `val b o` is what bus `b` says about `o`, `none` if the
generator is not among those of the bus (then nothing is pushed), `dflt` the value for elements that do not exist. -/
def localVals (val : Int → ο → Option α) (dflt : α) (s : St ο) : List α :=
  (s.lNames.zipIdx).filterMap (fun x =>
    if s.use.getD x.2 false then some dflt else val (s.bus.getD x.2 (-1)) x.1)

/-- What a process writes (2464-2465): nothing if the lengths do not match. -/
def writes (val : Int → ο → Option α) (dflt : α) (s : St ο) : List (Nat × α) :=
  if s.lIdx.length = (localVals val dflt s).length then s.lIdx.zip (localVals val dflt s) else []

/-- The global vector after `reload`. -/
def reload (np : Nat) (val : Nat → Int → ο → Option α) (dflt : α) (s : Nat → St ο) (g : Nat → α) : Nat → α :=
  ((List.range np).flatMap (fun q => writes (val q) dflt (s q))).foldl
    (fun g x => fun j => if j = x.1 then x.2 else g j) g

/-- One kind in `getObservations` on process `r` (2432-2485). -/
def getValues (flag : Bool) (np n : Nat) (val : Nat → Int → ο → Option α) (dflt : α) (s : Nat → St ο) (g : Nat → α)
    (r : Nat) : List α :=
  (List.range n).filterMap (fun i => if used flag (s r) i then some (reload np val dflt s g i) else none)

/-- Voltage magnitude and angle as reported (2536-2545). -/
noncomputable def polar (v : ℂ) : ℝ × ℝ :=
  let rV := v.re
  let iV := v.im
  let V := Real.sqrt (rV * rV + iV * iV)
  let ang := Real.arccos (rV / V)
  (V, if iV < 0 then -ang else ang)

end GridPACK.Observations
