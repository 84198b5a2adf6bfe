import Verif.Model.StringUtils

/-! Model of the time series of watched generators of the dynamic simulation: `DSFullApp::setGeneratorWatch`, `saveTimeStep`,
`getTimeSeriesMap`, `getListWatchedGenerators`, `getGeneratorTimeSeries`
(src/applications/modules/dynamic_simulation_full_y/dsf_app_module.cpp 1413-1485, 1668-1780) and of `DSFullBus::setWatch`,
`getWatchedGenerators`, `getWatchedValues` (dsf_components.cpp 2555-2622), on one process.

The loop over `getLocalBusIndices(id)` is a pass over the local buses with this number (see C18 for the lookup).  What the
machine reports (`getWatchValues`) is a function of the step.  Every generator has a model.  Messages, the watch file and
monitoring of frequencies are left out (for the latter see `Model/FreqMonitor.lean`). -/
namespace GridPACK.WatchSeries
open GridPACK.StringUtils (Str)

/-- A generator: identifier, `p_gstatus`, watch flag, reported values at each step. -/
structure Gen (α : Type) where
  id : Str
  status : Bool
  watch : Bool
  out : Nat → List α

/-- A bus of the process: original index, ownership, generators. -/
structure Bus (α : Type) where
  orig : Int
  active : Bool
  gens : List (Gen α)

/-- Members of `DSFullApp` used here. -/
structure App (α : Type) where
  buses : List (Bus α)
  watchList : List ((Int × Str) × Nat)
  watchBus : List Int
  watchGen : List Str
  genBuses : List Nat
  genIds : List Str
  save : Bool
  series : List (List α)

/-- `DSFullBus::setWatch(tag,true)` (dsf_components.cpp 2555-2564): the first generator with this identifier. -/
def setWatch (tag : Str) (b : Bus α) : Bus α :=
  { b with gens := b.gens.modify (b.gens.findIdx (fun g => g.id == tag)) (fun g => { g with watch := true }) }

/-- `std::map::insert` (dsf_app_module.cpp 1439): an entry that is there stays. -/
def insertMap (m : List ((Int × Str) × Nat)) (e : (Int × Str) × Nat) : List ((Int × Str) × Nat) :=
  if (m.lookup e.1).isSome then m else m ++ [e]

/-- One entry of the list (1435-1453). -/
def watchOne (a : App α) (e : (Int × Str) × Nat) : App α :=
  let found := (a.buses.zipIdx.filter (fun b => b.1.orig == e.1.1 && b.1.active)).map (·.2)
  { a with
    buses := a.buses.map (fun b => if b.orig = e.1.1 then setWatch e.1.2 b else b)
    watchList := insertMap a.watchList e
    watchBus := a.watchBus ++ [e.1.1]
    watchGen := a.watchGen ++ [e.1.2]
    genBuses := a.genBuses ++ found
    genIds := a.genIds ++ found.map (fun _ => e.1.2) }

/-- `setGeneratorWatch(buses,tags,writeFile)` (1413-1486). -/
def setGeneratorWatch (a : App α) (ws : List (Int × Str)) : App α :=
  let a := { a with watchBus := [], watchGen := [], genBuses := [], genIds := [] }
  let a := ws.zipIdx.foldl watchOne a
  if a.save then { a with series := List.replicate (4 * a.genBuses.length) [] } else a

/-- `DSFullBus::getWatchedValues(tag)` (dsf_components.cpp 2604-2620) at step `t`. -/
def watchedValues (b : Bus α) (tag : Str) (t : Nat) : List α :=
  (b.gens.filter (fun g => g.watch && g.id == tag)).flatMap (fun g => g.out t)

/-- The values collected by `saveTimeStep` in the order of `icnt` (1679-1692). -/
def stepValues (a : App α) (t : Nat) : List α :=
  (a.genBuses.zip a.genIds).flatMap (fun e => match a.buses[e.1]? with
    | some b => if b.active then watchedValues b e.2 t else []
    | none => [])

/-- `saveTimeStep` (1676-1694) at step `t`. More values than series would be written behind the vector; this does not happen
for machines with four values. -/
def saveTimeStep (a : App α) (t : Nat) : App α :=
  if a.save then
    { a with series := a.series.mapIdx (fun k s => match (stepValues a t)[k]? with
        | some v => s ++ [v]
        | none => s) }
  else a

/-- `DSFullBus::getWatchedGenerators` (dsf_components.cpp 2570-2579). -/
def watchedGenerators (b : Bus α) : List Str := (b.gens.filter (fun g => g.status && g.watch)).map (·.id)

/-- `getTimeSeriesMap` (1700-1735). -/
def timeSeriesMap (a : App α) : List Nat :=
  if a.save then
    a.buses.flatMap (fun b => if b.active then
      (watchedGenerators b).flatMap (fun g => match a.watchList.lookup (b.orig, g) with
        | some i => [4 * i, 4 * i + 1, 4 * i + 2, 4 * i + 3]
        | none => []) else [])
  else []

/-- `getGeneratorTimeSeries` (1761-1777). -/
def generatorTimeSeries (a : App α) : List (List α) := if a.save then a.series else []

/-- A simulation that saves the steps `ts`. -/
def run (a : App α) (ts : List Nat) : App α := ts.foldl saveTimeStep a

end GridPACK.WatchSeries
