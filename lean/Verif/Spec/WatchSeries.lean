import Verif.Model.WatchSeries

/-! Specification of the time series of watched generators. -/
namespace GridPACK.WatchSeries
open GridPACK.StringUtils (Str)

/-- There are as many series as entries of the map, and the entry `4 i + q` of the map at place `k` says what series `k` is:
quantity `q` of generator `i` of the list of watched generators, at each of the saved steps. -/
def Labelled (a : App α) (ts : List Nat) : Prop :=
  (timeSeriesMap a).length = (generatorTimeSeries a).length ∧
    ∀ k m : Nat, (timeSeriesMap a)[k]? = some m → ∃ b ∈ a.buses, ∃ g ∈ b.gens, b.active = true ∧
      a.watchBus[m / 4]? = some b.orig ∧ a.watchGen[m / 4]? = some g.id ∧
      ∃ s : List α, (generatorTimeSeries a)[k]? = some s ∧ s.map some = ts.map (fun t => (g.out t)[m % 4]?)

/-- An application that saves series and in which nothing has been watched; buses and generators of a bus have different
names. -/
structure Fresh (a : App α) : Prop where
  save : a.save = true
  none : a.watchList = []
  off : ∀ b ∈ a.buses, ∀ g ∈ b.gens, g.watch = false
  buses : (a.buses.map (·.orig)).Nodup
  gens : ∀ b ∈ a.buses, (b.gens.map (·.id)).Nodup

/-- All generators of the process in the order of the network. -/
def allGens (a : App α) : List (Int × Str) :=
  (a.buses.filter (·.active)).flatMap (fun b => b.gens.map (fun g => (b.orig, g.id)))

/-- The part of the list that concerns this process names generators that exist, in the order of the network. -/
def InOrder (a : App α) (ws : List (Int × Str)) : Prop :=
  ws.filter (fun w => a.buses.any (fun b => b.orig == w.1 && b.active)) = (allGens a).filter (fun w => decide (w ∈ ws))

/-- The watched generators are in service and report four values. -/
def Sound (a : App α) (ws : List (Int × Str)) : Prop :=
  ∀ b ∈ a.buses, b.active = true → ∀ g ∈ b.gens, (b.orig, g.id) ∈ ws → g.status = true ∧ ∀ t, (g.out t).length = 4

end GridPACK.WatchSeries
