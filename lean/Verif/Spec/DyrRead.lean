import Verif.Spec.Dyr
import Verif.Model.DyrFile
import Verif.Props.HashDistr

/-! The settings in which a .dyr file is read. -/
namespace GridPACK.DyrSpec
open StringUtils DataCollection Dyr
open RawBus (Data)

/-- A file with records `recs` (each with whatever the memory of its struct held before) is read on `n` processes;
this process holds the buses `busNo` and the branches `ends` with the data `bus` and `branch`. -/
structure Shared (cv : Conv) (n : Nat) (bound : Nat → Nat → Nat) (puts : List Nat) (recs : List (Struct × List Str))
    (busNo : List Int) (ends : List (Int × Int)) (bus branch : List Data) : Prop where
  procs : 0 < n
  bounds : ∀ total, HashDistr.BoundOk n total (bound total)
  order : puts.Perm (List.range n)
  proper : ∀ r ∈ recs, Proper cv r.2
  buses : busNo.length = bus.length
  branches : ends.length = branch.length
  usableBuses : ∀ c ∈ bus, Usable recs.length c
  usableBranches : ∀ c ∈ branch, Usable recs.length c

/-- A file with records `texts` is read into a network all of whose data are here; none of the records is for a relay
of one of the branches. -/
structure Alone (cv : Conv) (texts : List (List Str)) (net : Net) : Prop where
  proper : ∀ r ∈ texts, Proper cv r
  numbers : (net.buses.map (·.1)).Nodup
  noLines : ∀ r ∈ texts, ∀ e ∈ net.branches, ∀ m ps, ¬ Describes cv r (.line e.1 e.2) m ps
  usable : ∀ b c, (b, c) ∈ net.buses → Usable texts.length c

end GridPACK.DyrSpec
