import Verif.Model.Zones

/-! What the reports about zones and buses should give, in terms of the network alone. -/
namespace GridPACK.Zones

/-- The processes hold the buses of the network (zone, active and reactive power of each), every bus being active on exactly one
process; they may hold further inactive copies. -/
def Distributed (buses : List (Int × ℝ × ℝ)) (procs : List (List Local)) : Prop :=
  ((procs.flatten.filter (fun b => b.active)).map (fun b => (b.zone, b.p, b.q))).Perm buses

/-- The total power of a zone. -/
def zoneTotal (f : ℝ × ℝ → ℝ) (buses : List (Int × ℝ × ℝ)) (z : Int) : ℝ :=
  ((buses.filter (fun b => b.1 = z)).map (fun b => f b.2)).sum

/-- The active and reactive power of a load at unit voltage. -/
def LoadRec.power (l : LoadRec) : ℝ × ℝ := (l.pl + l.ip + l.yp, l.ql - l.iq - l.yq)

/-- The load of a bus: the sum over its loads in service. -/
def loadInService (ls : List LoadRec) : ℝ × ℝ :=
  (((ls.filter (fun l => l.status ≠ 0)).map (fun l => l.power.1)).sum,
   ((ls.filter (fun l => l.status ≠ 0)).map (fun l => l.power.2)).sum)

end GridPACK.Zones
