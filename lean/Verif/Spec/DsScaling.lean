import Verif.Model.DsScaling

/-! Specification for C235–C238. -/
namespace GridPACK.DsScaling

/-- Every power of a list lies between its limits. -/
def Within (b : Bus) : Prop :=
  ∀ (i : ℕ) (x : ℝ), b.pg[i]? = some x → ∃ lo hi, b.pmin[i]? = some lo ∧ b.pmax[i]? = some hi ∧ lo ≤ x ∧ x ≤ hi

/-- The load of an area (and zone, if positive) in the whole network, every bus counted once, namely where it is owned. -/
def trueLoad (area zone : Int) (procs : List (List (Local × Data))) : ℝ :=
  (procs.map (fun ls => ((ls.filter (fun l => l.1.active && (l.1.area = area) && (zone ≤ 0 || l.1.zone = zone))).map
    (fun l => (l.2.loads.map LoadRec.p).sum)).sum)).sum

/-- The loads of the copies of buses that other processes own. -/
def copiedLoad (area zone : Int) (procs : List (List (Local × Data))) : ℝ :=
  (procs.map (fun ls => ((ls.filter (fun l => !l.1.active && (l.1.area = area) && (zone ≤ 0 || l.1.zone = zone))).map
    (fun l => (l.2.loads.map LoadRec.p).sum)).sum)).sum

/-- Generation, minimum and maximum of the generators of an area (and zone, if positive) that satisfy `f`, in the whole network. -/
def trueMargins (f : GenRec → Bool) (area zone : Int) (procs : List (List (Local × Data))) : ℝ × ℝ × ℝ :=
  let sum (g : GenRec → ℝ) := (procs.map (fun ls => ((ls.filter (fun l => l.1.active && (l.1.area = area) &&
    (zone ≤ 0 || l.1.zone = zone))).map (fun l => ((l.2.gens.filter f).map g).sum)).sum)).sum
  (sum GenRec.pg, sum GenRec.pmin, sum GenRec.pmax)

/-- Every bus of the network has been loaded once from its data and has since seen some history of calls. -/
def Loaded (procs : List (List (Local × Data))) : Prop :=
  ∀ ls ∈ procs, ∀ l ∈ ls, ∃ as, l.1.bus = (runAll as (load l.2 fresh, l.2)).1

end GridPACK.DsScaling
