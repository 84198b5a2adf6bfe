import Verif.Model.MatPower

/-! Specification of reading generators, branches and costs from a MATPOWER file. -/
namespace GridPACK.MatPower
open GridPACK.StringUtils (Str)

/-- The generators of each bus are numbered 0, 1, ... in the order of the file, with the identifiers 1, 2, ..., and the bus
knows how many there are. -/
def GensRight (rows : List (GenRow α)) (known : Int → Bool) (st : GenState α) : Prop :=
  ∀ b, known b = true →
    (st.entries.filter (fun e => decide (e.bus = b))).map (fun e => (e.idx, some e.id, e.vals))
      = (rows.filter (fun r => decide (r.bus = b))).mapIdx (fun j r => (j, charId (j + 1), r.vals)) ∧
    (st.number b).getD 0 = (rows.filter (fun r => decide (r.bus = b))).length

/-- The two rows connect the same buses. -/
def Same (r s : BrRow α) : Bool :=
  decide ((s.frm, s.tob) = (r.frm, r.tob)) || decide ((s.frm, s.tob) = (r.tob, r.frm))

/-- The first rows of each pair of buses. -/
def firsts (rows : List (BrRow α)) : List (BrRow α) :=
  rows.foldl (fun acc r => if acc.any (fun f => Same f r) then acc else acc ++ [r]) []

/-- There is one branch for each pair of buses, in the order of the file and directed as in the first row of the pair; its
elements are the rows of the pair in the order of the file, marked if they are directed otherwise. -/
def BranchesRight (rows : List (BrRow α)) (st : BrState α) : Prop :=
  st.branches.map (fun b => (b.frm, b.tob, b.index, b.elems.map (fun e => (e.switched, some e.ckt, e.vals))))
    = (firsts rows).mapIdx (fun k f => (f.frm, f.tob, k, (rows.filter (Same f)).mapIdx (fun j r =>
        (decide ((r.frm, r.tob) ≠ (f.frm, f.tob)), charId (j + 1), r.vals))))

/-- A row of costs is complete: piecewise linear with two numbers per point, or polynomial with one number per coefficient. -/
def Complete (r : CostRow α) : Prop :=
  (r.model = 1 ∧ 2 * r.npar ≤ r.pars.length) ∨ (r.model = 2 ∧ r.npar ≤ r.pars.length)

end GridPACK.MatPower
