import Verif.Model.DsEvents

/-! Model of `DSFullBus::load`
(src/applications/modules/dynamic_simulation_full_y/dsf_components.cpp 844-1283): the vectors of generators and
loads of a bus.

`GENERATOR_NUMBER` and `LOAD_NUMBER` are the lengths of the lists of records.  Values missing in the data are
`none`: the local variable then keeps the value it has, which at first is arbitrary.  Exciters, governors, relays
and the parameters of the models are not part of this file; access beyond the end of a vector gives `none`.
Buses that a composite load model has added, and shunts, are left out. -/
namespace GridPACK.DsLoad

/-- A generator in the data collection.  `model`: the generator factory knows the name, or not. -/
structure GenRec where
  stat : Option ℤ
  pg : Option ℝ
  qg : Option ℝ
  model : Option Bool

/-- `p_gstatus`, `p_pg` with `p_qg`, `p_generators`, `p_negpg` with `p_negqg`, `p_gen_nodynmodel` with its powers.
An element of `p_generators` is `none` for a `BaseGeneratorModel` and `some i` for a model with the parameters of
record `i`. -/
structure GenVecs where
  gstatus : List ℤ
  pq : List (ℝ × ℝ)
  slots : List (Option ℕ)
  neg : List (ℝ × ℝ)
  noModel : List (Option (ℝ × ℝ))

open Classical in
/-- The loop over the generators (933-1121) from record `i` on; `icnt` is always `i`.  `p`, `q` are the local
variables `pg`, `qg`, `junk i` is the uninitialised `stat`. -/
noncomputable def loadLoop (junk : ℕ → ℤ) : ℕ → ℝ → ℝ → GenVecs → List GenRec → Option GenVecs
  | _, _, _, v, [] => some v
  | i, p, q, v, r :: rs =>
    let p := r.pg.getD p
    let q := r.qg.getD q
    let v := { v with gstatus := v.gstatus ++ [r.stat.getD (junk i)], pq := v.pq ++ [(p, q)] }
    if p ≥ 0 then
      match r.model with
      | some known =>
        let slots := if known then v.slots ++ [none] else v.slots
        if i < slots.length then
          loadLoop junk (i + 1) p q { v with slots := slots.set i (some i), noModel := v.noModel ++ [none] } rs
        else none
      | none =>
        loadLoop junk (i + 1) p q { v with slots := v.slots ++ [none], noModel := v.noModel ++ [some (p, q)] } rs
    else
      loadLoop junk (i + 1) p q { v with neg := v.neg ++ [(p, q)], noModel := v.noModel ++ [none] } rs

/-- `load` (848-861, 925-929) for the generators: `p_gstatus` is not cleared. -/
noncomputable def GenVecs.load (v : GenVecs) (junk : ℕ → ℤ) (p q : ℝ) (rs : List GenRec) : Option GenVecs :=
  loadLoop junk 0 p q ⟨v.gstatus, [], [], [], []⟩ rs

/-- A new bus. -/
def GenVecs.new : GenVecs := ⟨[], [], [], [], []⟩

/-- The loops `if(!p_gstatus[i] || !p_generators.size()) continue; p_generators[i]->...` (261-263, 467-469, 645-647
and so on) for `n` generators stay within `p_generators`. -/
def GenVecs.Accessible (v : GenVecs) (n : ℕ) : Prop :=
  v.slots = [] ∨ ∀ i < n, v.gstatus.getD i 0 ≠ 0 → i < v.slots.length

open Classical in
/-- The data of the mode PG (225-260) for `n` generators, at the voltage `volt`. -/
noncomputable def GenVecs.setup (v : GenVecs) (n : ℕ) (volt : ℝ) : DsEvents.Setup :=
  { y := 0, pl := 0, ql := 0, v := volt,
    gens := (List.range n).map fun i => (decide (v.gstatus.getD i 0 ≠ 0), (v.pq.getD i (0, 0)).1, (v.pq.getD i (0, 0)).2, 0),
    neg := v.neg, noModel := v.noModel.filterMap id, dynLoads := [] }

/-- `p_gstatus[i]` as `getGenStatus` reports it (115-125). -/
def GenVecs.status (v : GenVecs) (i : ℕ) : Option ℤ := v.gstatus[i]?

/-! ### Loads -/

/-- Load model: none, the composite model CMLDBLU1, a name unknown to the load factory, or a dynamic load, given by
the active and reactive power it takes over from the power of the record. -/
inductive LoadModel
  | none
  | composite
  | unknown
  | dynamic (p q : ℝ → ℝ → ℝ)

/-- A load in the data collection. -/
structure LoadRec where
  pl : Option ℝ
  ql : Option ℝ
  ip : Option ℝ
  iq : Option ℝ
  yp : Option ℝ
  yq : Option ℝ
  stat : Option ℤ
  model : LoadModel

/-- The local variables `pl`, ..., `yq`. -/
structure Loc where
  pl : ℝ
  ql : ℝ
  ip : ℝ
  iq : ℝ
  yp : ℝ
  yq : ℝ

/-- Lines 1161-1176, 1180. -/
def Loc.read (l : Loc) (r : LoadRec) : Loc :=
  { pl := r.pl.getD l.pl + r.ip.getD l.ip + r.yp.getD l.yp
    ql := r.ql.getD l.ql - r.iq.getD l.iq - r.yq.getD l.yq
    ip := r.ip.getD l.ip
    iq := r.iq.getD l.iq
    yp := r.yp.getD l.yp
    yq := r.yq.getD l.yq }

/-- `p_powerflowload_p`, `p_powerflowload_q`, `p_powerflowload_status`, the powers of `p_loadmodels`, and whether
`p_npowerflow_load` was set to 0. -/
structure LoadVecs where
  p : List ℝ
  q : List ℝ
  status : List ℤ
  dyn : List (ℝ × ℝ)
  dropped : Bool

/-- The loop over the loads (1160-1222). -/
def loadsLoop : Loc → LoadVecs → List LoadRec → LoadVecs
  | _, v, [] => v
  | l, v, r :: rs =>
    let l := l.read r
    let v := { v with p := v.p ++ [l.pl], q := v.q ++ [l.ql], status := v.status ++ [r.stat.getD 1] }
    match r.model with
    | .composite => { v with p := v.p.dropLast, q := v.q.dropLast, dropped := true }
    | .dynamic f g => loadsLoop l { v with dyn := v.dyn ++ [(f l.pl l.ql, g l.pl l.ql)] } rs
    | _ => loadsLoop l v rs

/-- `p_pl`, `p_ql` (1226-1262). -/
noncomputable def staticLoad (sbase : ℝ) (l : Loc) (rs : List LoadRec) : ℝ × ℝ :=
  let v := loadsLoop l ⟨[], [], [], [], false⟩ rs
  let n := if v.dropped then 0 else rs.length
  let sum (x : List ℝ) : ℝ := (List.range n).foldl (fun s i => if v.status.getD i 0 ≠ 0 then s + x.getD i 0 else s) 0
  ((sum v.p - (v.dyn.map (·.1)).sum) / sbase, (sum v.q - (v.dyn.map (·.2)).sum) / sbase)

/-- Power of the dynamic loads (`p_loadmodels`). -/
def dynamicLoad (l : Loc) (rs : List LoadRec) : ℝ × ℝ :=
  let v := loadsLoop l ⟨[], [], [], [], false⟩ rs
  ((v.dyn.map (·.1)).sum, (v.dyn.map (·.2)).sum)

end GridPACK.DsLoad
