import Verif.Model.Relay
import Verif.Model.GhostUpdate

/-! Model of what buses and branches of the dynamic simulation do with their relays
(src/applications/modules/dynamic_simulation_full_y/dsf_components.cpp, dsf_factory.cpp).

The voltage, frequency and branch currents of the current time step are stored in the bus or branch.  The Norton
admittance of a generator is a constant.  Generators with relays are on buses that compute their frequency
(`bcomputefreq`). -/
namespace GridPACK.RelayUpdate

open GridPACK.Relay

/-- A load relay with its load share and `boperationstatus` (base_relay_model.cpp). -/
structure LoadRelay where
  p : LvParams
  frac : ℝ
  st : LvState
  op : Bool

structure GenRelay where
  p : FrParams
  st : FrState
  op : Bool

/-- A generator: `p_gstatus`, service status of the generator model, Norton admittance and relays. -/
structure Gen where
  status : Bool
  service : Bool
  y : ℂ
  relays : List GenRelay

/-- A bus: `p_volt_full`, bus frequency, `p_ybusr + i p_ybusi`, `p_loadimpedancer + i p_loadimpedancei`, load
relays, generators and `p_busrelaytripflag`. -/
structure Bus where
  volt : ℂ
  freq : ℝ
  y : ℂ
  loadY : ℂ
  loads : List LoadRelay
  gens : List Gen
  tripFlag : Bool

/-- Loop over the load relays (dsf_components.cpp 1957-1981).  The arguments `y` and `flag` are `p_ybus` and
`bbusflag`. -/
noncomputable def updateLoads (dt : ℝ) (volt loadY : ℂ) : List LoadRelay → ℂ → Bool → List LoadRelay × ℂ × Bool
  | [], y, flag => ([], y, flag)
  | r :: rs, y, flag =>
    let st := lvUpdate r.p dt r.st volt
    if st.shed && !st.shedPrev && r.op then
      let t := updateLoads dt volt loadY rs (y - loadY * r.frac) true
      ({ r with st := st, op := false } :: t.1, t.2)
    else
      let t := updateLoads dt volt loadY rs y flag
      ({ r with st := st } :: t.1, t.2)

/-- Loop over the relays of one generator (2002-2028): relays, service status, `p_ybus`, `bbusflag`. -/
noncomputable def updateGenRelays (dt freq : ℝ) (ya : ℂ) :
    List GenRelay → Bool → ℂ → Bool → List GenRelay × Bool × ℂ × Bool
  | [], service, y, flag => ([], service, y, flag)
  | r :: rs, service, y, flag =>
    let st := frUpdate r.p dt r.st freq
    if st.trip && !st.tripPrev && r.op then
      let t := updateGenRelays dt freq ya rs false (y - ya) true
      ({ r with st := st, op := false } :: t.1, t.2)
    else
      let t := updateGenRelays dt freq ya rs service y flag
      ({ r with st := st } :: t.1, t.2)

/-- Loop over the generators (1997-2030). -/
noncomputable def updateGens (dt freq : ℝ) : List Gen → ℂ → Bool → List Gen × ℂ × Bool
  | [], y, flag => ([], y, flag)
  | g :: gs, y, flag =>
    if !g.status then
      let t := updateGens dt freq gs y flag
      (g :: t.1, t.2)
    else
      let u := updateGenRelays dt freq g.y g.relays g.service y flag
      let t := updateGens dt freq gs u.2.2.1 u.2.2.2
      ({ g with relays := u.1, service := u.2.1 } :: t.1, t.2)

/-- `DSFullBus::updateRelay` (1944-2034). -/
noncomputable def Bus.update (dt : ℝ) (b : Bus) : Bus × Bool :=
  let l := updateLoads dt b.volt b.loadY b.loads b.y false
  let g := updateGens dt b.freq b.gens l.2.1 l.2.2
  ({ b with y := g.2.1, loads := l.1, gens := g.1, tripFlag := g.2.2 }, g.2.2)

/-- Loop of `updateBusRelay` (dsf_factory.cpp 333-336).  The right operand of `||` is not evaluated if the left one
is true. -/
noncomputable def updateBuses (dt : ℝ) : List Bus → Bool → List Bus × Bool
  | [], flag => ([], flag)
  | b :: bs, flag =>
    if flag then
      let t := updateBuses dt bs true
      (b :: t.1, t.2)
    else
      let u := b.update dt
      let t := updateBuses dt bs u.2
      (u.1 :: t.1, t.2)

/-- `updateBusRelay` on all `n` processes (326-340): every process returns what `checkTrueSomewhere` makes of the local
flags. -/
noncomputable def updateBusRelay (dt : ℝ) (n : Nat) (buses : Nat → List Bus) : Nat → Bool :=
  fun _me => GhostUpdate.checkTrueSomewhere n (fun p => (updateBuses dt (buses p) false).2)

/-! ### Branches -/

/-- A line relay: `p_linerelays` and `p_relaybranchidx`. -/
structure LineRelay where
  p : DiParams
  idx : Nat
  st : DiState
  op : Bool

/-- A branch: bus at each end, `p_branchfrombusvolt`, currents, impedances and status of its circuits, relays,
`p_newtripbranchcktidx` and `p_branchrelaytripflag`. -/
structure Branch where
  bus1 : Nat
  bus2 : Nat
  volt : ℂ
  curr : Nat → ℂ
  z : Nat → ℂ
  status : Nat → Bool
  relays : List LineRelay
  newTrip : List Nat
  tripFlag : Bool

/-- `getBranchRelayTripUpdateFactor` (3798-3819). -/
noncomputable def Branch.factor (b : Branch) : ℂ := (b.newTrip.map (fun i => -1 / b.z i)).sum

/-- Relay flags of a bus: `p_branchrelay_from_flag`, `p_branchrelay_to_flag`, `p_relaytrippedbranch` (the position
of the branch in the list of branches). -/
structure BusFlags where
  frm : Bool
  too : Bool
  branch : Option Nat

/-- What the loop over the line relays changes. -/
structure LoopState where
  relays : List LineRelay
  status : Nat → Bool
  newTrip : List Nat
  flag : Bool

/-- Loop over the line relays (3614-3648). -/
noncomputable def updateLine (dt : ℝ) (volt : ℂ) (curr : Nat → ℂ) : List LineRelay → (Nat → Bool) → List Nat → Bool →
    LoopState
  | [], status, nt, flag => ⟨[], status, nt, flag⟩
  | r :: rs, status, nt, flag =>
    let st := diUpdate r.p dt r.st (volt, curr r.idx)
    if st.trip && !st.tripPrev && r.op then
      let t := updateLine dt volt curr rs (fun i => if i = r.idx then false else status i) (nt ++ [r.idx]) true
      { t with relays := { r with st := st, op := false } :: t.relays }
    else
      let t := updateLine dt volt curr rs status nt flag
      { t with relays := { r with st := st } :: t.relays }

/-- `DSFullBranch::updateRelay` (3586-3653) of the branch at position `k`.  The bus flags that every tripping relay
sets are set once, after the loop; nothing reads them during the loop. -/
noncomputable def Branch.update (dt : ℝ) (k : Nat) (b : Branch) (fl : Nat → BusFlags) :
    Branch × (Nat → BusFlags) × Bool :=
  let t := updateLine dt b.volt b.curr b.relays b.status [] false
  let cleared := fun i => if i = b.bus1 ∨ i = b.bus2 then (⟨false, false, none⟩ : BusFlags) else fl i
  let marked := fun i =>
    let f := cleared i
    let f := if i = b.bus1 then ⟨true, f.too, some k⟩ else f
    if i = b.bus2 then ⟨f.frm, true, some k⟩ else f
  ({ b with relays := t.relays, status := t.status, newTrip := t.newTrip, tripFlag := t.flag },
    if t.flag then marked else cleared, t.flag)

/-- Loop of `updateBranchRelay` (dsf_factory.cpp 349-351), from position `k`. -/
noncomputable def updateBranches (dt : ℝ) : Nat → List Branch → (Nat → BusFlags) → Bool →
    List Branch × (Nat → BusFlags) × Bool
  | _, [], fl, flag => ([], fl, flag)
  | k, b :: bs, fl, flag =>
    if flag then
      let t := updateBranches dt (k + 1) bs fl true
      (b :: t.1, t.2)
    else
      let u := b.update dt k fl
      let t := updateBranches dt (k + 1) bs u.2.1 u.2.2
      (u.1 :: t.1, t.2)

/-- `updateBranchRelay` (342-355) on all processes: each process returns its own flag. -/
noncomputable def updateBranchRelay (dt : ℝ) (branches : Nat → List Branch) (fl : Nat → Nat → BusFlags) (me : Nat) :
    Bool :=
  (updateBranches dt 0 (branches me) (fl me) false).2.2

/-- What bus `i` adds to its diagonal element in mode `branch_relay` (dsf_components.cpp 397-410). -/
noncomputable def diagChange (bs : List Branch) (fl : Nat → BusFlags) (i : Nat) : ℂ :=
  if (fl i).frm || (fl i).too then
    match (fl i).branch with
    | none => 0
    | some k => ((bs[k]?).map Branch.factor).getD 0
  else 0

/-- What a branch adds to its two off-diagonal elements in that mode (3283-3293, 3344-3352). -/
noncomputable def Branch.offDiagChange (b : Branch) : ℂ := if b.tripFlag then -b.factor else 0

end GridPACK.RelayUpdate
