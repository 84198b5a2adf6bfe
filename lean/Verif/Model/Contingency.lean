import Verif.Model.FactoryChecks

/-! Model of `PFAppModule::setContingency` and `unSetContingency`
(src/applications/modules/powerflow/pf_app_module.cpp 869-969) on one process.

A bus (for generator outages) or a branch (for line outages) is a component with a key and a list of elements.
`getLocalBusIndices` / `getLocalBranchIndices` return the local components with the given key, in order of their
local index.  The two copies of the line status, in `PFBranch` and in `YMBranch`, are one list here.  The
value `p_contingency_name` and printing are left out. -/
namespace GridPACK.Contingency

/-- A generator (`p_gid`, `p_gstatus`, and (`p_pFac`, `p_qmax`, `p_qmin`) with their `_orig` copies) or a line
(`p_ckt`, `p_branch_status`; no values). -/
structure Elem where
  tag : String
  status : Int
  val : ℝ × ℝ × ℝ
  orig : ℝ × ℝ × ℝ

/-- `getGenStatus` (pf_components.cpp 701-711), `getBranchStatus` (2395-2405). -/
def getStatus (tag : String) : List Elem → Bool
  | [] => false
  | e :: es => if tag = e.tag then decide (e.status ≠ 0) else getStatus tag es

/-- What `setGenStatus` does to the element found (741-751). -/
noncomputable def Elem.set (e : Elem) (status : Bool) : Elem :=
  if status then { e with status := 1, val := e.orig } else { e with status := 0, val := (0, 0, 0) }

/-- `setGenStatus` (736-755), `setBranchStatus` (2412-2423). -/
noncomputable def setStatus (tag : String) (status : Bool) : List Elem → List Elem
  | [] => []
  | e :: es => if tag = e.tag then e.set status :: es else e :: setStatus tag status es

/-- A bus with its generators, or a branch with its lines; `key` is the original bus index or the pair of
original bus indices. -/
structure Comp (κ : Type) where
  key : κ
  elems : List Elem

/-- An element of a contingency: where, which tag, and the saved status. -/
structure Entry (κ : Type) where
  key : κ
  tag : String
  save : Bool

section
variable {κ : Type} [DecidableEq κ]

/-- Loop over the local components with the key (setContingency 882-888, 901-907). -/
noncomputable def applyEntry (k : κ) (t : String) : List (Comp κ) → Bool → List (Comp κ) × Bool
  | [], s => ([], s)
  | c :: cs, s =>
    if c.key = k then
      let r := applyEntry k t cs (getStatus t c.elems)
      ({ c with elems := setStatus t false c.elems } :: r.1, r.2)
    else
      let r := applyEntry k t cs s
      (c :: r.1, r.2)

/-- Loop over the entries (876-889, 894-908). -/
noncomputable def applyAll : List (Entry κ) → List (Comp κ) → List (Comp κ) × List (Entry κ)
  | [], cs => (cs, [])
  | e :: es, cs =>
    let r := applyEntry e.key e.tag cs e.save
    let r' := applyAll es r.1
    (r'.1, { e with save := r.2 } :: r'.2)

/-- Loop over the local components in unSetContingency (939-944, 956-961). -/
noncomputable def restoreEntry (k : κ) (t : String) (s : Bool) (cs : List (Comp κ)) : List (Comp κ) :=
  cs.map (fun c => if c.key = k then { c with elems := setStatus t s c.elems } else c)

/-- Loop over the entries (934-945, 950-962). -/
noncomputable def restoreAll : List (Entry κ) → List (Comp κ) → List (Comp κ)
  | [], cs => cs
  | e :: es, cs => restoreAll es (restoreEntry e.key e.tag e.save cs)

/-- `ret` on one process (880, 898). -/
def found (es : List (Entry κ)) (cs : List (Comp κ)) : Bool :=
  es.all (fun e => cs.any (fun c => decide (c.key = e.key)))

end

/-- A bus as the lone-bus check sees it; `nbrs` are the local indices of its branches. -/
structure NBus where
  active : Bool
  isolated : Bool
  nbrs : List Nat

/-- The network on one process and `p_saveIsolatedStatus`. -/
structure State where
  gens : List (Comp Int)
  lines : List (Comp (Int × Int))
  buses : List NBus
  saved : List Bool

inductive Event
  | generator (es : List (Entry Int))
  | branch (es : List (Entry (Int × Int)))
  | unknown

/-- Line statuses of branch `j` (`getLineStatus`). -/
def statuses (lines : List (Comp (Int × Int))) (j : Nat) : List Bool :=
  match lines[j]? with
  | some c => c.elems.map (fun e => decide (e.status ≠ 0))
  | none => []

def view (lines : List (Comp (Int × Int))) (b : NBus) : FactoryChecks.LBus :=
  ⟨b.active, b.isolated, b.nbrs.map (statuses lines)⟩

/-- Writing the isolated flags of the checked buses back. -/
def writeBack (bs : List NBus) (ls : List FactoryChecks.LBus) : List NBus :=
  List.zipWith (fun b l => { b with isolated := l.isolated }) bs ls

/-- `p_factory->checkLoneBus()` (917). -/
def checkLone (st : State) : State :=
  let r := FactoryChecks.loneLoop (st.buses.map (view st.lines))
  { st with buses := writeBack st.buses r.1, saved := r.2.1 }

/-- `p_factory->clearLoneBus()` (929); `none` if the saved statuses are read past their end. -/
def clearLone (st : State) : Option State :=
  (FactoryChecks.clearLoneBus (st.buses.map (view st.lines)) st.saved).map
    (fun ls => { st with buses := writeBack st.buses ls })

/-- `setContingency` (869-919): new state, event with the saved statuses, returned value. -/
noncomputable def setContingency (st : State) : Event → State × Event × Bool
  | .generator es =>
    let r := applyAll es st.gens
    (checkLone { st with gens := r.1 }, .generator r.2, found es st.gens)
  | .branch es =>
    let r := applyAll es st.lines
    (checkLone { st with lines := r.1 }, .branch r.2, found es st.lines)
  | .unknown => (checkLone st, .unknown, false)

/-- `unSetContingency` (926-969). -/
noncomputable def unSetContingency (st : State) (ev : Event) : Option State :=
  match clearLone st with
  | none => none
  | some st =>
    match ev with
    | .generator es => some { st with gens := restoreAll es st.gens }
    | .branch es => some { st with lines := restoreAll es st.lines }
    | .unknown => some st

end GridPACK.Contingency
