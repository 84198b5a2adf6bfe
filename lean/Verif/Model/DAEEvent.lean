/-! Model of `DAEEventManagerT` (src/math/dae_event.hpp).

An event source is given by its number of event values, directions, termination flags, its function from
the local state to event values, and its handler.  The caches `p_dirs`, `p_terms`, `p_values`, `p_trigger` are
filled anew on every use, so only `p_size` is kept. -/
namespace GridPACK.DAEEvent

/-- `DAEEventT` (60-166).  `σ` is the local state (including the internals of the sources). -/
structure Source (σ : Type) where
  size : Nat
  dirs : List Int
  terms : List Bool
  values : σ → List Int
  handler : List Bool → σ → σ

/-- `p_EventInfo` (320-325). -/
structure Rec (σ : Type) where
  event : Source σ
  evidx : Nat
  nval : Nat

structure Manager (σ : Type) where
  events : List (Rec σ)
  pSize : Int
  terminated : Bool

/-- Constructor (182-185). -/
def new : Manager σ := ⟨[], 0, false⟩

/-- `add` (192-213). -/
def add (m : Manager σ) (e : Source σ) : Manager σ :=
  let nextidx := match m.events.getLast? with
    | some r => r.evidx + r.nval
    | none => 0
  { m with events := m.events ++ [⟨e, nextidx, e.size⟩], pSize := -1 }

/-- `size` (216-228): result and updated cache. -/
def size (m : Manager σ) : Int × Manager σ :=
  if m.pSize ≥ 0 then (m.pSize, m)
  else
    let n := m.events.foldl (fun (acc : Int) r => acc + r.nval) 0
    (n, { m with pSize := n })

/-- `directions` (231-247). -/
def directions (m : Manager σ) : List Int := m.events.flatMap (fun r => r.event.dirs)

/-- `terminateFlags` (249-266). -/
def terminateFlags (m : Manager σ) : List Bool := m.events.flatMap (fun r => r.event.terms)

/-- `values` (270-294). -/
def values (m : Manager σ) (s : σ) : List Int := m.events.flatMap (fun r => r.event.values s)

/-- Body of the loop of `p_handle` over the sources (368-377). -/
def handleRec (trigger term : List Bool) (st : σ × Bool) (r : Rec σ) : σ × Bool :=
  match (List.range r.nval).find? (fun i => trigger.getD (r.evidx + i) false) with
  | some i =>
    (r.event.handler ((trigger.drop r.evidx).take r.nval) st.1,
      if term.getD (r.evidx + i) false then true else st.2)
  | none => st

/-- `p_handle` (350-381). -/
def handle (m : Manager σ) (eventidx : List Nat) (s : σ) : σ × Manager σ :=
  let trigger := (List.range (size m).1.toNat).map (fun i => decide (i ∈ eventidx))
  let r := m.events.foldl (handleRec trigger (terminateFlags m)) (s, m.terminated)
  (r.1, { (size m).2 with terminated := r.2 })

end GridPACK.DAEEvent
