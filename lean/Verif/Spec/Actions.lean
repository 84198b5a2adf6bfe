import Verif.Model.Actions
import Verif.Props.YMatrix

/-! Specification of the commands given to a running simulation. -/
namespace GridPACK.Actions

open Complex YMatrix

/-- Branch `b` joins the buses `i` and `j` (in either direction). -/
def Joins (b : Branch) (i j : Nat) : Prop := (b.bus1 = i ∧ b.bus2 = j) ∨ (b.bus1 = j ∧ b.bus2 = i)

/-- A properly distributed network: the ends of a branch differ, two buses are joined by at most one branch, the circuits
of a branch have different ids; every process lists each of its branches once, and the owner of a bus holds all branches
at it. -/
structure Net.Good (n : Net) : Prop where
  ends : ∀ (k : Nat) (b : Branch), n.branches[k]? = some b → b.bus1 ≠ b.bus2
  unique : ∀ (k l : Nat) (b c : Branch), n.branches[k]? = some b → n.branches[l]? = some c → Joins c b.bus1 b.bus2 → l = k
  tags : ∀ (k : Nat) (b : Branch), n.branches[k]? = some b → (b.elems.map Elem.tag).Nodup
  nodup : ∀ p, (n.loc p).Nodup
  held : ∀ (k : Nat) (b : Branch), n.branches[k]? = some b → k ∈ n.loc (n.owner b.bus1) ∧ k ∈ n.loc (n.owner b.bus2)
  ranks : ∀ i, n.owner i < n.np

/-- Which circuits are in service: `st k` lists them for branch `k`. -/
def InService (st : Nat → List Bool) (t : Nat × Nat) : Prop := (st t.1)[t.2]? = some true

/-- The command `a = (from, to, id)` names circuit `t = (branch, circuit)`, which is in service. -/
def Hits (n : Net) (st : Nat → List Bool) (a : Nat × Nat × List Char) (t : Nat × Nat) : Prop :=
  ∃ (b : Branch) (e : Elem), n.branches[t.1]? = some b ∧ Joins b a.1 a.2.1 ∧ b.elems[t.2]? = some e ∧ e.tag = a.2.2 ∧ InService st t

/-- The commands of one interval between two steps name the circuits `ts` (others name nothing in service). -/
def Interval (n : Net) (st : Nat → List Bool) (acts : List (Nat × Nat × List Char)) (ts : List (Nat × Nat)) : Prop :=
  ∃ os : List (Option (Nat × Nat)),
    List.Forall₂ (fun a o => ∀ t, o = some t ↔ Hits n st a t) acts os ∧ ts = os.filterMap id

/-- What an in-service circuit contributes to the entry (i, j) of the admittance matrix: its two-port with the shunts at
its ends (see C80). -/
noncomputable def portAt (b : Branch) (e : Elem) (i j : Nat) : ℂ :=
  let e := { e with status := true }
  (if i = b.bus1 ∧ j = b.bus1 then e.port11 + e.endShunt .bus1 else 0) +
  (if i = b.bus2 ∧ j = b.bus2 then e.port22 + e.endShunt .bus2 else 0) +
  (if i = b.bus1 ∧ j = b.bus2 then e.port12 else 0) +
  (if i = b.bus2 ∧ j = b.bus1 then e.port21 else 0)

/-- The same by position. -/
noncomputable def contribution (n : Net) (t : Nat × Nat) (i j : Nat) : ℂ :=
  match n.branches[t.1]? with
  | some b => match b.elems[t.2]? with
    | some e => portAt b e i j
    | none => 0
  | none => 0

/-- The circuit has no shunts at its ends and shifts no phase. -/
def Plain (n : Net) (t : Nat × Nat) : Prop :=
  ∀ (b : Branch) (e : Elem), n.branches[t.1]? = some b → b.elems[t.2]? = some e →
    (e.xform = true → e.phase = 0) ∧ (e.shunt = true → e.g1 = 0 ∧ e.b1 = 0 ∧ e.g2 = 0 ∧ e.b2 = 0)

/-- A branch with a circuit in service is active. -/
def Active (n : Net) (st : Nat → List Bool) : Prop :=
  ∀ (k : Nat) (b : Branch) (c : Nat), n.branches[k]? = some b → InService st (k, c) → b.active = true

/-- Nothing is pending, and all processes know which circuits are in service. -/
structure World.Clean (n : Net) (st : Nat → List Bool) (w : World) : Prop where
  status : ∀ p, ∀ k ∈ n.loc p, (w.procs p).status k = st k
  pend : ∀ p k, (w.procs p).pend k = []
  flag : ∀ p k, (w.procs p).flag k = false
  trips : ∀ p i, (w.procs p).trips i = []
  toTrip : ∀ p, (w.procs p).toTrip = []
  apply : w.apply = false

/-- Exactly the circuits `ts` have gone out of service. -/
def Removed (st st' : Nat → List Bool) (ts : List (Nat × Nat)) : Prop :=
  ∀ t, InService st' t ↔ InService st t ∧ t ∉ ts

/-- A run: the commands of an interval, then a step, and so on. -/
noncomputable def World.run (n : Net) (w : World) (ivs : List (List (Nat × Nat × List Char))) : World :=
  ivs.foldl (fun w acts => (acts.foldl (World.tripNamed n) w).step n) w

/-- A run in which each interval names plain circuits of different branches; `all` are the circuits named. -/
inductive Schedule (n : Net) : (Nat → List Bool) → List (List (Nat × Nat × List Char)) → List (Nat × Nat) → Prop
  | nil (st : Nat → List Bool) : Schedule n st [] []
  | cons (st : Nat → List Bool) (acts : List (Nat × Nat × List Char)) (ts : List (Nat × Nat))
      (rest : List (List (Nat × Nat × List Char))) (all : List (Nat × Nat))
      (hits : Interval n st acts ts) (distinct : (ts.map Prod.fst).Nodup) (plain : ∀ t ∈ ts, Plain n t)
      (next : ∀ st', Removed st st' ts → Schedule n st' rest all) : Schedule n st (acts :: rest) (ts ++ all)

/-! ### Loads -/

/-- A bus about whose static load no command has been given. -/
def LoadBus.Fresh (b : LoadBus) : Prop :=
  b.chP = false ∧ b.chQ = false ∧ b.zeroP = false ∧ b.zeroQ = false ∧ b.toVal = false ∧ b.shed = false ∧
    b.remain = 1 ∧ b.scat = false ∧ b.comp = false ∧ b.cur = false

/-- No change is waiting for the next step. -/
def Loads.Idle (s : Loads) : Prop :=
  (∀ i, (s.bus i).chP = false ∧ (s.bus i).chQ = false) ∧ s.bP = false ∧ s.bQ = false ∧ s.needP = [] ∧ s.needQ = []

/-- Changes of static loads in MW and MVar: bus, true for active power, amount. -/
abbrev Change := Nat × Bool × ℝ

noncomputable def Loads.command (s : Loads) (c : Change) : Loads :=
  if c.2.1 then s.changeP c.1 c.2.2 else s.changeQ c.1 c.2.2

/-- The constant admittance of a load change of `c` at a bus with initial voltage `v`, on the base `sbase`. -/
noncomputable def changeY (sbase v : ℝ) (c : Change) : ℂ :=
  (if c.2.1 then (c.2.2 : ℂ) else -I * c.2.2) / (sbase * v ^ 2)

/-- The current a load drawing the power `S` takes at voltage `V`. -/
noncomputable def powerCurrent (S V : ℂ) : ℂ := (starRingEnd ℂ) (S / V)

end GridPACK.Actions
