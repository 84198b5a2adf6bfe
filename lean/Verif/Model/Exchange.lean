/-! Model of the all-to-all exchange idiom through Global Arrays that is used (copied) by
`GlobalIndexHashMap` (src/parallel/index_hash.cpp:51-231, 424-779) and in
`hash_distr.hpp`: sort items by destination into a linked list, reserve space at every
destination by `read_inc`, compute global offsets, write, synchronise, read back. -/
namespace GridPACK.Exchange

/-- Linked list by destination (src/parallel/index_hash.cpp:60-81): `ndest`, `ltop`, `ldest`;
`none` stands for the end marker `-1`.  `len` is the loop index. -/
structure Links where
  len : Nat
  ndest : Nat → Nat
  ltop : Nat → Option Nat
  ldest : Nat → Option Nat

def Links.empty : Links := ⟨0, fun _ => 0, fun _ => none, fun _ => none⟩

/-- src/parallel/index_hash.cpp:76-81: one pass of the linked-list loop for an item with
destination `hash`. -/
def Links.add (s : Links) (hash : Nat) : Links :=
  { len := s.len + 1
    ndest := fun d => if d = hash then s.ndest d + 1 else s.ndest d
    ldest := fun i => if i = s.len then s.ltop hash else s.ldest i
    ltop := fun d => if d = hash then some s.len else s.ltop d }

/-- src/parallel/index_hash.cpp:66-81. -/
def Links.build (dests : List Nat) : Links := dests.foldl Links.add Links.empty

/-- src/parallel/index_hash.cpp:204-208 (`while (j >= 0)`): the positions visited.  The fuel
argument bounds the number of passes; the chain strictly decreases, and the caller passes the
number of items. -/
def walk (ldest : Nat → Option Nat) : Nat → Option Nat → List Nat
  | _, none => []
  | 0, some _ => []
  | f + 1, some j => j :: walk ldest f (ldest j)

/-- src/parallel/index_hash.cpp:200-208: the buffer packed for destination `d`. -/
def packed {α : Type} (dest : α → Nat) (items : List α) (d : Nat) : List α :=
  let l := Links.build (items.map dest)
  (walk l.ldest items.length (l.ltop d)).filterMap (fun j => items[j]?)

/-- State of the reservation phase: the shared counter array and every process's `r_offset`. -/
structure Off where
  counter : Nat → Nat
  off : Nat → Nat → Nat

/-- src/parallel/index_hash.cpp:148-153: process `p` reserves room at `d` by an atomic
fetch-and-add (`NGA_Read_inc`). -/
def readInc (ndest : Nat → Nat → Nat) (s : Off) (pd : Nat × Nat) : Off :=
  if ndest pd.1 pd.2 > 0 then
    { counter := fun d => if d = pd.2 then s.counter d + ndest pd.1 pd.2 else s.counter d
      off := fun p d => if p = pd.1 ∧ d = pd.2 then s.counter pd.2 else s.off p d }
  else
    { s with off := fun p d => if p = pd.1 ∧ d = pd.2 then 0 else s.off p d }

/-- src/parallel/index_hash.cpp:146-155: all reservations, in the order `sched` in which they
happen to be executed. -/
def offsets (ndest : Nat → Nat → Nat) (sched : List (Nat × Nat)) : Off :=
  sched.foldl (readInc ndest) ⟨fun _ => 0, fun _ _ => 0⟩

/-- src/parallel/index_hash.cpp:172-176, 186-189: start of the range of destination `d`. -/
def base (num : Nat → Nat) (d : Nat) : Nat := ((List.range d).map num).sum

/-- `NGA_Put` of a buffer at position `lo`. -/
def put {α : Type} (mem : Nat → Option α) (lo : Nat) (xs : List α) : Nat → Option α :=
  fun i => if lo ≤ i ∧ i < lo + xs.length then xs[i - lo]? else mem i

/-- Collect optional values; `none` if one of them is missing (read of uninitialised memory). -/
def allSome {α : Type} : List (Option α) → Option (List α)
  | [] => some []
  | none :: _ => none
  | some a :: l => (allSome l).map (a :: ·)

/-- src/parallel/index_hash.cpp:133-228: the whole exchange.  `send p d` is the buffer of process
`p` for `d`.  `sched` is the order of the reservations, `puts` the order of the writes; both are
arbitrary interleavings.  The result is what each destination reads from its own range. -/
def exchange {α : Type} (n : Nat) (send : Nat → Nat → List α) (sched puts : List (Nat × Nat)) :
    Option (Nat → List α) :=
  let nd := fun p d => (send p d).length
  let o := offsets nd sched
  let mem := puts.foldl (fun mem pd =>
      if nd pd.1 pd.2 > 0 then
        put mem (base o.counter pd.2 + o.off pd.1 pd.2) (send pd.1 pd.2)
      else mem) (fun _ => none)
  let rd := fun d => allSome ((List.range (o.counter d)).map
      (fun i => mem (base o.counter d + i)))
  if (List.range n).all (fun d => (rd d).isSome) then some (fun d => (rd d).getD []) else none

end GridPACK.Exchange
