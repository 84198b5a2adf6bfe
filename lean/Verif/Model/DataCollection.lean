/-!
Model of `gridpack::component::DataCollection`,
/repo/src/component/data_collection.cpp, with `OLD_MAP` defined as in data_collection.hpp:9
(`std::map` containers).

Simplifications: a `std::map` is an association list with unique keys
(iteration order is never observed except by `dump`, which is not modelled).  Values are
of an arbitrary type `V t` for each of the seven value kinds `t`.
-/
namespace GridPACK.DataCollection

/-- The seven typed maps `p_ints … p_complexType` (data_collection.cpp:31-37). -/
inductive Ty where
  | int | long | bool | string | float | double | complex
deriving DecidableEq, Repr

/-- `sprintf("%d")` for non-negative numbers: decimal digits, no leading zeros. -/
def natDec (n : Nat) : List Char :=
  if h : n < 10 then [Char.ofNat (48 + n)]
  else natDec (n / 10) ++ [Char.ofNat (48 + n % 10)]
termination_by n
decreasing_by omega

/-- `sprintf(buf,"%d",idx)` (data_collection.cpp:103 and all other indexed functions). -/
def intDec : Int → List Char
  | .ofNat n => natDec n
  | .negSucc n => '-' :: natDec (n + 1)

/-- How a caller addresses an entry: by name, or by name and index. -/
structure Key where
  name : List Char
  idx : Option Int
deriving DecidableEq, Repr

/-- The key used in the map.  Plain: data_collection.cpp:48.  Indexed: lines 100-104:
name, then ":", then the decimal index, which is printed into `char buf[8]`.  Printing
more than 7 characters (plus the terminating zero) overruns the buffer: undefined
behaviour, modelled as `none`. -/
def mapKey (k : Key) : Option (List Char) :=
  match k.idx with
  | none => some k.name
  | some i => if (intDec i).length ≤ 7 then some (k.name ++ ':' :: intDec i) else none

/-- `map::find`. -/
def find {α : Type} (m : List (List Char × α)) (s : List Char) : Option α :=
  match m with
  | [] => none
  | (k, v) :: m => if k = s then some v else find m s

/-- `map::insert`: no effect when the key exists. -/
def insert {α : Type} (m : List (List Char × α)) (s : List Char) (v : α) :
    List (List Char × α) :=
  match find m s with
  | some _ => m
  | none => m ++ [(s, v)]

/-- `it->second = value` for the element found under `s`. -/
def assign {α : Type} (m : List (List Char × α)) (s : List Char) (v : α) :
    List (List Char × α) :=
  match m with
  | [] => []
  | (k, w) :: m => if k = s then (k, v) :: m else (k, w) :: assign m s v

variable {V : Ty → Type}

/-- The object: one map per type. -/
def Coll (V : Ty → Type) := (t : Ty) → List (List Char × V t)

/-- A freshly constructed collection (data_collection.cpp:13-15). -/
def empty : Coll V := fun _ => []

/-- Replace the map of one type. -/
def Coll.update (c : Coll V) (t : Ty) (m : List (List Char × V t)) : Coll V :=
  fun u => if h : u = t then h ▸ m else c u

/-- `addValue` (data_collection.cpp:46-87, indexed 97-172). `none`: undefined behaviour. -/
def addValue (c : Coll V) (t : Ty) (k : Key) (v : V t) : Option (Coll V) :=
  (mapKey k).map fun s => c.update t (insert (c t) s v)

/-- `setValue` (data_collection.cpp:183-301, indexed 313-466). -/
def setValue (c : Coll V) (t : Ty) (k : Key) (v : V t) : Option (Coll V × Bool) :=
  (mapKey k).map fun s =>
    match find (c t) s with
    | some _ => (c.update t (assign (c t) s v), true)
    | none => (c, false)

/-- `getValue` (data_collection.cpp:476-593, indexed 605-757).  `old` is the content of the
caller's variable; the result is the returned flag and the content afterwards.  (The indexed
bool overload, lines 649-669, contains its search only in the `OLD_MAP` variant; that is the
variant compiled.) -/
def getValue (c : Coll V) (t : Ty) (k : Key) (old : V t) : Option (Bool × V t) :=
  (mapKey k).map fun s =>
    match find (c t) s with
    | some v => (true, v)
    | none => (false, old)

/-- Calls a client can make. -/
inductive Op (V : Ty → Type) where
  | add (t : Ty) (k : Key) (v : V t)
  | set (t : Ty) (k : Key) (v : V t)
  | get (t : Ty) (k : Key) (old : V t)

/-- What the client observes from one call. -/
inductive Obs (V : Ty → Type) where
  | unit
  | flag (b : Bool)
  | value (b : Bool) (t : Ty) (v : V t)

/-- One call. -/
def step (c : Coll V) : Op V → Option (Coll V × Obs V)
  | .add t k v => (addValue c t k v).map fun c' => (c', .unit)
  | .set t k v => (setValue c t k v).map fun r => (r.1, .flag r.2)
  | .get t k old => (getValue c t k old).map fun r => (c, .value r.1 t r.2)

/-- Observations of a history of calls; `none` if some call is undefined behaviour. -/
def run (c : Coll V) : List (Op V) → Option (List (Obs V))
  | [] => some []
  | o :: os => match step c o with
    | none => none
    | some (c', b) => (run c' os).map (b :: ·)

/-- `operator=` (data_collection.cpp:27-39): copies all seven maps. -/
def copy (rhs : Coll V) : Coll V := fun t =>
  match t with
  | .int => rhs .int
  | .long => rhs .long
  | .bool => rhs .bool
  | .string => rhs .string
  | .float => rhs .float
  | .double => rhs .double
  | .complex => rhs .complex

end GridPACK.DataCollection
