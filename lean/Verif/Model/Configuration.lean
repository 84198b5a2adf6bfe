/-! Model of `Configuration` (src/configuration/configuration.cpp).

A `boost::property_tree::ptree` is a node with data and an ordered list of named children.  XML parsing
(`read_xml`) and the conversion of text to a number are parameters. -/
namespace GridPACK.Configuration

abbrev Str := List Char

inductive Tree
  | node (data : Str) (kids : List (Str × Tree))

def Tree.data : Tree → Str
  | .node d _ => d

def Tree.kids : Tree → List (Str × Tree)
  | .node _ k => k

/-- Pieces of a key as boost's path type consumes them: split at '.', an empty piece at the very end is
dropped. -/
def fragAux (cur : Str) : Str → List Str
  | [] => if cur = [] then [] else [cur]
  | c :: cs => if c = '.' then cur :: fragAux [] cs else fragAux (cur ++ [c]) cs

def fragments (key : Str) : List Str := fragAux [] key

/-- First child with the given name. -/
def findKid (name : Str) : List (Str × Tree) → Option Tree
  | [] => none
  | (n, t) :: rest => if n = name then some t else findKid name rest

/-- `get_child_optional` on a list of fragments. -/
def walk : List Str → Tree → Option Tree
  | [], t => some t
  | n :: ns, t =>
    match findKid n t.kids with
    | some c => walk ns c
    | none => none

/-- `getCursor` (317-324). -/
def getCursor (t : Tree) (key : Str) : Option Tree := walk (fragments key) t

/-- `pt.get_optional<T>(key)`: child found and its text converts. -/
def getOptional (parse : Str → Option α) (t : Tree) (key : Str) : Option α :=
  match getCursor t key with
  | some c => parse c.data
  | none => none

/-- `get0_bool` (264-273): result and output location afterwards. -/
def get0Bool (parse : Str → Option α) (t : Tree) (key : Str) (output : α) : Bool × α :=
  match getOptional parse t key with
  | some v => (true, v)
  | none => (false, output)

/-- `get0` (260-263). -/
def get0 (parse : Str → Option α) (t : Tree) (key : Str) (dflt : α) : α :=
  match getOptional parse t key with
  | some v => v
  | none => dflt

/-- The two `replace` calls (285-286, 293-294): leading, then trailing blanks are erased. -/
def trimBlanks (s : Str) : Str :=
  ((s.dropWhile (· = ' ')).reverse.dropWhile (· = ' ')).reverse

/-- `get(key, std::string*)` (289-296). -/
def getString (t : Tree) (key : Str) (output : Str) : Bool × Str :=
  ((get0Bool some t key output).1, trimBlanks (get0Bool some t key output).2)

/-- `get(key, const std::string&)` (281-288). -/
def getStringDefault (t : Tree) (key : Str) (dflt : Str) : Str := trimBlanks (get0 some t key dflt)

/-- `get(key, std::vector<double>*)` (307-314); `zero` is the number 0.0. -/
def getVector (parse : Str → Option α) (zero : α) (t : Tree) (key : Str) (output : List α) :
    Bool × List α :=
  match getCursor t key with
  | some c => (true, output ++ [get0 parse c ['x'] zero, get0 parse c ['y'] zero, get0 parse c ['z'] zero])
  | none => (false, output)

/-- `merge_trees(pt, "", pt0)` (31-40, called in 225): every top element of the new file is appended.
Simplification: top element names without '.'. -/
def merge (pt pt0 : Tree) : Tree := .node pt.data (pt.kids ++ pt0.kids)

/-! ### openStringFile (166-219) and initialize_internal (238-257) -/

inductive Coll
  | bcastInt
  | bcastChars (n : Int)
deriving DecidableEq

/-- What a process does: collective calls, and the result (`none`: the assertion fails). -/
structure Outcome where
  calls : List Coll
  result : Option Bool
  tree : Tree

/-- `n` on process 0 (181-190). -/
def rootN (file : List Str) : Int := if file = [] then -1 else (file.flatten.length : Int)

/-- `pimpl->initialize` (221-227): failure leaves the tree alone. -/
def initTree (readXml : Str → Option Tree) (t : Tree) (s : Str) : Bool × Tree :=
  match readXml s with
  | some t0 => (true, merge t t0)
  | none => (false, t)

/-- Process 0. -/
def openRoot (readXml : Str → Option Tree) (t : Tree) (file : List Str) : Outcome :=
  if rootN file > 0 then
    ⟨[.bcastInt, .bcastChars (rootN file)], some (initTree readXml t file.flatten).1,
      (initTree readXml t file.flatten).2⟩
  else ⟨[.bcastInt], some false, t⟩

/-- The other processes, given the broadcast values. -/
def openOther (readXml : Str → Option Tree) (t : Tree) (n : Int) (s : Str) : Outcome :=
  if n = 0 then ⟨[.bcastInt], some false, t⟩
  else if n > 0 ∧ n < 2 ^ 30 then
    ⟨[.bcastInt, .bcastChars n], some (initTree readXml t s).1, (initTree readXml t s).2⟩
  else ⟨[.bcastInt], none, t⟩

end GridPACK.Configuration
