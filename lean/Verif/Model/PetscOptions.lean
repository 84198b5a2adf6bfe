/-! Model of `PETScConfigurable` (src/math/petsc/petsc_configurable.cpp), the way in which the options of a
solver object travel through the option table of PETSc, which is common to the whole process.

The table is a map from option names (without the dash) to optional values; PETSc compares names without regard
to case, so names are stored in small letters.  `PetscOptionsInsertString` is modelled by its documented rule: a
word that looks like an option is entered, with the next word as its value unless that looks like an option
too; other words are skipped.  Quotation marks in the option string, the special options `-options_file`,
`-prefix_push`, `-prefix_pop`, and the words `-inf` and `-nan` (numbers for PETSc) are not modelled.
`PetscOptionsClearValue` takes a name out of the table.  An object that is built with a prefix reads the entry of
the prefix followed by the name of the option.  Prefix and option string come from the configuration
(`Model/Configuration.lean`). -/
namespace GridPACK.PetscOptions

abbrev Str := List Char

/-- The option table of PETSc: name in small letters ↦ entry (with or without value). -/
abbrev Db := Str → Option (Option Str)

/-- Names are compared without regard to case. -/
def lower (s : Str) : Str := s.map Char.toLower

/-- The separators of the tokenizer (155, 190). -/
def isSep (c : Char) : Bool :=
  c == ' ' || c == '\t' || c == '\x0c' || c == '\n' || c == '\r' || c == '\x0b'

/-- `boost::tokenizer` with separators that are dropped, empty words are dropped (155-159, 190-194). -/
def wordsAux : Str → Str → List Str
  | cur, [] => if cur = [] then [] else [cur.reverse]
  | cur, c :: s =>
    if isSep c then (if cur = [] then wordsAux [] s else cur.reverse :: wordsAux [] s)
    else wordsAux (c :: cur) s

def words (s : Str) : List Str := wordsAux [] s

/-- `prefixOptionMaybe` (117-130). -/
def prefixOptionMaybe (pre : Str) (opt : Str) : Str :=
  match opt with
  | d :: c :: r => if d = '-' ∧ c.isLower then '-' :: (pre ++ c :: r) else opt
  | _ => opt

/-- `PetscOptionsValidKey`: the name meant by a word, if the word looks like an option. -/
def keyOf (w : Str) : Option Str :=
  match w with
  | d :: c :: r =>
    if d = '-' then
      if c.isAlpha then some (c :: r)
      else if c = '-' then
        match r with
        | e :: r' => if e.isAlpha then some (e :: r') else none
        | [] => none
      else none
    else none
  | _ => none

/-- Entry of the table: `PetscOptionsSetValue`. -/
def setValue (db : Db) (name : Str) (v : Option Str) : Db :=
  fun k => if k = lower name then some v else db k

/-- `PetscOptionsInsertString` on the words of the string. -/
def insertWords : List Str → Db → Db
  | [], db => db
  | [w], db =>
    match keyOf w with
    | some n => setValue db n none
    | none => db
  | w :: v :: ws, db =>
    match keyOf w with
    | some n =>
      match keyOf v with
      | none => insertWords ws (setValue db n (some v))
      | some _ => insertWords (v :: ws) (setValue db n none)
    | none => insertWords (v :: ws) db

/-- The part of a solver object that matters here: `p_prefix`, `p_loadedOptions`. -/
structure Obj where
  pre : Str
  loaded : Str

/-- The object as constructed (82-84). -/
def Obj.new : Obj := ⟨[], []⟩

/-- The underscore that ends every prefix (148-150). -/
def normPrefix (p : Str) : Str := if p.getLast? = some '_' then p else p ++ ['_']

/-- The options as they are handed to PETSc (156-164): `optsmod`. -/
def loadedString (pre : Str) (opts : Str) : Str :=
  (words opts).flatMap (fun w => prefixOptionMaybe pre w ++ [' '])

/-- `p_processOptions` (142-181); `p` is the prefix found in the configuration or generated, `opts` the option
string of the configuration. -/
def processOptions (p : Str) (opts : Str) (db : Db) : Obj × Db :=
  let pre := normPrefix p
  let l := loadedString pre opts
  (⟨pre, l⟩, insertWords (words l) db)

/-- `PetscOptionsClearValue` (203-205). -/
def clearValue (db : Db) (w : Str) : Db :=
  match keyOf w with
  | some n => fun k => if k = lower n then none else db k
  | none => db

/-- Test of the loop in `p_unprocessOptions` (195). -/
def looksLoaded (w : Str) : Bool :=
  match w with
  | d :: c :: _ => d = '-' && c.isLower
  | _ => false

/-- `p_unprocessOptions` (187-210), called by the destructor (86-93). -/
def unprocessOptions (o : Obj) (db : Db) : Db :=
  (words o.loaded).foldl (fun db w => if looksLoaded w then clearValue db w else db) db

/-- What an object built with the prefix `pre` finds under the name of an option. -/
def view (db : Db) (pre name : Str) : Option (Option Str) := db (lower (pre ++ name))

/-- Events in the life of the solver objects of a process. -/
inductive Op where
  /-- `configure` of object `i`: prefix and option string of its configuration block -/
  | configure (i : Nat) (p opts : Str)
  /-- destruction of object `i` -/
  | destroy (i : Nat)

structure Proc where
  db : Db
  obj : Nat → Obj

/-- One event. -/
def step (s : Proc) : Op → Proc
  | .configure i p opts =>
    let r := processOptions p opts s.db
    ⟨r.2, fun j => if j = i then r.1 else s.obj j⟩
  | .destroy i => ⟨unprocessOptions (s.obj i) s.db, fun j => if j = i then Obj.new else s.obj j⟩

/-- A history of events from the table `db`. -/
def run (db : Db) (ops : List Op) : Proc := ops.foldl step ⟨db, fun _ => Obj.new⟩

end GridPACK.PetscOptions
