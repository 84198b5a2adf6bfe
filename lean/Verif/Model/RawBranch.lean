import Verif.Model.YMatrix

/-! Model of reading the branch and transformer blocks of a PSS/E RAW file (version 33) and of loading the
branches built from them: src/parser/block_parsers/branch_parser33.cpp, transformer_parser33.cpp,
the parts of src/parser/PTI33_parser.hpp `getCase` (199-298) that concern branches, and `YMBranch::load`
(src/applications/components/y_matrix/ymatrix_components.cpp 450-519).

Simplifications: the model starts from records whose tokens have been converted to numbers (`atof`, `atoi`
and the tokenizer are modelled elsewhere); ratings, meters, owners and the values with prefix
`TRANSFORMER_` that only keep the input are left out; a `std::map` is a list of pairs in which a key occurs
once; a division by zero, an access outside a vector and the use of an uninitialised index are all `none`. -/
namespace GridPACK.RawBranch

open GridPACK.YMatrix

/-- The values stored for one element (one index) of a branch in its data collection. -/
structure El where
  ckt : List Char
  r : Option ℝ
  x : Option ℝ
  b : Option ℝ
  tap : Option ℝ
  shift : Option ℝ
  g1 : Option ℝ
  b1 : Option ℝ
  g2 : Option ℝ
  b2 : Option ℝ
  status : Option Int
  switched : Option Bool

/-- The data collection of a branch: BRANCH_FROMBUS, BRANCH_TOBUS, BRANCH_INDEX and its elements. -/
structure BrData where
  frm : Int
  tob : Int
  index : Nat
  elems : List El

/-- What the block parsers share: `p_branchData`, `p_branchMap`, the local `index`, `p_maxBusIndex` and the
numbers of the buses appended to `p_busData`. -/
structure St where
  branches : List BrData
  map : List ((Int × Int) × Nat)
  index : Nat
  maxBus : Int
  newBuses : List Int

/-- `p_branchMap->find`. -/
def find (m : List ((Int × Int) × Nat)) (k : Int × Int) : Option Nat :=
  (m.find? (fun e => e.1 = k)).map (fun e => e.2)

/-- `p_branchMap->insert`: does nothing when the key is present. -/
def insert (m : List ((Int × Int) × Nat)) (k : Int × Int) (n : Nat) : List ((Int × Int) × Nat) :=
  if (find m k).isSome then m else m ++ [(k, n)]

/-- Adding the values of element number `nelems` to branch `n` and raising BRANCH_NUM_ELEMENTS. -/
def addEl (bs : List BrData) (n : Nat) (e : El) : List BrData :=
  bs.modify n (fun b => { b with elems := b.elems ++ [e] })

/-- A line of the branch block; the fields a short line lacks are `none`. -/
structure LineRec where
  i : Int
  j : Int
  ckt : List Char
  r : Option ℝ
  x : Option ℝ
  b : Option ℝ
  g1 : Option ℝ
  b1 : Option ℝ
  g2 : Option ℝ
  b2 : Option ℝ
  status : Option Int

/-- The element made of a line (branch_parser33.cpp 113-208): tap and shift are 0. -/
def LineRec.el (l : LineRec) (switched : Bool) : El :=
  ⟨l.ckt, l.r, l.x, l.b, some 0, some 0, l.g1, l.b1, l.g2, l.b2, l.status, some switched⟩

/-- One line of the branch block (branch_parser33.cpp 66-211). -/
def readLine (st : St) (l : LineRec) : Option St :=
  match find st.map (l.i, l.j) with
  | some n =>
    match st.branches[n]? with
    | none => none
    | some _ => some { st with branches := addEl st.branches n (l.el false) }
  | none =>
    match find st.map (l.j, l.i) with
    | some n =>
      match st.branches[n]? with
      | none => none
      | some _ => some { st with branches := addEl st.branches n (l.el true) }
    | none =>
      some { st with
        branches := st.branches ++ [⟨l.i, l.j, st.index, [l.el false]⟩]
        map := insert st.map (l.i, l.j) st.index
        index := st.index + 1 }

/-- A two-winding transformer: four lines of the transformer block. -/
structure Xf2Rec where
  i : Int
  j : Int
  ckt : List Char
  cw : Int
  cz : Int
  cm : Int
  mag1 : ℝ
  mag2 : ℝ
  status : Int
  r : ℝ
  x : ℝ
  sbase : ℝ
  windv1 : ℝ
  nomv1 : ℝ
  ang1 : ℝ
  windv2 : ℝ
  nomv2 : ℝ

/-- Division of doubles that are numbers. -/
noncomputable def divide (a b : ℝ) : Option ℝ := if b = 0 then none else some (a / b)

/-- WINDV1 and WINDV2 after `if (cw == 2)` (534-542). -/
noncomputable def Xf2Rec.turns (t : Xf2Rec) : Option (ℝ × ℝ) :=
  if t.cw = 2 then
    match divide t.windv1 t.nomv1, divide t.windv2 t.nomv2 with
    | some a, some b => some (a, b)
    | _, _ => none
  else some (t.windv1, t.windv2)

/-- R or X of a two-winding transformer (554-580). -/
noncomputable def Xf2Rec.scale (t : Xf2Rec) (sbase w2 v : ℝ) : ℝ :=
  let rval := v * w2 * w2
  if t.sbase = sbase ∨ t.sbase = 0 then rval else rval * sbase / t.sbase

/-- The element made of a two-winding transformer (414-590).  BRANCH_SWITCHED and the
BRANCH_SHUNT_ADMTTNC values are not stored; BRANCH_B is MAG2 (453-454). -/
noncomputable def Xf2Rec.el (t : Xf2Rec) (sbase : ℝ) : Option El :=
  match t.turns with
  | none => none
  | some (w1, w2) =>
    match divide w1 w2 with
    | none => none
    | some tap =>
      some ⟨t.ckt, some (t.scale sbase w2 t.r), some (t.scale sbase w2 t.x), some t.mag2, some tap,
        some t.ang1, none, none, none, none, some t.status, none⟩

/-- A two-winding transformer (transformer_parser33.cpp 330-694). -/
noncomputable def readXf2 (sbase : ℝ) (st : St) (t : Xf2Rec) : Option St :=
  match t.el sbase with
  | none => none
  | some e =>
    match find st.map (t.i, t.j) with
    | some n =>
      match st.branches[n]? with
      | none => none
      | some _ => some { st with branches := addEl st.branches n e }
    | none =>
      match find st.map (t.j, t.i) with
      | some n =>
        match st.branches[n]? with
        | none => none
        | some _ => some { st with branches := addEl st.branches n e }
      | none =>
        some { st with
          branches := st.branches ++ [⟨t.i, t.j, st.index, [e]⟩]
          map := insert (insert st.map (t.i, t.j) st.branches.length) (t.i, t.j) st.index
          index := st.index + 1 }

/-- A three-winding transformer: five lines of the transformer block.  `short` is set when the second line
has fewer than four tokens. -/
structure Xf3Rec where
  i : Int
  j : Int
  k : Int
  ckt : List Char
  cz : Int
  mag1 : ℝ
  mag2 : ℝ
  status : Int
  short : Bool
  r12 : ℝ
  x12 : ℝ
  sb12 : ℝ
  r23 : ℝ
  x23 : ℝ
  sb23 : ℝ
  r31 : ℝ
  x31 : ℝ
  sb31 : ℝ
  windv1 : ℝ
  ang1 : ℝ
  windv2 : ℝ
  ang2 : ℝ
  windv3 : ℝ
  ang3 : ℝ

/-- "correct R and X values, if necessary" (191-203). -/
noncomputable def correct (sb sbase v : ℝ) : Option ℝ :=
  if sb ≠ sbase ∧ sb = 0 then divide (v * sbase) sb else some v

/-- Element of one winding (218-322). -/
def windEl (ckt : List Char) (r x tap shift g1 b1 : ℝ) (status : Bool) : El :=
  ⟨ckt, some r, some x, some 0, some tap, some shift, some g1, some b1, some 0, some 0,
    some (if status then 1 else 0), some false⟩

/-- The elements of the three windings (162-322). -/
noncomputable def Xf3Rec.els (t : Xf3Rec) (sbase : ℝ) : Option (El × El × El) :=
  let r1 := 0.5 * (t.r12 + t.r31 - t.r23)
  let x1 := 0.5 * (t.x12 + t.x31 - t.x23)
  let r2 := 0.5 * (t.r12 + t.r23 - t.r31)
  let x2 := 0.5 * (t.x12 + t.x23 - t.x31)
  let r3 := 0.5 * (t.r23 + t.r31 - t.r12)
  let x3 := 0.5 * (t.x23 + t.x31 - t.x12)
  match correct t.sb12 sbase r1, correct t.sb12 sbase x1, correct t.sb23 sbase r2,
    correct t.sb23 sbase x2, correct t.sb31 sbase r3, correct t.sb31 sbase x3 with
  | some r1, some x1, some r2, some x2, some r3, some x3 =>
    some (
      windEl t.ckt r1 x1 t.windv1 t.ang1 t.mag1 t.mag2
        (t.status = 1 || t.status = 2 || t.status = 3),
      windEl t.ckt r2 x2 t.windv2 t.ang2 0 0 (t.status = 1 || t.status = 3 || t.status = 4),
      windEl t.ckt r3 x3 t.windv3 t.ang3 0 0 (t.status = 1 || t.status = 2 || t.status = 4))
  | _, _, _, _, _, _ => none

/-- A three-winding transformer (80-322): a new bus and three branches to it.  `known` says which bus
numbers are in `p_busMap`; the local `index` (206) hides the one of the block. -/
noncomputable def readXf3 (sbase : ℝ) (known : Int → Bool) (st : St) (t : Xf3Rec) : Option St :=
  if t.short || t.status = 0 then some st
  else if known t.i && known t.j && known t.k then
    match t.els sbase with
    | none => none
    | some (e1, e2, e3) =>
      let star := st.maxBus + 1
      let n := st.branches.length
      some { st with
        maxBus := star
        newBuses := st.newBuses ++ [star]
        branches := st.branches ++
          [⟨t.i, star, n, [e1]⟩, ⟨t.j, star, n + 1, [e2]⟩, ⟨t.k, star, n + 2, [e3]⟩] }
  else none

inductive XfRec
  | two (t : Xf2Rec)
  | three (t : Xf3Rec)

noncomputable def readXf (sbase : ℝ) (known : Int → Bool) (st : St) : XfRec → Option St
  | .two t => readXf2 sbase st t
  | .three t => readXf3 sbase known st t

/-- The branch block: `index` starts at 0 (50). -/
def readLines (st : St) : List LineRec → Option St
  | [] => some st
  | l :: ls => (readLine st l).bind (fun s => readLines s ls)

/-- The loop over the transformer block. -/
noncomputable def readXfs (sbase : ℝ) (known : Int → Bool) (st : St) : List XfRec → Option St
  | [] => some st
  | t :: ts => (readXf sbase known st t).bind (fun s => readXfs sbase known s ts)

/-- A case file: its bus numbers, base power, lines and transformers. -/
structure Case where
  buses : List Int
  sbase : ℝ
  lines : List LineRec
  xfs : List XfRec

/-- `if (*p_maxBusIndex<o_idx) *p_maxBusIndex = o_idx` over the bus block (bus_parser33.cpp 70). -/
def maxIndex (start : Int) (buses : List Int) : Int :=
  buses.foldl (fun m b => if m < b then b else m) start

/-- The part of `getCase` (PTI33_parser.hpp 199-298) that builds branches, starting from the state a parser
object has: `p_branchData` is cleared (204), `p_branchMap` and `p_maxBusIndex` are not. -/
noncomputable def getCase (old : St) (c : Case) : Option St :=
  (readLines ⟨[], old.map, 0, maxIndex old.maxBus c.buses, []⟩ c.lines).bind
    (fun s => readXfs c.sbase (fun b => decide (b ∈ c.buses))
      { s with index := s.branches.length } c.xfs)

/-- A new parser object (PTI33_parser.hpp 67-69). -/
def fresh : St := ⟨[], [], 0, -1, []⟩

/-- One pass of the loop of `YMBranch::load` (478-518): `rv` is the value `rvar` has before it; the last
component is its value afterwards.  A value that is absent leaves `rvar` as it is, and after the first
absent one `&&` skips the rest of its group. -/
noncomputable def loadElem (rv : ℝ) (e : El) : Elem × ℝ :=
  let x := e.x.getD rv
  let r := if e.x.isSome then e.r.getD x else x
  let shift := e.shift.getD 0 * Real.pi / 180
  let tap := e.tap.getD 0
  let charging := e.b.getD tap
  let s0 := e.b.isSome
  let g1 := if s0 then e.g1.getD charging else charging
  let s1 := s0 && e.g1.isSome
  let b1 := if s1 then e.b1.getD g1 else g1
  let s2 := s1 && e.b1.isSome
  let g2 := if s2 then e.g2.getD b1 else b1
  let s3 := s2 && e.g2.isSome
  let b2 := if s3 then e.b2.getD g2 else g2
  let s4 := s3 && e.b2.isSome
  ({ r := r, x := x, tap := tap, phase := shift, charging := charging, g1 := g1, b1 := b1, g2 := g2,
     b2 := b2, xform := (open Classical in decide (tap ≠ 0)) && (e.x.isSome && e.r.isSome), shunt := s4,
     status := decide (e.status.getD 1 ≠ 0), switched := e.switched.getD false, tag := e.ckt }, b2)

/-- The loop of `YMBranch::load`. -/
noncomputable def loadElems (rv : ℝ) : List El → List Elem
  | [] => []
  | e :: es => (loadElem rv e).1 :: loadElems (loadElem rv e).2 es

/-- Row `p`, column `q` (two different buses) of the matrix built from the branches
(`YMBranch::setYBus` and the matrix interface).  Simplified: `p_active` and isolated buses are modelled in
`YMatrix.Branch.offDiag`; a branch without an element in service contributes 0 here. -/
noncomputable def entry (rv : ℝ) (bs : List BrData) (p q : Int) : ℂ :=
  (bs.map (fun b =>
    (if b.frm = p ∧ b.tob = q then (setYBus (loadElems rv b.elems)).1 else 0) +
    (if b.frm = q ∧ b.tob = p then (setYBus (loadElems rv b.elems)).2 else 0))).sum

/-- What a branch with these elements adds to the diagonal entry of the bus at one end
(`YMBus::setYBus` 100-106). -/
noncomputable def diagOf (es : List Elem) (s : Side) : ℂ :=
  -getAdmittance es - getTransformer es s + getShunt es s

/-- Diagonal entry of bus `p`, without the shunt of the bus itself. -/
noncomputable def diag (rv : ℝ) (bs : List BrData) (p : Int) : ℂ :=
  (bs.map (fun b =>
    (if b.frm = p then diagOf (loadElems rv b.elems) .bus1 else 0) +
    (if b.tob = p then diagOf (loadElems rv b.elems) .bus2 else 0))).sum

end GridPACK.RawBranch
