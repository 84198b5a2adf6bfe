import Verif.Model.RawBranch
import Mathlib.Algebra.Order.Round
import Mathlib.Algebra.Order.Archimedean.Real.Basic

/-! Model of writing a network to a RAW file (version 33): src/export/base_export.hpp `writeDataBlock`
(67-180), src/export/data_blocks/export_line33.hpp, export_xform33.hpp, export_load33.hpp and the loops of
export_gen33.hpp, export_fxshnt33.hpp, export_bus33.hpp.

Simplifications: a text is the record it spells (a text written with `sprintf` and read with the tokenizer,
`atoi` and `atof` gives the integers back and the doubles rounded as `fmt` says; circuit names come back as
they were); ratings, meters, owners, control data and the header of the file are left out; a value the data
collection lacks where the code gives no default (`rval` keeps an older value) counts as 0; a write outside a
global array is `none`; memory of a global array nobody wrote to is `none` at its place. -/
namespace GridPACK.Export

open GridPACK.RawBranch

/-- `text_line` (base_export.hpp 31-41). -/
structure TextLine (α : Type) where
  glob : Nat
  dev : Nat
  text : α

variable {α β : Type}

/-- `gmax` of one process after `gmax++` (72-78). -/
def localMax (ts : List (TextLine α)) : Nat := ts.foldl (fun m t => if t.glob + 1 > m then t.glob + 1 else m) 0

/-- `p_comm.max(&gmax,1)` (79). -/
def gmax (procs : List (List (TextLine α))) : Nat := procs.foldl (fun m ts => max m (localMax ts)) 0

/-- `g_offset` after all processes have added their ones (92-105). -/
def counts (n : Nat) (all : List (TextLine α)) : List Nat :=
  (List.range n).map (fun g => all.countP (fun t => t.glob = g))

/-- The parts of a global array on the processes: `dist` has the length of every part. -/
def pieces : List Nat → List β → List (List β)
  | [], _ => []
  | n :: ns, l => l.take n :: pieces ns (l.drop n)

/-- `offsets` (121-131) on one process. -/
def localOffsets : Nat → List Nat → List Nat
  | _, [] => []
  | s, c :: cs => s :: localOffsets (s + c) cs

/-- `ptr[i] = offsets[i]`, then `ptr[i] + loffset` with `loffset` the sum of the totals of the processes
before (132-146). -/
def globalOffsets : Nat → List (List Nat) → List Nat
  | _, [] => []
  | loffset, b :: bs => (localOffsets 0 b).map (fun o => o + loffset) ++ globalOffsets (loffset + b.sum) bs

/-- The writes of `NGA_Scatter` (162), one after the other. -/
def scatter : List (Option α) → List (Nat × α) → Option (List (Option α))
  | a, [] => some a
  | a, (p, t) :: ws => if p < a.length then scatter (a.set p (some t)) ws else none

/-- `writeDataBlock` (67-180): what process 0 writes to the file.  `dist` and `dist'` are the distributions
of `g_offset` and `g_txt`, `order` the order in which the texts of all processes reach `g_txt`. -/
def writeDataBlock (dist dist' : List Nat) (order : List (TextLine α)) (procs : List (List (TextLine α))) :
    Option (List (Option α)) :=
  let n := gmax procs
  if n = 0 then some []
  else
    let parts := pieces dist (counts n procs.flatten)
    let offsets := globalOffsets 0 parts
    let total := (parts.map List.sum).sum
    (scatter (List.replicate total none)
      (order.map (fun t => (offsets.getD t.glob 0 + t.dev, t.text)))).map
        (fun a => (pieces dist' a).flatten)

/-- The loop over the devices `j` of one bus or branch: device number `j` becomes the `device_idx` of the
text, and some devices are skipped. -/
def devTexts (glob : Nat) (f : β → Option α) : Nat → List β → List (TextLine α)
  | _, [] => []
  | j, x :: xs =>
    match f x with
    | some t => ⟨glob, j, t⟩ :: devTexts glob f (j + 1) xs
    | none => devTexts glob f (j + 1) xs

/-- A number after `%f` and `atof`: six decimals.  Simplified: a number halfway between two goes up. -/
noncomputable def fmt (v : ℝ) : ℝ := (round (v * 10 ^ 6) : ℝ) / 10 ^ 6

/-! ### Lines and transformers -/

/-- The values with prefix `TRANSFORMER_` the parser keeps for a two-winding transformer
(transformer_parser33.cpp 445-451, 524-525, 546-547, 555, 573, 588): WINDV1 and WINDV2 after the division by
the nominal voltages; the nominal voltages themselves are not kept. -/
structure Kept where
  mag1 : ℝ
  mag2 : ℝ
  r12 : ℝ
  x12 : ℝ
  sbase : ℝ
  windv1 : ℝ
  windv2 : ℝ
  ang1 : ℝ

/-- An element of a branch. -/
structure XEl where
  el : El
  kept : Option Kept

/-- A branch of the network: its buses, its global index and its elements. -/
structure XBr where
  frm : Int
  tob : Int
  glob : Nat
  elems : List XEl

open Classical in
/-- The condition of export_xform33.hpp 82-84; export_line33.hpp 82-84 is its negation. -/
noncomputable def XEl.isXf (e : XEl) : Bool :=
  e.kept.isSome || decide (e.el.tap.getD 0 ≠ 0 ∧ e.el.tap.getD 0 ≠ 1)

/-- A line of the branch block (export_line33.hpp 85-172).  BRANCH_SWITCHED is stored as a `bool` and asked
for as an `int`, so `ival` stays 1 and the buses are written in the order of the branch. -/
noncomputable def lineRec (b : XBr) (e : XEl) : LineRec :=
  ⟨b.frm, b.tob, e.el.ckt, some (fmt (e.el.r.getD 0)), some (fmt (e.el.x.getD 0)),
    some (fmt (e.el.b.getD 0)), some (fmt (e.el.g1.getD 0)), some (fmt (e.el.b1.getD 0)),
    some (fmt (e.el.g2.getD 0)), some (fmt (e.el.b2.getD 0)), some (e.el.status.getD 1)⟩

/-- The four lines of a transformer (export_xform33.hpp 85-257): codes CW, CZ, CM are 1; values not kept have
a default or are taken from the branch. -/
noncomputable def xfRec (sbase : ℝ) (b : XBr) (e : XEl) : Xf2Rec where
  i := b.frm
  j := b.tob
  ckt := e.el.ckt
  cw := 1
  cz := 1
  cm := 1
  mag1 := fmt ((e.kept.map Kept.mag1).getD 0)
  mag2 := fmt ((e.kept.map Kept.mag2).getD 0)
  status := e.el.status.getD 1
  r := fmt ((e.kept.map Kept.r12).getD (e.el.r.getD 0))
  x := fmt ((e.kept.map Kept.x12).getD (e.el.x.getD 0))
  sbase := fmt ((e.kept.map Kept.sbase).getD sbase)
  windv1 := fmt ((e.kept.map Kept.windv1).getD (e.el.tap.getD 1))
  nomv1 := fmt 0
  ang1 := fmt ((e.kept.map Kept.ang1).getD 0)
  windv2 := fmt ((e.kept.map Kept.windv2).getD 1)
  nomv2 := fmt 0

/-- The texts of the line block of the branches of one process (export_line33.hpp 65-179). -/
noncomputable def lineTexts (bs : List XBr) : List (TextLine LineRec) :=
  bs.flatMap (fun b => devTexts b.glob (fun e => if e.isXf then none else some (lineRec b e)) 0 b.elems)

/-- The texts of the transformer block of the branches of one process (export_xform33.hpp 65-266). -/
noncomputable def xfTexts (sbase : ℝ) (bs : List XBr) : List (TextLine Xf2Rec) :=
  bs.flatMap (fun b => devTexts b.glob (fun e => if e.isXf then some (xfRec sbase b e) else none) 0 b.elems)

/-! ### Loads, generators and shunts -/

/-- A load: constant power, constant current and constant admittance. -/
structure Load where
  id : List Char
  status : Int
  pl : ℝ
  ql : ℝ
  ip : ℝ
  iq : ℝ
  yp : ℝ
  yq : ℝ

/-- A bus with its devices of one kind. -/
structure XBus (β : Type) where
  number : Int
  glob : Nat
  devs : List β

/-- A load as it is written (export_load33.hpp 81-134). -/
noncomputable def loadRec (number : Int) (l : Load) : Int × Load :=
  (number, ⟨l.id, l.status, fmt l.pl, fmt l.ql, fmt l.ip, fmt l.iq, fmt l.yp, fmt l.yq⟩)

open Classical in
/-- The texts of the load block of the buses of one process (export_load33.hpp 67-141):
`if (pl == 0.0 && ql == 0.0) continue` (112). -/
noncomputable def loadTexts (bs : List (XBus Load)) : List (TextLine (Int × Load)) :=
  bs.flatMap (fun b =>
    devTexts b.glob (fun l => if l.pl = 0 ∧ l.ql = 0 then none else some (loadRec b.number l)) 0 b.devs)

/-- The texts of a block that writes every device of a bus: generators (export_gen33.hpp 67-198), fixed
shunts (export_fxshnt33.hpp 67-104) and, with one device per bus, buses (export_bus33.hpp 76-142). -/
def allTexts (f : Int → β → α) (bs : List (XBus β)) : List (TextLine α) :=
  bs.flatMap (fun b => devTexts b.glob (fun x => some (f b.number x)) 0 b.devs)

end GridPACK.Export
