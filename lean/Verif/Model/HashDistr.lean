import Verif.Model.Exchange

/-! Model of `HashDistribution::distributeBusValues` and `distributeBranchValues`
(src/parser/hash_distr.hpp), the `SYSTOLIC` variant, which is the one compiled (line 25).

The four functions (lines 115-231, 518-651, 983-1105, 1404-1540) have the same control flow and
differ in the key type (bus number or ordered pair of bus numbers) and in the value type, so they
are modelled once, generic in `K` and `V`.  The two argument vectors are modelled as one list of
pairs (unequal lengths throw before anything is done, lines 122-129). -/
namespace GridPACK.HashDistr
open GridPACK.Exchange

variable {K V : Type} [DecidableEq K]

/-- src/parser/hash_distr.hpp:207-212: half-open index range of chunk `idx`.  `bound i` is
`static_cast<int>(delta*static_cast<double>(i))`, kept abstract so that every rounding of the
double arithmetic is covered; see `BoundOk` for what is assumed of it. -/
def chunk (n total : Nat) (bound : Nat → Nat) (idx : Nat) : Nat × Nat :=
  (bound idx, if idx + 1 < n then bound (idx + 1) else total)

/-- src/parser/hash_distr.hpp:204 with exact arithmetic. -/
def exactBound (n total : Nat) (i : Nat) : Nat := total * i / n

/-- src/parser/hash_distr.hpp:205-206: chunks in the order visited by process `me`. -/
def visitOrder (n me : Nat) : List Nat := (List.range n).map (fun i => (i + me) % n)

/-- src/parser/hash_distr.hpp:166-185: content of the global array after all puts (executed in
the order `puts`) and the synchronisation.  `inp p` are the pairs given on process `p`. -/
def globalArray (inp : Nat → List (K × V)) (puts : List Nat) : Nat → Option (K × V) :=
  puts.foldl (fun mem p =>
    if (inp p).length > 0 then put mem (base (fun q => (inp q).length) p) (inp p) else mem)
    (fun _ => none)

/-- src/parser/hash_distr.hpp:193-198, 219-225: entries of the multimap with this key, in
insertion order: the local indices carrying that original index. -/
def localMatches (orig : List K) (key : K) : List Nat :=
  (List.range orig.length).filter (fun i => decide (orig[i]? = some key))

/-- src/parser/hash_distr.hpp:207-229: one chunk: get the records, deliver each to the matching
local indices. -/
def visit (n total : Nat) (bound : Nat → Nat) (g : Nat → Option (K × V)) (orig : List K)
    (acc : Option (List (Nat × V))) (idx : Nat) : Option (List (Nat × V)) :=
  match acc, allSome ((List.range' (chunk n total bound idx).1
      ((chunk n total bound idx).2 - (chunk n total bound idx).1)).map g) with
  | some out, some list => some (out ++ list.flatMap
      (fun kv => (localMatches orig kv.1).map (fun i => (i, kv.2))))
  | _, _ => none

/-- src/parser/hash_distr.hpp:115-231 for process `me`.  `orig` are the original indices of the
buses held by `me` (owned and ghost).  The result is the list of (local index, value);
`none` = read of uninitialised data.  The early return at 148-152 (no data anywhere) leaves the
then empty argument vectors. -/
def distribute (n : Nat) (bound : Nat → Nat) (inp : Nat → List (K × V)) (puts : List Nat)
    (orig : List K) (me : Nat) : Option (List (Nat × V)) :=
  let total := base (fun q => (inp q).length) n
  if total = 0 then some []
  else
    let g := globalArray inp puts
    (visitOrder n me).foldl (visit n total bound g orig) (some [])

end GridPACK.HashDistr
