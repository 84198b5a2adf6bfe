import Mathlib.Analysis.SpecialFunctions.Log.Basic
import Mathlib.Analysis.SpecialFunctions.Sqrt

/-! Model of `gridpack::random::Random` (src/parallel/random.cpp 34-116).

The generator `boost::mt19937` with `uniform_real(0,1)` is a type `G` of states with a function from seeds and a step that gives
a number; numbers are real.  `seed(int)` takes the absolute value; the smallest integer, whose absolute value overflows, and
seeds so large that adding the rank overflows are left out. -/
namespace GridPACK.Random

variable {G : Type}

/-- The library generator: `init` is construction or seeding with a number, `next` a number of the distribution and the
state after it. -/
structure Lib (G : Type) where
  init : ℕ → G
  next : G → ℝ × G

/-- `p_iset`, `p_gset`, `p_generator`. -/
structure Rand (G : Type) where
  iset : Bool
  gset : ℝ
  gen : G

/-- `Random()` (34-44). -/
def new (L : Lib G) : Rand G := ⟨false, 0, L.init 42⟩

/-- The seed given to the library on process `rank` (54-56, 76-78). -/
def seedOf (rank : ℕ) (s : ℤ) : ℕ := s.natAbs + rank

/-- `Random(int)` (50-61). -/
def newSeed (L : Lib G) (rank : ℕ) (s : ℤ) : Rand G := ⟨false, 0, L.init (seedOf rank s)⟩

/-- `seed` (74-79). -/
def seed (L : Lib G) (rank : ℕ) (s : ℤ) (r : Rand G) : Rand G := { r with gen := L.init (seedOf rank s) }

/-- `drand` (84-90). -/
def drand (L : Lib G) (r : Rand G) : ℝ × Rand G := ((L.next r.gen).1, { r with gen := (L.next r.gen).2 })

open Classical in
/-- The loop of `grand` (99-105); at most `n` passes.  The accepted point, its squared radius and the state. -/
noncomputable def draw (L : Lib G) : ℕ → G → Option (ℝ × ℝ × ℝ × G)
  | 0, _ => none
  | n + 1, g =>
    let x := 2 * (L.next g).1 - 1
    let g := (L.next g).2
    let y := 2 * (L.next g).1 - 1
    let g := (L.next g).2
    let r := x * x + y * y
    if r ≥ 1 then draw L n g else some (x, y, r, g)

/-- `grand` (96-113) with at most `n` passes of the loop. -/
noncomputable def grand (L : Lib G) (n : ℕ) (s : Rand G) : Option (ℝ × Rand G) :=
  if s.iset = false then
    (draw L n s.gen).map (fun a =>
      let logr := Real.sqrt (-2 * Real.log a.2.2.1 / a.2.2.1)
      (a.2.1 * logr, ⟨true, a.1 * logr, a.2.2.2⟩))
  else some (s.gset, { s with iset := false })

/-- Calls of a client. -/
inductive Call where
  | drand
  | grand
  | seed (s : ℤ)

/-- One call on process `rank`: the number returned (0 for `seed`) and the state. -/
noncomputable def Call.run (L : Lib G) (rank n : ℕ) : Call → Rand G → Option (ℝ × Rand G)
  | .drand, r => some (Random.drand L r)
  | .grand, r => Random.grand L n r
  | .seed s, r => some (0, Random.seed L rank s r)

/-- A history of calls: the numbers returned and the state. -/
noncomputable def runs (L : Lib G) (rank n : ℕ) : List Call → Rand G → Option (List ℝ × Rand G)
  | [], r => some ([], r)
  | c :: cs, r => (c.run L rank n r).bind (fun a => (runs L rank n cs a.2).map (fun b => (a.1 :: b.1, b.2)))

end GridPACK.Random
