/-! Model of `SerialBusIO` / `SerialBranchIO` (src/serial_io/serial_io.hpp): `write` 515-630 and
1053-1150, `writeStrings` 399-500 and 941-1040, `gatherData` 264-380 and 821-930.  The bus and branch
versions are the same code, so there is one model on "items".

Characters are natural numbers (bytes), 0 is the terminator.  Simplifications: `serialWrite` gives the
same answer both times it is called; a string that does not fit with its terminator is cut at the slot
size (in the code the terminator lands in the next slot); GOSS output is left out. -/
namespace GridPACK.SerialIO

/-- A bus or branch on a process. -/
structure Item where
  active : Bool
  gid : Nat
  text : Option (List Nat)
deriving DecidableEq, Repr

abbrev Proc := List Item

/-- The bytes that a component writes into its slot of `size` bytes (`ptr`, `p_size`; 541-556): the text,
the terminator, and whatever was in the freshly allocated buffer (`junk`). -/
def slot (size : Nat) (t junk : List Nat) : List Nat := (t ++ 0 :: junk).take size

/-- Entries scattered by one process (541-563). -/
def entries (size : Nat) (junk : List Nat) (p : Proc) : List (Nat × List Nat) :=
  p.filterMap (fun it => if it.active then it.text.map (fun t => (it.gid, slot size t junk)) else none)

/-- The two global arrays. -/
structure Arrays where
  str : Nat → List Nat
  mask : Nat → Bool

/-- `GA_Zero(p_maskGA)` (536): only the mask is reset. -/
def zeroMask (a : Arrays) : Arrays := { a with mask := fun _ => false }

/-- One scattered element in both arrays (561-562). -/
def store (a : Arrays) (e : Nat × List Nat) : Arrays :=
  { str := fun i => if i = e.1 then e.2 else a.str i,
    mask := fun i => if i = e.1 then true else a.mask i }

/-- The arrays at the synchronisation point (565); `es` = all scattered entries in the order in which
they took effect. -/
def filled (a : Arrays) (es : List (Nat × List Nat)) : Arrays := es.foldl store (zeroMask a)

/-- Masked indices of the block `lo .. lo+ld-1` (576-601). -/
def maskedIndices (a : Arrays) (lo ld : Nat) : List Nat := (List.range' lo ld).filter a.mask

/-- `NGA_Gather` into `iobuf` (602). -/
def iobuf (a : Arrays) (idx : List Nat) : List Nat := idx.flatMap a.str

/-- What `out << ptr` prints: bytes up to the terminator. -/
def cstring (mem : List Nat) : List Nat := mem.takeWhile (· ≠ 0)

/-- Strings taken from the buffer, `ptr += p_size` each time (603-626). -/
def readStrings (size : Nat) (buf : List Nat) (n : Nat) : List (List Nat) :=
  (List.range n).map (fun k => cstring (buf.drop (k * size)))

/-- The loop of process 0 over the blocks held by the processes (570-628); `blocks` are the block
lengths of the global array, `lo` the start of the first one. -/
def collect (size : Nat) (a : Arrays) : Nat → List Nat → List (List Nat)
  | _, [] => []
  | lo, ld :: blocks =>
    readStrings size (iobuf a (maskedIndices a lo ld)) (maskedIndices a lo ld).length ++
      collect size a (lo + ld) blocks

/-- `writeStrings` on process 0. -/
def writeStrings (size : Nat) (a : Arrays) (es : List (Nat × List Nat)) (blocks : List Nat) :
    List (List Nat) :=
  collect size (filled a es) 0 blocks

/-- `write` on process 0: the bytes put on the stream. -/
def write (size : Nat) (a : Arrays) (es : List (Nat × List Nat)) (blocks : List Nat) : List Nat :=
  (writeStrings size a es blocks).flatten

/-- `memcpy(&data,ptr,dsize)` in `gatherData` (364-371). -/
def readData (size dsize : Nat) (buf : List Nat) (n : Nat) : List (List Nat) :=
  (List.range n).map (fun k => (buf.drop (k * size)).take dsize)

/-- `gatherData` on process 0 (328-377). -/
def gatherData (size dsize : Nat) (a : Arrays) : Nat → List Nat → List (List Nat)
  | _, [] => []
  | lo, ld :: blocks =>
    readData size dsize (iobuf a (maskedIndices a lo ld)) (maskedIndices a lo ld).length ++
      gatherData size dsize a (lo + ld) blocks

end GridPACK.SerialIO
