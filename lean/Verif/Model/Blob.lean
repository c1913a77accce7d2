import Verif.Spec.Blob
/-!
# Model of blob

Models `/repo/include/muu/blob.h`. Memory is a table of blocks; a block which is not there has been freed or was never
allocated, and touching it is undefined behaviour (`none`). Simplification: allocation always succeeds (see `Verif.Model.BlobFail` for failing allocations; an allocation
failure makes the library store a null pointer, see C66 for the size passed to the allocator), and sizes are natural
numbers.
-/
namespace Verif.Model.Blob
open Verif.Spec.Blob

/-- one allocation -/
structure Block where
  align : Nat
  bytes : Bytes

structure Mem where
  block : Nat → Option Block
  next : Nat

/-- aligned_alloc, `/repo/include/muu/aligned_alloc.h` lines 33–44: a fresh block of uninitialised bytes. `none`: the
    assumptions of lines 35–36 are violated. -/
def Mem.alloc (m : Mem) (size align : Nat) : Option (Nat × Mem) :=
  if size = 0 ∨ align = 0 then none
  else some (m.next, ⟨put m.block m.next (some ⟨max align 16, List.replicate size none⟩), m.next + 1⟩)

/-- aligned_free, `/repo/include/muu/aligned_alloc.h` lines 51–58 -/
def Mem.free (m : Mem) (p : Nat) : Option Mem :=
  match m.block p with
  | none => none
  | some _ => some { m with block := put m.block p none }

/-- a `const void*` argument -/
inductive Ptr
  | null
  /-- to memory which is not managed by a blob -/
  | memory (l : List (BitVec 8))
  /-- to byte `off` of block `p` -/
  | block (p off : Nat)

/-- reading `n` bytes -/
def Mem.read (m : Mem) (n : Nat) : Ptr → Option Bytes
  | .null => none
  | .memory l => if n ≤ l.length then some ((l.take n).map some) else none
  | .block p off => match m.block p with
    | none => none
    | some b => if off + n ≤ b.bytes.length then some ((b.bytes.drop off).take n) else none

/-- memcpy to the start of block `d`; the blocks must not be the same -/
def Mem.copyTo (m : Mem) (d : Nat) (src : Ptr) (n : Nat) : Option Mem :=
  match m.block d, m.read n src with
  | some b, some l =>
    let same := match src with
      | .block p _ => p == d
      | _ => false
    if same then none
    else if n ≤ b.bytes.length then some { m with block := put m.block d (some { b with bytes := l ++ b.bytes.drop n }) }
    else none
  | _, _ => none

/-- blob, lines 28–30 -/
structure Blob where
  alignment : Nat
  size : Nat
  data : Option Nat
  deriving DecidableEq

/-- actual_alignment, lines 35–40; aligned_alloc_min_align is 16 -/
def actualAlignment (size align : Nat) : Nat :=
  if size < 2048 then (if align > 16 then align else 16) else (if align > 64 then align else 64)

/-- blob(), lines 46–48 -/
def emptyBlob : Blob := ⟨16, 0, none⟩

/-- is the pointer not null -/
def Ptr.ok : Ptr → Bool
  | .null => false
  | _ => true

/-- blob(size, src, align), lines 57–64 -/
def construct (m : Mem) (size : Nat) (src : Ptr) (align : Nat) : Option (Blob × Mem) :=
  let a := actualAlignment size align
  if size ≠ 0 then
    match m.alloc size a with
    | none => none
    | some (p, m) =>
      if src.ok then
        match m.copyTo p src size with
        | none => none
        | some m => some (⟨a, size, some p⟩, m)
      else some (⟨a, size, some p⟩, m)
  else some (⟨a, size, none⟩, m)

/-- data() as an argument -/
def Blob.ptr (b : Blob) : Ptr := match b.data with
  | none => .null
  | some p => .block p 0

/-- blob(other), lines 68–70 -/
def copyConstruct (m : Mem) (other : Blob) : Option (Blob × Mem) := construct m other.size other.ptr other.alignment

/-- blob(other, align), lines 78–80 -/
def copyConstructAligned (m : Mem) (other : Blob) (align : Nat) : Option (Blob × Mem) :=
  construct m other.size other.ptr (if align ≠ 0 then align else other.alignment)

/-- blob(blob&&), lines 84–88: the new blob and what is left in the old one -/
def moveConstruct (other : Blob) : Blob × Blob := (⟨other.alignment, other.size, other.data⟩, ⟨16, 0, none⟩)

/-- ~blob(), lines 91–95 -/
def destroy (m : Mem) (b : Blob) : Option Mem := match b.data with
  | none => some m
  | some p => m.free p

/-- resize, lines 174–212 -/
def resize (m : Mem) (b : Blob) (sz : Nat) : Option (Blob × Mem) :=
  if b.size = sz then some (b, m)
  else if b.size ≠ 0 then
    match b.data with
    | none => none
    | some p =>
      if sz = 0 then
        match m.free p with
        | none => none
        | some m => some (⟨b.alignment, sz, none⟩, m)
      else
        match m.alloc sz b.alignment with
        | none => none
        | some (q, m) =>
          match m.copyTo q (.block p 0) (min sz b.size) with
          | none => none
          | some m =>
            match m.free p with
            | none => none
            | some m => some (⟨b.alignment, sz, some q⟩, m)
  else
    match m.alloc sz b.alignment with
    | none => none
    | some (q, m) => some (⟨b.alignment, sz, some q⟩, m)

/-- `src != data_` -/
def Ptr.isData (src : Ptr) (data : Option Nat) : Bool := match src, data with
  | .null, none => true
  | .block p 0, some q => p == q
  | _, _ => false

/-- assign, lines 105–132 -/
def assign (m : Mem) (b : Blob) (sz : Nat) (src : Ptr) (newAlign : Nat) : Option (Blob × Mem) :=
  let a := actualAlignment sz newAlign
  if a ≤ b.alignment then
    match resize m b sz with
    | none => none
    | some (b, m) =>
      match b.data with
      | none => some (b, m)
      | some p =>
        if src.ok && !src.isData b.data then
          match m.copyTo p src b.size with
          | none => none
          | some m => some (b, m)
        else some (b, m)
  else
    match destroy m b with
    | none => none
    | some m =>
      if sz ≠ 0 then
        match m.alloc sz a with
        | none => none
        | some (p, m) =>
          if src.ok then
            match m.copyTo p src sz with
            | none => none
            | some m => some (⟨a, sz, some p⟩, m)
          else some (⟨a, sz, some p⟩, m)
      else some (⟨a, sz, none⟩, m)

/-- operator=(const blob&), lines 142–145 -/
def copyAssign (m : Mem) (b rhs : Blob) : Option (Blob × Mem) := assign m b rhs.size rhs.ptr rhs.alignment

/-- operator=(blob&&), lines 148–160, when rhs is another object: the blob and what is left in rhs -/
def moveAssign (m : Mem) (b rhs : Blob) : Option (Blob × Blob × Mem) :=
  match destroy m b with
  | none => none
  | some m => some (⟨rhs.alignment, rhs.size, rhs.data⟩, ⟨16, 0, none⟩, m)

/-- all blob variables and the memory -/
structure World where
  mem : Mem
  blob : Nat → Option Blob

def World.init : World := ⟨⟨fun _ => none, 0⟩, fun _ => none⟩

/-- the pointer a caller passes; `none`: the variable does not hold a blob -/
def World.ptr (w : World) : Source → Option Ptr
  | .null => some .null
  | .memory l => some (.memory l)
  | .blob j off => match w.blob j with
    | none => none
    | some b => match b.data with
      | none => some .null
      | some p => some (.block p off)

/-- stores the result of an operation on variable `i` -/
def World.store (w : World) (i : Nat) : Option (Blob × Mem) → Option World
  | none => none
  | some (b, m) => some ⟨m, put w.blob i (some b)⟩

/-- one operation on the variables -/
def World.step (w : World) : Op → Option World
  | .empty i => match w.blob i with
    | none => some ⟨w.mem, put w.blob i (some emptyBlob)⟩
    | some _ => none
  | .construct i n src a => match w.blob i, w.ptr src with
    | none, some p => w.store i (construct w.mem n p a)
    | _, _ => none
  | .copy i j => match w.blob i, w.blob j with
    | none, some c => w.store i (copyConstruct w.mem c)
    | _, _ => none
  | .copyAligned i j a => match w.blob i, w.blob j with
    | none, some c => w.store i (copyConstructAligned w.mem c a)
    | _, _ => none
  | .move i j => match w.blob i, w.blob j with
    | none, some c => some ⟨w.mem, put (put w.blob i (some (moveConstruct c).1)) j (some (moveConstruct c).2)⟩
    | _, _ => none
  | .destroy i => match w.blob i with
    | none => none
    | some b => match destroy w.mem b with
      | none => none
      | some m => some ⟨m, put w.blob i none⟩
  | .assign i n src a => match w.blob i, w.ptr src with
    | some b, some p => w.store i (assign w.mem b n p a)
    | _, _ => none
  | .copyAssign i j => match w.blob i, w.blob j with
    | some b, some c => w.store i (copyAssign w.mem b c)
    | _, _ => none
  | .moveAssign i j => match w.blob i, w.blob j with
    | some b, some c =>
      if i = j then some w
      else match moveAssign w.mem b c with
        | none => none
        | some (x, y, m) => some ⟨m, put (put w.blob i (some x)) j (some y)⟩
    | _, _ => none
  | .resize i n => match w.blob i with
    | none => none
    | some b => w.store i (resize w.mem b n)

/-- a history of operations -/
def World.run (w : World) : List Op → Option World
  | [] => some w
  | o :: l => match w.step o with
    | none => none
    | some w => w.run l

/-- size() of a variable, its alignment(), and the bytes at data() -/
def World.contents (w : World) (i : Nat) : Option Bytes := match w.blob i with
  | none => none
  | some b => match b.data with
    | none => some []
    | some p => (w.mem.block p).map (·.bytes)

end Verif.Model.Blob
