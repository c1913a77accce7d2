import Verif.Model.Blob
import Verif.Spec.BlobFail
/-!
# Model of blob when the allocator may fail

Models `/repo/include/muu/blob.h` in a release build, in which the assertions of lines 115, 182, 195 and 207 are not
compiled (`/repo/include/muu/preprocessor.h` lines 2177–2192). Each operation asks for memory at most once; its argument
`ok` is the answer. Everything else is as in `Verif.Model.Blob`.
-/
namespace Verif.Model.BlobFail
open Verif.Spec.Blob Verif.Model.Blob

/-- aligned_alloc, `/repo/include/muu/aligned_alloc.h` lines 33–44: a null pointer if the allocator fails -/
def alloc (m : Mem) (ok : Bool) (size align : Nat) : Option (Option Nat × Mem) :=
  match m.alloc size align with
  | none => none
  | some (p, m') => if ok then some (some p, m') else some (none, m)

/-- `if (data_ && src) MUU_MEMCPY(data_, src, size_)`, lines 62–63 and 129–130 -/
def fill (m : Mem) (b : Blob) (src : Ptr) : Option (Blob × Mem) :=
  match b.data with
  | none => some (b, m)
  | some p =>
    if src.ok then
      match m.copyTo p src b.size with
      | none => none
      | some m => some (b, m)
    else some (b, m)

/-- blob(size, src, align), lines 57–64 -/
def construct (m : Mem) (ok : Bool) (size : Nat) (src : Ptr) (align : Nat) : Option (Blob × Mem) :=
  let a := actualAlignment size align
  if size ≠ 0 then
    match alloc m ok size a with
    | none => none
    | some (d, m) => fill m ⟨a, size, d⟩ src
  else some (⟨a, size, none⟩, m)

/-- blob(other), lines 68–70 -/
def copyConstruct (m : Mem) (ok : Bool) (other : Blob) : Option (Blob × Mem) :=
  construct m ok other.size other.ptr other.alignment

/-- blob(other, align), lines 78–80 -/
def copyConstructAligned (m : Mem) (ok : Bool) (other : Blob) (align : Nat) : Option (Blob × Mem) :=
  construct m ok other.size other.ptr (if align ≠ 0 then align else other.alignment)

/-- aligned_free(data_) in resize: free of a null pointer does nothing -/
def freeData (m : Mem) : Option Nat → Option Mem
  | none => some m
  | some p => m.free p

/-- resize, lines 174–212 -/
def resize (m : Mem) (ok : Bool) (b : Blob) (sz : Nat) : Option (Blob × Mem) :=
  if b.size = sz then some (b, m)
  else if b.size ≠ 0 then
    if sz = 0 then
      match freeData m b.data with
      | none => none
      | some m => some (⟨b.alignment, sz, none⟩, m)
    else
      match alloc m ok sz b.alignment with
      | none => none
      | some (q, m) =>
        match q, b.data with
        | some q, some p =>
          match m.copyTo q (.block p 0) (min sz b.size) with
          | none => none
          | some m =>
            match m.free p with
            | none => none
            | some m => some (⟨b.alignment, sz, some q⟩, m)
        | _, _ => none
  else
    match alloc m ok sz b.alignment with
    | none => none
    | some (q, m) => some (⟨b.alignment, sz, q⟩, m)

/-- assign, lines 105–132 -/
def assign (m : Mem) (ok : Bool) (b : Blob) (sz : Nat) (src : Ptr) (newAlign : Nat) : Option (Blob × Mem) :=
  let a := actualAlignment sz newAlign
  if a ≤ b.alignment then
    match resize m ok b sz with
    | none => none
    | some (b, m) => if src.isData b.data then some (b, m) else fill m b src
  else
    match destroy m b with
    | none => none
    | some m =>
      if sz ≠ 0 then
        match alloc m ok sz a with
        | none => none
        | some (d, m) => fill m ⟨a, sz, d⟩ src
      else some (⟨a, sz, none⟩, m)

/-- operator=(const blob&), lines 142–145 -/
def copyAssign (m : Mem) (ok : Bool) (b rhs : Blob) : Option (Blob × Mem) :=
  assign m ok b rhs.size rhs.ptr rhs.alignment

/-- one operation on the variables, with the answer of the allocator -/
def step (w : World) (ok : Bool) : Op → Option World
  | .construct i n src a => match w.blob i, w.ptr src with
    | none, some p => w.store i (construct w.mem ok n p a)
    | _, _ => none
  | .copy i j => match w.blob i, w.blob j with
    | none, some c => w.store i (copyConstruct w.mem ok c)
    | _, _ => none
  | .copyAligned i j a => match w.blob i, w.blob j with
    | none, some c => w.store i (copyConstructAligned w.mem ok c a)
    | _, _ => none
  | .assign i n src a => match w.blob i, w.ptr src with
    | some b, some p => w.store i (assign w.mem ok b n p a)
    | _, _ => none
  | .copyAssign i j => match w.blob i, w.blob j with
    | some b, some c => w.store i (copyAssign w.mem ok b c)
    | _, _ => none
  | .resize i n => match w.blob i with
    | none => none
    | some b => w.store i (resize w.mem ok b n)
  | .empty i => w.step (.empty i)
  | .move i j => w.step (.move i j)
  | .destroy i => w.step (.destroy i)
  | .moveAssign i j => w.step (.moveAssign i j)

/-- a history of operations, each with the answer of the allocator -/
def run (w : World) : List (Op × Bool) → Option World
  | [] => some w
  | (o, ok) :: l => match step w ok o with
    | none => none
    | some w => run w l

end Verif.Model.BlobFail
