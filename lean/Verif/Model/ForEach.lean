import Verif.Spec.ForEach
/-!
# Model of thread_pool::for_each and of the sizing of a pool

Models `/repo/include/muu/thread_pool.h` lines 550–580, 837–976, 1027–1120, 1157–1181. What is modelled of a
`for_each` call is the list of batches it enqueues, in order; that the batches are then run once each is C35.
-/
namespace Verif.Model.ForEach

/-- batch_size_generator<size_t>, `/repo/include/muu/thread_pool.h` lines 550–556 -/
structure Gen where
  remaining : BitVec 64
  constant : BitVec 64
  overflow : BitVec 64

/-- its constructor, lines 559–563; `none` = division by zero -/
def Gen.init (jobs batches : BitVec 64) : Option Gen :=
  if batches = 0#64 then none else some ⟨jobs, jobs / batches, jobs % batches⟩

/-- its call operator, lines 567–579 -/
def Gen.next (g : Gen) : BitVec 64 × Gen :=
  if g.remaining = 0#64 then (0#64, g)
  else
    let i := if g.overflow ≠ 0#64 then g.constant + 1#64 else g.constant
    let o := if g.overflow ≠ 0#64 then g.overflow - 1#64 else g.overflow
    (i, { g with overflow := o, remaining := g.remaining - i })

/-- one enqueued batch -/
structure Batch (α : Type) where
  start : α
  stop : α
  index : Nat
  deriving DecidableEq, Repr

/-! ### Index ranges. `T` is a 32 or 64 bit signed or unsigned integer type, so that `offset_type` (lines 918–919)
is `T` and `size_type` (line 920) has 64 bits. For narrower types lines 926–927 are narrowing conversions in braces,
which are ill-formed; they are not modelled. -/

/-- `static_cast<offset_type>(batch_start + next_batch_size)`, line 950: the sum is formed in `size_type` -/
def offAdd {w : Nat} (signed : Bool) (b : BitVec w) (size : BitVec 64) : BitVec w :=
  ((if signed then b.signExtend 64 else b.setWidth 64) + size).setWidth w

/-- the loop of lines 947–969. `fuel` only bounds the recursion (the loop ends after at most `workers` rounds);
    `none` when it runs out. -/
def dispatch {w : Nat} (signed : Bool) : Nat → Gen → BitVec w → BitVec 64 → Nat → Option (List (Batch (BitVec w)))
  | 0, _, _, _, _ => none
  | fuel + 1, g, next, size, index =>
    let e := offAdd signed next size
    let r := g.next
    if r.1 ≠ 0#64 then
      match dispatch signed fuel r.2 e r.1 (index + 1) with
      | none => none
      | some l => some (⟨next, e, index⟩ :: l)
    else some [⟨next, e, index⟩]

/-- `start > end`, line 923 -/
def greater {w : Nat} (signed : Bool) (a b : BitVec w) : Bool := if signed then b.slt a else b.ult a

/-- lines 923–928; `none` = signed overflow -/
def orient {w : Nat} (signed : Bool) (start stop : BitVec w) : Option (BitVec w × BitVec w) :=
  if greater signed start stop then
    if signed && start == BitVec.intMax w then none else some (stop + 1#w, start + 1#w)
  else some (start, stop)

/-- lines 931–932; `none` = signed overflow -/
def jobCount {w : Nat} (signed : Bool) (start stop : BitVec w) : Option (BitVec 64) :=
  if signed then
    if stop.ssubOverflow start then none else some ((stop - start).signExtend 64)
  else some ((stop - start).setWidth 64)

/-- for_each(start, end, task), lines 906–976. `none` = undefined behaviour -/
def forEach {w : Nat} (signed : Bool) (workers : BitVec 64) (start stop : BitVec w) :
    Option (List (Batch (BitVec w))) :=
  if start = stop then some []
  else match orient signed start stop with
    | none => none
    | some (start, stop) =>
      match jobCount signed start stop with
      | none => none
      | some jobs =>
        match Gen.init jobs workers with
        | none => none
        | some g =>
          let r := g.next
          dispatch signed (workers.toNat + 1) r.2 start r.1 0

/-- for_each(end, task), lines 1012–1015 -/
def forEachTo {w : Nat} (signed : Bool) (workers : BitVec 64) (stop : BitVec w) :=
  forEach signed workers (0#w) stop

/-- `batch_start < batch_end`, line 858 -/
def less {w : Nat} (signed : Bool) (a b : BitVec w) : Bool := if signed then a.slt b else a.ult b

/-- the loop of line 858, at most `n` rounds of it -/
def batchLoop {w : Nat} (signed : Bool) : Nat → BitVec w → BitVec w → List (BitVec w)
  | 0, _, _ => []
  | n + 1, b, e => if less signed b e then b :: batchLoop signed n (b + 1#w) e else []

/-- the arguments with which a batch calls the task, lines 856–865. The loop runs until `batch_start` is no longer
    less than `batch_end`; 2^w rounds are always enough. -/
def Batch.calls {w : Nat} (signed : Bool) (b : Batch (BitVec w)) : List (BitVec w) :=
  batchLoop signed (2 ^ w) b.start b.stop

/-! ### Iterator ranges. An iterator is represented by the position it refers to. -/

/-- the loop of lines 1090–1113; `fuel` as in `dispatch` -/
def dispatchIter : Nat → Gen → Nat → Nat → Nat → Option (List (Batch Nat))
  | 0, _, _, _, _ => none
  | fuel + 1, g, b, e, index =>
    let r := g.next
    if r.1 ≠ 0#64 then
      match dispatchIter fuel r.2 e (e + r.1.toNat) (index + 1) with
      | none => none
      | some l => some (⟨b, e, index⟩ :: l)
    else some [⟨b, e, index⟩]

/-- for_each(begin, end, task), lines 1158–1181 and 1063–1120, for a range of `n` elements (`n` fits ptrdiff_t) -/
def forEachIter (workers : BitVec 64) (n : Nat) : Option (List (Batch Nat)) :=
  if n = 0 then some []
  else match Gen.init (BitVec.ofNat 64 n) workers with
    | none => none
    | some g =>
      let r := g.next
      dispatchIter (workers.toNat + 1) r.2 0 r.1.toNat 0

/-- the positions a batch visits, lines 1047–1055 (`batch_start != batch_end`; `none` if the loop would run past
    `batch_end` for ever) -/
def Batch.visits (b : Batch Nat) : Option (List Nat) :=
  if b.start ≤ b.stop then some ((List.range (b.stop - b.start)).map (b.start + ·)) else none

end Verif.Model.ForEach
