import Verif.Model.Bits
/-!
# Model of the sizing and the memory layout of a thread pool

Models `/repo/src/thread_pool.cpp` lines 385–412 and 663–708 (the arithmetic), 457–465 and 760–770.

`double` arithmetic is modelled as exact arithmetic followed by rounding to the nearest value with a 53 bit significand,
ties to even (IEEE 754). A positive double `v` is represented by the natural number `v · 2^64`, which is exact for
every double which occurs here: they are at least 2^-10, so their last significand bit is worth at least 2^-62.
-/
namespace Verif.Model.PoolSizing
open Verif.Model

/-- the integer nearest to `num / den`, ties to even -/
def rne (num den : Nat) : Nat :=
  let f := num / den
  let r := num % den
  if 2 * r < den then f else if den < 2 * r then f + 1 else f + f % 2

/-- the double nearest to `num / den` (times 2^64), for `num / den` at least 2^-10 -/
def roundDouble (num den : Nat) : Nat :=
  let e := Nat.log2 (num * 2 ^ 64 / den) - 52
  rne (num * 2 ^ 64) (den * 2 ^ e) * 2 ^ e

/-- `static_cast<double>(n)`, line 410 -/
def toDouble (n : BitVec 64) : Nat := roundDouble n.toNat 1

/-- `x / y`, line 410 -/
def divDouble (x y : Nat) : Nat := roundDouble x y

/-- `std::ceil(x)`, line 410. The ceiling of a double is a double. -/
def ceilDouble (x : Nat) : Nat := (x + (2 ^ 64 - 1)) / 2 ^ 64

/-- `static_cast<size_t>(x)` of an integral double; `none` = undefined behaviour (the value does not fit) -/
def toSize (x : Nat) : Option (BitVec 64) := if x < 2 ^ 64 then some (BitVec.ofNat 64 x) else none

/-- calc_thread_pool_workers, lines 386–393. `hw` is the result of std::thread::hardware_concurrency(). -/
def calcWorkers (hw : BitVec 32) (workers : BitVec 64) : BitVec 64 :=
  let concurrency := if hw.setWidth 64 < 1#64 then 1#64 else hw.setWidth 64
  let most := if concurrency * 64#64 < 1024#64 then concurrency * 64#64 else 1024#64
  let wanted := if workers ≠ 0#64 then workers else concurrency
  if wanted < most then wanted else most

/-- calc_thread_pool_worker_queue_size, lines 396–412; `none` = undefined behaviour -/
def calcQueueSize (workers tasks : BitVec 64) : Option (BitVec 64) :=
  let mostTasks := (256#64 * 1024#64 * 1024#64) / 64#64
  let defaultTasks := (64#64 * 1024#64) / 64#64
  if workers = 0#64 then none
  else
    let tasks := if tasks = 0#64 then defaultTasks else tasks
    match toSize (ceilDouble (divDouble (toDouble tasks) (toDouble workers))) with
    | none => none
    | some s => some (if s < mostTasks / workers then s else mostTasks / workers)

/-- the offsets computed in muu_impl_thread_pool_create, lines 676–684 -/
structure Layout where
  queuesStart : BitVec 64
  queuesEnd : BitVec 64
  workersStart : BitVec 64
  workersEnd : BitVec 64
  tasksStart : BitVec 64
  tasksEnd : BitVec 64
  total : BitVec 64

/-- lines 676–684. `sizes` are sizeof(thread_pool_storage), sizeof(thread_pool_queue), sizeof(thread_pool_worker). -/
def layout (sStorage sQueue sWorker workers tasks : BitVec 64) : Option Layout :=
  match applyAlignment (0#64 + sStorage) 64#64 with
  | none => none
  | some qs =>
    let qe := qs + sQueue * workers
    match applyAlignment qe 64#64 with
    | none => none
    | some ws =>
      let we := ws + sWorker * workers
      match applyAlignment we 64#64 with
      | none => none
      | some ts =>
        let te := ts + 64#64 * tasks
        some ⟨qs, qe, ws, we, ts, te, te - 0#64⟩

/-- what workers(), capacity() and the queues see of a new pool: `workers`, `queueSize` are the members set on lines
    457–458 from the sizes of the buffers -/
structure Pool where
  layout : Layout
  workers : BitVec 64
  queueSize : BitVec 64

/-- muu_impl_thread_pool_create, lines 664–708, and the constructor, lines 457–458 -/
def create (hw : BitVec 32) (sStorage sQueue sWorker workers tasks : BitVec 64) : Option Pool :=
  let wc := calcWorkers hw workers
  match calcQueueSize wc tasks with
  | none => none
  | some qs =>
    match layout sStorage sQueue sWorker wc (wc * qs) with
    | none => none
    | some l =>
      if sWorker = 0#64 then none
      else
        let w := (l.workersEnd - l.workersStart) / sWorker
        if w = 0#64 then none else some ⟨l, w, (l.tasksEnd - l.tasksStart) / 64#64 / w⟩

/-- muu_impl_thread_pool_capacity, lines 765–770 -/
def Pool.capacity (p : Pool) : BitVec 64 := p.workers * p.queueSize

/-- the offset of the task buffer of queue `i` from the start of the allocation, lines 461–464 -/
def Pool.queueTasks (p : Pool) (i : BitVec 64) : BitVec 64 := p.layout.tasksStart + 64#64 * p.queueSize * i

/-- the size of the task buffer of each queue, line 464 -/
def Pool.queueBytes (p : Pool) : BitVec 64 := 64#64 * p.queueSize

/-- the offset of queue `i`, line 465 -/
def Pool.queueAt (p : Pool) (sQueue i : BitVec 64) : BitVec 64 := p.layout.queuesStart + sQueue * i

/-- the offset of worker `i`, line 490 -/
def Pool.workerAt (p : Pool) (sWorker i : BitVec 64) : BitVec 64 := p.layout.workersStart + sWorker * i

end Verif.Model.PoolSizing
