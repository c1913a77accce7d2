import Verif.Spec.ThreadPool
/-!
# Model of muu::thread_pool: queues, monitor, workers, callers and destruction

Models `/repo/src/thread_pool.cpp` lines 85–117 (monitor), 121–306 (queue), 310–383 (worker),
414–639 (thread_pool_impl) and `/repo/include/muu/thread_pool.h` lines 821–832 (enqueue), 945–974
(the shared-queue part of for_each) as a labelled transition system. One label is one atomic step
of one thread; an execution is any list of labels which are all enabled, i.e. any schedule.

Simplifications:
* sequential consistency (all shared data other than the `terminated_` flags is accessed under a mutex);
* the non-Windows monitor (lines 85–117) is the one modelled;
* which queue a caller or worker tries next, and how often, is left to the schedule (lines 350–364,
  553–616 visit the queues round robin); timeouts and pauses are schedule choices too;
* a thread blocked in `pop`'s timed wait has released the mutex, so `pop` is a sequence of lock
  attempts each of which may find the queue empty;
* an object of type `impl::thread_pool_task` is represented by the number of its enqueue; moving it to
  a worker's buffer and destroying the moved-from shell (lines 161–173) moves the number;
* a task which itself calls into the pool is represented by one of the callers;
* the pool's constructor has completed (the initial state).
Undefined behaviour (constructing a task over a live one, popping a slot with no live task) sets `ub`.
-/
namespace Verif.Model.Pool
open Verif.Spec.Pool

/-- functional update of one entry of a table (not part of muu: the model's memory write) -/
def upd {α : Type} (f : Nat → α) (i : Nat) (v : α) : Nat → α := fun j => if j = i then v else f j

inductive Thread where
  | caller (c : Nat)
  | worker (w : Nat)
  | destroyer
  deriving DecidableEq, Repr

/-- thread_pool_queue's data members, `/repo/src/thread_pool.cpp` lines 124–130. `slots` is the
    storage `pool` seen as an array of 64-byte cells, `none` = no live object in the cell.
    `holder` is the state of `mutex`. -/
structure Queue where
  slots : Nat → Option Nat := fun _ => none
  front : BitVec 64 := 0#64
  back : BitVec 64 := 0#64
  enqueues : BitVec 64 := 0#64
  terminated : Bool := false
  holder : Option Thread := none

/-- thread_pool_queue::size, `/repo/src/thread_pool.cpp` lines 213–216 -/
def Queue.size (q : Queue) : BitVec 64 := q.back - q.front
/-- thread_pool_queue::full, `/repo/src/thread_pool.cpp` lines 219–222 -/
def Queue.full (q : Queue) (capacity : Nat) : Bool := decide (capacity ≤ q.size.toNat)
/-- thread_pool_queue::empty, `/repo/src/thread_pool.cpp` lines 225–228 -/
def Queue.empty (q : Queue) : Bool := q.back == q.front
/-- thread_pool_queue::available, `/repo/src/thread_pool.cpp` lines 231–234 -/
def Queue.available (q : Queue) (capacity : Nat) : BitVec 64 := BitVec.ofNat 64 capacity - q.size
/-- thread_pool_queue::try_lock on a free mutex, `/repo/src/thread_pool.cpp` lines 237–245 -/
def Queue.tryLock (q : Queue) (th : Thread) : Queue :=
  { q with holder := some th, enqueues := 0#64 }

/-- thread_pool_queue::acquire followed by the construction of task `t` in the returned cell,
    `/repo/src/thread_pool.cpp` lines 256–264 and `/repo/include/muu/thread_pool.h` lines 639–644.
    The flag is true when the cell still held a live task (undefined behaviour). -/
def Queue.acquire (q : Queue) (capacity : Nat) (t : Nat) : Queue × Bool :=
  let i := q.back.toNat % capacity
  ({ q with slots := upd q.slots i (some t), back := q.back + 1#64, enqueues := q.enqueues + 1#64 },
   (q.slots i).isSome)

/-- thread_pool_queue::pop_front_task and the destruction or move of the task it returns,
    `/repo/src/thread_pool.cpp` lines 137–141, 146–155, 161–173, 192. `none`: no live task in the
    cell (undefined behaviour). -/
def Queue.popFront (q : Queue) (capacity : Nat) : Option (Nat × Queue) :=
  let i := (q.front + 0#64).toNat % capacity
  match q.slots i with
  | none => none
  | some t => some (t, { q with slots := upd q.slots i none, front := q.front + 1#64 })

/-! ### One queue used sequentially (for the FIFO property on its own) -/

/-- one caller- or worker-side use of a queue whose mutex is free: lock, test for room
    (`/repo/src/thread_pool.cpp` lines 594–598) and acquire; or try_pop (lines 284–291).
    `none` = undefined behaviour. -/
def Queue.useOnce (cap : Nat) (q : Queue) : QOp → Option (QRes × Queue)
  | .put t =>
    let q := q.tryLock (.caller 0)
    if q.full cap then some (.refused, { q with holder := none })
    else
      let r := q.acquire cap t
      if r.2 then none else some (.stored, { r.1 with holder := none })
  | .take =>
    if q.empty || q.terminated then some (.nothing, q)
    else match q.popFront cap with
      | none => none
      | some (t, q) => some (.got t, q)

/-- a sequence of such uses -/
def Queue.useMany (cap : Nat) (q : Queue) : List QOp → Option (List QRes × Queue)
  | [] => some ([], q)
  | op :: ops =>
    match q.useOnce cap op with
    | none => none
    | some (r, q) =>
      match q.useMany cap ops with
      | none => none
      | some (rs, q) => some (r :: rs, q)

/-! ### The whole pool -/

/-- program counter of a thread calling into the pool -/
inductive CPc where
  /-- outside the pool -/
  | idle
  /-- in lock()/lock_multiple(k), holding nothing -/
  | search (k : Nat)
  /-- try_lock of queue `q` succeeded, room not yet examined -/
  | locked (k q : Nat)
  /-- holding queue `q`; `todo` more tasks to construct, `ts` constructed so far; with `retry = some k`
      the queue had no room and the search for `k` slots goes on after unlocking -/
  | filling (todo q : Nat) (ts : List Nat) (retry : Option Nat)
  /-- in unlock(), after monitor.increment -/
  | published (q : Nat) (ts : List Nat) (retry : Option Nat)
  /-- in monitor.wait(), about to test `busy` with the monitor's mutex -/
  | checking
  /-- in monitor.wait(), blocked in cv.wait -/
  | sleeping
  deriving DecidableEq, Repr

/-- program counter of a worker thread, `/repo/src/thread_pool.cpp` lines 352–371 -/
inductive WPc where
  | polling
  | locked (q : Nat)
  | leaving (q : Nat)
  | popped (q t : Nat)
  | holding (t : Nat)
  | running (t : Nat)
  | ran (t : Nat)
  | notifying (t : Nat)
  | counted (t : Nat)
  | exited
  deriving DecidableEq, Repr

/-- program counter of the thread destroying the pool, `/repo/src/thread_pool.cpp` lines 502–513
    and 186–195 -/
inductive DPc where
  | alive
  /-- queues `n, n+1, …` have been told to terminate -/
  | termQ (n : Nat)
  /-- workers `n, n+1, …` have been terminated and joined -/
  | termW (n : Nat)
  /-- joining worker `n` -/
  | join (n : Nat)
  /-- queues `n, n+1, …` have been destroyed -/
  | drain (n : Nat)
  /-- in the destructor of queue `n`, which held `remaining` tasks when it was entered -/
  | draining (n : Nat) (remaining : BitVec 64)
  | done
  deriving DecidableEq, Repr

structure State where
  queues : Nat → Queue := fun _ => {}
  callers : Nat → CPc := fun _ => .idle
  workers : Nat → WPc := fun _ => .polling
  /-- thread_pool_worker::terminated_ -/
  wterm : Nat → Bool := fun _ => false
  dtor : DPc := .alive
  /-- thread_pool_monitor::busy, `/repo/src/thread_pool.cpp` line 88 -/
  busy : BitVec 64 := 0#64
  /-- number of tasks constructed so far (ghost: names the tasks) -/
  next : Nat := 0
  /-- history (ghost) -/
  log : List Event := []
  /-- tasks whose enqueue (or for_each) call has returned (ghost) -/
  returned : List Nat := []
  ub : Bool := false

/-- sizes of a pool: workers (= queues), tasks per queue, threads which may call into it -/
structure Cfg where
  workers : Nat
  capacity : Nat
  callers : Nat

inductive Label where
  | callEnqueue (c k : Nat) | tryLock (c q : Nat) | examine (c : Nat) | abandon (c : Nat)
  | acquire (c : Nat) | publish (c : Nat) | unlock (c : Nat)
  | callWait (c : Nat) | check (c : Nat) | spurious (c : Nat)
  | wLoop (w : Nat) | wTryLock (w q : Nat) | wBody (w : Nat) | wUnlock (w : Nat)
  | wStart (w : Nat) | wFinish (w : Nat) | wDecrement (w : Nat) | wNotify (w : Nat) | wDestroy (w : Nat)
  | dBegin | dStep
  deriving DecidableEq, Repr

namespace State

def setQ (s : State) (i : Nat) (q : Queue) : State := { s with queues := upd s.queues i q }
def setC (s : State) (c : Nat) (pc : CPc) : State := { s with callers := upd s.callers c pc }
def setW (s : State) (w : Nat) (pc : WPc) : State := { s with workers := upd s.workers w pc }
def emit (s : State) (e : Event) : State := { s with log := s.log ++ [e] }

/-- cv.notify_all on the monitor, `/repo/src/thread_pool.cpp` line 115 -/
def notifyAll (s : State) : State :=
  { s with callers := fun c => if s.callers c = .sleeping then .checking else s.callers c }

end State

/-- steps of caller `c` -/
def stepCaller (cfg : Cfg) (s : State) (c : Nat) (l : Label) : Option State :=
  match l, s.callers c with
  -- enqueue (k = 1): thread_pool.h 821–832; for_each with a shared queue (k = batch count): 945–946
  | .callEnqueue _ k, .idle =>
    if s.dtor = .alive ∧ 1 ≤ k then some (s.setC c (.search k)) else none
  -- thread_pool.cpp 563, 594
  | .tryLock _ q, .search k =>
    if q < cfg.workers ∧ (s.queues q).holder = none then
      some ((s.setQ q ((s.queues q).tryLock (.caller c))).setC c (.locked k q))
    else none
  -- thread_pool.cpp 565–567, 596–598 (`!full()` is `available() >= 1`, see `not_full_iff_available`)
  | .examine _, .locked k q =>
    if k ≤ ((s.queues q).available cfg.capacity).toNat then some (s.setC c (.filling k q [] none))
    else some (s.setC c (.filling 0 q [] (some k)))
  -- lock_multiple returning nothing: thread_pool.cpp 550–551, 576–579
  | .abandon _, .search _ => some (s.setC c .idle)
  -- thread_pool.h 639–644; thread_pool.cpp 256–264
  | .acquire _, .filling (todo + 1) q ts retry =>
    let r := (s.queues q).acquire cfg.capacity s.next
    let s' := ((s.setQ q r.1).setC c (.filling todo q (ts ++ [s.next]) retry)).emit (.constructed s.next)
    some { s' with next := s.next + 1, ub := s.ub || r.2 }
  -- thread_pool.cpp 268–273 and 100–104
  | .publish _, .filling 0 q ts retry =>
    let enq := (s.queues q).enqueues
    some { s.setC c (.published q ts retry) with busy := if enq = 0#64 then s.busy else s.busy + enq }
  -- thread_pool.cpp 275–278
  | .unlock _, .published q ts retry =>
    let s := s.setQ q { s.queues q with holder := none }
    match retry with
    | some k => some (s.setC c (.search k))
    | none => some { s.setC c .idle with returned := s.returned ++ ts }
  -- thread_pool.cpp 93–98, 635–638
  | .callWait _, .idle => if s.dtor = .alive then some (s.setC c .checking) else none
  | .check _, .checking => if s.busy = 0#64 then some (s.setC c .idle) else some (s.setC c .sleeping)
  -- std::condition_variable::wait may return without a notification
  | .spurious _, .sleeping => some (s.setC c .checking)
  | _, _ => none

/-- steps of worker `w`, `/repo/src/thread_pool.cpp` lines 352–371 -/
def stepWorker (cfg : Cfg) (s : State) (w : Nat) (l : Label) : Option State :=
  match l, s.workers w with
  -- 352, 355
  | .wLoop _, .polling => if s.wterm w then some (s.setW w .exited) else some s
  -- 286, 298 (on a free mutex)
  | .wTryLock _ q, .polling =>
    if q < cfg.workers ∧ (s.queues q).holder = none then
      some ((s.setQ q { s.queues q with holder := some (.worker w) }).setW w (.locked q))
    else none
  -- 287–290, 301–304
  | .wBody _, .locked q =>
    if (s.queues q).empty || (s.queues q).terminated then some (s.setW w (.leaving q))
    else match (s.queues q).popFront cfg.capacity with
      | none => some { s with ub := true }
      | some (t, q') => some ((s.setQ q q').setW w (.popped q t))
  -- end of the scope of `lock` in 284–291, 296–305
  | .wUnlock _, .leaving q => some ((s.setQ q { s.queues q with holder := none }).setW w .polling)
  | .wUnlock _, .popped q t => some ((s.setQ q { s.queues q with holder := none }).setW w (.holding t))
  -- 367
  | .wStart _, .holding t => some ((s.setW w (.running t)).emit (.started t w))
  | .wFinish _, .running t => some ((s.setW w (.ran t)).emit (.finished t))
  -- 368, 106–113
  | .wDecrement _, .ran t =>
    let busy := s.busy - 1#64
    some { s.setW w (if busy = 0#64 then .notifying t else .counted t) with busy := busy }
  -- 114–115
  | .wNotify _, .notifying t => some (s.notifyAll.setW w (.counted t))
  -- 369
  | .wDestroy _, .counted t => some ((s.setW w .polling).emit (.destroyed t))
  | _, _ => none

/-- steps of the destroying thread, `/repo/src/thread_pool.cpp` lines 502–513, 186–195. Destroying
    a pool other threads are still calling into is outside the contract, hence the guard on `dBegin`. -/
def stepDestroyer (cfg : Cfg) (s : State) (l : Label) : Option State :=
  match l, s.dtor with
  | .dBegin, .alive =>
    if ∀ c < cfg.callers, s.callers c = .idle then some { s with dtor := .termQ cfg.workers } else none
  -- 504–505, 200–204
  | .dStep, .termQ 0 => some { s with dtor := .termW cfg.workers }
  | .dStep, .termQ (n + 1) =>
    some { s.setQ n { s.queues n with terminated := true } with dtor := .termQ n }
  -- 506–510
  | .dStep, .termW 0 => some { s with dtor := .drain cfg.workers }
  | .dStep, .termW (n + 1) => some { s with wterm := upd s.wterm n true, dtor := .join n }
  | .dStep, .join n => if s.workers n = .exited then some { s with dtor := .termW n } else none
  -- 511–512, 188–189
  | .dStep, .drain 0 => some { s with dtor := .done }
  | .dStep, .drain (n + 1) =>
    if (s.queues n).holder = none then
      some { s.setQ n { s.queues n with holder := some .destroyer } with
             dtor := .draining n (s.queues n).size }
    else none
  -- 189–194
  | .dStep, .draining n remaining =>
    if (s.queues n).empty then
      let s := s.setQ n { s.queues n with holder := none }
      let busy := if remaining = 0#64 then s.busy else s.busy - remaining
      let s := if remaining ≠ 0#64 ∧ busy = 0#64 then s.notifyAll else s
      some { s with busy := busy, dtor := .drain n }
    else match (s.queues n).popFront cfg.capacity with
      | none => some { s with ub := true }
      | some (t, q') => some ((s.setQ n q').emit (.destroyed t))
  | _, _ => none

/-- one atomic step; `none` = the label is not enabled -/
def step (cfg : Cfg) (s : State) (l : Label) : Option State :=
  match l with
  | .callEnqueue c _ | .tryLock c _ | .examine c | .abandon c | .acquire c | .publish c | .unlock c
  | .callWait c | .check c | .spurious c => if c < cfg.callers then stepCaller cfg s c l else none
  | .wLoop w | .wTryLock w _ | .wBody w | .wUnlock w | .wStart w | .wFinish w | .wDecrement w
  | .wNotify w | .wDestroy w => if w < cfg.workers then stepWorker cfg s w l else none
  | .dBegin | .dStep => stepDestroyer cfg s l

/-- a schedule: `none` if some label was not enabled when its turn came -/
def run (cfg : Cfg) (s : State) : List Label → Option State
  | [] => some s
  | l :: ls => match step cfg s l with
    | none => none
    | some s => run cfg s ls

/-- the pool right after construction, `/repo/src/thread_pool.cpp` lines 441–500 -/
def initial : State := {}

/-! ### Continuations without new requests (used to state that the pool can always finish its work) -/

/-- Steps which only carry on with what is under way: no new call into the pool, no destruction, no spurious
    wake-up, and giving up on finding room for a batch only when the batch is larger than a queue
    (`/repo/src/thread_pool.cpp` lines 550–551). -/
def CarriesOn (cfg : Cfg) (s : State) : Label → Prop
  | .callEnqueue _ _ | .callWait _ | .spurious _ | .dBegin | .dStep => False
  | .abandon c => ∃ k, s.callers c = .search k ∧ cfg.capacity < k
  | _ => True

/-- `s'` can be reached from `s` by such steps -/
inductive Continues (cfg : Cfg) : State → State → Prop where
  | refl (s) : Continues cfg s s
  | step {s l s1 s'} : step cfg s l = some s1 → CarriesOn cfg s l → Continues cfg s1 s' → Continues cfg s s'

end Verif.Model.Pool
