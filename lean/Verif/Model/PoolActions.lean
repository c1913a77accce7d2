import Verif.Model.ThreadPool
import Verif.Spec.HappensBefore
/-!
# What the steps of the thread pool lock, unlock and touch

`/repo/src/thread_pool.cpp`, for every step of `Verif.Model.Pool.step`: the mutexes, and the memory that is not atomic. The flags `terminated_` (lines 130, 315) and `next_queue` (421) are
atomic; the members set by the constructors and not changed afterwards (124-127, 416-420) are not listed; locking attempts that fail are not steps.
-/
namespace Verif.Model.Pool
open Verif.Spec.Pool Verif.Spec.HappensBefore

inductive Mutex where
  /-- thread_pool_queue::mutex, line 128 -/
  | queue (q : Nat)
  /-- thread_pool_monitor::mutex, line 89 -/
  | monitor
  deriving DecidableEq, Repr

inductive Place where
  /-- front, back and enqueues_ of a queue, lines 126-127 -/
  | indices (q : Nat)
  /-- the bytes of a cell of the buffer of a queue, line 124 -/
  | cell (q i : Nat)
  /-- pop_buffer of a worker, line 348 -/
  | buffer (w : Nat)
  /-- what the callable of a task owns, wherever the task is moved -/
  | callable (t : Nat)
  /-- thread_pool_monitor::busy, line 88 -/
  | busy
  deriving DecidableEq, Repr

abbrev PoolAction := Action Thread Mutex Place Event

/-- the steps of a caller -/
def callerAction (cfg : Cfg) (s : State) (c : Nat) (l : Label) : PoolAction :=
  match l, s.callers c with
  -- 237-245: locks the mutex, then writes enqueues_
  | .tryLock _ q, _ => { thread := .caller c, locks := [.queue q], touches := [.indices q] }
  -- 565, 596: available() or full()
  | .examine _, .locked _ q => { thread := .caller c, touches := [.indices q] }
  -- 256-264, and the construction of the task, thread_pool.h 639-644
  | .acquire _, .filling _ q _ _ =>
    { thread := .caller c, touches := [.indices q, .cell q ((s.queues q).back.toNat % cfg.capacity), .callable s.next], event := some (.constructed s.next) }
  -- 268-272, 100-104
  | .publish _, .filling _ q _ _ =>
    if (s.queues q).enqueues = 0#64 then { thread := .caller c, touches := [.indices q] }
    else { thread := .caller c, locks := [.monitor], touches := [.indices q, .busy], unlocks := [.monitor] }
  -- 275
  | .unlock _, .published q _ _ => { thread := .caller c, unlocks := [.queue q] }
  -- 93-98: both returning and cv.wait unlock the mutex
  | .check _, _ => { thread := .caller c, locks := [.monitor], touches := [.busy], unlocks := [.monitor] }
  | _, _ => { thread := .caller c }

/-- the steps of a worker, lines 350-371 -/
def workerAction (cfg : Cfg) (s : State) (w : Nat) (l : Label) : PoolAction :=
  match l, s.workers w with
  -- 286, 298
  | .wTryLock _ q, _ => { thread := .worker w, locks := [.queue q] }
  -- 287-290, 301-304, 161-173: empty(), then the task is moved to the buffer
  | .wBody _, .locked q =>
    if (s.queues q).empty || (s.queues q).terminated then { thread := .worker w, touches := [.indices q] }
    else
      let i := (s.queues q).front.toNat % cfg.capacity
      match (s.queues q).slots i with
      | none => { thread := .worker w, touches := [.indices q, .cell q i, .buffer w] }
      | some t => { thread := .worker w, touches := [.indices q, .cell q i, .buffer w, .callable t] }
  -- end of the scopes of `lock`
  | .wUnlock _, .leaving q => { thread := .worker w, unlocks := [.queue q] }
  | .wUnlock _, .popped q _ => { thread := .worker w, unlocks := [.queue q] }
  -- 367
  | .wStart _, .holding t => { thread := .worker w, touches := [.buffer w, .callable t], event := some (.started t w) }
  | .wFinish _, .running t => { thread := .worker w, touches := [.buffer w, .callable t], event := some (.finished t) }
  -- 368, 106-113
  | .wDecrement _, _ => { thread := .worker w, locks := [.monitor], touches := [.busy], unlocks := [.monitor] }
  -- 369
  | .wDestroy _, .counted t => { thread := .worker w, touches := [.buffer w, .callable t], event := some (.destroyed t) }
  | _, _ => { thread := .worker w }

/-- the steps of the destroying thread, lines 502-513, 186-195 -/
def destroyerAction (cfg : Cfg) (s : State) : PoolAction :=
  match s.dtor with
  -- 509, 374-378
  | .join n => { thread := .destroyer, joins := [.worker n] }
  -- 188-189
  | .drain (n + 1) => { thread := .destroyer, locks := [.queue n], touches := [.indices n] }
  -- 189-194, and the end of the scope of `lock`
  | .draining n remaining =>
    if (s.queues n).empty then
      if remaining = 0#64 then { thread := .destroyer, touches := [.indices n], unlocks := [.queue n] }
      else { thread := .destroyer, locks := [.monitor], touches := [.indices n, .busy], unlocks := [.monitor, .queue n] }
    else
      let i := (s.queues n).front.toNat % cfg.capacity
      match (s.queues n).slots i with
      | none => { thread := .destroyer, touches := [.indices n, .cell n i] }
      | some t => { thread := .destroyer, touches := [.indices n, .cell n i, .callable t], event := some (.destroyed t) }
  | _ => { thread := .destroyer }

/-- one step of the pool -/
def action (cfg : Cfg) (s : State) (l : Label) : PoolAction :=
  match l with
  | .callEnqueue c _ | .tryLock c _ | .examine c | .abandon c | .acquire c | .publish c | .unlock c
  | .callWait c | .check c | .spurious c => callerAction cfg s c l
  | .wLoop w | .wTryLock w _ | .wBody w | .wUnlock w | .wStart w | .wFinish w | .wDecrement w
  | .wNotify w | .wDestroy w => workerAction cfg s w l
  | .dBegin | .dStep => destroyerAction cfg s

/-- the actions of a schedule -/
def actions (cfg : Cfg) (s : State) : List Label → List PoolAction
  | [] => []
  | l :: ls => action cfg s l :: match step cfg s l with
    | none => []
    | some s => actions cfg s ls

end Verif.Model.Pool
