import Verif.Model.ThreadPool
import Verif.Spec.Fairness
/-!
# Executions of the thread pool that never end, and fair schedulers

The states and steps are those of `Model/ThreadPool.lean`.  An execution is an infinite sequence of states, each
made from the one before by one step of one thread, or by none (time passes).

`Fair` is what the theorems of `Props/PoolFair.lean` assume of the operating system, the mutexes and the tasks:
* a thread that is neither blocked nor outside the pool goes on at some time; for a worker running a task this
  says that the task returns (`/repo/src/thread_pool.cpp` lines 352-371);
* a worker which looks for work again and again, while the mutex of its own queue is released again and again,
  gets that mutex again and again (lines 350-364: each round starts with `try_pop` of its own queue and, if
  nothing is found anywhere, ends with `pop` of it, which waits for the mutex), and it looks at its `terminated_`
  flag again and again (lines 352, 355);
* a caller looking for a queue with room again and again, while the mutexes of all queues are released again and
  again, gets one of these again and again (lines 553-572, 584-603: round robin, without end); one who asks
  for more than a queue can hold gives up (lines 550-551);
* the destructor goes on if nothing keeps it from doing so.
No order or speed is assumed, nor that a lock is obtained whenever it is free.
-/
namespace Verif.Model.Pool
open Verif.Spec.Pool Verif.Spec.Fairness

/-- the thread that takes a step -/
def threadOf : Label → Thread
  | .callEnqueue c _ | .tryLock c _ | .examine c | .abandon c | .acquire c | .publish c | .unlock c
  | .callWait c | .check c | .spurious c => .caller c
  | .wLoop w | .wTryLock w _ | .wBody w | .wUnlock w | .wStart w | .wFinish w | .wDecrement w
  | .wNotify w | .wDestroy w => .worker w
  | .dBegin | .dStep => .destroyer

/-- an execution from the construction of the pool (`initial`) on -/
structure Execution (cfg : Cfg) where
  state : ℕ → State
  label : ℕ → Option Label
  start : state 0 = initial
  waits : ∀ n, label n = none → state (n + 1) = state n
  steps : ∀ n l, label n = some l → step cfg (state n) l = some (state (n + 1))

/-- the execution that tries the steps of a list that never ends, skipping those that are not enabled -/
def attempts (cfg : Cfg) (want : ℕ → Label) : ℕ → State
  | 0 => initial
  | n + 1 => (step cfg (attempts cfg want n) (want n)).getD (attempts cfg want n)

def attempt (cfg : Cfg) (want : ℕ → Label) : Execution cfg where
  state := attempts cfg want
  label n := if (step cfg (attempts cfg want n) (want n)).isSome then some (want n) else none
  start := rfl
  waits n h := by
    split at h
    · cases h
    · rename_i h'
      rw [Option.not_isSome_iff_eq_none] at h'
      simp only [attempts, h', Option.getD_none]
  steps n l h := by
    split at h
    · rename_i h'
      cases h
      obtain ⟨s, hs⟩ := Option.isSome_iff_exists.mp h'
      simp only [attempts, hs, Option.getD_some]
    · cases h

/-- the pool is never destroyed -/
def Execution.NeverDestroyed {cfg : Cfg} (e : Execution cfg) : Prop := ∀ n, (e.state n).dtor = .alive

/-- thread `th` takes a step at moment `n` -/
def Execution.Moves {cfg : Cfg} (e : Execution cfg) (th : Thread) (n : ℕ) : Prop :=
  ∃ l, e.label n = some l ∧ threadOf l = th

/-- what is assumed of scheduling, see above -/
structure Fair {cfg : Cfg} (e : Execution cfg) : Prop where
  worker : ∀ w < cfg.workers, ∀ n, (e.state n).workers w ≠ .exited → EventuallyFrom n (e.Moves (.worker w))
  caller : ∀ c < cfg.callers, ∀ n, (e.state n).callers c ≠ .idle → (e.state n).callers c ≠ .sleeping →
    (∀ k, (e.state n).callers c ≠ .search k) → EventuallyFrom n (e.Moves (.caller c))
  ownQueue : ∀ w < cfg.workers, Often (fun n => (e.state n).workers w = .polling) →
    Often (fun n => ((e.state n).queues w).holder = none) → Often (fun n => e.label n = some (.wTryLock w w))
  ownFlag : ∀ w < cfg.workers, Often (fun n => (e.state n).workers w = .polling) →
    Often (fun n => e.label n = some (.wLoop w))
  search : ∀ c < cfg.callers, Often (fun n => ∃ k ≤ cfg.capacity, (e.state n).callers c = .search k) →
    (∀ q < cfg.workers, Often (fun n => ((e.state n).queues q).holder = none)) →
    Often (fun n => ∃ q, e.label n = some (.tryLock c q))
  tooMany : ∀ c < cfg.callers, ∀ n k, (e.state n).callers c = .search k → cfg.capacity < k →
    EventuallyFrom n (fun m => e.label m = some (.abandon c))
  destructor : ∀ n, (∀ m, n ≤ m → (step cfg (e.state m) .dStep).isSome = true) →
    EventuallyFrom n (fun m => e.label m = some .dStep)

end Verif.Model.Pool
