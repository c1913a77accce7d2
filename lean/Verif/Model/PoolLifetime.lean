import Verif.Model.ThreadPool
/-!
# Model of the creation and the ownership of thread pools

Models `/repo/src/thread_pool.cpp` lines 441-500 and 663-718, and `/repo/include/muu/thread_pool.h` lines 736-769, in a build with
exceptions. While a pool is made no other thread knows it, so that only the constructing thread and the workers it has started run.
-/
namespace Verif.Model.PoolLifetime
open Verif.Model

/-- where the constructing thread is in muu_impl_thread_pool_create -/
inductive Pc where
  /-- before `aligned_alloc`, 687-688 -/
  | allocating
  /-- queues `0 … i - 1` are constructed, 461-467 -/
  | queues (i : Nat)
  /-- workers `0 … i - 1` are constructed, 481-496 -/
  | workers (i : Nat)
  /-- an exception is on its way, workers `i, i + 1, …` do not exist (any more), 476-480 -/
  | unwindWorkers (i : Nat)
  /-- and queues `i, i + 1, …` do not exist any more, 468-472 -/
  | unwindQueues (i : Nat)
  /-- and the memory is about to be freed, 698 -/
  | freeing
  /-- the exception has left the constructor -/
  | threw
  /-- the constructor has returned -/
  | returned
  deriving DecidableEq, Repr

/-- what exists of a pool while it is made -/
structure State where
  pc : Pc := .allocating
  /-- the block of memory is allocated -/
  memory : Bool := false
  /-- queues that have been constructed and not destroyed -/
  queues : Nat := 0
  /-- workers that have been constructed and not destroyed: their threads have started and were not joined -/
  threads : Nat := 0
  /-- the shared state -/
  pool : Pool.State := Pool.initial
  ub : Bool := false

/-- a step of the constructing thread, where `ok` says if what it asks of the system (memory, a thread) is granted, or of worker `w` -/
inductive Label where
  | go (ok : Bool)
  | worker (w : Nat) (l : Pool.Label)
  deriving DecidableEq, Repr

/-- steps of the constructing thread -/
def stepCreator (cfg : Pool.Cfg) (s : State) (ok : Bool) : Option State :=
  match s.pc with
  -- 687-688, 690-696, 705: without memory the storage is constructed at a null pointer
  | .allocating => if ok then some { s with memory := true, pc := .queues 0 } else some { s with ub := true }
  -- 461-467
  | .queues i =>
    if i < cfg.workers then some { s with queues := s.queues + 1, pc := .queues (i + 1) } else some { s with pc := .workers 0 }
  -- 481-499; the worker's name and its thread may fail to be made
  | .workers i =>
    if i < cfg.workers then
      if ok then some { s with threads := s.threads + 1, pc := .workers (i + 1) } else some { s with pc := .unwindWorkers i }
    else some { s with pc := .returned }
  -- 478-479 and 375-379: joins the thread
  | .unwindWorkers (i + 1) =>
    if s.pool.workers i = .exited then some { s with threads := s.threads - 1, pc := .unwindWorkers i } else none
  | .unwindWorkers 0 => some { s with pc := .unwindQueues cfg.workers }
  -- 470-471, 186-195: locks the queue, which is empty
  | .unwindQueues (i + 1) =>
    if (s.pool.queues i).holder = none then some { s with queues := s.queues - 1, pc := .unwindQueues i } else none
  | .unwindQueues 0 => some { s with pc := .freeing }
  -- 698
  | .freeing => some { s with memory := false, pc := .threw }
  | .threw => none
  | .returned => none

/-- the labels that are steps of worker `w` -/
def ofWorker (w : Nat) : Pool.Label → Bool
  | .wLoop v | .wTryLock v _ | .wBody v | .wUnlock v | .wStart v | .wFinish v | .wDecrement v | .wNotify v | .wDestroy v => v == w
  | _ => false

/-- one step; `none`: not enabled. A worker that has started runs its loop (`Pool.stepWorker`). -/
def step (cfg : Pool.Cfg) (s : State) : Label → Option State
  | .go ok => stepCreator cfg s ok
  | .worker w l =>
    if w < s.threads ∧ ofWorker w l then
      match Pool.step cfg s.pool l with
      | none => none
      | some p => some { s with pool := p }
    else none

/-- a schedule: `none` if some step was not enabled when its turn came -/
def run (cfg : Pool.Cfg) (s : State) : List Label → Option State
  | [] => some s
  | l :: ls => match step cfg s l with
    | none => none
    | some s => run cfg s ls

/-! ### Ownership -/

/-- `storage_` of the `thread_pool` objects that exist (`null` is `some none`), and which pools have been made and destroyed -/
structure Objects where
  storage : Nat → Option (Option Nat) := fun _ => none
  /-- the pools made so far are `0 … made - 1` -/
  made : Nat := 0
  /-- the arguments of muu_impl_thread_pool_destroy so far -/
  destroyed : List Nat := []

/-- what a program does with `thread_pool` objects -/
inductive Op where
  /-- construct object `x` with a new pool -/
  | construct (x : Nat)
  /-- construct object `x` by moving from `y` -/
  | moveConstruct (x y : Nat)
  /-- assign to object `x` by moving from `y` -/
  | moveAssign (x y : Nat)
  /-- destroy object `x` -/
  | destruct (x : Nat)
  deriving DecidableEq, Repr

/-- `std::exchange(y.storage_, nullptr)` and a store to `x.storage_` -/
def takeStorage (s : Objects) (x y : Nat) (p : Option Nat) : Objects :=
  { s with storage := Pool.upd (Pool.upd s.storage y (some none)) x (some p) }

/-- `thread_pool.h` 736-769; `none`: the objects named do not exist, or exist already -/
def act (s : Objects) : Op → Option Objects
  -- 736-738, 744-746
  | .construct x => match s.storage x with
    | none => some { s with storage := Pool.upd s.storage x (some (some s.made)), made := s.made + 1 }
    | some _ => none
  -- 750-752
  | .moveConstruct x y => match s.storage x, s.storage y with
    | none, some p => some (takeStorage s x y p)
    | _, _ => none
  -- 755-759
  | .moveAssign x y => match s.storage x, s.storage y with
    | some _, some p => some (takeStorage s x y p)
    | _, _ => none
  -- 765-769
  | .destruct x => match s.storage x with
    | none => none
    | some none => some { s with storage := Pool.upd s.storage x none }
    | some (some p) => some { s with storage := Pool.upd s.storage x none, destroyed := s.destroyed ++ [p] }

/-- a sequence of operations -/
def acts (s : Objects) : List Op → Option Objects
  | [] => some s
  | o :: os => match act s o with
    | none => none
    | some s => acts s os

/-- `workers()` and `capacity()` of an object: `thread_pool.cpp` 760-770 -/
def sizes (cfg : Nat → Pool.Cfg) (s : Objects) (x : Nat) : Option (Nat × Nat) :=
  match s.storage x with
  | none => none
  | some none => some (0, 0)
  | some (some p) => some ((cfg p).workers, (cfg p).workers * (cfg p).capacity)

end Verif.Model.PoolLifetime
