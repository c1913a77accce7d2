/-!
# Model of spin_mutex

Models `/repo/include/muu/spin_mutex.h` lines 22–73 under the C++ memory model. The atomic flag is represented by its
modification order: the list of all values ever written to it, oldest first. A load may return any value which is not
older than what the thread has already observed; an exchange reads the newest value and writes immediately after it;
a store goes anywhere after what the thread has observed, but not between an exchange and the value it read.

To state what `memory_order_acquire` and `memory_order_release` are for, there is one variable which is not atomic and
which the threads write while they hold the mutex. `version` counts those writes, `seen t` how many of them happened
before (in the sense of C++) what thread `t` does next. A write by a thread which has not seen all earlier ones is a
data race. The pause instructions and the back-off counter (lines 46–47, 51–54) have no effect on memory and are left
out; construction is assumed to happen before all use.
-/
namespace Verif.Model.SpinMutex

/-- one entry of the modification order of `held_` -/
structure Msg where
  val : Bool
  /-- the number of writes to the protected variable that whoever acquires this value has seen -/
  carries : Nat
  /-- written by an exchange, so right after the value that exchange read -/
  rmw : Bool
  deriving DecidableEq, Repr

/-- where a thread is -/
inductive Pc
  /-- outside; does not hold the mutex -/
  | out
  /-- in lock(), before the exchange of line 48 -/
  | lockX
  /-- in lock(), before the load of line 50 -/
  | lockL
  /-- in try_lock(), before the load of line 64 -/
  | tryL
  /-- in try_lock(), before the exchange of line 65 -/
  | tryX
  /-- holds the mutex: lock() has returned, or try_lock() has returned true -/
  | holds
  deriving DecidableEq, Repr

structure Thread where
  pc : Pc := .out
  /-- position in the modification order of the newest entry the thread has observed -/
  view : Nat := 0
  seen : Nat := 0
  deriving DecidableEq, Repr

structure State where
  order : List Msg
  thread : Nat → Thread
  version : Nat
  race : Bool

/-- spin_mutex(), lines 36–38 -/
def init : State := ⟨[⟨false, 0, false⟩], fun _ => {}, 0, false⟩

/-- replaces one thread -/
def State.set (s : State) (t : Nat) (x : Thread) : State :=
  { s with thread := fun i => if i = t then x else s.thread i }

/-- the newest value -/
def State.last (s : State) : Msg := s.order.getLastD ⟨false, 0, false⟩

/-- `held_.exchange(true, std::memory_order_acquire)`, lines 48 and 65. Its write continues the release sequence of
    the value read. `yes` / `no`: where the thread goes if the value read was true / false. -/
def State.exchange (s : State) (t : Nat) (yes no : Pc) : State :=
  let m := s.last
  { s with
    order := s.order ++ [⟨true, m.carries, true⟩]
    thread := fun i =>
      if i = t then ⟨if m.val then yes else no, s.order.length, max (s.thread t).seen m.carries⟩ else s.thread i }

/-- `held_.load(std::memory_order_relaxed)`, lines 50 and 64, reading entry `i` -/
def State.load (s : State) (t i : Nat) (yes no : Pc) : Option State :=
  match s.order[i]? with
  | none => none
  | some m =>
    if (s.thread t).view ≤ i then
      some (s.set t { s.thread t with pc := if m.val then yes else no, view := i })
    else none

/-- `held_.store(false, std::memory_order_release)`, line 71, placed before entry `p`. Entries from `p` on move up. -/
def State.store (s : State) (t p : Nat) : Option State :=
  if (s.thread t).view < p ∧ p ≤ s.order.length ∧ (s.order[p]?).all (fun m => !m.rmw) then
    some { s with
      order := s.order.take p ++ [⟨false, (s.thread t).seen, false⟩] ++ s.order.drop p
      thread := fun i =>
        if i = t then ⟨.out, p, (s.thread t).seen⟩
        else { s.thread i with view := if p ≤ (s.thread i).view then (s.thread i).view + 1 else (s.thread i).view } }
  else none

/-- what a thread does next; the number is the entry read or the place written -/
inductive Act
  | lock
  | tryLock
  | exchange
  | load (i : Nat)
  | write
  | unlock (p : Nat)
  deriving DecidableEq, Repr

/-- one step of thread `t`. Threads call lock() and try_lock() when they do not hold the mutex, unlock() and the write
    to the protected variable when they do. -/
def step (s : State) (t : Nat) : Act → Option State
  | .lock => if (s.thread t).pc = .out then some (s.set t { s.thread t with pc := .lockX }) else none
  | .tryLock => if (s.thread t).pc = .out then some (s.set t { s.thread t with pc := .tryL }) else none
  | .exchange =>
    match (s.thread t).pc with
    | .lockX => some (s.exchange t .lockL .holds)
    | .tryX => some (s.exchange t .out .holds)
    | _ => none
  | .load i =>
    match (s.thread t).pc with
    | .lockL => s.load t i .lockL .lockX
    | .tryL => s.load t i .out .tryX
    | _ => none
  | .write =>
    if (s.thread t).pc = .holds then
      some { s.set t { s.thread t with seen := s.version + 1 } with
        version := s.version + 1
        race := s.race || (s.thread t).seen != s.version }
    else none
  | .unlock p => if (s.thread t).pc = .holds then s.store t p else none

/-- the states which any interleaving of any number of threads can reach -/
inductive Reach : State → Prop
  | init : Reach init
  | step {s s' : State} (t : Nat) (a : Act) : Reach s → step s t a = some s' → Reach s'

/-- runs a schedule -/
def run (s : State) : List (Nat × Act) → Option State
  | [] => some s
  | (t, a) :: l => match step s t a with
    | none => none
    | some s' => run s' l

end Verif.Model.SpinMutex
