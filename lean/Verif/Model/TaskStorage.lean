import Verif.Spec.TaskCalls
/-!
# How the thread pool keeps and calls the callable of a task (include/muu/thread_pool.h:24-545, 636-727, 821-869, 906-978, 1027-1125)

What a compiler knows of the type of a callable is a structure of traits; every `if constexpr` is an `if` on these. Lifetimes of objects are explicit: using an object that is not there is `none` (undefined). The constructors and assignments of a callable that do not throw are taken to carry over its value. Not modelled: alignment of buffers (C40), the function pointer `action_invoker` (taken to be the one of the callable's type), the size of the lambda which `for_each` wraps around a batch, null function pointers, calling conventions.
-/
namespace Verif.Model.TaskStorage
open Verif.Spec.TaskCalls

/-- How a task is passed: as a reference to an lvalue, to a constant lvalue, or to an rvalue (the `T&&` of thread_pool.h:492, 821, 906, 1063). -/
inductive Category
  | lvalue | constLvalue | rvalue
  deriving DecidableEq, Repr

/-- The traits of the type of a callable which thread_pool.h looks at (thread_pool.h:205-234, 236-313, 395-484; meta.h:2507-2515). `nothrowFrom k` is `is_nothrow_constructible` from a reference of category `k`, so at `rvalue` it is `is_nothrow_move_constructible` and at `constLvalue` `is_nothrow_copy_constructible`; the same goes for `nothrowAssign`. `given` says what the task can be called with through the reference that was passed; `kept` says it for the type the pool keeps, which has lost `const`. -/
structure Callable where
  isClass : Bool
  function : Bool := false
  functionPointer : Bool := false
  empty : Bool := false
  trivialDefault : Bool := false
  trivialDestructor : Bool := false
  trivialCopy : Bool := false
  statelessLambda : Bool := false
  size : Nat
  align : Nat
  nothrowDestroy : Bool
  nothrowDefault : Bool := false
  nothrowFrom : Category → Bool
  nothrowAssign : Category → Bool
  copyable : Bool
  given : Sig → Bool
  kept : Sig → Bool

/-- `thread_pool_alignment` (thread_pool.h:24). -/
def alignment : Nat := 64

/-- `thread_pool_task::buffer_capacity` (thread_pool.h:80-89): the task is `alignment` bytes, of which the buffer is all but a pointer. -/
def capacity : Nat := alignment - 8

/-- `is_trivially_manifestable` (meta.h:2507-2515). -/
def manifestable (c : Callable) : Bool :=
  c.isClass && c.empty && c.trivialDefault && c.trivialDestructor

/-- `thread_pool_task_store_ok` (thread_pool.h:205-234). -/
def storeOk (penalty : Nat) (c : Callable) (k : Category) : Bool :=
  c.isClass && decide (c.size + penalty ≤ capacity) && decide (c.align ≤ alignment) && c.nothrowDestroy &&
    (c.trivialCopy ||
      ((c.nothrowFrom k || (c.nothrowDefault && c.nothrowAssign k)) &&
        (c.nothrowFrom .rvalue || c.nothrowFrom .constLvalue ||
          (c.nothrowDefault && (c.nothrowAssign .rvalue || c.nothrowAssign .constLvalue)))))

/-- The traits classes: `thread_pool_task_traits_manifestable`, `..._pointer_to_callable` for functions and for objects, `..._stored_callable`. -/
inductive Storage
  | manifest | function | object | pointer
  deriving DecidableEq, Repr

/-- `thread_pool_task_traits_selector` (thread_pool.h:393-484), with the assertion of `thread_pool_task_traits_stored_callable` (thread_pool.h:243), which asks `store_ok` again for the bare type. `none`: does not compile. -/
def select (penalty : Nat) (c : Callable) (k : Category) : Option Storage :=
  if manifestable c then some .manifest
  else if c.function then some .function
  else if c.functionPointer then some .function
  else if storeOk penalty c k then (if storeOk 0 c .rvalue then some .object else none)
  else if c.statelessLambda then some .function
  else if c.isClass then (if k = .rvalue then none else some .pointer)
  else none

/-- A place for a callable: the buffer of a task in a queue, the buffer of a task on the stack of a worker. -/
inductive Place
  | queue | stack
  deriving DecidableEq, Repr

/-- What a buffer holds: nothing, the address of a function, a live object, the address of the object the caller passed. -/
inductive Cell (V : Type)
  | raw | function (v : V) | object (v : V) | address
  deriving DecidableEq, Repr

/-- `store` (thread_pool.h:135-159, 258-280) of a callable with value `v`; the result is the buffer, and the object passed as it is afterwards (`husk`: moved from). The chain of `if constexpr` at 265-279 has no last `else`: nothing is stored then. -/
def store {V : Type} (s : Storage) (c : Callable) (k : Category) (husk v : V) : Cell V × V :=
  match s with
  | .manifest => (.raw, v)
  | .function => (.function v, v)
  | .pointer => (.address, v)
  | .object =>
    if c.trivialCopy then (.object v, v)
    else if c.nothrowFrom k || (c.nothrowDefault && c.nothrowAssign k) then
      (.object v, if k = .rvalue then husk else v)
    else (.raw, v)

/-- `move` (thread_pool.h:161-168, 282-312): from one buffer to another; the result is the source and the destination. `none` outside: the unreachable branch (311), which does not compile, or moving from an object that is not there. -/
def move {V : Type} (s : Storage) (c : Callable) (husk : V) : Cell V → Option (Cell V × Cell V) := fun source =>
  match s, source with
  | .manifest, source => some (source, .raw)
  | .function, .function v => some (.function v, .function v)
  | .pointer, .address => some (.address, .address)
  | .object, .object v =>
    if c.trivialCopy then some (.object v, .object v)
    else if c.nothrowFrom .rvalue then some (.object husk, .object v)
    else if c.nothrowDefault && c.nothrowAssign .rvalue then some (.object husk, .object v)
    else if c.nothrowFrom .constLvalue then some (.object v, .object v)
    else if c.nothrowDefault && c.nothrowAssign .constLvalue then some (.object v, .object v)
    else none
  | _, _ => none

/-- `destroy` (thread_pool.h:351-358) through `~thread_pool_task` and the invoker (thread_pool.h:101-104, 534-542): nothing for all but objects with a destructor to call. -/
def destroy {V : Type} (s : Storage) (c : Callable) (cell : Cell V) : Option (Cell V) :=
  match s with
  | .object =>
    if c.trivialDestructor then some .raw
    else match cell with
      | .object _ => some .raw
      | _ => none
  | _ => some cell

/-- What the `callable_type` of the traits can be called with (thread_pool.h:122, 246, 368): a pointer to an object keeps its `const`, a stored or new object does not. -/
def takes (s : Storage) (c : Callable) : Sig → Bool :=
  match s with
  | .pointer => c.given
  | _ => c.kept

/-- The arguments chosen by `invoke` (thread_pool.h:170-192, 314-334, 372-390): first all with the index, then all without it, then none. `none`: does not compile. -/
def arguments {A : Type} (takes : Sig → Bool) (x : Option A) (i : Nat) : Option (Args A) :=
  match x with
  | some x =>
    if takes .valueIndex then some { value := some x, index := some i }
    else if takes .value then some { value := some x }
    else if takes .nothing then some {}
    else none
  | none =>
    if takes .index then some { index := some i }
    else if takes .nothing then some {}
    else none

/-- The object which `invoke` calls (thread_pool.h:194-202, 336-349, 372-390): a new one, the one in the buffer, or the one of the caller, if it is still there. -/
def callee {V : Type} (s : Storage) (fresh : V) (caller : Option V) (cell : Cell V) : Option V :=
  match s, cell with
  | .manifest, _ => some fresh
  | .function, .function v => some v
  | .object, .object v => some v
  | .pointer, .address => caller
  | _, _ => none

/-- What happens in the life of a task that can be seen from outside. -/
inductive Event (V A : Type)
  | construct (p : Place) | destroy (p : Place) | call (v : V) (a : Args A)
  deriving DecidableEq, Repr

/-- Outcomes: the compiler refuses the call, undefined behaviour, or a list of what happened. -/
inductive Outcome (E : Type)
  | rejected | undefined | ran (events : List E)
  deriving DecidableEq, Repr

/-- The event of an object coming to be in a buffer. -/
def born {V A : Type} (p : Place) : Cell V → List (Event V A)
  | .object _ => [.construct p]
  | _ => []

/-- The event of an object in a buffer being destroyed. -/
def died {V A : Type} (s : Storage) (p : Place) : List (Event V A) :=
  match s with
  | .object => [.destroy p]
  | _ => []

/-- What a worker does with a task (src/thread_pool.cpp:161-173, 365-370): moves it to its stack, destroys the one in the queue, calls it, destroys it. -/
def work {V A : Type} (s : Storage) (c : Callable) (husk fresh : V) (caller : Option V) (a : Args A)
    (queued : Cell V) : Option (List (Event V A)) := do
  let (left, taken) ← move s c husk queued
  let _ ← destroy s c left
  let v ← callee s fresh caller taken
  let _ ← destroy s c taken
  return born .stack taken ++ died s .queue ++ [.call v a] ++ died s .stack

/-- Whether `enqueue` and the constructor of `thread_pool_task` accept what the task can be called with (thread_pool.h:497-498, 823-826). -/
def enqueueTakes (s : Storage) (c : Callable) : Bool :=
  (c.given .index || c.given .nothing) && (takes s c .index || takes s c .nothing)

/-- The life of a task given to `enqueue` (thread_pool.h:637-644, 490-553, 820-832) which the worker with index `worker` runs. `later`: the object the caller passed, at the time the task runs; `none` if its lifetime has ended by then. -/
def enqueue {V A : Type} (c : Callable) (k : Category) (husk fresh v : V) (later : Option V) (worker : Nat) :
    Outcome (Event V A) :=
  match select 0 c k with
  | none => .rejected
  | some s =>
    match enqueueTakes s c, arguments (takes s c) none worker with
    | true, some a =>
      let queued := (store s c k husk v).1
      match work s c husk fresh later a queued with
      | some es => .ran (born .queue queued ++ es)
      | none => .undefined
    | _, _ => .rejected

/-- The life of a task given to `enqueue` which no worker runs: the destructor of its queue destroys it (src/thread_pool.cpp:185-196). -/
def dropped {V A : Type} (c : Callable) (k : Category) (husk v : V) : Outcome (Event V A) :=
  match select 0 c k with
  | none => .rejected
  | some s =>
    if enqueueTakes s c then
      let queued := (store s c k husk v).1
      match destroy s c queued with
      | some _ => .ran (born .queue queued ++ died s .queue)
      | none => .undefined
    else .rejected

/-! ## Batches -/

/-- The penalty for tasks in batches (thread_pool.h:650): the wrapper keeps three more words beside the task. -/
def batchPenalty : Nat := 3 * 8

/-- `wrap_batched_task` (thread_pool.h:700-727) and the constructor of `batched_task` (thread_pool.h:672-676), for the last batch or another one: what the batch keeps, and the object of the caller afterwards. A task passed as an rvalue is copied for all batches but the last one, which it is moved into (thread_pool.h:953-968, 1093-1112). -/
def wrap {V : Type} (s : Storage) (k : Category) (last : Bool) (husk v : V) : Cell V × V :=
  match s with
  | .manifest => (.raw, v)
  | .function => (.function v, v)
  | .pointer => (.address, v)
  | .object => if k = .rvalue && last then (.object v, husk) else (.object v, v)

/-- The loop of `for_each` over the batches (thread_pool.h:947-970, 1090-1115), from the batch `i`: what each batch keeps. The last one is the one after which no values are left. -/
def wraps {V A : Type} (s : Storage) (k : Category) (husk : V) : V → Nat → List (List A) → List (Nat × List A × Cell V)
  | _, _, [] => []
  | v, i, b :: bs =>
    let (kept, v') := wrap s k bs.isEmpty husk v
    (i, b, kept) :: wraps s k husk v' (i + 1) bs

/-- Whether `for_each` hands the batch index on to `batched_task` (thread_pool.h:945-946, 1086-1089): it asks what the reference that was passed can be called with. The second question of thread_pool.h:1089 repeats the first one, which makes no difference, as an arity of one is treated like one of zero. -/
def takesTwo (c : Callable) : Bool := c.given .valueIndex

/-- The body of a batch (thread_pool.h:855-866, 1044-1057) run by a worker: a call for each value. `after v` is an object with value `v` after a call. A manifestable object is made anew for each call. -/
def runBatch {V A : Type} (s : Storage) (c : Callable) (after : V → V) (fresh : V) (i : Nat) :
    Option V → Cell V → List A → Option (List (V × Args A))
  | _, _, [] => some []
  | caller, cell, x :: xs => do
    let v ← callee s fresh caller cell
    let a ← arguments (takes s c) (some x) (if takesTwo c then i else 0)
    let cell' := match cell with
      | .object v => .object (after v)
      | cell => cell
    let caller' := match s with
      | .pointer => caller.map after
      | _ => caller
    return (v, a) :: (← runBatch s c after fresh i caller' cell' xs)

/-- Whether `for_each` accepts what the task can be called with (thread_pool.h:908-912, 1066-1071; `invoke` for the kept type). -/
def forEachTakes (s : Storage) (c : Callable) : Bool :=
  (c.given .valueIndex || c.given .value || c.given .nothing) &&
    (takes s c .valueIndex || takes s c .value || takes s c .nothing)

/-- `for_each` of batches of values: what each batch calls, the batches being run in any order, each with the caller's object as it is found by that batch (`later i` for batch `i`). How the values are divided into batches is in C38 and C39. An rvalue must be copyable, or the loop does not compile. -/
def forEach {V A : Type} (c : Callable) (k : Category) (husk fresh v : V) (after : V → V)
    (later : Nat → Option V) (batches : List (List A)) : Outcome (List (V × Args A)) :=
  match select batchPenalty c k with
  | none => .rejected
  | some s =>
    if !forEachTakes s c || (s = .object && k = .rvalue && !c.copyable) then .rejected
    else
      match (wraps s k husk v 0 batches).mapM (fun (i, b, cell) => runBatch s c after fresh i (later i) cell b) with
      | some es => .ran es
      | none => .undefined

end Verif.Model.TaskStorage
