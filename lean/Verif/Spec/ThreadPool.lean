/-!
# What a thread pool promises, stated without reference to how it works

A task is named by the number of its enqueue. The *history* of an execution is the list of the
observable events in the life of the tasks, in the order they happened.
-/
namespace Verif.Spec.Pool

/-- what can be observed to happen to a task -/
inductive Event where
  /-- the callable was stored in the pool -/
  | constructed (t : Nat)
  /-- the callable was invoked by worker `w` -/
  | started (t : Nat) (w : Nat)
  /-- the invocation returned -/
  | finished (t : Nat)
  /-- the stored callable was destroyed -/
  | destroyed (t : Nat)
  deriving DecidableEq, Repr

/-- the task an event is about -/
def Event.task : Event → Nat
  | .constructed t => t
  | .started t _ => t
  | .finished t => t
  | .destroyed t => t

/-- the part of a history which concerns task `t`, in order -/
def eventsOf (t : Nat) (h : List Event) : List Event := h.filter (fun e => e.task == t)

/-- the two complete lives of a task: run once and destroyed, or destroyed without being run -/
inductive CompleteLife (workers : Nat) (t : Nat) : List Event → Prop where
  | ran (w : Nat) (hw : w < workers) :
      CompleteLife workers t [.constructed t, .started t w, .finished t, .destroyed t]
  | discarded : CompleteLife workers t [.constructed t, .destroyed t]

/-- a life in progress: some initial part of a complete one -/
def PartialLife (workers : Nat) (t : Nat) (l : List Event) : Prop :=
  ∃ full, CompleteLife workers t full ∧ l <+: full

/-- A bounded first-in first-out buffer: a list of at most `cap` entries, put in at the end and
    taken out at the front. `put` refuses when full, `take` when empty. -/
inductive QOp where
  | put (t : Nat)
  | take
  deriving DecidableEq, Repr

inductive QRes where
  | stored
  | refused
  | got (t : Nat)
  | nothing
  deriving DecidableEq, Repr

def fifoStep (cap : Nat) (l : List Nat) : QOp → QRes × List Nat
  | .put t => if l.length < cap then (.stored, l ++ [t]) else (.refused, l)
  | .take => match l with
    | [] => (.nothing, [])
    | t :: l => (.got t, l)

def fifoRun (cap : Nat) (l : List Nat) : List QOp → List QRes × List Nat
  | [] => ([], l)
  | op :: ops =>
    let r := fifoStep cap l op
    let rest := fifoRun cap r.2 ops
    (r.1 :: rest.1, rest.2)

/-- how many of the operations are puts -/
def puts : List QOp → Nat
  | [] => 0
  | .put _ :: ops => puts ops + 1
  | .take :: ops => puts ops

end Verif.Spec.Pool
