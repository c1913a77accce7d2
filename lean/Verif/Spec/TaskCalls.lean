/-!
# What is to be called for a task

A callable has a value of some type `V` (what it captured) and is called with at most a value and an index.
-/
namespace Verif.Spec.TaskCalls

/-- The arguments of a call. -/
structure Args (A : Type) where
  value : Option A := none
  index : Option Nat := none
  deriving DecidableEq, Repr

/-- The combinations of arguments a task may be able to take. -/
inductive Sig
  | valueIndex | value | index | nothing
  deriving DecidableEq, Repr

/-- The arguments for a task given to `enqueue`: the index of the worker if the task can take it, or nothing. -/
def Enqueued {A : Type} (takes : Sig → Prop) (worker : Nat) (a : Args A) : Prop :=
  (takes .index → a = { index := some worker }) ∧ (¬ takes .index → takes .nothing → a = {})

/-- The arguments for a task given to `for_each`: the value and the index of the batch, or just the value, or nothing, the first of these that the task can take. -/
def ForEach {A : Type} (takes : Sig → Prop) (x : A) (batch : Nat) (a : Args A) : Prop :=
  (takes .valueIndex → a = { value := some x, index := some batch }) ∧
  (¬ takes .valueIndex → takes .value → a = { value := some x }) ∧
  (¬ takes .valueIndex → ¬ takes .value → takes .nothing → a = {})

/-- Calls, one after another, of one object which starts as `v`; a call takes an object from `v` to `after v`. The n-th call finds the object as n calls left it. -/
def Successive {V A : Type} (after : V → V) : V → List (V × Args A) → Prop
  | _, [] => True
  | v, (w, _) :: rest => w = v ∧ Successive after (after v) rest

end Verif.Spec.TaskCalls
