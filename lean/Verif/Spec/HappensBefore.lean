import Mathlib.Tactic.Common
/-!
# Happens-before

The part of the memory model of C++17 ([intro.races], [thread.mutex.requirements], [thread.thread.member]) that mutexes and joining use. An execution is the list of the actions of all
threads, in the order of the operations on the mutexes.
-/
namespace Verif.Spec.HappensBefore

/-- One action of a thread: it locks mutexes, or takes note of the end of other threads, then touches memory that is not atomic, then unlocks mutexes. `event` is what an observer calls it. -/
structure Action (Thread Mutex Place Event : Type) where
  thread : Thread
  locks : List Mutex := []
  joins : List Thread := []
  touches : List Place := []
  unlocks : List Mutex := []
  event : Option Event := none

variable {Thread Mutex Place Event : Type}

/-- Action `i` happens before action `j`. -/
inductive HB (x : List (Action Thread Mutex Place Event)) : ℕ → ℕ → Prop where
  /-- the same thread does `i` and then `j` -/
  | program {i j a b} : i < j → x[i]? = some a → x[j]? = some b → a.thread = b.thread → HB x i j
  /-- `i` unlocks a mutex which `j` locks later -/
  | mutex {i j a b m} : i < j → x[i]? = some a → x[j]? = some b → m ∈ a.unlocks → m ∈ b.locks → HB x i j
  /-- `j` joins the thread of `i`, which has ended -/
  | join {i j a b} : i < j → x[i]? = some a → x[j]? = some b → a.thread ∈ b.joins → HB x i j
  | trans {i j k} : HB x i j → HB x j k → HB x i k

/-- No data race: of two actions that touch the same memory, one happens before the other. (Reading and writing are not told apart.) -/
def RaceFree (x : List (Action Thread Mutex Place Event)) : Prop :=
  ∀ i j a b p, i < j → x[i]? = some a → x[j]? = some b → p ∈ a.touches → p ∈ b.touches → HB x i j

/-- The action `i` is the event `e`. -/
def Is (x : List (Action Thread Mutex Place Event)) (i : ℕ) (e : Event) : Prop := ∃ a, x[i]? = some a ∧ a.event = some e

end Verif.Spec.HappensBefore
