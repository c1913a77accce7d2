/-!
# What an emplacement_array is for: elements are made once and destroyed once

Array variables are numbered. A variable holds an array (a list of elements and a capacity) or nothing (not constructed
yet, or destroyed). Elements are numbered in the order in which they are made, so that every element is a different
object.
-/
namespace Verif.Spec.Emplace

/-- what happens to element objects -/
inductive Event
  | made (e : Nat)
  | gone (e : Nat)
  deriving DecidableEq

structure Arr where
  elems : List Nat
  cap : Nat

structure State where
  arr : Nat → Option Arr
  /-- what has happened so far, oldest first -/
  log : List Event
  /-- number of elements made so far -/
  count : Nat

def State.init : State := ⟨fun _ => none, [], 0⟩

inductive Op
  /-- a new array in variable `i` -/
  | construct (i cap : Nat)
  /-- a new array in `i` moved from the one in `j` -/
  | move (i j : Nat)
  /-- `i = std::move(j)`; `i` may be `j` -/
  | moveAssign (i j : Nat)
  | destroy (i : Nat)
  /-- a new element at the end of the array; its constructor may throw -/
  | emplace (i : Nat) (throws : Bool)
  | clear (i : Nat)

def put {α : Type} (v : Nat → Option α) (i : Nat) (x : Option α) : Nat → Option α := fun k => if k = i then x else v k

/-- the elements of an array are destroyed, the last one first -/
def destroyed (l : List Nat) : List Event := l.reverse.map .gone

/-- `none`: the operation is not possible (variable not in use, or array full) -/
def Op.apply (s : State) : Op → Option State
  | .construct i cap => match s.arr i with
    | some _ => none
    | none => some { s with arr := put s.arr i (some ⟨[], cap⟩) }
  | .move i j => match s.arr i, s.arr j with
    | none, some y => some { s with arr := put (put s.arr i (some y)) j (some ⟨[], 0⟩) }
    | _, _ => none
  | .moveAssign i j => match s.arr i, s.arr j with
    | some x, some y => some { s with
        arr := put (put s.arr i (some (if i = j then ⟨[], 0⟩ else y))) j (some ⟨[], 0⟩), log := s.log ++ destroyed x.elems }
    | _, _ => none
  | .destroy i => match s.arr i with
    | none => none
    | some x => some { s with arr := put s.arr i none, log := s.log ++ destroyed x.elems }
  | .emplace i throws => match s.arr i with
    | none => none
    | some x =>
      if x.elems.length < x.cap then
        if throws then some s
        else some ⟨put s.arr i (some ⟨x.elems ++ [s.count], x.cap⟩), s.log ++ [.made s.count], s.count + 1⟩
      else none
  | .clear i => match s.arr i with
    | none => none
    | some x => some { s with arr := put s.arr i (some ⟨[], x.cap⟩), log := s.log ++ destroyed x.elems }

def run (s : State) : List Op → Option State
  | [] => some s
  | o :: l => match o.apply s with
    | none => none
    | some s => run s l

/-- every element is made at most once, and is destroyed at most once, after it was made -/
def Proper (log : List Event) : Prop :=
  (∀ a b e, log = a ++ .made e :: b → .made e ∉ a) ∧
  (∀ a b e, log = a ++ .gone e :: b → .made e ∈ a ∧ .gone e ∉ a)

end Verif.Spec.Emplace
