import Verif.Spec.Emplace
/-!
# Model of emplacement_array

Models `/repo/include/muu/emplacement_array.h`. Memory is a table of allocations, each a list of slots; a slot holds an
element or raw bytes. Using an element which is not there, making one where there already is one, and touching memory
which has been freed are undefined behaviour (`none`). Simplifications: allocation always succeeds; the element type is
not trivially destructible (for the others destroying an element has no effect); constructors of elements do not use
the array; destructors do not throw (asserted, lines 29–30).
-/
namespace Verif.Model.Emplace
open Verif.Spec.Emplace

/-- one array object, lines 35–36 -/
structure Array where
  count : Nat
  capacity : Nat
  storage : Option Nat

structure World where
  /-- allocations -/
  block : Nat → Option (List (Option Nat))
  next : Nat
  arr : Nat → Option Array
  log : List Event
  /-- number of elements made so far -/
  made : Nat

def World.init : World := ⟨fun _ => none, 0, fun _ => none, [], 0⟩

/-- `ptr(i)->~T()`, line 60 -/
def World.destroyAt (w : World) (p i : Nat) : Option World := match w.block p with
  | none => none
  | some l => match l[i]? with
    | some (some e) => some { w with block := put w.block p (some (l.set i none)), log := w.log ++ [.gone e] }
    | _ => none

/-- the loop of destroy_all_elements, lines 58–63, with `n` elements left -/
def World.destroyLoop (w : World) (p : Nat) : Nat → Option World
  | 0 => some w
  | n + 1 => match w.destroyAt p n with
    | none => none
    | some w => w.destroyLoop p n

/-- destroy_all_elements, lines 52–67 (the object is returned with its new count) -/
def World.destroyAll (w : World) (a : Array) : Option (World × Array) := match a.storage with
  | none => if a.count = 0 then some (w, { a with count := 0 }) else none
  | some p => match w.destroyLoop p a.count with
    | none => none
    | some w => some (w, { a with count := 0 })

/-- release, lines 69–77 -/
def World.release (w : World) (a : Array) : Option (World × Array) := match a.storage with
  | none => some (w, a)
  | some p => match w.destroyAll a with
    | none => none
    | some (w, a) => match w.block p with
      | none => none
      | some _ => some ({ w with block := put w.block p none }, { a with storage := none })

/-- emplacement_array(capacity), lines 113–126 -/
def World.construct (w : World) (cap : Nat) : World × Array :=
  if cap ≠ 0 then
    ({ w with block := put w.block w.next (some (List.replicate cap none)), next := w.next + 1 }, ⟨0, cap, some w.next⟩)
  else (w, ⟨0, cap, none⟩)

/-- emplace_back, lines 168–184, and emplace_back_with, lines 193–209. If the constructor throws nothing has changed
    (lines 179–181; when it cannot throw the count is increased first, line 174). -/
def World.emplace (w : World) (a : Array) (throws : Bool) : Option (World × Array) :=
  if a.count < a.capacity then
    match a.storage with
    | none => none
    | some p => match w.block p with
      | none => none
      | some l => match l[a.count]? with
        | some none =>
          if throws then some (w, a)
          else some ({ w with block := put w.block p (some (l.set a.count (some w.made))),
                              log := w.log ++ [.made w.made], made := w.made + 1 },
                     { a with count := a.count + 1 })
        | _ => none
  else none

/-- one operation on the variables. The move operations: constructor lines 130–138, assignment lines 141–151 (first
    release, then the fields are copied from rhs and those of rhs are zeroed; rhs may be the same object). -/
def World.step (w : World) : Op → Option World
  | .construct i cap => match w.arr i with
    | some _ => none
    | none => let r := w.construct cap; some { r.1 with arr := put w.arr i (some r.2) }
  | .move i j => match w.arr i, w.arr j with
    | none, some b =>
      some { w with arr := put (put w.arr i (some ⟨b.count, b.capacity, b.storage⟩)) j (some ⟨0, 0, none⟩) }
    | _, _ => none
  | .moveAssign i j => match w.arr i, w.arr j with
    | some a, some _ => match w.release a with
      | none => none
      | some (w, a) =>
        let arr := put w.arr i (some a)
        match arr j with
        | none => none
        | some rhs => some { w with arr := put (put arr i (some ⟨rhs.count, rhs.capacity, rhs.storage⟩)) j (some ⟨0, 0, none⟩) }
    | _, _ => none
  | .destroy i => match w.arr i with
    | none => none
    | some a => match w.release a with
      | none => none
      | some (w, _) => some { w with arr := put w.arr i none }
  | .emplace i throws => match w.arr i with
    | none => none
    | some a => match w.emplace a throws with
      | none => none
      | some (w, a) => some { w with arr := put w.arr i (some a) }
  | .clear i => match w.arr i with
    | none => none
    | some a => match w.destroyAll a with
      | none => none
      | some (w, a) => some { w with arr := put w.arr i (some a) }

def World.run (w : World) : List Op → Option World
  | [] => some w
  | o :: l => match w.step o with
    | none => none
    | some w => w.run l

/-- `array[k]`, lines 213–223; `none` for undefined behaviour -/
def World.get (w : World) (i k : Nat) : Option Nat := match w.arr i with
  | none => none
  | some a => match a.storage with
    | none => none
    | some p => match w.block p with
      | none => none
      | some l => match l[k]? with
        | some (some e) => some e
        | _ => none

end Verif.Model.Emplace
