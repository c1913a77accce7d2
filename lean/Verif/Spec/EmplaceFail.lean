import Verif.Spec.Emplace
/-! Emplacement arrays when the allocator may fail. -/
namespace Verif.Spec.EmplaceFail
open Verif.Spec.Emplace

/-- an array for which no memory could be had is one of no capacity -/
def seen : Op × Bool → Op
  | (.construct i _, false) => .construct i 0
  | (o, _) => o

/-- the capacity each variable claims to have: the one asked for, also when there was no memory -/
def claim (c : Nat → Option Nat) : Op → (Nat → Option Nat)
  | .construct i cap => put c i (some cap)
  | .move i j => put (put c i (c j)) j (some 0)
  | .moveAssign i j => put (put c i (c j)) j (some 0)
  | .destroy i => put c i none
  | .emplace _ _ => c
  | .clear _ => c

def claims (l : List (Op × Bool)) : Nat → Option Nat := l.foldl (fun c o => claim c o.1) (fun _ => none)

/-- the number of bytes for `cap` elements of `size` bytes, rounded up to the alignment, does not exceed the range of
    sizes -/
def Fits (size align cap : Nat) : Prop := size * cap + (max align 16 - 1) < 2 ^ 64

end Verif.Spec.EmplaceFail
