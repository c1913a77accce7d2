import Verif.Model.Emplace
import Verif.Model.Bits
import Verif.Spec.EmplaceFail
/-!
# Model of emplacement_array when the allocator may fail

Models `/repo/include/muu/emplacement_array.h` in a release build with exceptions enabled: neither the assertion of line
118 nor the termination of lines 119–124 is compiled. `size` and `align` are `sizeof(T)` and `alignof(T)`. Only the
constructor asks for memory; the answer is `ok`. Everything else is as in `Verif.Model.Emplace`.
-/
namespace Verif.Model.EmplaceFail
open Verif.Spec.Emplace Verif.Model.Emplace

/-- emplacement_array(capacity), lines 113–126. The block is the slots, of those up to the capacity, which are within the
    bytes given by `muu::aligned_alloc(sizeof(T) * capacity_, alignof(T))`. `none`: the assumptions of aligned_alloc are
    violated. -/
def construct (size align : BitVec 64) (w : World) (ok : Bool) (cap : Nat) : Option (World × Array) :=
  if cap ≠ 0 then
    match alignedAllocRequest (size * BitVec.ofNat 64 cap) align with
    | none => none
    | some (_, bytes) =>
      if ok then
        some ({ w with block := put w.block w.next (some (List.replicate (min cap (bytes.toNat / size.toNat)) none)),
                       next := w.next + 1 }, ⟨0, cap, some w.next⟩)
      else some (w, ⟨0, cap, none⟩)
  else some (w, ⟨0, cap, none⟩)

/-- one operation, with the answer of the allocator -/
def step (size align : BitVec 64) (w : World) : Op × Bool → Option World
  | (.construct i cap, ok) => match w.arr i with
    | some _ => none
    | none => match construct size align w ok cap with
      | none => none
      | some (w', a) => some { w' with arr := put w.arr i (some a) }
  | (o, _) => w.step o

def run (size align : BitVec 64) (w : World) : List (Op × Bool) → Option World
  | [] => some w
  | o :: l => match step size align w o with
    | none => none
    | some w => run size align w l

end Verif.Model.EmplaceFail
