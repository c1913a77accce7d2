import Verif.Spec.IeeeArith
import Verif.Model.Half
/-!
# Arithmetic of emulated halves

`/repo/include/muu/half.h` where the type is emulated (`MUU_HALF_EMULATED`) and the conversions are the naive ones. The `float` arithmetic
is IEEE 754's. `none`: a loop of the conversion does not end.
-/
namespace Verif.Model.HalfEmulated
open Verif.Spec.IeeeArith

/-- `half{ static_cast<float>(lhs) op static_cast<float>(rhs) }`, by the constructor half(float), half.h:190-195, 201. -/
def viaFloat (op : Number → Number → Number) (lhs rhs : BitVec 16) : Option (BitVec 16) := do
  let x ← Half.u16ToF32 lhs
  let y ← Half.u16ToF32 rhs
  some (Half.f32ToU16 (encode32 (op (value32 x) (value32 y))))

/-- operator+, half.h:426-430, and +=, half.h:488-496. -/
def add (lhs rhs : BitVec 16) : Option (BitVec 16) := viaFloat Number.add lhs rhs

/-- operator-, half.h:432-436, and -=, half.h:498-506. -/
def sub (lhs rhs : BitVec 16) : Option (BitVec 16) := viaFloat Number.sub lhs rhs

/-- operator*, half.h:438-442, and *=, half.h:508-516. -/
def mul (lhs rhs : BitVec 16) : Option (BitVec 16) := viaFloat Number.mul lhs rhs

/-- operator/, half.h:444-448, and /=, half.h:518-526. -/
def div (lhs rhs : BitVec 16) : Option (BitVec 16) := viaFloat Number.div lhs rhs

/-- Increment (`++`) before the operand, half.h:617-625; `1.0f` is 0x3f800000. The result is the new value of the object. -/
def increment (v : BitVec 16) : Option (BitVec 16) := do
  let x ← Half.u16ToF32 v
  some (Half.f32ToU16 (encode32 (Number.add (value32 x) (value32 0x3f800000#32))))

/-- Decrement (`--`) before the operand, half.h:627-635. -/
def decrement (v : BitVec 16) : Option (BitVec 16) := do
  let x ← Half.u16ToF32 v
  some (Half.f32ToU16 (encode32 (Number.sub (value32 x) (value32 0x3f800000#32))))

/-- Increment (`++`) after the operand, half.h:637-646: what it returns, and the new value of the object. -/
def postIncrement (v : BitVec 16) : Option (BitVec 16 × BitVec 16) := do some (v, ← increment v)

/-- Decrement (`--`) after the operand, half.h:648-657: what it returns, and the new value of the object. -/
def postDecrement (v : BitVec 16) : Option (BitVec 16 × BitVec 16) := do some (v, ← decrement v)

end Verif.Model.HalfEmulated
