import Verif.Spec.Half
/-!
# Model of half

Models `/repo/include/muu/half.h` where it is emulated (`MUU_HALF_EMULATED`) and the conversions are the naive ones (in
constant expressions, and everywhere if F16C instructions are not enabled). A half is its 16 bits, a float its 32 bits.
-/
namespace Verif.Model.Half

/-- f32_to_u16_naive, lines 1257–1306. `exp32ub` is an int8_t: the difference of ints is converted modulo 2^8, and
    sign-extended in the next line. -/
def f32ToU16 (x : BitVec 32) : BitVec 16 :=
  let s16 : BitVec 16 := ((x &&& 0x80000000#32) >>> 16).setWidth 16
  let frac32 := x &&& 0x007FFFFF#32
  let exp32 := (x &&& 0x7F800000#32) >>> 23
  let exp32ub : BitVec 8 := exp32.setWidth 8 - 127#8
  let exp16 : BitVec 16 := exp32ub.signExtend 16 + 15#16
  -- clamp the exponent
  let exp16 := if exp32 = 0xFF#32 then 0x1F#16 else if exp32 = 0#32 then 0#16 else exp16
  let frac16 : BitVec 16 := (frac32 >>> 13).setWidth 16
  let frac16 :=
    -- nan
    if exp32 = 0xFF#32 ∧ frac32 ≠ 0#32 ∧ frac16 = 0#16 then 0x0200#16
    -- denormal overflow
    else if exp32 = 0#32 ∨ (exp16 = 0x1F#16 ∧ exp32 ≠ 0xFF#32) then 0#16
    -- denormal underflow
    else if exp16 = 0#16 ∧ exp32 ≠ 0#32 then 0x0100#16 ||| (frac16 >>> 2)
    else frac16
  s16 ||| (exp16 <<< 10) ||| frac16

/-- the loop of lines 1328–1335; `none`: it does not end within `fuel` rounds -/
def denormLoop : Nat → Nat → BitVec 32 → Option (Nat × BitVec 32)
  | 0, _, _ => none
  | fuel + 1, offset, frac =>
    let offset := offset + 1
    let frac := frac <<< 1
    if frac &&& 0x0400#32 ≠ 0x0400#32 then denormLoop fuel offset frac else some (offset, frac)

/-- u16_to_f32_naive, lines 1308–1361; `none`: the loop does not end -/
def u16ToF32 (v : BitVec 16) : Option (BitVec 32) :=
  let s32 : BitVec 32 := (v &&& 0x8000#16).setWidth 32 <<< 16
  let exp16 := (v &&& 0x7C00#16) >>> 10
  let exp32 : BitVec 32 := exp16.setWidth 32 + 112#32
  let frac16 := v &&& 0x03FF#16
  let frac32 : BitVec 32 := frac16.setWidth 32
  let finish := fun (exp32 frac32 : BitVec 32) => s32 ||| (exp32 <<< 23) ||| (frac32 <<< 13)
  if exp16 = 0#16 ∧ frac16 ≠ 0#16 then
    (denormLoop 32 0 frac32).map (fun r => finish (113#32 - BitVec.ofNat 32 r.1) (r.2 &&& 0x03FF#32))
  else if exp16 = 0#16 ∧ frac16 = 0#16 then some (finish 0#32 frac32)
  else if exp16 = 31#16 ∧ frac16 = 0#16 then some (finish 0xFF#32 frac32)
  else if exp16 = 31#16 ∧ frac16 ≠ 0#16 then some (finish 0xFF#32 frac32)
  else some (finish exp32 frac32)

/-- half(bool), lines 176–179 -/
def ofBool (b : Bool) : BitVec 16 := if b then 0x3c00#16 else 0#16

/-- operator bool, lines 239–247 -/
def toBool (v : BitVec 16) : Bool := (v &&& 0x7FFF#16) ≠ 0#16

/-- unary minus, lines 669–677 -/
def neg (v : BitVec 16) : BitVec 16 := v ^^^ 0b1000000000000000#16

/-- infinity_or_nan, lines 1060–1068 -/
def infinityOrNan (v : BitVec 16) : Bool := (v &&& 0b0111110000000000#16) = 0b0111110000000000#16

/-- abs, lines 1074–1088 -/
def abs (v : BitVec 16) : BitVec 16 :=
  if (v &&& 0b0111110000000000#16) = 0b0111110000000000#16 ∧ (v &&& 0b0000001111111111#16) ≠ 0#16 then v
  else v &&& 0b0111111111111111#16

/-- the comparison operators, lines 302–360: both are converted to float, which are compared by the processor (IEEE 754,
    `Spec.Half.Value.cmp`) -/
def compare (a b : BitVec 16) : Option (Option Ordering) :=
  (u16ToF32 a).bind (fun x => (u16ToF32 b).map (fun y => (Spec.Half.single x).cmp (Spec.Half.single y)))

end Verif.Model.Half
