import Verif.Model.UtfDecode

/-!
# Model of the bit utilities: countl.h, countr.h, popcount.h, bit_floor.h, bit_ceil.h, bit.h, byte_reverse.h, bit_pack.h,
bit_fill.h, apply_alignment.h, aligned_alloc.h

The portable ("naive") implementations are modelled; the compiler intrinsics are not. An unsigned type of `w` bits is
`BitVec w`. The enum overloads forward to the underlying type and are not modelled separately.
-/
namespace Verif.Model

/-- include/muu/countl.h:32-37, the loop of `countl_zero_naive`; `fuel` bounds the number of iterations, running out of it
(a loop that does not end) is `none`. `bit_type` may be wider than `T`; the bit only moves right, so the extra bits are
never used and are left out. -/
def countlLoop {w : Nat} (val : BitVec w) : Nat → BitVec w → Nat → Option Nat
  | 0, _, _ => none
  | fuel + 1, bit, count => if bit &&& val ≠ 0 then some count else countlLoop val fuel (bit >>> 1) (count + 1)

/-- include/muu/countl.h:22-40 `countl_zero_naive` -/
def countlZeroNaive {w : Nat} (val : BitVec w) : Option Nat :=
  if val = 0 then some w else countlLoop val w (1#w <<< (w - 1)) 0

/-- include/muu/countl.h:124-157 `countl_zero` for 8 to 64 bit types -/
def countlZero {w : Nat} (val : BitVec w) : Option Nat := countlZeroNaive val

/-- include/muu/countl.h:131-139 `countl_zero` for `uint128_t` -/
def countlZero128 (val : BitVec 128) : Option Nat :=
  (countlZero ((val >>> 64).setWidth 64)).bind fun high =>
    if high < 64 then some high else (countlZero (val.setWidth 64)).map (64 + ·)

/-- include/muu/countl.h:171-179 `countl_one` -/
def countlOne {w : Nat} (val : BitVec w) : Option Nat := countlZero (~~~val)
def countlOne128 (val : BitVec 128) : Option Nat := countlZero128 (~~~val)

/-- include/muu/countr.h:25-35, the loop of `countr_zero_naive`. `bit_type` may be wider than `T`; the extra bits are never
reached for a non-zero `val` and are left out. -/
def countrLoop {w : Nat} (val : BitVec w) : Nat → BitVec w → Nat → Option Nat
  | 0, _, _ => none
  | fuel + 1, bit, count => if bit &&& val ≠ 0 then some count else countrLoop val fuel (bit <<< 1) (count + 1)

/-- include/muu/countr.h:21-36 `countr_zero_naive`; a false `MUU_ASSUME` is `none` -/
def countrZeroNaive {w : Nat} (val : BitVec w) : Option Nat :=
  if val = 0 then none else countrLoop val w 1#w 0

/-- include/muu/countr.h:113-147 `countr_zero` for 8 to 64 bit types -/
def countrZero {w : Nat} (val : BitVec w) : Option Nat := if val = 0 then some w else countrZeroNaive val

/-- include/muu/countr.h:119-126 `countr_zero` for `uint128_t` -/
def countrZero128 (val : BitVec 128) : Option Nat :=
  (countrZero (val.setWidth 64)).bind fun low =>
    if low < 64 then some low else (countrZero ((val >>> 64).setWidth 64)).map (64 + ·)

/-- include/muu/countr.h:161-167 `countr_one` -/
def countrOne {w : Nat} (val : BitVec w) : Option Nat := countrZero (~~~val)
def countrOne128 (val : BitVec 128) : Option Nat := countrZero128 (~~~val)

/-- include/muu/popcount.h:23-73 `popcount_traits<w>` -/
structure PopcountTraits (w : Nat) where
  m1 : BitVec w
  m2 : BitVec w
  m4 : BitVec w
  h01 : BitVec w
  rsh : Nat

/-- include/muu/popcount.h:23-31 -/
def popcountTraits8 : PopcountTraits 8 := ⟨0x55#8, 0x33#8, 0x0f#8, 0x01#8, 0⟩
/-- include/muu/popcount.h:33-41 -/
def popcountTraits16 : PopcountTraits 16 := ⟨0x5555#16, 0x3333#16, 0x0f0f#16, 0x0101#16, 8⟩
/-- include/muu/popcount.h:43-51 -/
def popcountTraits32 : PopcountTraits 32 := ⟨0x55555555#32, 0x33333333#32, 0x0f0f0f0f#32, 0x01010101#32, 24⟩
/-- include/muu/popcount.h:53-61 -/
def popcountTraits64 : PopcountTraits 64 :=
  ⟨0x5555555555555555#64, 0x3333333333333333#64, 0x0f0f0f0f0f0f0f0f#64, 0x0101010101010101#64, 56⟩
/-- include/muu/popcount.h:64-72; the `bit_pack` of two equal halves is written out -/
def popcountTraits128 : PopcountTraits 128 :=
  ⟨0x55555555555555555555555555555555#128, 0x33333333333333333333333333333333#128,
   0x0f0f0f0f0f0f0f0f0f0f0f0f0f0f0f0f#128, 0x01010101010101010101010101010101#128, 120⟩

/-- include/muu/popcount.h:77-85 `popcount_naive`. For types narrower than `int` the intermediate results are computed in
`int` without overflow and converted back, which is arithmetic modulo 2^w. -/
def popcountNaive {w : Nat} (pt : PopcountTraits w) (val : BitVec w) : Option Nat :=
  if val = 0 then none
  else
    let val := val - ((val >>> 1) &&& pt.m1)
    let val := (val &&& pt.m2) + ((val >>> 2) &&& pt.m2)
    some ((((val + (val >>> 4)) &&& pt.m4) * pt.h01) >>> pt.rsh).toNat

/-- include/muu/popcount.h:170-193 `popcount` -/
def popcount {w : Nat} (pt : PopcountTraits w) (val : BitVec w) : Option Nat :=
  if val = 0 then some 0 else popcountNaive pt val

/-- include/muu/popcount.h:208-216 `has_single_bit` (unsigned types) -/
def hasSingleBit {w : Nat} (val : BitVec w) : Bool := val != 0 && (val &&& (val - 1)) == 0

/-- `T{1} << s`. A type narrower than `int` is shifted as a 32 bit `int` and converted back; shifting by the width of
the promoted type or more is undefined (`none`). -/
def shlOne (w s : Nat) : Option (BitVec w) := if s < max w 32 then some (BitVec.ofNat w (2 ^ s)) else none

/-- include/muu/bit_floor.h:32-44 `bit_floor`; `clz` is `countl_zero` for the type -/
def bitFloor {w : Nat} (clz : BitVec w → Option Nat) (val : BitVec w) : Option (BitVec w) :=
  if val = 0 then some 0 else (clz val).bind fun n => shlOne w (w - 1 - n)

/-- include/muu/bit_ceil.h:32-45 `bit_ceil` -/
def bitCeil {w : Nat} (clz : BitVec w → Option Nat) (val : BitVec w) : Option (BitVec w) :=
  if val = 0 then some 1 else (clz (val - 1)).bind fun n => shlOne w (w - n)

/-- include/muu/bit.h:53-61 `bit_width` -/
def bitWidth {w : Nat} (clz : BitVec w → Option Nat) (val : BitVec w) : Option (BitVec w) :=
  (clz val).map fun n => BitVec.ofNat w (w - n)

/-- include/muu/byte_reverse.h:83-93 -/
def byteReverse64 (v : BitVec 64) : BitVec 64 :=
  (v <<< 56) ||| ((v <<< 40) &&& 0x00FF000000000000#64) ||| ((v <<< 24) &&& 0x0000FF0000000000#64) |||
  ((v <<< 8) &&& 0x000000FF00000000#64) ||| ((v >>> 8) &&& 0x00000000FF000000#64) |||
  ((v >>> 24) &&& 0x0000000000FF0000#64) ||| ((v >>> 40) &&& 0x000000000000FF00#64) ||| (v >>> 56)

/-- include/muu/byte_reverse.h:95-99 -/
def byteReverse128 (v : BitVec 128) : BitVec 128 :=
  ((byteReverse64 (v.setWidth 64)).setWidth 128 <<< 64) ||| (byteReverse64 ((v >>> 64).setWidth 64)).setWidth 128

/-- include/muu/bit.h:95-117 `byte_select<Index>(val)` for a type of `8 * n` bits (a signed value is first reinterpreted
as unsigned, which does not change its bits). The size check is a `static_assert`; the little-endian reading of "byte i"
is the only one implemented. -/
def byteSelectT {n : Nat} (index : Nat) (val : BitVec (8 * n)) : BitVec 8 :=
  if n = 1 then val.setWidth 8
  else
    let mask : BitVec (8 * n) := 0xFF#(8 * n) <<< (index * 8)
    if index = 0 then (mask &&& val).setWidth 8 else ((mask &&& val) >>> (index * 8)).setWidth 8

/-- include/muu/bit.h:145-162 `byte_select(val, index)`; a shift by the width of the (promoted) type or more is `none`. -/
def byteSelect {n : Nat} (val : BitVec (8 * n)) (index : Nat) : Option (BitVec 8) :=
  if index > n then some 0
  else if n = 1 then some (val.setWidth 8)
  else if index * 8 < max (8 * n) 32 then some (((val >>> (index * 8)) &&& 0xFF#(8 * n)).setWidth 8) else none

/-- an integer argument of `bit_pack`: its bits and whether its type is signed -/
structure PackArg where
  width : Nat
  bits : BitVec width
  signed : Bool

/-- `static_cast<return_type>(val)` -/
def PackArg.castTo (a : PackArg) (r : Nat) : BitVec r := if a.signed then a.bits.signExtend r else a.bits.setWidth r

/-- `static_cast<make_unsigned<T>>(val)` -/
def PackArg.toUnsigned (a : PackArg) : PackArg := { a with signed := false }

/-- `total_size<...> * CHAR_BIT` -/
def totalWidth (args : List PackArg) : Nat := (args.map PackArg.width).sum

/-- include/muu/bit_pack.h:67-78, the branches for unsigned types -/
def bitPackUnsigned (r : Nat) : List PackArg → BitVec r
  | [] => 0
  | [a] => a.castTo r
  | a :: rest => (a.castTo r <<< totalWidth rest) ||| bitPackUnsigned r rest

/-- include/muu/bit_pack.h:43-79 `bit_pack<Return>` with `r` the width of the return type and `rs` its signedness. (The
C++ takes at least two arguments.) -/
def bitPack (r : Nat) (rs : Bool) (args : List PackArg) : BitVec r :=
  if rs || args.any PackArg.signed then bitPackUnsigned r (args.map PackArg.toUnsigned) else bitPackUnsigned r args

/-- include/muu/bit.h:200-225 `swizzle<ByteIndices...>(val)`, with `r` the width of the return type -/
def swizzle {n : Nat} (r : Nat) (rs : Bool) (indices : List Nat) (val : BitVec (8 * n)) : BitVec r :=
  match indices with
  | [i] => (byteSelectT i val).setWidth r
  | _ => bitPack r rs (indices.map fun i => ⟨8, byteSelectT i val, false⟩)

/-- include/muu/bit_fill.h:34-48 `bit_fill_right<T>(count)` -/
def bitFillRight (w : Nat) (count : Nat) : Option (BitVec w) :=
  if count = 0 then some 0
  else if count ≥ w then some (~~~0)
  else (shlOne w count).map (· - 1)

/-- include/muu/bit_fill.h:68-82 `bit_fill_left<T>(count)` -/
def bitFillLeft (w : Nat) (count : Nat) : Option (BitVec w) :=
  if count = 0 then some 0
  else if count ≥ w then some (~~~0)
  else (bitFillRight w count).bind fun b => if w - count < max w 32 then some (b <<< (w - count)) else none

/-- include/muu/apply_alignment.h:26-40 and 77-93 `apply_alignment`: `w` is the width of `T`, the arithmetic is done in
`decltype(T{} * size_t{})`. The alignment must not be zero and must be a power of two (`MUU_ASSUME`). -/
def applyAlignment {w : Nat} (val : BitVec w) (alignment : BitVec 64) : Option (BitVec w) :=
  let u := max w 64
  if alignment = 0 ∨ (alignment &&& (alignment - 1)) ≠ 0 then none
  else some (((val.setWidth u + alignment.setWidth u - 1) &&& ~~~(alignment.setWidth u - 1)).setWidth w)

/-- include/muu/aligned_alloc.h:33-44 `aligned_alloc`: the (alignment, size) passed to `std::aligned_alloc`.
`__STDCPP_DEFAULT_NEW_ALIGNMENT__` is taken to be at most 16. -/
def alignedAllocRequest (size alignment : BitVec 64) : Option (BitVec 64 × BitVec 64) :=
  if size = 0 ∨ alignment = 0 then none
  else
    let alignment := if alignment > 16#64 then alignment else 16#64
    some (alignment, (size + alignment - 1) &&& ~~~(alignment - 1))

end Verif.Model
