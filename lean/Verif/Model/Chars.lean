/-!
# Model of `include/muu/chars.h`: hexadecimal digits
-/
namespace Verif.Model

/-- include/muu/chars.h:30-39 `hex_to_dec(unsigned)`; the overloads for other types convert to `unsigned` first -/
def hexToDec (codepoint : BitVec 32) : BitVec 32 :=
  if codepoint ≥ 0x41#32 then 10#32 + (codepoint ||| 0x20#32) - 0x61#32 else codepoint - 0x30#32

/-- include/muu/chars.h:45-48 `dec_to_hex<char>(val, a)`; `a` is `'a'` by default, `'A'` for upper case -/
def decToHex (val : BitVec 32) (a : BitVec 8 := 0x61#8) : BitVec 8 :=
  ((if val ≥ 10#32 then a.zeroExtend 32 + (val - 10#32) else 0x30#32 + val).setWidth 8)

/-- include/muu/chars.h:72-75 `byte_to_hex<char>(byte, a)`: (high, low) -/
def byteToHex (byte : BitVec 8) (a : BitVec 8 := 0x61#8) : BitVec 8 × BitVec 8 :=
  (decToHex (byte.zeroExtend 32 / 16#32) a, decToHex (byte.zeroExtend 32 % 16#32) a)

end Verif.Model
