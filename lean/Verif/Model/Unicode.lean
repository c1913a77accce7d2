import Verif.Model.UnicodeChar32
import Verif.Model.UnicodeChar16
import Verif.Model.UnicodeChar8

/-!
# The combined code point predicates

`char8_t` has the same functions as `unsigned char` (unicode_char8_t.h, checked textually by the transcription script), and
`char` and `wchar_t` forward to `unsigned char` and to `char16_t`/`char32_t` (unicode_char.h, unicode_wchar_t.h).
-/
namespace Verif.Model
open Verif.Model.CodePoint

/-- `a || b` -/
def either (a b : Option Bool) : Option Bool := a.bind fun x => if x then some true else b

/-- `!a && !b` -/
def neither (a b : Option Bool) : Option Bool := a.bind fun x => if x then some false else b.map (!·)

/-- include/muu/impl/unicode_char32_t.h:1507-1510 -/
def isHyphen32 (c : BitVec 32) : Option Bool :=
  either (Char32.isAsciiHyphen.eval c.toNat) (Char32.isNonAsciiHyphen.eval c.toNat)

/-- include/muu/impl/unicode_char32_t.h:1130-1133 -/
def isNotHyphen32 (c : BitVec 32) : Option Bool :=
  neither (Char32.isAsciiHyphen.eval c.toNat) (Char32.isNonAsciiHyphen.eval c.toNat)

/-- include/muu/impl/unicode_char32_t.h:1519-1522 -/
def isLetter32 (c : BitVec 32) : Option Bool :=
  either (Char32.isAsciiLetter.eval c.toNat) (Char32.isNonAsciiLetter.eval c.toNat)

/-- include/muu/impl/unicode_char32_t.h:1142-1145 -/
def isNotLetter32 (c : BitVec 32) : Option Bool :=
  neither (Char32.isAsciiLetter.eval c.toNat) (Char32.isNonAsciiLetter.eval c.toNat)

/-- include/muu/impl/unicode_char32_t.h:1531-1534 -/
def isLowercase32 (c : BitVec 32) : Option Bool :=
  either (Char32.isAsciiLowercase.eval c.toNat) (Char32.isNonAsciiLowercase.eval c.toNat)

/-- include/muu/impl/unicode_char32_t.h:1154-1157 -/
def isNotLowercase32 (c : BitVec 32) : Option Bool :=
  neither (Char32.isAsciiLowercase.eval c.toNat) (Char32.isNonAsciiLowercase.eval c.toNat)

/-- include/muu/impl/unicode_char32_t.h:1543-1546 -/
def isNumber32 (c : BitVec 32) : Option Bool :=
  either (Char32.isAsciiNumber.eval c.toNat) (Char32.isNonAsciiNumber.eval c.toNat)

/-- include/muu/impl/unicode_char32_t.h:1166-1169 -/
def isNotNumber32 (c : BitVec 32) : Option Bool :=
  neither (Char32.isAsciiNumber.eval c.toNat) (Char32.isNonAsciiNumber.eval c.toNat)

/-- include/muu/impl/unicode_char32_t.h:1567-1570 -/
def isUppercase32 (c : BitVec 32) : Option Bool :=
  either (Char32.isAsciiUppercase.eval c.toNat) (Char32.isNonAsciiUppercase.eval c.toNat)

/-- include/muu/impl/unicode_char32_t.h:1178-1181 -/
def isNotUppercase32 (c : BitVec 32) : Option Bool :=
  neither (Char32.isAsciiUppercase.eval c.toNat) (Char32.isNonAsciiUppercase.eval c.toNat)

/-- include/muu/impl/unicode_char32_t.h:1579-1582 -/
def isWhitespace32 (c : BitVec 32) : Option Bool :=
  either (Char32.isAsciiWhitespace.eval c.toNat) (Char32.isNonAsciiWhitespace.eval c.toNat)

/-- include/muu/impl/unicode_char32_t.h:1190-1193 -/
def isNotWhitespace32 (c : BitVec 32) : Option Bool :=
  neither (Char32.isAsciiWhitespace.eval c.toNat) (Char32.isNonAsciiWhitespace.eval c.toNat)

/-- include/muu/impl/unicode_char16_t.h:1285-1288 -/
def isHyphen16 (c : BitVec 16) : Option Bool :=
  either (Char16.isAsciiHyphen.eval c.toNat) (Char16.isNonAsciiHyphen.eval c.toNat)

/-- include/muu/impl/unicode_char16_t.h:995-998 -/
def isNotHyphen16 (c : BitVec 16) : Option Bool :=
  neither (Char16.isAsciiHyphen.eval c.toNat) (Char16.isNonAsciiHyphen.eval c.toNat)

/-- include/muu/impl/unicode_char16_t.h:1297-1300 -/
def isLetter16 (c : BitVec 16) : Option Bool :=
  either (Char16.isAsciiLetter.eval c.toNat) (Char16.isNonAsciiLetter.eval c.toNat)

/-- include/muu/impl/unicode_char16_t.h:1007-1010 -/
def isNotLetter16 (c : BitVec 16) : Option Bool :=
  neither (Char16.isAsciiLetter.eval c.toNat) (Char16.isNonAsciiLetter.eval c.toNat)

/-- include/muu/impl/unicode_char16_t.h:1309-1312 -/
def isLowercase16 (c : BitVec 16) : Option Bool :=
  either (Char16.isAsciiLowercase.eval c.toNat) (Char16.isNonAsciiLowercase.eval c.toNat)

/-- include/muu/impl/unicode_char16_t.h:1019-1022 -/
def isNotLowercase16 (c : BitVec 16) : Option Bool :=
  neither (Char16.isAsciiLowercase.eval c.toNat) (Char16.isNonAsciiLowercase.eval c.toNat)

/-- include/muu/impl/unicode_char16_t.h:1321-1324 -/
def isNumber16 (c : BitVec 16) : Option Bool :=
  either (Char16.isAsciiNumber.eval c.toNat) (Char16.isNonAsciiNumber.eval c.toNat)

/-- include/muu/impl/unicode_char16_t.h:1031-1034 -/
def isNotNumber16 (c : BitVec 16) : Option Bool :=
  neither (Char16.isAsciiNumber.eval c.toNat) (Char16.isNonAsciiNumber.eval c.toNat)

/-- include/muu/impl/unicode_char16_t.h:1345-1348 -/
def isUppercase16 (c : BitVec 16) : Option Bool :=
  either (Char16.isAsciiUppercase.eval c.toNat) (Char16.isNonAsciiUppercase.eval c.toNat)

/-- include/muu/impl/unicode_char16_t.h:1043-1046 -/
def isNotUppercase16 (c : BitVec 16) : Option Bool :=
  neither (Char16.isAsciiUppercase.eval c.toNat) (Char16.isNonAsciiUppercase.eval c.toNat)

/-- include/muu/impl/unicode_char16_t.h:1357-1360 -/
def isWhitespace16 (c : BitVec 16) : Option Bool :=
  either (Char16.isAsciiWhitespace.eval c.toNat) (Char16.isNonAsciiWhitespace.eval c.toNat)

/-- include/muu/impl/unicode_char16_t.h:1055-1058 -/
def isNotWhitespace16 (c : BitVec 16) : Option Bool :=
  neither (Char16.isAsciiWhitespace.eval c.toNat) (Char16.isNonAsciiWhitespace.eval c.toNat)

/-- include/muu/impl/unicode_unsigned_char.h:354-357 -/
def isHyphen8 (c : BitVec 8) : Option Bool :=
  either (Char8.isAsciiHyphen.eval c.toNat) (Char8.isNonAsciiHyphen.eval c.toNat)

/-- include/muu/impl/unicode_unsigned_char.h:221-224 -/
def isNotHyphen8 (c : BitVec 8) : Option Bool :=
  neither (Char8.isAsciiHyphen.eval c.toNat) (Char8.isNonAsciiHyphen.eval c.toNat)

/-- include/muu/impl/unicode_unsigned_char.h:366-369 -/
def isLetter8 (c : BitVec 8) : Option Bool :=
  either (Char8.isAsciiLetter.eval c.toNat) (Char8.isNonAsciiLetter.eval c.toNat)

/-- include/muu/impl/unicode_unsigned_char.h:233-236 -/
def isNotLetter8 (c : BitVec 8) : Option Bool :=
  neither (Char8.isAsciiLetter.eval c.toNat) (Char8.isNonAsciiLetter.eval c.toNat)

/-- include/muu/impl/unicode_unsigned_char.h:378-381 -/
def isLowercase8 (c : BitVec 8) : Option Bool :=
  either (Char8.isAsciiLowercase.eval c.toNat) (Char8.isNonAsciiLowercase.eval c.toNat)

/-- include/muu/impl/unicode_unsigned_char.h:245-248 -/
def isNotLowercase8 (c : BitVec 8) : Option Bool :=
  neither (Char8.isAsciiLowercase.eval c.toNat) (Char8.isNonAsciiLowercase.eval c.toNat)

/-- include/muu/impl/unicode_unsigned_char.h:390-393 -/
def isNumber8 (c : BitVec 8) : Option Bool :=
  either (Char8.isAsciiNumber.eval c.toNat) (Char8.isNonAsciiNumber.eval c.toNat)

/-- include/muu/impl/unicode_unsigned_char.h:257-260 -/
def isNotNumber8 (c : BitVec 8) : Option Bool :=
  neither (Char8.isAsciiNumber.eval c.toNat) (Char8.isNonAsciiNumber.eval c.toNat)

/-- include/muu/impl/unicode_unsigned_char.h:414-417 -/
def isUppercase8 (c : BitVec 8) : Option Bool :=
  either (Char8.isAsciiUppercase.eval c.toNat) (Char8.isNonAsciiUppercase.eval c.toNat)

/-- include/muu/impl/unicode_unsigned_char.h:269-272 -/
def isNotUppercase8 (c : BitVec 8) : Option Bool :=
  neither (Char8.isAsciiUppercase.eval c.toNat) (Char8.isNonAsciiUppercase.eval c.toNat)

/-- include/muu/impl/unicode_unsigned_char.h:426-429 -/
def isWhitespace8 (c : BitVec 8) : Option Bool :=
  either (Char8.isAsciiWhitespace.eval c.toNat) (Char8.isNonAsciiWhitespace.eval c.toNat)

/-- include/muu/impl/unicode_unsigned_char.h:281-284 -/
def isNotWhitespace8 (c : BitVec 8) : Option Bool :=
  neither (Char8.isAsciiWhitespace.eval c.toNat) (Char8.isNonAsciiWhitespace.eval c.toNat)

end Verif.Model
