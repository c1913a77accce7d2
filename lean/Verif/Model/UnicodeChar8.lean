import Verif.Model.CodePointProg

/-!
# The code point predicates of `include/muu/impl/unicode_unsigned_char.h`

Transcribed mechanically into the syntax of `Verif.Model.CodePointProg`. Where the C++ has an ordinary boolean combination
of other predicates (`is_letter`, `is_not_letter`, ...) the model is in `Verif.Model.Unicode`.
-/
namespace Verif.Model.CodePoint.Char8

/-- include/muu/impl/unicode_unsigned_char.h:34-37 `is_ascii_code_point` -/
def isAsciiCodePoint : Prog :=
  .ret (.le 0x7F)

/-- include/muu/impl/unicode_unsigned_char.h:46-49 `is_ascii_hyphen` -/
def isAsciiHyphen : Prog :=
  .ret (.eq 0x2D)

/-- include/muu/impl/unicode_unsigned_char.h:58-61 `is_ascii_letter` -/
def isAsciiLetter : Prog :=
  .ret (.or (.and (.ge 0x41) (.le 0x5A)) (.and (.ge 0x61) (.le 0x7A)))

/-- include/muu/impl/unicode_unsigned_char.h:70-73 `is_ascii_lowercase` -/
def isAsciiLowercase : Prog :=
  .ret (.and (.ge 0x61) (.le 0x7A))

/-- include/muu/impl/unicode_unsigned_char.h:82-85 `is_ascii_number` -/
def isAsciiNumber : Prog :=
  .ret (.and (.ge 0x30) (.le 0x39))

/-- include/muu/impl/unicode_unsigned_char.h:94-97 `is_ascii_uppercase` -/
def isAsciiUppercase : Prog :=
  .ret (.and (.ge 0x41) (.le 0x5A))

/-- include/muu/impl/unicode_unsigned_char.h:106-109 `is_ascii_whitespace` -/
def isAsciiWhitespace : Prog :=
  .ret (.or (.and (.ge 0x9) (.le 0xD)) (.eq 0x20))

/-- include/muu/impl/unicode_unsigned_char.h:118-122 `is_non_ascii_code_point` -/
def isNonAsciiCodePoint : Prog :=
  .ret (.lit false)

/-- include/muu/impl/unicode_unsigned_char.h:131-135 `is_non_ascii_hyphen` -/
def isNonAsciiHyphen : Prog :=
  .ret (.lit false)

/-- include/muu/impl/unicode_unsigned_char.h:144-148 `is_non_ascii_letter` -/
def isNonAsciiLetter : Prog :=
  .ret (.lit false)

/-- include/muu/impl/unicode_unsigned_char.h:157-161 `is_non_ascii_lowercase` -/
def isNonAsciiLowercase : Prog :=
  .ret (.lit false)

/-- include/muu/impl/unicode_unsigned_char.h:170-174 `is_non_ascii_number` -/
def isNonAsciiNumber : Prog :=
  .ret (.lit false)

/-- include/muu/impl/unicode_unsigned_char.h:183-187 `is_non_ascii_uppercase` -/
def isNonAsciiUppercase : Prog :=
  .ret (.lit false)

/-- include/muu/impl/unicode_unsigned_char.h:196-200 `is_non_ascii_whitespace` -/
def isNonAsciiWhitespace : Prog :=
  .ret (.lit false)

/-- include/muu/impl/unicode_unsigned_char.h:293-296 `is_code_point` -/
def isCodePoint : Prog :=
  .ret (.le 0x7F)

/-- include/muu/impl/unicode_unsigned_char.h:317-321 `is_combining_mark` -/
def isCombiningMark : Prog :=
  .ret (.lit false)

/-- include/muu/impl/unicode_unsigned_char.h:330-333 `is_decimal_digit` -/
def isDecimalDigit : Prog :=
  .ret (.and (.ge 0x30) (.le 0x39))

/-- include/muu/impl/unicode_unsigned_char.h:342-345 `is_hexadecimal_digit` -/
def isHexadecimalDigit : Prog :=
  .ret (.and (.and (.ge 0x30) (.le 0x66)) (.bit 64 (.sub 64 .c 0x30) 0x7E0000007E03FF))

/-- include/muu/impl/unicode_unsigned_char.h:402-405 `is_octal_digit` -/
def isOctalDigit : Prog :=
  .ret (.and (.ge 0x30) (.le 0x37))

end Verif.Model.CodePoint.Char8
