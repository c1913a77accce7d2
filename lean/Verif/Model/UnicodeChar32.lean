import Verif.Model.CodePointProg

/-!
# The code point predicates of `include/muu/impl/unicode_char32_t.h`

Transcribed mechanically into the syntax of `Verif.Model.CodePointProg`. Where the C++ has an ordinary boolean combination
of other predicates (`is_letter`, `is_not_letter`, ...) the model is in `Verif.Model.Unicode`.
-/
namespace Verif.Model.CodePoint.Char32

/-- include/muu/impl/unicode_char32_t.h:34-37 `is_ascii_code_point` -/
def isAsciiCodePoint : Prog :=
  .ret (.le 0x7F)

/-- include/muu/impl/unicode_char32_t.h:46-49 `is_ascii_hyphen` -/
def isAsciiHyphen : Prog :=
  .ret (.eq 0x2D)

/-- include/muu/impl/unicode_char32_t.h:58-61 `is_ascii_letter` -/
def isAsciiLetter : Prog :=
  .ret (.or (.and (.ge 0x41) (.le 0x5A)) (.and (.ge 0x61) (.le 0x7A)))

/-- include/muu/impl/unicode_char32_t.h:70-73 `is_ascii_lowercase` -/
def isAsciiLowercase : Prog :=
  .ret (.and (.ge 0x61) (.le 0x7A))

/-- include/muu/impl/unicode_char32_t.h:82-85 `is_ascii_number` -/
def isAsciiNumber : Prog :=
  .ret (.and (.ge 0x30) (.le 0x39))

/-- include/muu/impl/unicode_char32_t.h:94-97 `is_ascii_uppercase` -/
def isAsciiUppercase : Prog :=
  .ret (.and (.ge 0x41) (.le 0x5A))

/-- include/muu/impl/unicode_char32_t.h:106-109 `is_ascii_whitespace` -/
def isAsciiWhitespace : Prog :=
  .ret (.or (.and (.ge 0x9) (.le 0xD)) (.eq 0x20))

/-- include/muu/impl/unicode_char32_t.h:118-121 `is_non_ascii_code_point` -/
def isNonAsciiCodePoint : Prog :=
  .ret (.and (.le 0x10FFFF) (.ge 0x80))

/-- include/muu/impl/unicode_char32_t.h:130-150 `is_non_ascii_hyphen` -/
def isNonAsciiHyphen : Prog :=
  .retIf (.or (.lt 0xAD) (.gt 0xFF65)) false <|
  .retIf (.bit 64 (.div (.sub 64 .c 0xAD) 0x3FB) 0x7FFFFFFFFFFFE75C) false <|
  .retIf (.or (.or (.or (.or (.eq 0xAD) (.eq 0x58A)) (.eq 0x1806)) (.eq 0x2E17)) (.eq 0x30FB)) true <|
  .caseOf (.div (.sub 64 .c 0xAD) 0x3FB) 0x7 (
      .ret (.and (.ge 0x2010) (.le 0x2011))) <|
  .caseOf (.div (.sub 64 .c 0xAD) 0x3FB) 0x3F (
      .ret (.or (.or (.eq 0xFE63) (.eq 0xFF0D)) (.eq 0xFF65))) <|
  .unreachable

/-- include/muu/impl/unicode_char32_t.h:159-554 bit table number 1 of `is_non_ascii_letter` -/
def isNonAsciiLetterTable1 : List Nat := [
  0xFFFFDFFFFFC10801, 0xFFFFFFFFFFFFDFFF, 0xFFFFFFFFFFFFFFFF, 0xFFFFFFFFFFFFFFFF, 0xFFFFFFFFFFFFFFFF,
  0xFFFFFFFFFFFFFFFF, 0xFFFFFFFFFFFFFFFF, 0xFFFFFFFFFFFFFFFF, 0x07C000FFF0FFFFFF, 0x0000000000000014,
  0x0000000000000000, 0xFEFFFFF5D02F37C0, 0xFFFFFFFFFFFFFFFF, 0xFFFFFFFFFFFFEFFF, 0xFFFFFFFFFFFFFFFF,
  0xFFFFFFFF00FFFFFF, 0xFFFFFFFFFFFFFFFF, 0xFFFFFFFFFFFFFFFF, 0xFFC09FFFFFFFFFBF, 0x000000007FFFFFFF,
  0xFFFFFFC000000000, 0xFFC00000000001E1, 0x00000001FFFFFFFF, 0xFFFFFFFFFFFFFFB0, 0x18000BFFFFFFFFFF,
  0xFFFFFF4000270030, 0xFFFFFFF80000003F, 0x0FFFFFFFFFFFFFFF, 0xFFFFFFFF00000080, 0x44010FFFFFC10C01,
  0xFFC07FFFFFC00000, 0xFFC0001FBFFFFFC1, 0x00000000FFFFFFFF, 0xFFFFFFFFFC000000, 0x00FFC0400008FFFF,
  0x7FFFFE67F87FFF80, 0x00EC00100008F17F, 0x7FFFFE61F80400C0, 0x001780000000DB7F, 0x7FFFFEEFF8000700,
  0x00C000400008FB7F, 0x7FFFFE67F8008000, 0x00EC00000008FB7F, 0xC6358F71FA000080, 0x000000400000FFF1,
  0x7FFFFF77F8000000, 0x00C9C0000008FFFF, 0x7FFFFF77F8400000, 0x00D800000008FBFF, 0xFFFFFF77FC000180,
  0x0000000000001FFF]

/-- include/muu/impl/unicode_char32_t.h:159-554 bit table number 2 of `is_non_ascii_letter` -/
def isNonAsciiLetterTable2 : List Nat := [
  0x00000700E080004F, 0xF7FFFFF8FFFFC1F8, 0x000000000000FE5F, 0x1BFFFFFFFFFFFC00, 0x000000000000FE00,
  0x1BFF5FFFFFEFAC00, 0x000001E00000BE40, 0x0000000000000200, 0x003FFFFFFFFDFE00, 0x00000000003E0000,
  0x0000000000000000, 0x000FFFFFFFFFFE00, 0xC380C4787E000100, 0xFFFFFE00008007FF, 0xFFFFFFFFFE417FFF,
  0xFFFFFFFFFFFFFFEF, 0xFFFFFFFFFFFFFFFF, 0xFFFFFFFFFFFFFFFF, 0xFFFFFFFFFFFFFFFF, 0xFFFFFFFFFFFFFFFF,
  0xFFFFFE7AFE7BFFFF, 0x7BFFFFFFFE7BFFFF, 0xFFFFFFFEFFFE7AFE, 0xFFFFFFFE7BFFFFFF, 0x0000000FFFFFFFFF,
  0xFFFFFE0001FFFE00, 0x7FFFFFFFFFFFFFFF, 0xFFFFFFFFFFFFFC7E, 0xFFFFFFFFFFFFFFFF, 0xFFFFFFFFFFFFFFFF,
  0xFFFFFFFFFFFFFFFF, 0xFFFFFFFFFFFFFFFF, 0xFFFFFFFFFFFFFFFF, 0xFFFFFFFFFFFFFFFF, 0xFFFFFFFFFFFFFFFF,
  0xFFFFFFFFFFFFFFFF, 0xFF3FFFFFFFFFFFFF, 0xFFFFFE0FFFFFFDFF, 0xFC0FFFFFFFFFFFFF, 0x07FFFF0007FFFE03,
  0x03BFFE0007FFFE00, 0x1FFFFFFFFFFFFE00, 0x0000002100000000, 0xFFFFFE0000000000, 0xFFFFFFFFFFFFFFFF,
  0xFE0BFFFFFFFF3E03, 0x7FFFFFFFFFFFFFFF, 0x000000FFFFFFFE00, 0x3E7FFFFFFE000000, 0xFE1FFFFFFFFFFE00,
  0x0000000000001FFF]

/-- include/muu/impl/unicode_char32_t.h:159-554 bit table number 3 of `is_non_ascii_letter` -/
def isNonAsciiLetterTable3 : List Nat := [
  0xF00000000000003F, 0xFFFFFFFFF007FFFF, 0x000000000001FFFF, 0x0000000800000000, 0x0000000000000000,
  0x0000FFFFFFFFFFFE, 0x80000000000001FE, 0xFFC00C001FFFFFFF, 0xF0000003FFFFFFFF, 0x00000000FFFFFFFF,
  0xF3FFFFFFFFC00E00, 0x0E7FFFFFFFFFF01F, 0xF046FDE000000000, 0xFFFFFFFFFFFFFFFF, 0xFFFFFFFFFFFFFFFF,
  0x0FFFFFFFFFFFFFFF, 0xF000000000000000, 0xFFFFFFFFFFFFFFFF, 0xFFFFFFFFFFFFFFFF, 0xFFFFFFFFFFFFFFFF,
  0xFFFFFFFFFFFFFFFF, 0xFFFFFFFFF3F3FFFF, 0xF3FFFFFFFAAFF3F3, 0xC5FDFFFFFFFFFFFF, 0x01FDC1FFF0FCF1FD,
  0x0000000000000000, 0x0800200000000000, 0x0000000001FFF000, 0x4000000000000000, 0x0F3FFBD503E2FFC8,
  0x800000000000043E, 0x0000000000000001]

/-- include/muu/impl/unicode_char32_t.h:159-554 bit table number 4 of `is_non_ascii_letter` -/
def isNonAsciiLetterTable4 : List Nat := [
  0xFFFFFFFFFFFFFFFF, 0xFFFFFFFFFFFFFFFF, 0xFFFFFFFFFFFFFFFF, 0x000C781FFFFFFFFF, 0xFFFF20BFFFFFFFFF,
  0x000080FFFFFFFFFF, 0x7F7F7F7F007FFFFF, 0x000000007F7F7F7F, 0x0000800000000000, 0x0000000000000000,
  0x0000000000000000, 0x0000000000000000, 0x0000000000000000, 0x0000000000000000, 0x0000000000000000,
  0x0000000000000000, 0x183E000000000060, 0xFFFFFFFFFFFFFFFE, 0xFFFFFFFEE07FFFFF, 0xF7FFFFFFFFFFFFFF,
  0xFFFEFFFFFFFFFFE0, 0xFFFFFFFFFFFFFFFF, 0xFFFFFFFF00007FFF, 0xFFFF000000000000]

/-- include/muu/impl/unicode_char32_t.h:159-554 bit table number 5 of `is_non_ascii_letter` -/
def isNonAsciiLetterTable5 : List Nat := [
  0xFFFFFFFFFFFFFFFF, 0xFFFFFFFFFFFFFFFF, 0x03FFFFFFFFFFFFFF, 0xE000000000000000, 0xFFFFE7FFFFFFFFFF,
  0xFFFFFFFFFFFFFFFF, 0xFFFFFFFFFFFFFFFF, 0xFFFFFFFFFFFFFFFF, 0xE3FFFFFFFFFFFFFF, 0xFFFFE00001801FFF,
  0xFFFFF0000FFFFFFF, 0xFFFFFFFFFFFFE7FF, 0x000000000007FFFF, 0xFFFFFFFFFFFF9FF0, 0xFF3FFFFFFFFFFFFF,
  0x60FFFFFFFFFFFFFF, 0xFEF77FFF8000007D, 0xFFFFE0000000FFFF, 0xFFFF8001FFFFFFFF, 0x00000001FFFFFFFF,
  0xFF800D1F80000000, 0x000FFFFFE007FFFF, 0xFFFE03FFFFFFE000, 0x10000000FFFFFFFF, 0xFFFFEF801FFBE000,
  0x01FEE000003FFFFF, 0xFFFFF88FFFFFE000, 0x0000A7CC5FFFFFFF, 0xCFCFC00380FFE700, 0xFFFFFFFFEFEFE00F,
  0xFFFFFFFFE07FFEFF, 0xFFFFFFFFFFFFFFFF, 0xFFFFE0000000FFFF, 0xFFFFFFFFFFFFFFFF, 0xFFFFFFFFFFFFFFFF,
  0xFFFFFFFFFFFFFFFF, 0xFFFFFFFFFFFFFFFF, 0xFFFFFFFFFFFFFFFF, 0xFFFFFFFFFFFFFFFF, 0xFFFFFFFFFFFFFFFF,
  0xFFFFFFFFFFFFFFFF, 0xFFFFFFFFFFFFFFFF, 0xFFFFFFFFFFFFFFFF, 0xFFFFFFFFFFFFFFFF, 0xFFFFFFFFFFFFFFFF,
  0xFFFFFFFFFFFFFFFF, 0xFFFFFFFFFFFFFFFF, 0xFFFFFFFFFFFFFFFF, 0xFFFFFFFFFFFFFFFF, 0xFFFFFFFFFFFFFFFF,
  0x0000000000001FFF]

/-- include/muu/impl/unicode_char32_t.h:159-554 bit table number 6 of `is_non_ascii_letter` -/
def isNonAsciiLetterTable6 : List Nat := [
  0xFFFFFFFFFFFFFFFF, 0xFFFFFFFFFFFFFFFF, 0xFFFFFFFFFFFFFFFF, 0xFFFFFFFFFFFFFFFF, 0xFFFFFFFFFFFFFFFF,
  0xFFFF3FFFFFFFFFFF, 0xFFFFFFFFFFFFFFFF, 0x0000000003FFFFFF, 0x5F7FFDFFA0F8007F, 0xFFFFFFFFFFFFFFDB,
  0x00003FFFFFFFFFFF]

/-- include/muu/impl/unicode_char32_t.h:159-554 bit table number 7 of `is_non_ascii_letter` -/
def isNonAsciiLetterTable7 : List Nat := [
  0xFFFFFFE00000000F, 0xFFFFFFFFFFFFFFFF, 0xFFFFFFFFFFFFFFFF, 0xFFFFFFFFFFFFFFFF, 0xFFFFFFFFFFFFFFFF,
  0xFFFFFFFFFFFFFFFF, 0xFFFFFFFC0000FFFF, 0xFFFFFFF3FFFFFFFF, 0x0000000003FFFFFF, 0x0000000000003FFC,
  0x0000000000000000, 0xFFFFFFFFFFFFFF7C, 0xFFFFFFFFFFFFFFFF, 0xFFF8000000007FFF, 0xFF001FFFFFF81FFF,
  0xFFFFFFFFFFFFFFFF, 0x000073F3F3F1FFFF, 0xFDFFFFFFBFFC0000, 0x0000FFFCFFFEDFFF, 0xFFFFFFFFFFFC0000,
  0xFFFFFFFFFFFFFFFF, 0x0000000000001FFF, 0x0000000000000000, 0x0000000000000000, 0x0000000000000000,
  0x0000000000000000, 0x0000000000000000, 0xFFFC7FFFFFFC0000, 0x00000007FFFFFFFF, 0x8003FFFFFFFC0000,
  0xFFFFFFFC0FF7FFFF, 0xFFFCFFFFFFFC00FF, 0x00000003FC3FFFFF, 0xFFFFFFFFFFFC0000, 0xFFFFFFFFFFFFFFFF,
  0x0000FFFFFFFFFFFF, 0xFFFFFC3FFFFFFFFC, 0x03FFFFFFFFFC3FFF, 0x003FFFFFFFFFFFFC, 0xFFEFFEDFDFFFDFFC,
  0x0000000000006FEF, 0xFFFFFFFFFFFC0000, 0xFFFFFFFFFFFFFFFF, 0xFFFFFFFFFFFFFFFF, 0xFFFFFFFFFFFFFFFF,
  0xFFFFFFFFFFFFFFFF, 0x03FC00FFFFFC01FF, 0xFFFFFFFFFEFC0000, 0x0000000000001FF7, 0xFFFFFFFFF4FC0000,
  0x00000000000006FF]

/-- include/muu/impl/unicode_char32_t.h:159-554 bit table number 8 of `is_non_ascii_letter` -/
def isNonAsciiLetterTable8 : List Nat := [
  0x07FFFFF003FFFFF9, 0x00000007FFFFFFF0, 0x037FFFF000000000, 0x3FFFFFF003FFFFF0, 0x0000000000000000,
  0x0FFFFFFFFFFFFFF0, 0x000000000000000C, 0x03FFFFFFEEF00010, 0xFFFFFFF000000000, 0x00000001FFFFFFF1,
  0x000001FFFFFFEFF0, 0x03FFFFFFFFFFFFF0, 0x007FFFF003FFFFF0, 0x00000000003FFFF0, 0x0000000000000000,
  0xFFFFFFFFFFFFFFF0, 0x0000000000001FFF, 0x007FFFFFFFFFFFF0, 0x007FFFFFFFFFFFF0, 0x000000FFFFFFFFF0,
  0x0000000000000000, 0x0000000000000000, 0x0000000000000000, 0x0000000000000000, 0x0000000000000000,
  0x00303FFFFFFFFFF0, 0x0000000000000000, 0xFFF00801FFFFFFF0, 0xFFF00000000003FF, 0xFFF000000000003F,
  0x07FFFFF0000001FF, 0x0FFFFFFFFFFFFF80, 0x0260000000000000, 0x000FFFFFFFFFFF80, 0x00001FFFFFF00000,
  0x000007FFFFFFFF80, 0x047FFFFFFFF00900, 0x007FFFFFFFFFFF80, 0x00000001400001E0, 0x0000FFFFFFBFFFF0,
  0x0000000000000018, 0xFFF01FFBFFFBD7F0, 0x00000007FFFFFFFF, 0x3EDFDFFFFF99FE00, 0x0000003E00100002,
  0x0000000000000000, 0x0000000000000000, 0x01FFFFFFFFFFFFF0, 0x0000003800007800, 0x000FFFFFFFFFFFF0,
  0x0000000000000B00]

/-- include/muu/impl/unicode_char32_t.h:159-554 bit table number 9 of `is_non_ascii_letter` -/
def isNonAsciiLetterTable9 : List Nat := [
  0x00007FFFFFFFFFFF, 0x000000000F000000, 0x0000FFFFFFFFFFFF, 0x0000000000000010, 0x010007FFFFFFFFFF,
  0x0000000000000000, 0x0000000007FFFFFF, 0x000000000000007F, 0x0000000000000000, 0x0000000000000000,
  0x00000FFFFFFFFFFF, 0x0000000000000000, 0xFFFFFFFF00000000, 0x80000000FFFFFFFF, 0x8000FFFFFF6FF27F,
  0x0000000000000002, 0xFFFFFCFF00000000, 0x0000000A0001FFFF, 0x0407FFFFFFFFF801, 0xFFFFFFFFF0010000,
  0xFFFF0000200003FF, 0x01FFFFFFFFFFFFFF, 0x0000000000000000, 0x0000000000000000, 0x0000000000000000,
  0x0000000000000000, 0x00007FFFFFFFFDFF, 0xFFFC000000000001, 0x000000000000FFFF, 0x0000000000000000,
  0x0001FFFFFFFFFB7F, 0xFFFFFDBF00000040, 0x00000000010003FF, 0x0000000000000000, 0x0000000000000000,
  0x0000000000000000, 0x0000000000000000, 0x0007FFFF00000000, 0x000FFFFFFFFDFFF4, 0x0000000000000000,
  0x0001000000000000, 0x0000000000000000, 0xFFFFFFFFFFFFFFFF, 0xFFFFFFFFFFFFFFFF, 0xFFFFFFFFFFFFFFFF,
  0xFFFFFFFFFFFFFFFF, 0xFFFFFFFFFFFFFFFF, 0x00000000001FFFFF]

/-- include/muu/impl/unicode_char32_t.h:159-554 bit table number 10 of `is_non_ascii_letter` -/
def isNonAsciiLetterTable10 : List Nat := [
  0xFFFFFFFFFFFFFFFF, 0xFFFFFFFFFFFFFFFF, 0xFFFFFFFFFFFFFFFF, 0xFFFFFFFFFFFFFFFF, 0xFFFFFFFFFFFFFFFF,
  0xFFFFFFFFFFFFFFFF, 0xFFFFFFFFFFFFFFFF, 0xFFFFFFFFFFFFFFFF, 0x01FFFFFFFFFFFFFF, 0xFFFF00007FFFFFFF,
  0x7FFFFFFFFFFFFFFF, 0x00003FFFFFFF0000, 0x0000FFFFFFFFFFFF, 0xE0FFFFF80000000F, 0x000000000000FFFF]

/-- include/muu/impl/unicode_char32_t.h:159-554 bit table number 11 of `is_non_ascii_letter` -/
def isNonAsciiLetterTable11 : List Nat := [
  0xFFFFFFFFFFFFFFFF, 0x0000000000000000, 0x0000000000000000, 0xFFFFFFFFFFFFFFFF, 0x00000000000107FF,
  0x00000000FFF80000, 0x0000000B00000000, 0xFFFFFFFFFFFFFFFF, 0xFFFFFFFFFFFFFFFF, 0xFFFFFFFFFFFFFFFF,
  0xFFFFFFFFFFFFFFFF, 0xFFFFFFFFFFFFFFFF, 0xFFFFFFFFFFFFFFFF, 0xFFFFFFFFFFFFFFFF, 0xFFFFFFFFFFFFFFFF,
  0xFFFFFFFFFFFFFFFF, 0xFFFFFFFFFFFFFFFF, 0xFFFFFFFFFFFFFFFF, 0xFFFFFFFFFFFFFFFF, 0xFFFFFFFFFFFFFFFF,
  0xFFFFFFFFFFFFFFFF, 0xFFFFFFFFFFFFFFFF, 0xFFFFFFFFFFFFFFFF, 0xFFFFFFFFFFFFFFFF, 0xFFFFFFFFFFFFFFFF,
  0xFFFFFFFFFFFFFFFF, 0xFFFFFFFFFFFFFFFF, 0xFFFFFFFFFFFFFFFF, 0xFFFFFFFFFFFFFFFF, 0xFFFFFFFFFFFFFFFF,
  0xFFFFFFFFFFFFFFFF, 0xFFFFFFFFFFFFFFFF, 0xFFFFFFFFFFFFFFFF, 0xFFFFFFFFFFFFFFFF, 0xFFFFFFFFFFFFFFFF,
  0xFFFFFFFFFFFFFFFF, 0xFFFFFFFFFFFFFFFF, 0xFFFFFFFFFFFFFFFF, 0xFFFFFFFFFFFFFFFF, 0xFFFFFFFFFFFFFFFF,
  0xFFFFFFFFFFFFFFFF, 0xFFFFFFFFFFFFFFFF, 0xFFFFFFFFFFFFFFFF, 0x0000FFFFFFFFFFFF]

/-- include/muu/impl/unicode_char32_t.h:159-554 bit table number 12 of `is_non_ascii_letter` -/
def isNonAsciiLetterTable12 : List Nat := [
  0xFFFFFFFFFFFF6FEF, 0xFFFFFFFFFFFFFFFF, 0xFFFFFFFFFFFFFFFF, 0xFFFFFFFFFFFFFFFF, 0x0007FFFFFFFFFFFF,
  0x00F0002700000004, 0xFFFFFFFFFFFFFFFF, 0xFFFFFFFFFFFFFFFF, 0xFFFFFFFFFFFFFFFF, 0xFFFFFFFFFFFFFFFF,
  0xFFFFFFFFFFFFFFFF, 0xFFFFFFFFFFFFFFFF, 0x0000000000000FFF]

/-- include/muu/impl/unicode_char32_t.h:159-554 bit table number 13 of `is_non_ascii_letter` -/
def isNonAsciiLetterTable13 : List Nat := [
  0xFFFFFFFFFFFFFFFF, 0xFFFFFFFFFFDFFFFF, 0xEBFFDE64DFFFFFFF, 0xFFFFFFFFFFFFFFEF, 0x7BFFFFFFDFDFE7BF,
  0xFFFFFFFFFFFDFC5F, 0xFFFFFFFFFFFFFFFF, 0xFFFFFFFFFFFFFFFF, 0xFFFFFFFFFFFFFFFF, 0xFFFFFFFFFFFFFFFF,
  0xFFFFFF3FFFFFFFFF, 0xF7FFFFFFF7FFFFFD, 0xFFDFFFFFFFDFFFFF, 0xFFFF7FFFFFFF7FFF, 0xFFFFFDFFFFFFFDFF,
  0x0000000000000FF7]

/-- include/muu/impl/unicode_char32_t.h:159-554 bit table number 14 of `is_non_ascii_letter` -/
def isNonAsciiLetterTable14 : List Nat := [
  0x000007E07FFFFFFF, 0x0000000000000000, 0x0000000000000000, 0x0000000000000000, 0xFFFF000000000000,
  0x00003FFFFFFFFFFF, 0x0000000000000000, 0x0000000000000000, 0x3F801FFFFFFFFFFF, 0x0000000000004000,
  0x0000000000000000, 0x0000000000000000, 0x0000000000000000, 0x0000000000000000, 0x00003FFFFFFF0000,
  0x00000FFFFFFFFFFF, 0x0000000000000000, 0x0000000000000000, 0x0000000000000000, 0x0000000000000000,
  0x0000000000000000, 0x0000000000000000, 0x0000000000000000, 0x00000FFFFFFF0000, 0x0000000000000000,
  0x0000000000000000, 0x0000000000000000, 0x0000000000000000, 0x0000000000000000, 0x0000000000000000,
  0x0000000000000000, 0x0000000000000000, 0x0000000000000000, 0x0000000000000000, 0x0000000000000000,
  0x7FFF6F7F00000000, 0xFFFFFFFFFFFFFFFF, 0xFFFFFFFFFFFFFFFF, 0xFFFFFFFFFFFFFFFF, 0x000000000000001F,
  0xFFFFFFFFFFFFFFFF, 0x000000000000080F]

/-- include/muu/impl/unicode_char32_t.h:159-554 `is_non_ascii_letter` -/
def isNonAsciiLetter : Prog :=
  .retIf (.or (.lt 0xAA) (.gt 0x323AF)) false <|
  .retIf (.bit 64 (.div (.sub 64 .c 0xAA) 0xC8D) 0x130C040000) false <|
  .retIf (.bit 64 (.div (.sub 64 .c 0xAA) 0xC8D) 0x853FFE004001DFA0) true <|
  .caseOf (.div (.sub 64 .c 0xAA) 0xC8D) 0x0 (
      .assume (.and (.ge 0xAA) (.le 0xD36)) <|
      .ret (.tbl isNonAsciiLetterTable1 (.div (.sub 64 .c 0xAA) 0x40) (.mod (.sub 64 .c 0xAA) 0x40))) <|
  .caseOf (.div (.sub 64 .c 0xAA) 0xC8D) 0x1 (
      .assume (.and (.ge 0xD37) (.le 0x19C3)) <|
      .ret (.tbl isNonAsciiLetterTable2 (.div (.sub 64 .c 0xD37) 0x40) (.mod (.sub 64 .c 0xD37) 0x40))) <|
  .caseOf (.div (.sub 64 .c 0xAA) 0xC8D) 0x2 (
      .retIf (.gt 0x2184) false <|
      .assume (.ge 0x19C4) <|
      .ret (.tbl isNonAsciiLetterTable3 (.div (.sub 64 .c 0x19C4) 0x40) (.mod (.sub 64 .c 0x19C4) 0x40))) <|
  .caseOf (.div (.sub 64 .c 0xAA) 0xC8D) 0x3 (
      .retIf (.or (.lt 0x2C00) (.gt 0x31FF)) false <|
      .ret (.tbl isNonAsciiLetterTable4 (.div (.sub 64 .c 0x2C00) 0x40) (.mod .c 0x40))) <|
  .caseOf (.div (.sub 64 .c 0xAA) 0xC8D) 0x4 (
      .ret (.ge 0x3400)) <|
  .caseOf (.div (.sub 64 .c 0xAA) 0xC8D) 0x6 (
      .ret (.or (.le 0x4DBF) (.ge 0x4E00))) <|
  .caseOf (.div (.sub 64 .c 0xAA) 0xC8D) 0xD (
      .assume (.and (.ge 0xA3D3) (.le 0xB05F)) <|
      .ret (.tbl isNonAsciiLetterTable5 (.div (.sub 64 .c 0xA3D3) 0x40) (.mod (.sub 64 .c 0xA3D3) 0x40))) <|
  .caseOf (.div (.sub 64 .c 0xAA) 0xC8D) 0x11 (
      .ret (.or (.or (.le 0xD7A3) (.and (.ge 0xD7B0) (.le 0xD7C6))) (.and (.ge 0xD7CB) (.le 0xD7FB)))) <|
  .caseOf (.div (.sub 64 .c 0xAA) 0xC8D) 0x13 (
      .retIf (.lt 0xF900) false <|
      .assume (.le 0xFBAD) <|
      .ret (.tbl isNonAsciiLetterTable6 (.div (.sub 64 .c 0xF900) 0x40) (.mod .c 0x40))) <|
  .caseOf (.div (.sub 64 .c 0xAA) 0xC8D) 0x14 (
      .retIf (.gt 0x10838) false <|
      .assume (.ge 0xFBAE) <|
      .ret (.tbl isNonAsciiLetterTable7 (.div (.sub 64 .c 0xFBAE) 0x40) (.mod (.sub 64 .c 0xFBAE) 0x40))) <|
  .caseOf (.div (.sub 64 .c 0xAA) 0xC8D) 0x15 (
      .retIf (.lt 0x1083C) false <|
      .assume (.le 0x114C7) <|
      .ret (.tbl isNonAsciiLetterTable8 (.div (.sub 64 .c 0x1083C) 0x40) (.mod (.sub 64 .c 0x1083C) 0x40))) <|
  .caseOf (.div (.sub 64 .c 0xAA) 0xC8D) 0x16 (
      .retIf (.lt 0x11580) false <|
      .assume (.le 0x12154) <|
      .ret (.tbl isNonAsciiLetterTable9 (.div (.sub 64 .c 0x11580) 0x40) (.mod .c 0x40))) <|
  .caseOf (.div (.sub 64 .c 0xAA) 0xC8D) 0x17 (
      .ret (.or (.le 0x12399) (.and (.ge 0x12480) (.le 0x12543)))) <|
  .caseOf (.div (.sub 64 .c 0xAA) 0xC8D) 0x18 (
      .ret (.or (.or (.and (.ge 0x12F90) (.le 0x12FF0)) (.and (.ge 0x13000) (.le 0x1342F))) (.and (.ge 0x13441) (.le 0x13446)))) <|
  .caseOf (.div (.sub 64 .c 0xAA) 0xC8D) 0x19 (
      .ret (.and (.ge 0x14400) (.le 0x14646))) <|
  .caseOf (.div (.sub 64 .c 0xAA) 0xC8D) 0x1C (
      .retIf (.or (.lt 0x16800) (.gt 0x16B8F)) false <|
      .ret (.tbl isNonAsciiLetterTable10 (.div (.sub 64 .c 0x16800) 0x40) (.mod .c 0x40))) <|
  .caseOf (.div (.sub 64 .c 0xAA) 0xC8D) 0x1D (
      .retIf (.lt 0x16E40) false <|
      .assume (.le 0x1792F) <|
      .ret (.tbl isNonAsciiLetterTable11 (.div (.sub 64 .c 0x16E40) 0x40) (.mod .c 0x40))) <|
  .caseOf (.div (.sub 64 .c 0xAA) 0xC8D) 0x1F (
      .ret (.or (.or (.le 0x187F7) (.and (.ge 0x18800) (.le 0x18CD5))) (.and (.ge 0x18D00) (.le 0x18D08)))) <|
  .caseOf (.div (.sub 64 .c 0xAA) 0xC8D) 0x22 (
      .retIf (.or (.lt 0x1AFF0) (.gt 0x1B2FB)) false <|
      .ret (.tbl isNonAsciiLetterTable12 (.div (.sub 64 .c 0x1AFF0) 0x40) (.mod (.sub 64 .c 0x1AFF0) 0x40))) <|
  .caseOf (.div (.sub 64 .c 0xAA) 0xC8D) 0x23 (
      .retIf (.or (.lt 0x1BC00) (.gt 0x1BC99)) false <|
      .caseOf (.div (.sub 64 .c 0x1BC00) 0x40) 0x1 (
          .ret (.and (.le 0x1BC7C) (.bit 64 (.sub 64 .c 0x1BC40) 0x1FFF07FFFFFFFFFF))) <|
      .caseOf (.div (.sub 64 .c 0x1BC00) 0x40) 0x2 (
          .ret (.bit 32 (.sub 32 .c 0x1BC80) 0x3FF01FF)) <|
      .ret (.lit true)) <|
  .caseOf (.div (.sub 64 .c 0xAA) 0xC8D) 0x25 (
      .retIf (.or (.lt 0x1D400) (.gt 0x1D7CB)) false <|
      .ret (.tbl isNonAsciiLetterTable13 (.div (.sub 64 .c 0x1D400) 0x40) (.mod .c 0x40))) <|
  .caseOf (.div (.sub 64 .c 0xAA) 0xC8D) 0x26 (
      .retIf (.or (.lt 0x1DF00) (.gt 0x1E94B)) false <|
      .ret (.tbl isNonAsciiLetterTable14 (.div (.sub 64 .c 0x1DF00) 0x40) (.mod .c 0x40))) <|
  .caseOf (.div (.sub 64 .c 0xAA) 0xC8D) 0x27 (
      .retIf (.or (.lt 0x1EE00) (.gt 0x1EEBB)) false <|
      .caseOf (.div (.sub 64 .c 0x1EE00) 0x40) 0x0 (
          .ret (.and (.le 0x1EE3B) (.bit 64 (.sub 64 .c 0x1EE00) 0xAF7FE96FFFFFFEF))) <|
      .caseOf (.div (.sub 64 .c 0x1EE00) 0x40) 0x1 (
          .ret (.and (.and (.ge 0x1EE42) (.le 0x1EE7E)) (.bit 64 (.sub 64 .c 0x1EE42) 0x17BDFDE5AAA5BAA1))) <|
      .caseOf (.div (.sub 64 .c 0x1EE00) 0x40) 0x2 (
          .ret (.bit 64 (.sub 64 .c 0x1EE80) 0xFFFFBEE0FFFFBFF)) <|
      .unreachable) <|
  .caseOf (.div (.sub 64 .c 0xAA) 0xC8D) 0x28 (
      .ret (.ge 0x20000)) <|
  .caseOf (.div (.sub 64 .c 0xAA) 0xC8D) 0x36 (
      .ret (.or (.le 0x2A6DF) (.ge 0x2A700))) <|
  .caseOf (.div (.sub 64 .c 0xAA) 0xC8D) 0x37 (
      .ret (.or (.or (.le 0x2B739) (.and (.ge 0x2B740) (.le 0x2B81D))) (.ge 0x2B820))) <|
  .caseOf (.div (.sub 64 .c 0xAA) 0xC8D) 0x39 (
      .ret (.or (.le 0x2CEA1) (.ge 0x2CEB0))) <|
  .caseOf (.div (.sub 64 .c 0xAA) 0xC8D) 0x3B (
      .ret (.le 0x2EBE0)) <|
  .caseOf (.div (.sub 64 .c 0xAA) 0xC8D) 0x3C (
      .ret (.and (.ge 0x2F800) (.le 0x2FA1D))) <|
  .caseOf (.div (.sub 64 .c 0xAA) 0xC8D) 0x3D (
      .ret (.ge 0x30000)) <|
  .caseOf (.div (.sub 64 .c 0xAA) 0xC8D) 0x3E (
      .ret (.or (.le 0x3134A) (.ge 0x31350))) <|
  .unreachable

/-- include/muu/impl/unicode_char32_t.h:563-722 bit table number 1 of `is_non_ascii_lowercase` -/
def isNonAsciiLowercaseTable1 : List Nat := [
  0xFFE0000000010801, 0xAAAAAAAAAABFDFFF, 0xAAAAAAAAD5556AAA, 0x4A93890C4A752AAA, 0xAAAD55549039944B,
  0xAAAAAAAAAAAA8A6A, 0xFFFFFFEAA164FEAA, 0xFFFFFBFFFFFFFFFF, 0x07C0000000C07FFF, 0x0000000000000000,
  0x0000000008000000, 0x00000040000F2280, 0xAAAAB8DFFFFFFFFC, 0x0000000000064BEA, 0xAABFFFFFFFFFFFC0,
  0x02AAAAAA00AAAAAA]

/-- include/muu/impl/unicode_char32_t.h:563-722 bit table number 2 of `is_non_ascii_lowercase` -/
def isNonAsciiLowercaseTable2 : List Nat := [
  0x0000000000000003, 0xFE00000000000000, 0xFFFFFFFFFFFFFFFF, 0xFFFFFFFFFFFFFFFF, 0x01FFFFFFFFFFFFFF,
  0x5400000000000000, 0x5555555555555555, 0x5555555555555555, 0x55555555557FD555, 0xFF55555555555555,
  0x7E01FE01FE007E01, 0xFE7FFE01FE01FE00, 0xB881BE01FE01FE01, 0x0001B801FE019E01, 0x0000000000000000,
  0x0100040000000000]

/-- include/muu/impl/unicode_char32_t.h:563-722 bit table number 3 of `is_non_ascii_lowercase` -/
def isNonAsciiLowercaseTable3 : List Nat := [
  0x0000155555555555, 0x000000001D555555, 0x0000000000000000, 0x5555D55400000000, 0x4AFFD55555555555,
  0x55504155555D2855, 0x0000000000550285]

/-- include/muu/impl/unicode_char32_t.h:563-722 bit table number 4 of `is_non_ascii_lowercase` -/
def isNonAsciiLowercaseTable4 : List Nat := [
  0x00000003AE000001, 0x0000000000000000, 0x0000000000000000, 0x0000000000000000, 0x0000000000000000,
  0x0000000000000000, 0x0000000000000000, 0x0000000000000000, 0x0000000000000000, 0x0000000000000000,
  0x0000000000000000, 0x0000000000000000, 0x0000000000000000, 0xFFFFFFFFFF800000, 0xFFFFFFFFFF81FFFB,
  0x0000007FFFFFFFFF]

/-- include/muu/impl/unicode_char32_t.h:563-722 `is_non_ascii_lowercase` -/
def isNonAsciiLowercase : Prog :=
  .retIf (.or (.lt 0xAA) (.gt 0xFF5A)) false <|
  .retIf (.bit 64 (.div (.sub 64 .c 0xAA) 0x3FB) 0x3FFFF9FFFFFFF02C) false <|
  .caseOf (.div (.sub 64 .c 0xAA) 0x3FB) 0x0 (
      .retIf (.gt 0x4A3) false <|
      .assume (.ge 0xAA) <|
      .ret (.tbl isNonAsciiLowercaseTable1 (.div (.sub 64 .c 0xAA) 0x40) (.mod (.sub 64 .c 0xAA) 0x40))) <|
  .caseOf (.div (.sub 64 .c 0xAA) 0x3FB) 0x1 (
      .retIf (.gt 0x588) false <|
      .assume (.ge 0x4A5) <|
      .caseOf (.div (.sub 64 .c 0x4A5) 0x40) 0x0 (
          .ret (.and (.le 0x4E3) (.bit 64 (.sub 64 .c 0x4A5) 0x555556AAA5555555))) <|
      .caseOf (.div (.sub 64 .c 0x4A5) 0x40) 0x1 (
          .ret (.and (.le 0x523) (.eqE (.mod (.add 32 .c 0x1) 0x2) 0x0))) <|
      .caseOf (.div (.sub 64 .c 0x4A5) 0x40) 0x2 (
          .ret (.bit 64 (.sub 64 .c 0x525) 0xF800000000000555)) <|
      .ret (.lit true)) <|
  .caseOf (.div (.sub 64 .c 0xAA) 0x3FB) 0x4 (
      .ret (.or (.or (.and (.ge 0x10D0) (.le 0x10FA)) (.and (.ge 0x10FC) (.le 0x10FF))) (.and (.ge 0x13F8) (.le 0x13FD)))) <|
  .caseOf (.div (.sub 64 .c 0xAA) 0x3FB) 0x6 (
      .ret (.ge 0x1C80)) <|
  .caseOf (.div (.sub 64 .c 0xAA) 0x3FB) 0x7 (
      .retIf (.gt 0x207F) false <|
      .assume (.ge 0x1C87) <|
      .ret (.tbl isNonAsciiLowercaseTable2 (.div (.sub 64 .c 0x1C87) 0x40) (.mod (.sub 64 .c 0x1C87) 0x40))) <|
  .caseOf (.div (.sub 64 .c 0xAA) 0x3FB) 0x8 (
      .retIf (.or (.lt 0x2090) (.gt 0x2184)) false <|
      .caseOf (.div (.sub 64 .c 0x2090) 0x40) 0x0 (
          .ret (.le 0x209C)) <|
      .caseOf (.div (.sub 64 .c 0x2090) 0x40) 0x1 (
          .ret (.and (.ge 0x210A) (.bit 32 (.sub 32 .c 0x210A) 0x31))) <|
      .caseOf (.div (.sub 64 .c 0x2090) 0x40) 0x2 (
          .ret (.and (.and (.ge 0x2113) (.le 0x214E)) (.bit 64 (.sub 64 .c 0x2113) 0x878064210000001))) <|
      .caseOf (.div (.sub 64 .c 0x2090) 0x40) 0x3 (
          .ret (.or (.and (.ge 0x2170) (.le 0x217F)) (.eq 0x2184))) <|
      .unreachable) <|
  .caseOf (.div (.sub 64 .c 0xAA) 0x3FB) 0x9 (
      .ret (.and (.ge 0x24D0) (.le 0x24E9))) <|
  .caseOf (.div (.sub 64 .c 0xAA) 0x3FB) 0xA (
      .retIf (.or (.lt 0x2C30) (.gt 0x2C71)) false <|
      .ret (.or (.eq 0x2C71) (.and (.le 0x2C6C) (.bit 64 (.sub 64 .c 0x2C30) 0x1562FFFFFFFFFFFF)))) <|
  .caseOf (.div (.sub 64 .c 0xAA) 0x3FB) 0xB (
      .retIf (.gt 0x2D2D) false <|
      .assume (.ge 0x2C73) <|
      .caseOf (.div (.sub 64 .c 0x2C73) 0x40) 0x0 (
          .ret (.and (.le 0x2CB1) (.bit 64 (.sub 64 .c 0x2C73) 0x55555555555547FB))) <|
      .caseOf (.div (.sub 64 .c 0x2C73) 0x40) 0x1 (
          .ret (.and (.le 0x2CEE) (.bit 64 (.sub 64 .c 0x2CB3) 0xA03555555555555))) <|
      .caseOf (.div (.sub 64 .c 0x2C73) 0x40) 0x2 (
          .ret (.or (.or (.or (.and (.ge 0x2D00) (.le 0x2D25)) (.eq 0x2CF3)) (.eq 0x2D27)) (.eq 0x2D2D))) <|
      .unreachable) <|
  .caseOf (.div (.sub 64 .c 0xAA) 0x3FB) 0x29 (
      .retIf (.lt 0xA641) false <|
      .assume (.le 0xA7D7) <|
      .ret (.tbl isNonAsciiLowercaseTable3 (.div (.sub 64 .c 0xA641) 0x40) (.mod (.sub 64 .c 0xA641) 0x40))) <|
  .caseOf (.div (.sub 64 .c 0xAA) 0x3FB) 0x2A (
      .retIf (.or (.lt 0xA7D9) (.gt 0xABBF)) false <|
      .ret (.tbl isNonAsciiLowercaseTable4 (.div (.sub 64 .c 0xA7D9) 0x40) (.mod (.sub 64 .c 0xA7D9) 0x40))) <|
  .caseOf (.div (.sub 64 .c 0xAA) 0x3FB) 0x3E (
      .ret (.and (.and (.ge 0xFB00) (.le 0xFB17)) (.bit 32 (.sub 32 .c 0xFB00) 0xF8007F))) <|
  .caseOf (.div (.sub 64 .c 0xAA) 0x3FB) 0x3F (
      .ret (.ge 0xFF41)) <|
  .unreachable

/-- include/muu/impl/unicode_char32_t.h:731-899 bit table number 1 of `is_non_ascii_number` -/
def isNonAsciiNumberTable1 : List Nat := [
  0x00000000000003FF, 0x0000000000000000, 0x0000000003FF0000, 0x0000000000000000, 0x0000000000000000,
  0x000003FF00000000, 0x0000000000000000, 0x0000000000000000, 0x0000000000000000, 0x0000000000000000,
  0x0000000000000000, 0x0000000000000000, 0x000000000000FFC0, 0x0000000000000000, 0x000000000000FFC0,
  0x0000000000000000, 0x000000000000FFC0, 0x0000000000000000, 0x000000000000FFC0, 0x0000000000000000,
  0x000000000000FFC0, 0x0000000000000000, 0x000000000000FFC0, 0x0000000000000000, 0x000000000000FFC0,
  0x0000000000000000, 0x000000000000FFC0, 0x0000000000000000, 0x000000000000FFC0, 0x0000000000000000,
  0x000000000000FFC0]

/-- include/muu/impl/unicode_char32_t.h:731-899 bit table number 2 of `is_non_ascii_number` -/
def isNonAsciiNumberTable2 : List Nat := [
  0x00000000000003FF, 0x0000000000000000, 0x00000000000003FF, 0x0000000003FF0000, 0x0000000000000000,
  0x0000000000000000, 0x0000000000000000, 0x03FF000000000000, 0x0000000000000000, 0x00000000000003FF]

/-- include/muu/impl/unicode_char32_t.h:731-899 bit table number 3 of `is_non_ascii_number` -/
def isNonAsciiNumberTable3 : List Nat := [
  0x0000000000000007, 0x0000000000000000, 0x0000000000000000, 0x0FFC000000000000, 0x00000FFC00000000,
  0x0000000000000000, 0x0000000000000000, 0x0000000000000000, 0x0000000000000000, 0x00000003FF000000,
  0x0000000000000000, 0x00000FFC00000000, 0x0000000000000000, 0x0000000000000000, 0x00000FFC0FFC0000,
  0x0000000000000000, 0x0000000000000000, 0x00000FFC00000000, 0x0000000000000000, 0x0000000000000FFC,
  0x0000000000000000, 0x00000FFC0FFC0000]

/-- include/muu/impl/unicode_char32_t.h:731-899 bit table number 4 of `is_non_ascii_number` -/
def isNonAsciiNumberTable4 : List Nat := [
  0x00000000000003FF, 0x0000000000000000, 0x0000000000000000, 0x000000000000FFC0, 0x0000000000000000,
  0x0000000000000000, 0x0000000000000000, 0x0000000000000000, 0x0000000000000000, 0x0000000000000000,
  0x03FF000000000000, 0x000003FF00000000, 0x0000000000000000, 0x0000000000000000, 0x03FF000000000000,
  0x0000000003FF0000, 0x03FF000000000000]

/-- include/muu/impl/unicode_char32_t.h:731-899 bit table number 5 of `is_non_ascii_number` -/
def isNonAsciiNumberTable5 : List Nat := [
  0x001FFFFFFFFFFFFF, 0x0000000000000000, 0x0000000000000000, 0x0000000000000000, 0x0000000000000000,
  0x0000000000000000, 0x0000000000000000, 0x0000000000000000, 0x0000000000000402, 0x0000000000000000,
  0x00000000003E0000, 0x0000000000000000, 0x0000000000000000, 0x000003FF00000000]

/-- include/muu/impl/unicode_char32_t.h:731-899 bit table number 6 of `is_non_ascii_number` -/
def isNonAsciiNumberTable6 : List Nat := [
  0x00000000000003FF, 0x000000000000FFC0, 0x0000000000000000, 0x000003FF00000000, 0x0000000000000000,
  0x0000000000000000, 0x0000000000000000, 0x0000000000000000, 0x00000000000003FF, 0x0000000000000000,
  0x0000000000000000, 0x0000000000000000, 0x0000000000000000, 0x000003FF00000000, 0x0000000000000000,
  0x000003FF00000000, 0x0000000000000000, 0x0000000000000000, 0x0000000000000000, 0x0000000000000000,
  0x0000000000000000, 0x000003FF00000000, 0x0000000000000000, 0x0000000003FF0000, 0x0000000000000000,
  0x00000000000003FF]

/-- include/muu/impl/unicode_char32_t.h:731-899 bit table number 7 of `is_non_ascii_number` -/
def isNonAsciiNumberTable7 : List Nat := [
  0x00000000000003FF, 0x03FF000000000000, 0x0000000000000000, 0x0000000000000000, 0x0000000000000000,
  0x0000000000000000, 0x0000000000000000, 0x0000000000000000, 0x0000000000000000, 0x0000000000000000,
  0x0000000000000000, 0x0000000000000000, 0x0000000000000000, 0x03FF000000000000, 0x0000000000000000,
  0x0000000000000000, 0x0000000000000000, 0x03FF000000000000, 0x0000000000000000, 0x00000000000003FF,
  0x0000000000000000, 0x0000000000000000, 0x0000000000000000, 0x0000000000000000, 0x0000000000000000,
  0x03FF000000000000]

/-- include/muu/impl/unicode_char32_t.h:731-899 `is_non_ascii_number` -/
def isNonAsciiNumber : Prog :=
  .retIf (.or (.lt 0x660) (.gt 0x1FBF9)) false <|
  .retIf (.bit 64 (.div (.sub 64 .c 0x660) 0x7D7) 0x47FFDFE07FCFFFD0) false <|
  .caseOf (.div (.sub 64 .c 0x660) 0x7D7) 0x0 (
      .retIf (.gt 0xDEF) false <|
      .assume (.ge 0x660) <|
      .ret (.tbl isNonAsciiNumberTable1 (.div (.sub 64 .c 0x660) 0x40) (.mod (.sub 64 .c 0x660) 0x40))) <|
  .caseOf (.div (.sub 64 .c 0x660) 0x7D7) 0x1 (
      .retIf (.or (.lt 0xE50) (.gt 0x1099)) false <|
      .ret (.tbl isNonAsciiNumberTable2 (.div (.sub 64 .c 0xE50) 0x40) (.mod (.sub 64 .c 0xE50) 0x40))) <|
  .caseOf (.div (.sub 64 .c 0x660) 0x7D7) 0x2 (
      .retIf (.or (.lt 0x16EE) (.gt 0x1C59)) false <|
      .ret (.tbl isNonAsciiNumberTable3 (.div (.sub 64 .c 0x16EE) 0x40) (.mod (.sub 64 .c 0x16EE) 0x40))) <|
  .caseOf (.div (.sub 64 .c 0x660) 0x7D7) 0x3 (
      .ret (.and (.and (.ge 0x2160) (.le 0x2188)) (.bit 64 (.sub 64 .c 0x2160) 0x1E7FFFFFFFF))) <|
  .caseOf (.div (.sub 64 .c 0x660) 0x7D7) 0x5 (
      .ret (.and (.and (.ge 0x3007) (.le 0x303A)) (.bit 64 (.sub 64 .c 0x3007) 0xE0007FC000001))) <|
  .caseOf (.div (.sub 64 .c 0x660) 0x7D7) 0x14 (
      .retIf (.or (.lt 0xA620) (.gt 0xAA59)) false <|
      .ret (.tbl isNonAsciiNumberTable4 (.div (.sub 64 .c 0xA620) 0x40) (.mod (.sub 64 .c 0xA620) 0x40))) <|
  .caseOf (.div (.sub 64 .c 0x660) 0x7D7) 0x15 (
      .ret (.and (.ge 0xABF0) (.le 0xABF9))) <|
  .caseOf (.div (.sub 64 .c 0x660) 0x7D7) 0x1F (
      .ret (.and (.ge 0xFF10) (.le 0xFF19))) <|
  .caseOf (.div (.sub 64 .c 0x660) 0x7D7) 0x20 (
      .retIf (.gt 0x104A9) false <|
      .assume (.ge 0x10140) <|
      .ret (.tbl isNonAsciiNumberTable5 (.div (.sub 64 .c 0x10140) 0x40) (.mod .c 0x40))) <|
  .caseOf (.div (.sub 64 .c 0x660) 0x7D7) 0x21 (
      .ret (.or (.and (.ge 0x10D30) (.le 0x10D39)) (.and (.ge 0x11066) (.le 0x1106F)))) <|
  .caseOf (.div (.sub 64 .c 0x660) 0x7D7) 0x22 (
      .retIf (.or (.lt 0x110F0) (.gt 0x11739)) false <|
      .ret (.tbl isNonAsciiNumberTable6 (.div (.sub 64 .c 0x110F0) 0x40) (.mod (.sub 64 .c 0x110F0) 0x40))) <|
  .caseOf (.div (.sub 64 .c 0x660) 0x7D7) 0x23 (
      .retIf (.or (.lt 0x118E0) (.gt 0x11F59)) false <|
      .ret (.tbl isNonAsciiNumberTable7 (.div (.sub 64 .c 0x118E0) 0x40) (.mod (.sub 64 .c 0x118E0) 0x40))) <|
  .caseOf (.div (.sub 64 .c 0x660) 0x7D7) 0x24 (
      .ret (.and (.ge 0x12400) (.le 0x1246E))) <|
  .caseOf (.div (.sub 64 .c 0x660) 0x7D7) 0x2D (
      .ret (.or (.or (.and (.ge 0x16A60) (.le 0x16A69)) (.and (.ge 0x16AC0) (.le 0x16AC9))) (.and (.ge 0x16B50) (.le 0x16B59)))) <|
  .caseOf (.div (.sub 64 .c 0x660) 0x7D7) 0x3B (
      .ret (.and (.ge 0x1D7CE) (.le 0x1D7FF))) <|
  .caseOf (.div (.sub 64 .c 0x660) 0x7D7) 0x3C (
      .ret (.or (.and (.ge 0x1E140) (.le 0x1E149)) (.and (.ge 0x1E2F0) (.le 0x1E2F9)))) <|
  .caseOf (.div (.sub 64 .c 0x660) 0x7D7) 0x3D (
      .ret (.or (.and (.ge 0x1E4F0) (.le 0x1E4F9)) (.and (.ge 0x1E950) (.le 0x1E959)))) <|
  .caseOf (.div (.sub 64 .c 0x660) 0x7D7) 0x3F (
      .ret (.ge 0x1FBF0)) <|
  .unreachable

/-- include/muu/impl/unicode_char32_t.h:908-1071 bit table number 1 of `is_non_ascii_uppercase` -/
def isNonAsciiUppercaseTable1 : List Nat := [
  0x000000007F7FFFFF, 0xAA55555555555555, 0x2B555555555554AA, 0x11AED2D5B1DBCED6, 0x55D255554AAAA490,
  0x6C05555555555555, 0x000000000000557A, 0x0000000000000000, 0x0000000000000000, 0x0000000000000000,
  0x8045000000000000, 0x00000FFBFFFED740, 0xE6905555551C8000, 0x0000FFFFFFFFFFFF, 0x5555555500000000,
  0x0155555555555401]

/-- include/muu/impl/unicode_char32_t.h:908-1071 bit table number 2 of `is_non_ascii_uppercase` -/
def isNonAsciiUppercaseTable2 : List Nat := [
  0x00000020BFFFFFFF, 0x0000000000000000, 0x0000000000000000, 0x0000000000000000, 0x0000000000000000,
  0x0000000000000000, 0x0000000000000000, 0x0000000000000000, 0x0000000000000000, 0x0000000000000000,
  0x0000000000000000, 0xFF00000000000000, 0xFFFFFFFFFFFFFFFF, 0x0000000000003FFF]

/-- include/muu/impl/unicode_char32_t.h:908-1071 bit table number 3 of `is_non_ascii_uppercase` -/
def isNonAsciiUppercaseTable3 : List Nat := [
  0x0000039FFFFFFFFF, 0x0000000000000000, 0x0000000000000000, 0x0000000000000000, 0x0000000000000000,
  0x5555540000000000, 0x5555555555555555, 0x5555555555555555, 0x5555555555555500, 0x03FC015555555555,
  0x00FC03FC03FC00FC, 0x0000000003FC02A8, 0x003C003C00000000, 0x0000003C007C003C]

/-- include/muu/impl/unicode_char32_t.h:908-1071 bit table number 4 of `is_non_ascii_uppercase` -/
def isNonAsciiUppercaseTable4 : List Nat := [
  0x0000155555555555, 0x0000000005555555, 0x0000000000000000, 0x5554555400000000, 0x6A00555555555555,
  0x555F7D5555452855, 0x0000000000000005]

/-- include/muu/impl/unicode_char32_t.h:908-1071 `is_non_ascii_uppercase` -/
def isNonAsciiUppercase : Prog :=
  .retIf (.or (.lt 0xC0) (.gt 0xFF3A)) false <|
  .retIf (.bit 64 (.div (.sub 64 .c 0xC0) 0x3FA) 0x7FFFF9FFFFFFF024) false <|
  .caseOf (.div (.sub 64 .c 0xC0) 0x3FA) 0x0 (
      .retIf (.gt 0x4B8) false <|
      .assume (.ge 0xC0) <|
      .ret (.tbl isNonAsciiUppercaseTable1 (.div (.sub 64 .c 0xC0) 0x40) (.mod .c 0x40))) <|
  .caseOf (.div (.sub 64 .c 0xC0) 0x3FA) 0x1 (
      .retIf (.gt 0x556) false <|
      .assume (.ge 0x4BA) <|
      .caseOf (.div (.sub 64 .c 0x4BA) 0x40) 0x0 (
          .ret (.and (.le 0x4F8) (.bit 64 (.sub 64 .c 0x4BA) 0x55555555554AAAD5))) <|
      .caseOf (.div (.sub 64 .c 0x4BA) 0x40) 0x1 (
          .ret (.bit 64 (.sub 64 .c 0x4FA) 0xFF95555555555555)) <|
      .ret (.lit true)) <|
  .caseOf (.div (.sub 64 .c 0xC0) 0x3FA) 0x3 (
      .ret (.ge 0x10A0)) <|
  .caseOf (.div (.sub 64 .c 0xC0) 0x3FA) 0x4 (
      .retIf (.gt 0x13F5) false <|
      .assume (.ge 0x10A8) <|
      .ret (.tbl isNonAsciiUppercaseTable2 (.div (.sub 64 .c 0x10A8) 0x40) (.mod (.sub 64 .c 0x10A8) 0x40))) <|
  .caseOf (.div (.sub 64 .c 0xC0) 0x3FA) 0x6 (
      .ret (.ge 0x1C90)) <|
  .caseOf (.div (.sub 64 .c 0xC0) 0x3FA) 0x7 (
      .retIf (.gt 0x1FFB) false <|
      .assume (.ge 0x1C96) <|
      .ret (.tbl isNonAsciiUppercaseTable3 (.div (.sub 64 .c 0x1C96) 0x40) (.mod (.sub 64 .c 0x1C96) 0x40))) <|
  .caseOf (.div (.sub 64 .c 0xC0) 0x3FA) 0x8 (
      .retIf (.or (.lt 0x2102) (.gt 0x2183)) false <|
      .retIf (.eq 0x2183) true <|
      .caseOf (.div (.sub 64 .c 0x2102) 0x40) 0x0 (
          .ret (.and (.le 0x213F) (.bit 64 (.sub 64 .c 0x2102) 0x3003CF540F89CE21))) <|
      .caseOf (.div (.sub 64 .c 0x2102) 0x40) 0x1 (
          .ret (.and (.and (.ge 0x2145) (.le 0x216F)) (.bit 64 (.sub 64 .c 0x2145) 0x7FFF8000001))) <|
      .unreachable) <|
  .caseOf (.div (.sub 64 .c 0xC0) 0x3FA) 0x9 (
      .ret (.and (.ge 0x24B6) (.le 0x24CF))) <|
  .caseOf (.div (.sub 64 .c 0xC0) 0x3FA) 0xA (
      .retIf (.or (.lt 0x2C00) (.gt 0x2C75)) false <|
      .caseOf (.div (.sub 64 .c 0x2C00) 0x40) 0x0 (
          .ret (.le 0x2C2F)) <|
      .caseOf (.div (.sub 64 .c 0x2C00) 0x40) 0x1 (
          .ret (.and (.ge 0x2C60) (.bit 32 (.sub 32 .c 0x2C60) 0x25EA9D))) <|
      .unreachable) <|
  .caseOf (.div (.sub 64 .c 0xC0) 0x3FA) 0xB (
      .retIf (.gt 0x2CF2) false <|
      .assume (.ge 0x2C7E) <|
      .caseOf (.div (.sub 64 .c 0x2C7E) 0x40) 0x0 (
          .ret (.and (.le 0x2CBC) (.bit 64 (.sub 64 .c 0x2C7E) 0x5555555555555557))) <|
      .caseOf (.div (.sub 64 .c 0x2C7E) 0x40) 0x1 (
          .ret (.bit 64 (.sub 64 .c 0x2CBE) 0x10A01555555555)) <|
      .unreachable) <|
  .caseOf (.div (.sub 64 .c 0xC0) 0x3FA) 0x29 (
      .retIf (.or (.lt 0xA640) (.gt 0xA7C2)) false <|
      .ret (.tbl isNonAsciiUppercaseTable4 (.div (.sub 64 .c 0xA640) 0x40) (.mod .c 0x40))) <|
  .caseOf (.div (.sub 64 .c 0xC0) 0x3FA) 0x2A (
      .ret (.and (.le 0xA7F5) (.bit 64 (.sub 64 .c 0xA7C4) 0x200000014102F))) <|
  .caseOf (.div (.sub 64 .c 0xC0) 0x3FA) 0x3F (
      .ret (.ge 0xFF21)) <|
  .unreachable

/-- include/muu/impl/unicode_char32_t.h:1080-1109 `is_non_ascii_whitespace` -/
def isNonAsciiWhitespace : Prog :=
  .retIf (.or (.lt 0x85) (.gt 0x3000)) false <|
  .retIf (.bit 64 (.div (.sub 64 .c 0x85) 0xBE) 0x7FFFFBFFDFFFFFFE) false <|
  .retIf (.or (.eq 0x1680) (.eq 0x3000)) true <|
  .caseOf (.div (.sub 64 .c 0x85) 0xBE) 0x0 (
      .ret (.or (.eq 0x85) (.eq 0xA0))) <|
  .caseOf (.div (.sub 64 .c 0x85) 0xBE) 0x2A (
      .retIf (.or (.lt 0x2000) (.gt 0x205F)) false <|
      .ret (.or (.eq 0x205F) (.and (.le 0x202F) (.bit 64 (.sub 64 .c 0x2000) 0x8300000007FF)))) <|
  .unreachable

/-- include/muu/impl/unicode_char32_t.h:1118-1121 `is_not_code_point` -/
def isNotCodePoint : Prog :=
  .ret (.gt 0x10FFFF)

/-- include/muu/impl/unicode_char32_t.h:1202-1205 `is_code_point` -/
def isCodePoint : Prog :=
  .ret (.le 0x10FFFF)

/-- include/muu/impl/unicode_char32_t.h:1214-1217 `is_code_point_boundary` -/
def isCodePointBoundary : Prog :=
  .ret (.le 0x10FFFF)

/-- include/muu/impl/unicode_char32_t.h:1226-1474 bit table number 1 of `is_combining_mark` -/
def isCombiningMarkTable1 : List Nat := [
  0xFFFFFFFFFFFFFFFF, 0x0000FFFFFFFFFFFF, 0x0000000000000000, 0x0000000000000000, 0x0000000000000000,
  0x0000000000000000, 0x00000000000000F8, 0x0000000000000000, 0x0000000000000000, 0x0000000000000000,
  0xBFFFFFFFFFFE0000, 0x00000000000000B6, 0x0000000007FF0000, 0x00010000FFFFF800, 0x0000000000000000,
  0x00003D9F9FC00000, 0xFFFF000000020000, 0x00000000000007FF, 0x0001FFC000000000, 0x200FF80000000000,
  0x00003EEFFBC00000, 0x000000000E000000, 0x00000000FF000000, 0xFFFFFFFBFFFFFC00, 0xDC0000000000000F,
  0x0000000C00FEFFFF, 0xD00000000000000E, 0x4000000C0080399F, 0xD00000000000000E, 0x0023000000023987,
  0xD00000000000000E, 0xFC00000C00003BBF, 0xD00000000000000E, 0x0000000C00E0399F, 0xC000000000000004,
  0x0000000000803DC7, 0xD00000000000001F, 0x0000000C00603DDF, 0xD00000000000000E, 0x0008000C00603DDF,
  0xD80000000000000F, 0x0000000C00803DDF, 0x000000000000000E, 0x000C0000FF5F8400, 0x07F2000000000000,
  0x0000000000007F80, 0x1FF2000000000000, 0x0000000000007F00, 0xC2A0000003000000, 0xFFFE000000000000,
  0x1FFFFFFFFEFFE0DF, 0x0000000000000040, 0x7FFFF80000000000, 0x001E3F9DC3C00000, 0x000000003C00BFFC,
  0x0000000000000000, 0x0000000000000000, 0x0000000000000000, 0x0000000000000000, 0x0000000000000000,
  0x0000000000000000, 0x0000000000000000, 0x0000000000000000, 0x0000000000000000, 0x0000000000000000,
  0x00000000E0000000, 0x0000000000000000, 0x0000000000000000, 0x0000000000000000, 0x0000000000000000,
  0x0000000000000000, 0x0000000000000000, 0x0000000000000000, 0x0000000000000000, 0x0000000000000000,
  0x0000000000000000, 0x0000000000000000, 0x0000000000000000, 0x0000000000000000, 0x0000000000000000,
  0x001C0000003C0000, 0x000C0000000C0000, 0xFFF0000000000000, 0x00000000200FFFFF, 0x000000000000B800,
  0x0000000000000000, 0x0000020000000060, 0x0000000000000000, 0x0FFF0FFF00000000, 0x0000000000000000,
  0x0000000000000000, 0x0000000000000000, 0x000000000F800000, 0x9FFFFFFF7FE00000, 0xBFFF000000000000,
  0x0000000000007FFF, 0xFFF000000000001F, 0x000FF8000000001F, 0x00003FFE00000007, 0x000FFFC000000000,
  0x00FFFFF000000000, 0x0000000000000000, 0x0000000000000000, 0x039021FFFFF70000, 0x0000000000000000,
  0x0000000000000000, 0x0000000000000000, 0xFFFFFFFFFFFFFFFF, 0x0000000000000000, 0x0000000000000000,
  0x0000000000000000, 0x0000000000000000, 0x0000000000000000, 0x0000000000000000, 0x0000000000000000,
  0x0000000000000000, 0x0000000000000000, 0x0000000000000000, 0x0000000000000000, 0x0001FFE21FFF0000,
  0x0000000000000000, 0x0000000000000000, 0x0000000000000000, 0x0000000000000000, 0x0000000000000000,
  0x0000000000000000, 0x0000000000000000, 0x0000000000000000, 0x0000000000000000, 0x0000000000000000,
  0x0000000000000000, 0x0000000000000000, 0x0000000000000000, 0x0000000000000000, 0x0000000000000000,
  0x0000000000000000, 0x0000000000000000, 0x0000000000000000, 0x0000000000000000, 0x0000000000000000,
  0x0000000000000000, 0x0000000000000000, 0x0000000000000000, 0x0000000000000000, 0x0000000000000000,
  0x0000000000000000, 0x0000000000000000, 0x0000000000000000, 0x0000000000000000, 0x0000000000000000,
  0x0000000000000000, 0x0000000000000000, 0x0000000000000000, 0x0000000000000000, 0x0000000000000000,
  0x0000000000000000, 0x0000000000000000, 0x0000000000000000, 0x0000000000000000, 0x0000000000000000,
  0x0000000000000000, 0x0000000000000000, 0x0000000000000000, 0x0000000000000000, 0x0000000000000000,
  0x0000000000000000, 0x0000000000000000, 0x0003800000000000, 0x0000000000000000, 0x8000000000000000,
  0x0000000000000000, 0xFFFFFFFF00000000, 0x0000000000000000, 0x0000000000000000, 0x0000000000000000,
  0x0000000000000000, 0x0000000000000000, 0x0000000000000000, 0x0000000000000000, 0x0000000000000000,
  0x0000FC0000000000, 0x0000000000000000, 0x0000000006000000]

/-- include/muu/impl/unicode_char32_t.h:1226-1474 bit table number 2 of `is_combining_mark` -/
def isCombiningMarkTable2 : List Nat := [
  0x0001800000007FE1, 0x0000000000000000, 0x0000000000000006, 0x0000000000000000, 0x0000000000000000,
  0x0000000000000000, 0x21F0000010880000, 0x0000000000000000, 0x0000000000060000, 0xFFFE0000007FFFE0,
  0x7F80000000010007, 0x0000001FFF000000, 0x00000000001E0000, 0x004000000003FFF0, 0xFC00000000000000,
  0x00000000601000FF, 0x0000000000007000, 0xF00000000005833A, 0x0000000000000001]

/-- include/muu/impl/unicode_char32_t.h:1226-1474 bit table number 3 of `is_combining_mark` -/
def isCombiningMarkTable3 : List Nat := [
  0x0000000000000001, 0x0000000000000000, 0x0000000000000000, 0x0000000000000000, 0x0000000000000000,
  0x0000000000000000, 0x0000000000000000, 0x0000000000000000, 0x0000000000000000, 0x0000000000000000,
  0x0000000000000000, 0x0003FFFC00000000, 0x000000000003FFFC, 0x0000000000000000, 0x0000000000000000,
  0x0000000000000000, 0x0000000000000000, 0x0000000000000000, 0x0000000000000000, 0x0000000000000000,
  0x0000000000000000, 0x0000000000000000, 0x0000000000000000, 0x0000000000000000, 0x0000000000000000,
  0x0000000000000000, 0x0000000000000000, 0x0000000080000000, 0x0000000000000000, 0x0000000000000000,
  0x0000000000000000, 0x0000000000000004, 0x0000000000000000, 0x000000001F000000, 0x0000000000000000,
  0x0000000000000000, 0x0000000000000000, 0x0000000000000000, 0x0000000000000000, 0x0000000000000000,
  0x0000000000000000, 0x0000000000000000, 0x0000000000000000, 0x0000000000000000, 0x0000000000000000,
  0x0000000000000000, 0x0000000000000000, 0x0000000000000000, 0x0000000000000000, 0x0000000000000000,
  0x0000000000000000, 0x0000000000000000, 0x0000000000000000, 0x0000000000000000, 0x0000000000000000,
  0x0000000000000000, 0x0000000000000000, 0x0000000000000000, 0x0000000000000000, 0x0003C1B800000000,
  0x000000021C000000, 0x0000000000000000, 0x0000000000000000, 0x0000000000000180, 0x0000000000000000,
  0x0000000000000000, 0x0000000000000000, 0x0000000000000000, 0x0000000000000000, 0x0000000000000000,
  0x0000000000000000, 0x0000000000000000, 0x00000000000003C0, 0x0000000000000000, 0x0000000000000000,
  0x0000000000000000, 0x0000000000000000, 0x0000000000000000, 0x0000000000006000, 0x0000000380000000,
  0x0007FF0000000000, 0x000000F000000000, 0x0000000000000000, 0x0000001C00000000, 0x000001FFFC000000,
  0x0000001E00640000, 0x000000101FFC0000, 0x0000001C00000000, 0x00000180007FFE00, 0x0000001C00200000,
  0x00037807FFE00000, 0x0000000000000000, 0x0000000903FFC000, 0x0000000000000000, 0x0000000000000000,
  0x0000003C00001FFE, 0x0200E67F60000000, 0x00000000007C7F30, 0x0000000000000000, 0x0000000000000000,
  0x000001FFFF800000, 0x0000000000000001, 0x0000003FFFFC0000, 0x0000000000000000, 0x0000000000000000,
  0x0000000000000000, 0xC0000007FCFE0000, 0x0000000000000000, 0x00000007FFFC0000, 0x0000000000000000,
  0x0000000003FFE000, 0x8000000000000000, 0x0000000000003FFF, 0x0000000000000000, 0x0000000000000000,
  0x0000000000000000, 0x000000001FFFC000, 0x0000000000000000, 0x0000000000000000, 0x0000000000000000,
  0x00000035E6FC0000, 0x0000000000000000, 0xF3F8000000000000, 0x00001FF800000047, 0x3FF80201EFE00000,
  0x0FFFF00000000000]

/-- include/muu/impl/unicode_char32_t.h:1226-1474 bit table number 4 of `is_combining_mark` -/
def isCombiningMarkTable4 : List Nat := [
  0x000000000000001F, 0x000000000000007F, 0x0000000000000000, 0x0000000000000000, 0x0000000000000000,
  0x0000000000000000, 0x0000000000000000, 0x0000000000000000, 0x0000000000000000, 0x0000000000000000,
  0x0000000000000000, 0x0000000000000000, 0x0000000000000000, 0x0000000000000000, 0x0000000000000000,
  0x0000000000000000, 0x0000000000000000, 0xFFFFFFFE80000000, 0x0000000780FFFFFF, 0x0010000000000000,
  0x0000000000000003]

/-- include/muu/impl/unicode_char32_t.h:1226-1474 bit table number 5 of `is_combining_mark` -/
def isCombiningMarkTable5 : List Nat := [
  0xFFFF3FFFFFFFFFFF, 0x000000000000007F, 0x0000000000000000, 0x0000000000000000, 0x0000000000000000,
  0x0000000000000000, 0x0000000000000000, 0x0000000000000000, 0x0000000000000000, 0xF807E3E000000000,
  0x00003C0000000FE7, 0x0000000000000000, 0x0000000000000000, 0x000000000000001C, 0x0000000000000000,
  0x0000000000000000, 0x0000000000000000, 0x0000000000000000, 0x0000000000000000, 0x0000000000000000,
  0x0000000000000000, 0x0000000000000000, 0x0000000000000000, 0x0000000000000000, 0x0000000000000000,
  0x0000000000000000, 0x0000000000000000, 0x0000000000000000, 0x0000000000000000, 0x0000000000000000,
  0x0000000000000000, 0x0000000000000000, 0x0000000000000000, 0x0000000000000000, 0x0000000000000000,
  0x0000000000000000, 0x0000000000000000, 0x0000000000000000, 0x0000000000000000, 0x0000000000000000,
  0x0000000000000000, 0x0000000000000000, 0x0000000000000000, 0x0000000000000000, 0xF87FFFFFFFFFFFFF,
  0x00201FFFFFFFFFFF, 0x0000FFFEF8000010, 0x0000000000000000, 0x0000000000000000, 0x0000000000000000,
  0x0000000000000000, 0x0000000000000000, 0x0000000000000000, 0x0000000000000000, 0x0000000000000000,
  0x0000000000000000, 0x0000000000000000, 0x0000000000000000, 0x0000000000000000, 0x0000000000000000,
  0x0000000000000000, 0x0000000000000000, 0x0000000000000000, 0x0000000000000000, 0x0000000000000000,
  0x0000000000000000, 0x0000000000000000, 0x0000000000000000, 0x000007DBF9FFFF7F, 0x0000000000000000,
  0x0000000000008000, 0x0000000000000000, 0x007F000000000000, 0x0000000000000000, 0x0000000000000000,
  0x0000000000000000, 0x0000000000000000, 0x0000000000000000, 0x0000400000000000, 0x0000F00000000000,
  0x0000000000000000, 0x0000000000000000, 0x0000000000000000, 0x0000000000000000, 0x0000000000000000,
  0x0000000000000000, 0x0000000000000000, 0x0000F00000000000, 0x0000000000000000, 0x0000000000000000,
  0x0000000000000000, 0x0000000000000000, 0x0000000000000000, 0x0000000000000000, 0x0000000000000000,
  0x0000000000000000, 0x0000000000000000, 0x0000000000000000, 0x0000000000000000, 0x0000000000000000,
  0x0000000000000000, 0x0000000000000000, 0x0000000000000000, 0x00000000007F0000, 0x0000000000000000,
  0x00000000000007F0]

/-- include/muu/impl/unicode_char32_t.h:1226-1474 `is_combining_mark` -/
def isCombiningMark : Prog :=
  .retIf (.or (.lt 0x300) (.gt 0xE01EF)) false <|
  .retIf (.bit 64 (.div (.sub 64 .c 0x300) 0x37FC) 0x7FFFFFFFFFFFFE02) false <|
  .caseOf (.div (.sub 64 .c 0x300) 0x37FC) 0x0 (
      .retIf (.gt 0x309A) false <|
      .assume (.ge 0x300) <|
      .ret (.tbl isCombiningMarkTable1 (.div (.sub 64 .c 0x300) 0x40) (.mod .c 0x40))) <|
  .caseOf (.div (.sub 64 .c 0x300) 0x37FC) 0x2 (
      .retIf (.or (.lt 0xA66F) (.gt 0xAAEF)) false <|
      .ret (.tbl isCombiningMarkTable2 (.div (.sub 64 .c 0xA66F) 0x40) (.mod (.sub 64 .c 0xA66F) 0x40))) <|
  .caseOf (.div (.sub 64 .c 0x300) 0x37FC) 0x3 (
      .ret (.or (.or (.and (.ge 0xAAF5) (.le 0xAAF6)) (.and (.ge 0xABE3) (.le 0xABEA))) (.and (.ge 0xABEC) (.le 0xABED)))) <|
  .caseOf (.div (.sub 64 .c 0x300) 0x37FC) 0x4 (
      .retIf (.or (.lt 0xFB1E) (.gt 0x11A99)) false <|
      .ret (.tbl isCombiningMarkTable3 (.div (.sub 64 .c 0xFB1E) 0x40) (.mod (.sub 64 .c 0xFB1E) 0x40))) <|
  .caseOf (.div (.sub 64 .c 0x300) 0x37FC) 0x5 (
      .retIf (.or (.lt 0x11C2F) (.gt 0x13455)) false <|
      .retIf (.bit 64 (.div (.sub 64 .c 0x11C2F) 0x61) 0x7FFFFFFFFFFFFE70) false <|
      .caseOf (.div (.sub 64 .c 0x11C2F) 0x61) 0x0 (
          .ret (.and (.le 0x11C3F) (.bit 32 (.sub 32 .c 0x11C2F) 0x1FEFF))) <|
      .caseOf (.div (.sub 64 .c 0x11C2F) 0x61) 0x1 (
          .ret (.and (.and (.ge 0x11C92) (.le 0x11CB6)) (.bit 64 (.sub 64 .c 0x11C92) 0x1FFFBFFFFF))) <|
      .caseOf (.div (.sub 64 .c 0x11C2F) 0x61) 0x2 (
          .ret (.and (.and (.ge 0x11D31) (.le 0x11D47)) (.bit 32 (.sub 32 .c 0x11D31) 0x5FDA3F))) <|
      .caseOf (.div (.sub 64 .c 0x11C2F) 0x61) 0x3 (
          .ret (.and (.and (.ge 0x11D8A) (.le 0x11D97)) (.bit 32 (.sub 32 .c 0x11D8A) 0x3EDF))) <|
      .caseOf (.div (.sub 64 .c 0x11C2F) 0x61) 0x7 (
          .retIf (.lt 0x11EF3) false <|
          .assume (.le 0x11F36) <|
          .caseOf (.div (.sub 64 .c 0x11EF3) 0x40) 0x0 (
              .ret (.and (.le 0x11F03) (.bit 32 (.sub 32 .c 0x11EF3) 0x1600F))) <|
          .caseOf (.div (.sub 64 .c 0x11EF3) 0x40) 0x1 (
              .ret (.ne 0x11F33)) <|
          .unreachable) <|
      .caseOf (.div (.sub 64 .c 0x11C2F) 0x61) 0x8 (
          .ret (.and (.le 0x11F42) (.bit 32 (.sub 32 .c 0x11F37) 0xF8F))) <|
      .caseOf (.div (.sub 64 .c 0x11C2F) 0x61) 0x3F (
          .ret (.and (.ge 0x13440) (.bit 32 (.sub 32 .c 0x13440) 0x3FFF81))) <|
      .unreachable) <|
  .caseOf (.div (.sub 64 .c 0x300) 0x37FC) 0x6 (
      .retIf (.or (.lt 0x16AF0) (.gt 0x16FF1)) false <|
      .ret (.tbl isCombiningMarkTable4 (.div (.sub 64 .c 0x16AF0) 0x40) (.mod (.sub 64 .c 0x16AF0) 0x40))) <|
  .caseOf (.div (.sub 64 .c 0x300) 0x37FC) 0x7 (
      .ret (.and (.ge 0x1BC9D) (.le 0x1BC9E))) <|
  .caseOf (.div (.sub 64 .c 0x300) 0x37FC) 0x8 (
      .retIf (.or (.lt 0x1CF00) (.gt 0x1E94A)) false <|
      .ret (.tbl isCombiningMarkTable5 (.div (.sub 64 .c 0x1CF00) 0x40) (.mod .c 0x40))) <|
  .caseOf (.div (.sub 64 .c 0x300) 0x37FC) 0x3F (
      .ret (.ge 0xE0100)) <|
  .unreachable

/-- include/muu/impl/unicode_char32_t.h:1483-1486 `is_decimal_digit` -/
def isDecimalDigit : Prog :=
  .ret (.and (.ge 0x30) (.le 0x39))

/-- include/muu/impl/unicode_char32_t.h:1495-1498 `is_hexadecimal_digit` -/
def isHexadecimalDigit : Prog :=
  .ret (.and (.and (.ge 0x30) (.le 0x66)) (.bit 64 (.sub 64 .c 0x30) 0x7E0000007E03FF))

/-- include/muu/impl/unicode_char32_t.h:1555-1558 `is_octal_digit` -/
def isOctalDigit : Prog :=
  .ret (.and (.ge 0x30) (.le 0x37))

end Verif.Model.CodePoint.Char32
