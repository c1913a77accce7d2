import Verif.Model.CodePointProg

/-!
# The code point predicates of `include/muu/impl/unicode_char16_t.h`

Transcribed mechanically into the syntax of `Verif.Model.CodePointProg`. Where the C++ has an ordinary boolean combination
of other predicates (`is_letter`, `is_not_letter`, ...) the model is in `Verif.Model.Unicode`.
-/
namespace Verif.Model.CodePoint.Char16

/-- include/muu/impl/unicode_char16_t.h:34-37 `is_ascii_code_point` -/
def isAsciiCodePoint : Prog :=
  .ret (.le 0x7F)

/-- include/muu/impl/unicode_char16_t.h:46-49 `is_ascii_hyphen` -/
def isAsciiHyphen : Prog :=
  .ret (.eq 0x2D)

/-- include/muu/impl/unicode_char16_t.h:58-61 `is_ascii_letter` -/
def isAsciiLetter : Prog :=
  .ret (.or (.and (.ge 0x41) (.le 0x5A)) (.and (.ge 0x61) (.le 0x7A)))

/-- include/muu/impl/unicode_char16_t.h:70-73 `is_ascii_lowercase` -/
def isAsciiLowercase : Prog :=
  .ret (.and (.ge 0x61) (.le 0x7A))

/-- include/muu/impl/unicode_char16_t.h:82-85 `is_ascii_number` -/
def isAsciiNumber : Prog :=
  .ret (.and (.ge 0x30) (.le 0x39))

/-- include/muu/impl/unicode_char16_t.h:94-97 `is_ascii_uppercase` -/
def isAsciiUppercase : Prog :=
  .ret (.and (.ge 0x41) (.le 0x5A))

/-- include/muu/impl/unicode_char16_t.h:106-109 `is_ascii_whitespace` -/
def isAsciiWhitespace : Prog :=
  .ret (.or (.and (.ge 0x9) (.le 0xD)) (.eq 0x20))

/-- include/muu/impl/unicode_char16_t.h:118-121 `is_non_ascii_code_point` -/
def isNonAsciiCodePoint : Prog :=
  .ret (.or (.and (.ge 0x80) (.le 0xD7FF)) (.ge 0xE000))

/-- include/muu/impl/unicode_char16_t.h:130-150 `is_non_ascii_hyphen` -/
def isNonAsciiHyphen : Prog :=
  .retIf (.or (.lt 0xAD) (.gt 0xFF65)) false <|
  .retIf (.bit 64 (.div (.sub 64 .c 0xAD) 0x3FB) 0x7FFFFFFFFFFFE75C) false <|
  .retIf (.or (.or (.or (.or (.eq 0xAD) (.eq 0x58A)) (.eq 0x1806)) (.eq 0x2E17)) (.eq 0x30FB)) true <|
  .caseOf (.div (.sub 64 .c 0xAD) 0x3FB) 0x7 (
      .ret (.and (.ge 0x2010) (.le 0x2011))) <|
  .caseOf (.div (.sub 64 .c 0xAD) 0x3FB) 0x3F (
      .ret (.or (.or (.eq 0xFE63) (.eq 0xFF0D)) (.eq 0xFF65))) <|
  .unreachable

/-- include/muu/impl/unicode_char16_t.h:159-446 bit table number 1 of `is_non_ascii_letter` -/
def isNonAsciiLetterTable1 : List Nat := [
  0xFFFFDFFFFFC10801, 0xFFFFFFFFFFFFDFFF, 0xFFFFFFFFFFFFFFFF, 0xFFFFFFFFFFFFFFFF, 0xFFFFFFFFFFFFFFFF,
  0xFFFFFFFFFFFFFFFF, 0xFFFFFFFFFFFFFFFF, 0xFFFFFFFFFFFFFFFF, 0x07C000FFF0FFFFFF, 0x0000000000000014,
  0x0000000000000000, 0xFEFFFFF5D02F37C0, 0xFFFFFFFFFFFFFFFF, 0xFFFFFFFFFFFFEFFF, 0xFFFFFFFFFFFFFFFF,
  0x1FFFFFFF00FFFFFF]

/-- include/muu/impl/unicode_char16_t.h:159-446 bit table number 2 of `is_non_ascii_letter` -/
def isNonAsciiLetterTable2 : List Nat := [
  0xFFFFFFFFFFFFFFFF, 0xFFFFFFFFFFFFFFFF, 0xFE04FFFFFFFFFDFF, 0x00000003FFFFFFFF, 0xFFFFFE0000000000,
  0xFE00000000000F0F, 0x0000000FFFFFFFFF, 0xFFFFFFFFFFFFFD80, 0xC0005FFFFFFFFFFF, 0xFFFFFA0001380180,
  0xFFFFFFC0000001FF, 0x7FFFFFFFFFFFFFFF, 0xFFFFFFF800000400, 0x20087FFFFE08600F, 0xFE03FFFFFE000002,
  0x1E0000FDFFFFFE0F]

/-- include/muu/impl/unicode_char16_t.h:159-446 bit table number 3 of `is_non_ascii_letter` -/
def isNonAsciiLetterTable3 : List Nat := [
  0x0000003FFFFFFFFF, 0xFFFFFFFF00000000, 0x3FF01000023FFFFF, 0xFFFF99FE1FFFE000, 0x3B000400023C5FDF,
  0xFFFF987E01003000, 0x05E000000036DFDF, 0xFFFFBBFE0001C000, 0x30001000023EDFDF, 0xFFFF99FE00200000,
  0x3B000000023EDFDF, 0x8D63DC7E80002000, 0x00001000003FFC71, 0xFFFFDDFE00000000, 0x32700000023FFFDF,
  0x1FFFDDFE10000000]

/-- include/muu/impl/unicode_char16_t.h:159-446 bit table number 4 of `is_non_ascii_letter` -/
def isNonAsciiLetterTable4 : List Nat := [
  0xB000000011F7FEFF, 0xFFFEEFF800030001, 0xC038200013FFFFFF, 0xFE3FFFF07E000001, 0x0000003F97FDFFFF,
  0xFFFFFFFF00000000, 0x0000003F8006FFFF, 0xFFFFFBEB00000000, 0x7800002F9006FFD7, 0x0000000080000000,
  0xFFFFFF7F80000000, 0x00000F8000000FFF, 0x0000000000000000, 0xFFFFFFFF80000000, 0x1E1F8000400003FF,
  0x00002001FFF0E031]

/-- include/muu/impl/unicode_char16_t.h:159-446 bit table number 5 of `is_non_ascii_letter` -/
def isNonAsciiLetterTable5 : List Nat := [
  0xFFFF20BFFFFFFFFF, 0xFFFFFFFFF7FFFFFF, 0xFFFFFFFFFFFFFFFF, 0xFFFFFFFFFFFFFFFF, 0xFFFFFFFFFFFFFFFF,
  0xFFFFFFFFFFFFFFFF, 0x3D7F3DFFFFFFFFFF, 0xFFFF3DFFFFFFFFFF, 0xFF7FFF3D7F3DFFFF, 0xFF3DFFFFFFFFFFFF,
  0x07FFFFFFFFFFFFFF, 0x0000FFFF00000000, 0xFFFFFFFFFFFFFFFF, 0xFFFFFFFE3F3FFFFF, 0xFFFFFFFFFFFFFFFF,
  0x07FFFFFFFFFFFFFF]

/-- include/muu/impl/unicode_char16_t.h:159-446 bit table number 6 of `is_non_ascii_letter` -/
def isNonAsciiLetterTable6 : List Nat := [
  0xFFFFFFFFFFFFFFFF, 0xFFFFFFFFFFFFFFFF, 0xFFFFFFFFFFFFFFFF, 0xFFFFFFFFFFFFFFFF, 0xFFFFFFFFFFFFFFFF,
  0xFFFFFFFFFFFFFFFF, 0xFFFFFFFFFFFFFFFF, 0xFFFFFFDFFFF3FFFF, 0xFFFFFFFFFFFFFFE0, 0x007FFFE03FC0FFFF,
  0x007FFFE0007FFFF0, 0xFFFFFFE0003BFFE0, 0x1000000001FFFFFF, 0x0000000000000002, 0xFFFFFFFFFFFFFFE0,
  0x1FFFF3E03FFFFFFF]

/-- include/muu/impl/unicode_char16_t.h:159-446 bit table number 7 of `is_non_ascii_letter` -/
def isNonAsciiLetterTable7 : List Nat := [
  0xFFFFFFFFFF05FFFF, 0xFFFFFF003FFFFFFF, 0xFF0000000000007F, 0xFFFFFF001F3FFFFF, 0x0003FFFFFF0FFFFF,
  0x7FFFFF0000000000, 0x1FFFFFFFFFFFFF00, 0x0000000000000000, 0x0000000000008000, 0xFFFFE00000000000,
  0x001FE0000FFFFFFF, 0xFFFFF80000000000, 0xFFFFFFFC00C001FF, 0xFFFFFF0000003FFF, 0x00E0000000000FFF,
  0x1F01FF3FFFFFFFFC]

/-- include/muu/impl/unicode_char16_t.h:159-446 bit table number 8 of `is_non_ascii_letter` -/
def isNonAsciiLetterTable8 : List Nat := [
  0x0000073FFFFFFFFF, 0xFFFFF8237EF00000, 0xFFFFFFFFFFFFFFFF, 0xFFFFFFFFFFFFFFFF, 0x000007FFFFFFFFFF,
  0xFFFFF80000000000, 0xFFFFFFFFFFFFFFFF, 0xFFFFFFFFFFFFFFFF, 0xFFFFFFFFFFFFFFFF, 0xFFFFFFFFFFFFFFFF,
  0xF9F9FFFFFFFFF9F9, 0xFFFFF9FFFFFFFD57, 0x78FEE2FEFFFFFFFF, 0x000000FEE0FFF87E, 0x0000000000000000,
  0x1800040010000000]

/-- include/muu/impl/unicode_char16_t.h:159-446 bit table number 9 of `is_non_ascii_letter` -/
def isNonAsciiLetterTable9 : List Nat := [
  0xFFFFFFFFFFFFFFFF, 0xFF80063C0FFFFFFF, 0xFFFFFF905FFFFFFF, 0xFF8000407FFFFFFF, 0xBFBFBFBFBF803FFF,
  0x00000000003FBFBF, 0x0000004000000000, 0x0000000000000000, 0x0000000000000000, 0x0000000000000000,
  0x0000000000000000, 0x0000000000000000, 0x0000000000000000, 0x3000000000000000, 0xFF0C1F0000000000,
  0x1FFFFFFFFFFFFFFF]

/-- include/muu/impl/unicode_char16_t.h:159-446 bit table number 10 of `is_non_ascii_letter` -/
def isNonAsciiLetterTable10 : List Nat := [
  0xFFFFFFFFFB81FFFF, 0x83DFFFFFFFFFFFFF, 0xFFFFFBFFFFFFFFFF, 0xFFFFFFFFFFFFFFFF, 0x03FFFFFFFC0001FF,
  0x03FFFC0000000000, 0x0000000000000000, 0x0000000000000000, 0x0000000000000000, 0x0000000000000000,
  0x0000000000000000, 0x0000000000000000, 0x0000000000000000, 0xFC00000000000000, 0xFFFFFFFFFFFFFFFF,
  0x1FFFFFFFFFFFFFFF]

/-- include/muu/impl/unicode_char16_t.h:159-446 bit table number 11 of `is_non_ascii_letter` -/
def isNonAsciiLetterTable11 : List Nat := [
  0xFFFFFFFFFFFFFFFF, 0x000000003FFFFFFF, 0xFFFFFFFE00000000, 0xFFFFFFFFFFFE7FFF, 0xFFFFFFFFFFFFFFFF,
  0xFFFFFFFFFFFFFFFF, 0xFFFFFFFFFFFFFFFF, 0x1801FFFE3FFFFFFF, 0xFFFFFFFFFFFE0000, 0xFFFE7FFFFFFF0000,
  0x007FFFFFFFFFFFFF, 0xFFF9FF0000000000, 0xFFFFFFFFFFFFFFFF, 0xFFFFFFFFF3FFFFFF, 0x000007D60FFFFFFF,
  0x000FFFFFEF77FFF8]

/-- include/muu/impl/unicode_char16_t.h:159-446 bit table number 12 of `is_non_ascii_letter` -/
def isNonAsciiLetterTable12 : List Nat := [
  0x000FFFFFFFFFFFFF, 0x000FFFFFFFFFFFFC, 0x68FC000000000000, 0xFFFF003FFFFFFC00, 0x1FFFFFFF0000007F,
  0x0007FFFFFFFFFFF0, 0x7C00FFDF00008000, 0x000001FFFFFFFFFF, 0xC47FFFFF00000FF7, 0x3E62FFFFFFFFFFFF,
  0x001C07FF38000005, 0xFFFF7F7F007E7E7E, 0xFFFF03FFF7FFFFFF, 0xFFFFFFFFFFFFFFFF, 0x00000007FFFFFFFF,
  0x000001FFFFFFFFFF]

/-- include/muu/impl/unicode_char16_t.h:159-446 bit table number 13 of `is_non_ascii_letter` -/
def isNonAsciiLetterTable13 : List Nat := [
  0xFFFFFFFFFFFFFFFF, 0xFFFFFFFFFFFFFFFF, 0xFFFFFFFFFFFFFFFF, 0xFFFFFFFFFFFFFFFF, 0xFFFFFFFFFFFFFFFF,
  0xFFFF3FFFFFFFFFFF, 0xFFFFFFFFFFFFFFFF, 0x0000000003FFFFFF, 0x5F7FFDFFA0F8007F, 0xFFFFFFFFFFFFFFDB,
  0x0003FFFFFFFFFFFF, 0x00001FFFFFF80000]

/-- include/muu/impl/unicode_char16_t.h:159-446 bit table number 14 of `is_non_ascii_letter` -/
def isNonAsciiLetterTable14 : List Nat := [
  0xFFFFFFFFFFFFFFFF, 0xFFFFFFFFFFFFFFFF, 0xFFFFFFFFFFFFFFFF, 0xFFFFFFFFFFFFFFFF, 0xFFFFFFFFFFFFFFFF,
  0xFFFFFFF80001FFFF, 0xFFFFFFE7FFFFFFFF, 0x0000000007FFFFFF, 0x0000000000007FF8, 0x0000000000000000,
  0xFFFFFFFFFFFFFEF8, 0xFFFFFFFFFFFFFFFF, 0xFFF000000000FFFF, 0xFE003FFFFFF03FFF, 0xFFFFFFFFFFFFFFFF,
  0x0000E7E7E7E3FFFF]

/-- include/muu/impl/unicode_char16_t.h:159-446 `is_non_ascii_letter` -/
def isNonAsciiLetter : Prog :=
  .retIf (.or (.lt 0xAA) (.gt 0xFFDC)) false <|
  .retIf (.bit 64 (.div (.sub 64 .c 0xAA) 0x3FD) 0x3FC0000000000200) false <|
  .retIf (.bit 64 (.div (.sub 64 .c 0xAA) 0x3FD) 0x1FF9FFFFF7E000) true <|
  .caseOf (.div (.sub 64 .c 0xAA) 0x3FD) 0x0 (
      .assume (.and (.ge 0xAA) (.le 0x4A6)) <|
      .ret (.tbl isNonAsciiLetterTable1 (.div (.sub 64 .c 0xAA) 0x40) (.mod (.sub 64 .c 0xAA) 0x40))) <|
  .caseOf (.div (.sub 64 .c 0xAA) 0x3FD) 0x1 (
      .assume (.and (.ge 0x4A7) (.le 0x8A3)) <|
      .ret (.tbl isNonAsciiLetterTable2 (.div (.sub 64 .c 0x4A7) 0x40) (.mod (.sub 64 .c 0x4A7) 0x40))) <|
  .caseOf (.div (.sub 64 .c 0xAA) 0x3FD) 0x2 (
      .assume (.and (.ge 0x8A4) (.le 0xCA0)) <|
      .ret (.tbl isNonAsciiLetterTable3 (.div (.sub 64 .c 0x8A4) 0x40) (.mod (.sub 64 .c 0x8A4) 0x40))) <|
  .caseOf (.div (.sub 64 .c 0xAA) 0x3FD) 0x3 (
      .retIf (.gt 0x108E) false <|
      .assume (.ge 0xCA1) <|
      .ret (.tbl isNonAsciiLetterTable4 (.div (.sub 64 .c 0xCA1) 0x40) (.mod (.sub 64 .c 0xCA1) 0x40))) <|
  .caseOf (.div (.sub 64 .c 0xAA) 0x3FD) 0x4 (
      .retIf (.lt 0x10A0) false <|
      .assume (.le 0x149A) <|
      .ret (.tbl isNonAsciiLetterTable5 (.div (.sub 64 .c 0x10A0) 0x40) (.mod (.sub 64 .c 0x10A0) 0x40))) <|
  .caseOf (.div (.sub 64 .c 0xAA) 0x3FD) 0x5 (
      .assume (.and (.ge 0x149B) (.le 0x1897)) <|
      .ret (.tbl isNonAsciiLetterTable6 (.div (.sub 64 .c 0x149B) 0x40) (.mod (.sub 64 .c 0x149B) 0x40))) <|
  .caseOf (.div (.sub 64 .c 0xAA) 0x3FD) 0x6 (
      .assume (.and (.ge 0x1898) (.le 0x1C94)) <|
      .ret (.tbl isNonAsciiLetterTable7 (.div (.sub 64 .c 0x1898) 0x40) (.mod (.sub 64 .c 0x1898) 0x40))) <|
  .caseOf (.div (.sub 64 .c 0xAA) 0x3FD) 0x7 (
      .assume (.and (.ge 0x1C95) (.le 0x2091)) <|
      .ret (.tbl isNonAsciiLetterTable8 (.div (.sub 64 .c 0x1C95) 0x40) (.mod (.sub 64 .c 0x1C95) 0x40))) <|
  .caseOf (.div (.sub 64 .c 0xAA) 0x3FD) 0x8 (
      .retIf (.gt 0x2184) false <|
      .assume (.ge 0x2092) <|
      .caseOf (.div (.sub 64 .c 0x2092) 0x40) 0x0 (
          .ret (.le 0x209C)) <|
      .caseOf (.div (.sub 64 .c 0x2092) 0x40) 0x1 (
          .ret (.and (.ge 0x2102) (.bit 32 (.sub 32 .c 0x2102) 0xFF21))) <|
      .caseOf (.div (.sub 64 .c 0x2092) 0x40) 0x2 (
          .ret (.and (.le 0x214E) (.bit 64 (.sub 64 .c 0x2112) 0x10F83CFFEF540F8B))) <|
      .caseOf (.div (.sub 64 .c 0x2092) 0x40) 0x3 (
          .ret (.ge 0x2183)) <|
      .unreachable) <|
  .caseOf (.div (.sub 64 .c 0xAA) 0x3FD) 0xA (
      .ret (.ge 0x2C00)) <|
  .caseOf (.div (.sub 64 .c 0xAA) 0x3FD) 0xB (
      .assume (.and (.ge 0x2C89) (.le 0x3085)) <|
      .ret (.tbl isNonAsciiLetterTable9 (.div (.sub 64 .c 0x2C89) 0x40) (.mod (.sub 64 .c 0x2C89) 0x40))) <|
  .caseOf (.div (.sub 64 .c 0xAA) 0x3FD) 0xC (
      .assume (.and (.ge 0x3086) (.le 0x3482)) <|
      .ret (.tbl isNonAsciiLetterTable10 (.div (.sub 64 .c 0x3086) 0x40) (.mod (.sub 64 .c 0x3086) 0x40))) <|
  .caseOf (.div (.sub 64 .c 0xAA) 0x3FD) 0x13 (
      .ret (.or (.le 0x4DBF) (.ge 0x4E00))) <|
  .caseOf (.div (.sub 64 .c 0xAA) 0x3FD) 0x29 (
      .retIf (.gt 0xA822) false <|
      .assume (.ge 0xA42F) <|
      .ret (.tbl isNonAsciiLetterTable11 (.div (.sub 64 .c 0xA42F) 0x40) (.mod (.sub 64 .c 0xA42F) 0x40))) <|
  .caseOf (.div (.sub 64 .c 0xAA) 0x3FD) 0x2A (
      .retIf (.lt 0xA840) false <|
      .assume (.le 0xAC28) <|
      .ret (.tbl isNonAsciiLetterTable12 (.div (.sub 64 .c 0xA840) 0x40) (.mod .c 0x40))) <|
  .caseOf (.div (.sub 64 .c 0xAA) 0x3FD) 0x35 (
      .ret (.or (.or (.le 0xD7A3) (.and (.ge 0xD7B0) (.le 0xD7C6))) (.and (.ge 0xD7CB) (.le 0xD7FB)))) <|
  .caseOf (.div (.sub 64 .c 0xAA) 0x3FD) 0x3E (
      .retIf (.lt 0xF900) false <|
      .assume (.le 0xFBEC) <|
      .ret (.tbl isNonAsciiLetterTable13 (.div (.sub 64 .c 0xF900) 0x40) (.mod .c 0x40))) <|
  .caseOf (.div (.sub 64 .c 0xAA) 0x3FD) 0x3F (
      .assume (.and (.ge 0xFBED) (.le 0xFFDC)) <|
      .ret (.tbl isNonAsciiLetterTable14 (.div (.sub 64 .c 0xFBED) 0x40) (.mod (.sub 64 .c 0xFBED) 0x40))) <|
  .unreachable

/-- include/muu/impl/unicode_char16_t.h:455-614 bit table number 1 of `is_non_ascii_lowercase` -/
def isNonAsciiLowercaseTable1 : List Nat := [
  0xFFE0000000010801, 0xAAAAAAAAAABFDFFF, 0xAAAAAAAAD5556AAA, 0x4A93890C4A752AAA, 0xAAAD55549039944B,
  0xAAAAAAAAAAAA8A6A, 0xFFFFFFEAA164FEAA, 0xFFFFFBFFFFFFFFFF, 0x07C0000000C07FFF, 0x0000000000000000,
  0x0000000008000000, 0x00000040000F2280, 0xAAAAB8DFFFFFFFFC, 0x0000000000064BEA, 0xAABFFFFFFFFFFFC0,
  0x02AAAAAA00AAAAAA]

/-- include/muu/impl/unicode_char16_t.h:455-614 bit table number 2 of `is_non_ascii_lowercase` -/
def isNonAsciiLowercaseTable2 : List Nat := [
  0x0000000000000003, 0xFE00000000000000, 0xFFFFFFFFFFFFFFFF, 0xFFFFFFFFFFFFFFFF, 0x01FFFFFFFFFFFFFF,
  0x5400000000000000, 0x5555555555555555, 0x5555555555555555, 0x55555555557FD555, 0xFF55555555555555,
  0x7E01FE01FE007E01, 0xFE7FFE01FE01FE00, 0xB881BE01FE01FE01, 0x0001B801FE019E01, 0x0000000000000000,
  0x0100040000000000]

/-- include/muu/impl/unicode_char16_t.h:455-614 bit table number 3 of `is_non_ascii_lowercase` -/
def isNonAsciiLowercaseTable3 : List Nat := [
  0x0000155555555555, 0x000000001D555555, 0x0000000000000000, 0x5555D55400000000, 0x4AFFD55555555555,
  0x55504155555D2855, 0x0000000000550285]

/-- include/muu/impl/unicode_char16_t.h:455-614 bit table number 4 of `is_non_ascii_lowercase` -/
def isNonAsciiLowercaseTable4 : List Nat := [
  0x00000003AE000001, 0x0000000000000000, 0x0000000000000000, 0x0000000000000000, 0x0000000000000000,
  0x0000000000000000, 0x0000000000000000, 0x0000000000000000, 0x0000000000000000, 0x0000000000000000,
  0x0000000000000000, 0x0000000000000000, 0x0000000000000000, 0xFFFFFFFFFF800000, 0xFFFFFFFFFF81FFFB,
  0x0000007FFFFFFFFF]

/-- include/muu/impl/unicode_char16_t.h:455-614 `is_non_ascii_lowercase` -/
def isNonAsciiLowercase : Prog :=
  .retIf (.or (.lt 0xAA) (.gt 0xFF5A)) false <|
  .retIf (.bit 64 (.div (.sub 64 .c 0xAA) 0x3FB) 0x3FFFF9FFFFFFF02C) false <|
  .caseOf (.div (.sub 64 .c 0xAA) 0x3FB) 0x0 (
      .retIf (.gt 0x4A3) false <|
      .assume (.ge 0xAA) <|
      .ret (.tbl isNonAsciiLowercaseTable1 (.div (.sub 64 .c 0xAA) 0x40) (.mod (.sub 64 .c 0xAA) 0x40))) <|
  .caseOf (.div (.sub 64 .c 0xAA) 0x3FB) 0x1 (
      .retIf (.gt 0x588) false <|
      .assume (.ge 0x4A5) <|
      .caseOf (.div (.sub 64 .c 0x4A5) 0x40) 0x0 (
          .ret (.and (.le 0x4E3) (.bit 64 (.sub 64 .c 0x4A5) 0x555556AAA5555555))) <|
      .caseOf (.div (.sub 64 .c 0x4A5) 0x40) 0x1 (
          .ret (.and (.le 0x523) (.eqE (.mod (.add 32 .c 0x1) 0x2) 0x0))) <|
      .caseOf (.div (.sub 64 .c 0x4A5) 0x40) 0x2 (
          .ret (.bit 64 (.sub 64 .c 0x525) 0xF800000000000555)) <|
      .ret (.lit true)) <|
  .caseOf (.div (.sub 64 .c 0xAA) 0x3FB) 0x4 (
      .ret (.or (.or (.and (.ge 0x10D0) (.le 0x10FA)) (.and (.ge 0x10FC) (.le 0x10FF))) (.and (.ge 0x13F8) (.le 0x13FD)))) <|
  .caseOf (.div (.sub 64 .c 0xAA) 0x3FB) 0x6 (
      .ret (.ge 0x1C80)) <|
  .caseOf (.div (.sub 64 .c 0xAA) 0x3FB) 0x7 (
      .retIf (.gt 0x207F) false <|
      .assume (.ge 0x1C87) <|
      .ret (.tbl isNonAsciiLowercaseTable2 (.div (.sub 64 .c 0x1C87) 0x40) (.mod (.sub 64 .c 0x1C87) 0x40))) <|
  .caseOf (.div (.sub 64 .c 0xAA) 0x3FB) 0x8 (
      .retIf (.or (.lt 0x2090) (.gt 0x2184)) false <|
      .caseOf (.div (.sub 64 .c 0x2090) 0x40) 0x0 (
          .ret (.le 0x209C)) <|
      .caseOf (.div (.sub 64 .c 0x2090) 0x40) 0x1 (
          .ret (.and (.ge 0x210A) (.bit 32 (.sub 32 .c 0x210A) 0x31))) <|
      .caseOf (.div (.sub 64 .c 0x2090) 0x40) 0x2 (
          .ret (.and (.and (.ge 0x2113) (.le 0x214E)) (.bit 64 (.sub 64 .c 0x2113) 0x878064210000001))) <|
      .caseOf (.div (.sub 64 .c 0x2090) 0x40) 0x3 (
          .ret (.or (.and (.ge 0x2170) (.le 0x217F)) (.eq 0x2184))) <|
      .unreachable) <|
  .caseOf (.div (.sub 64 .c 0xAA) 0x3FB) 0x9 (
      .ret (.and (.ge 0x24D0) (.le 0x24E9))) <|
  .caseOf (.div (.sub 64 .c 0xAA) 0x3FB) 0xA (
      .retIf (.or (.lt 0x2C30) (.gt 0x2C71)) false <|
      .ret (.or (.eq 0x2C71) (.and (.le 0x2C6C) (.bit 64 (.sub 64 .c 0x2C30) 0x1562FFFFFFFFFFFF)))) <|
  .caseOf (.div (.sub 64 .c 0xAA) 0x3FB) 0xB (
      .retIf (.gt 0x2D2D) false <|
      .assume (.ge 0x2C73) <|
      .caseOf (.div (.sub 64 .c 0x2C73) 0x40) 0x0 (
          .ret (.and (.le 0x2CB1) (.bit 64 (.sub 64 .c 0x2C73) 0x55555555555547FB))) <|
      .caseOf (.div (.sub 64 .c 0x2C73) 0x40) 0x1 (
          .ret (.and (.le 0x2CEE) (.bit 64 (.sub 64 .c 0x2CB3) 0xA03555555555555))) <|
      .caseOf (.div (.sub 64 .c 0x2C73) 0x40) 0x2 (
          .ret (.or (.or (.or (.and (.ge 0x2D00) (.le 0x2D25)) (.eq 0x2CF3)) (.eq 0x2D27)) (.eq 0x2D2D))) <|
      .unreachable) <|
  .caseOf (.div (.sub 64 .c 0xAA) 0x3FB) 0x29 (
      .retIf (.lt 0xA641) false <|
      .assume (.le 0xA7D7) <|
      .ret (.tbl isNonAsciiLowercaseTable3 (.div (.sub 64 .c 0xA641) 0x40) (.mod (.sub 64 .c 0xA641) 0x40))) <|
  .caseOf (.div (.sub 64 .c 0xAA) 0x3FB) 0x2A (
      .retIf (.or (.lt 0xA7D9) (.gt 0xABBF)) false <|
      .ret (.tbl isNonAsciiLowercaseTable4 (.div (.sub 64 .c 0xA7D9) 0x40) (.mod (.sub 64 .c 0xA7D9) 0x40))) <|
  .caseOf (.div (.sub 64 .c 0xAA) 0x3FB) 0x3E (
      .ret (.and (.and (.ge 0xFB00) (.le 0xFB17)) (.bit 32 (.sub 32 .c 0xFB00) 0xF8007F))) <|
  .caseOf (.div (.sub 64 .c 0xAA) 0x3FB) 0x3F (
      .ret (.ge 0xFF41)) <|
  .unreachable

/-- include/muu/impl/unicode_char16_t.h:623-764 bit table number 1 of `is_non_ascii_number` -/
def isNonAsciiNumberTable1 : List Nat := [
  0x00000000000003FF, 0x0000000000000000, 0x0000000003FF0000, 0x0000000000000000, 0x0000000000000000,
  0x000003FF00000000, 0x0000000000000000, 0x0000000000000000, 0x0000000000000000, 0x0000000000000000,
  0x0000000000000000, 0x0000000000000000, 0x000000000000FFC0, 0x0000000000000000, 0x000000000000FFC0]

/-- include/muu/impl/unicode_char16_t.h:623-764 bit table number 2 of `is_non_ascii_number` -/
def isNonAsciiNumberTable2 : List Nat := [
  0x00000000000003FF, 0x0000000000000000, 0x00000000000003FF, 0x0000000000000000, 0x00000000000003FF,
  0x0000000000000000, 0x00000000000003FF, 0x0000000000000000, 0x00000000000003FF, 0x0000000000000000,
  0x00000000000003FF, 0x0000000000000000, 0x00000000000003FF, 0x0000000000000000, 0x00000000000003FF]

/-- include/muu/impl/unicode_char16_t.h:623-764 bit table number 3 of `is_non_ascii_number` -/
def isNonAsciiNumberTable3 : List Nat := [
  0x00000000000003FF, 0x0000000000000000, 0x00000000000003FF, 0x0000000003FF0000, 0x0000000000000000,
  0x0000000000000000, 0x0000000000000000, 0x03FF000000000000, 0x0000000000000000, 0x00000000000003FF]

/-- include/muu/impl/unicode_char16_t.h:623-764 bit table number 4 of `is_non_ascii_number` -/
def isNonAsciiNumberTable4 : List Nat := [
  0x0000000000000007, 0x0000000000000000, 0x0000000000000000, 0x0FFC000000000000, 0x00000FFC00000000,
  0x0000000000000000, 0x0000000000000000, 0x0000000000000000, 0x0000000000000000, 0x00000003FF000000]

/-- include/muu/impl/unicode_char16_t.h:623-764 bit table number 5 of `is_non_ascii_number` -/
def isNonAsciiNumberTable5 : List Nat := [
  0x00000000000003FF, 0x0000000000000000, 0x03FF000000000000, 0x00000000000003FF, 0x0000000000000000,
  0x0000000000000000, 0x00000000000003FF, 0x000003FF00000000, 0x0000000000000000, 0x03FF000000000000,
  0x00000000000003FF]

/-- include/muu/impl/unicode_char16_t.h:623-764 bit table number 6 of `is_non_ascii_number` -/
def isNonAsciiNumberTable6 : List Nat := [
  0x00000000000003FF, 0x0000000000000000, 0x0000000000000000, 0x000000000000FFC0, 0x0000000000000000,
  0x0000000000000000, 0x0000000000000000, 0x0000000000000000, 0x0000000000000000, 0x0000000000000000,
  0x03FF000000000000, 0x000003FF00000000]

/-- include/muu/impl/unicode_char16_t.h:623-764 bit table number 7 of `is_non_ascii_number` -/
def isNonAsciiNumberTable7 : List Nat := [
  0x000003FF000003FF, 0x0000000000000000, 0x00000000000003FF, 0x0000000000000000, 0x0000000000000000,
  0x0000000000000000, 0x0000000000000000, 0x0000000000000000, 0x000003FF00000000]

/-- include/muu/impl/unicode_char16_t.h:623-764 `is_non_ascii_number` -/
def isNonAsciiNumber : Prog :=
  .retIf (.or (.lt 0x660) (.gt 0xFF19)) false <|
  .retIf (.bit 64 (.div (.sub 64 .c 0x660) 0x3E3) 0x7FFFF9FFFFFFFB88) false <|
  .caseOf (.div (.sub 64 .c 0x660) 0x3E3) 0x0 (
      .retIf (.gt 0x9EF) false <|
      .assume (.ge 0x660) <|
      .ret (.tbl isNonAsciiNumberTable1 (.div (.sub 64 .c 0x660) 0x40) (.mod (.sub 64 .c 0x660) 0x40))) <|
  .caseOf (.div (.sub 64 .c 0x660) 0x3E3) 0x1 (
      .retIf (.or (.lt 0xA66) (.gt 0xDEF)) false <|
      .ret (.tbl isNonAsciiNumberTable2 (.div (.sub 64 .c 0xA66) 0x40) (.mod (.sub 64 .c 0xA66) 0x40))) <|
  .caseOf (.div (.sub 64 .c 0x660) 0x3E3) 0x2 (
      .retIf (.or (.lt 0xE50) (.gt 0x1099)) false <|
      .ret (.tbl isNonAsciiNumberTable3 (.div (.sub 64 .c 0xE50) 0x40) (.mod (.sub 64 .c 0xE50) 0x40))) <|
  .caseOf (.div (.sub 64 .c 0x660) 0x3E3) 0x4 (
      .retIf (.or (.lt 0x16EE) (.gt 0x194F)) false <|
      .ret (.tbl isNonAsciiNumberTable4 (.div (.sub 64 .c 0x16EE) 0x40) (.mod (.sub 64 .c 0x16EE) 0x40))) <|
  .caseOf (.div (.sub 64 .c 0x660) 0x3E3) 0x5 (
      .retIf (.or (.lt 0x19D0) (.gt 0x1C59)) false <|
      .ret (.tbl isNonAsciiNumberTable5 (.div (.sub 64 .c 0x19D0) 0x40) (.mod (.sub 64 .c 0x19D0) 0x40))) <|
  .caseOf (.div (.sub 64 .c 0x660) 0x3E3) 0x6 (
      .ret (.and (.and (.ge 0x2160) (.le 0x2188)) (.bit 64 (.sub 64 .c 0x2160) 0x1E7FFFFFFFF))) <|
  .caseOf (.div (.sub 64 .c 0x660) 0x3E3) 0xA (
      .ret (.and (.and (.ge 0x3007) (.le 0x303A)) (.bit 64 (.sub 64 .c 0x3007) 0xE0007FC000001))) <|
  .caseOf (.div (.sub 64 .c 0x660) 0x3E3) 0x29 (
      .retIf (.or (.lt 0xA620) (.gt 0xA909)) false <|
      .ret (.tbl isNonAsciiNumberTable6 (.div (.sub 64 .c 0xA620) 0x40) (.mod (.sub 64 .c 0xA620) 0x40))) <|
  .caseOf (.div (.sub 64 .c 0x660) 0x3E3) 0x2A (
      .retIf (.or (.lt 0xA9D0) (.gt 0xABF9)) false <|
      .ret (.tbl isNonAsciiNumberTable7 (.div (.sub 64 .c 0xA9D0) 0x40) (.mod (.sub 64 .c 0xA9D0) 0x40))) <|
  .caseOf (.div (.sub 64 .c 0x660) 0x3E3) 0x3F (
      .ret (.ge 0xFF10)) <|
  .unreachable

/-- include/muu/impl/unicode_char16_t.h:773-936 bit table number 1 of `is_non_ascii_uppercase` -/
def isNonAsciiUppercaseTable1 : List Nat := [
  0x000000007F7FFFFF, 0xAA55555555555555, 0x2B555555555554AA, 0x11AED2D5B1DBCED6, 0x55D255554AAAA490,
  0x6C05555555555555, 0x000000000000557A, 0x0000000000000000, 0x0000000000000000, 0x0000000000000000,
  0x8045000000000000, 0x00000FFBFFFED740, 0xE6905555551C8000, 0x0000FFFFFFFFFFFF, 0x5555555500000000,
  0x0155555555555401]

/-- include/muu/impl/unicode_char16_t.h:773-936 bit table number 2 of `is_non_ascii_uppercase` -/
def isNonAsciiUppercaseTable2 : List Nat := [
  0x00000020BFFFFFFF, 0x0000000000000000, 0x0000000000000000, 0x0000000000000000, 0x0000000000000000,
  0x0000000000000000, 0x0000000000000000, 0x0000000000000000, 0x0000000000000000, 0x0000000000000000,
  0x0000000000000000, 0xFF00000000000000, 0xFFFFFFFFFFFFFFFF, 0x0000000000003FFF]

/-- include/muu/impl/unicode_char16_t.h:773-936 bit table number 3 of `is_non_ascii_uppercase` -/
def isNonAsciiUppercaseTable3 : List Nat := [
  0x0000039FFFFFFFFF, 0x0000000000000000, 0x0000000000000000, 0x0000000000000000, 0x0000000000000000,
  0x5555540000000000, 0x5555555555555555, 0x5555555555555555, 0x5555555555555500, 0x03FC015555555555,
  0x00FC03FC03FC00FC, 0x0000000003FC02A8, 0x003C003C00000000, 0x0000003C007C003C]

/-- include/muu/impl/unicode_char16_t.h:773-936 bit table number 4 of `is_non_ascii_uppercase` -/
def isNonAsciiUppercaseTable4 : List Nat := [
  0x0000155555555555, 0x0000000005555555, 0x0000000000000000, 0x5554555400000000, 0x6A00555555555555,
  0x555F7D5555452855, 0x0000000000000005]

/-- include/muu/impl/unicode_char16_t.h:773-936 `is_non_ascii_uppercase` -/
def isNonAsciiUppercase : Prog :=
  .retIf (.or (.lt 0xC0) (.gt 0xFF3A)) false <|
  .retIf (.bit 64 (.div (.sub 64 .c 0xC0) 0x3FA) 0x7FFFF9FFFFFFF024) false <|
  .caseOf (.div (.sub 64 .c 0xC0) 0x3FA) 0x0 (
      .retIf (.gt 0x4B8) false <|
      .assume (.ge 0xC0) <|
      .ret (.tbl isNonAsciiUppercaseTable1 (.div (.sub 64 .c 0xC0) 0x40) (.mod .c 0x40))) <|
  .caseOf (.div (.sub 64 .c 0xC0) 0x3FA) 0x1 (
      .retIf (.gt 0x556) false <|
      .assume (.ge 0x4BA) <|
      .caseOf (.div (.sub 64 .c 0x4BA) 0x40) 0x0 (
          .ret (.and (.le 0x4F8) (.bit 64 (.sub 64 .c 0x4BA) 0x55555555554AAAD5))) <|
      .caseOf (.div (.sub 64 .c 0x4BA) 0x40) 0x1 (
          .ret (.bit 64 (.sub 64 .c 0x4FA) 0xFF95555555555555)) <|
      .ret (.lit true)) <|
  .caseOf (.div (.sub 64 .c 0xC0) 0x3FA) 0x3 (
      .ret (.ge 0x10A0)) <|
  .caseOf (.div (.sub 64 .c 0xC0) 0x3FA) 0x4 (
      .retIf (.gt 0x13F5) false <|
      .assume (.ge 0x10A8) <|
      .ret (.tbl isNonAsciiUppercaseTable2 (.div (.sub 64 .c 0x10A8) 0x40) (.mod (.sub 64 .c 0x10A8) 0x40))) <|
  .caseOf (.div (.sub 64 .c 0xC0) 0x3FA) 0x6 (
      .ret (.ge 0x1C90)) <|
  .caseOf (.div (.sub 64 .c 0xC0) 0x3FA) 0x7 (
      .retIf (.gt 0x1FFB) false <|
      .assume (.ge 0x1C96) <|
      .ret (.tbl isNonAsciiUppercaseTable3 (.div (.sub 64 .c 0x1C96) 0x40) (.mod (.sub 64 .c 0x1C96) 0x40))) <|
  .caseOf (.div (.sub 64 .c 0xC0) 0x3FA) 0x8 (
      .retIf (.or (.lt 0x2102) (.gt 0x2183)) false <|
      .retIf (.eq 0x2183) true <|
      .caseOf (.div (.sub 64 .c 0x2102) 0x40) 0x0 (
          .ret (.and (.le 0x213F) (.bit 64 (.sub 64 .c 0x2102) 0x3003CF540F89CE21))) <|
      .caseOf (.div (.sub 64 .c 0x2102) 0x40) 0x1 (
          .ret (.and (.and (.ge 0x2145) (.le 0x216F)) (.bit 64 (.sub 64 .c 0x2145) 0x7FFF8000001))) <|
      .unreachable) <|
  .caseOf (.div (.sub 64 .c 0xC0) 0x3FA) 0x9 (
      .ret (.and (.ge 0x24B6) (.le 0x24CF))) <|
  .caseOf (.div (.sub 64 .c 0xC0) 0x3FA) 0xA (
      .retIf (.or (.lt 0x2C00) (.gt 0x2C75)) false <|
      .caseOf (.div (.sub 64 .c 0x2C00) 0x40) 0x0 (
          .ret (.le 0x2C2F)) <|
      .caseOf (.div (.sub 64 .c 0x2C00) 0x40) 0x1 (
          .ret (.and (.ge 0x2C60) (.bit 32 (.sub 32 .c 0x2C60) 0x25EA9D))) <|
      .unreachable) <|
  .caseOf (.div (.sub 64 .c 0xC0) 0x3FA) 0xB (
      .retIf (.gt 0x2CF2) false <|
      .assume (.ge 0x2C7E) <|
      .caseOf (.div (.sub 64 .c 0x2C7E) 0x40) 0x0 (
          .ret (.and (.le 0x2CBC) (.bit 64 (.sub 64 .c 0x2C7E) 0x5555555555555557))) <|
      .caseOf (.div (.sub 64 .c 0x2C7E) 0x40) 0x1 (
          .ret (.bit 64 (.sub 64 .c 0x2CBE) 0x10A01555555555)) <|
      .unreachable) <|
  .caseOf (.div (.sub 64 .c 0xC0) 0x3FA) 0x29 (
      .retIf (.or (.lt 0xA640) (.gt 0xA7C2)) false <|
      .ret (.tbl isNonAsciiUppercaseTable4 (.div (.sub 64 .c 0xA640) 0x40) (.mod .c 0x40))) <|
  .caseOf (.div (.sub 64 .c 0xC0) 0x3FA) 0x2A (
      .ret (.and (.le 0xA7F5) (.bit 64 (.sub 64 .c 0xA7C4) 0x200000014102F))) <|
  .caseOf (.div (.sub 64 .c 0xC0) 0x3FA) 0x3F (
      .ret (.ge 0xFF21)) <|
  .unreachable

/-- include/muu/impl/unicode_char16_t.h:945-974 `is_non_ascii_whitespace` -/
def isNonAsciiWhitespace : Prog :=
  .retIf (.or (.lt 0x85) (.gt 0x3000)) false <|
  .retIf (.bit 64 (.div (.sub 64 .c 0x85) 0xBE) 0x7FFFFBFFDFFFFFFE) false <|
  .retIf (.or (.eq 0x1680) (.eq 0x3000)) true <|
  .caseOf (.div (.sub 64 .c 0x85) 0xBE) 0x0 (
      .ret (.or (.eq 0x85) (.eq 0xA0))) <|
  .caseOf (.div (.sub 64 .c 0x85) 0xBE) 0x2A (
      .retIf (.or (.lt 0x2000) (.gt 0x205F)) false <|
      .ret (.or (.eq 0x205F) (.and (.le 0x202F) (.bit 64 (.sub 64 .c 0x2000) 0x8300000007FF)))) <|
  .unreachable

/-- include/muu/impl/unicode_char16_t.h:1067-1070 `is_code_point` -/
def isCodePoint : Prog :=
  .ret (.or (.le 0xD7FF) (.ge 0xE000))

/-- include/muu/impl/unicode_char16_t.h:1079-1082 `is_code_point_boundary` -/
def isCodePointBoundary : Prog :=
  .ret (.or (.le 0xDBFF) (.ge 0xE000))

/-- include/muu/impl/unicode_char16_t.h:1091-1252 bit table number 1 of `is_combining_mark` -/
def isCombiningMarkTable1 : List Nat := [
  0xFFFFFFFFFFFFFFFF, 0x0000FFFFFFFFFFFF, 0x0000000000000000, 0x0000000000000000, 0x0000000000000000,
  0x0000000000000000, 0x00000000000000F8, 0x0000000000000000, 0x0000000000000000, 0x0000000000000000,
  0xBFFFFFFFFFFE0000, 0x00000000000000B6, 0x0000000007FF0000, 0x00010000FFFFF800, 0x0000000000000000,
  0x00001D9F9FC00000]

/-- include/muu/impl/unicode_char16_t.h:1091-1252 bit table number 2 of `is_combining_mark` -/
def isCombiningMarkTable2 : List Nat := [
  0x0000001000000001, 0x000000003FFFFFF8, 0xFE00000000000000, 0xC00000000000000F, 0xF77FDE000001007F,
  0x0000700000000001, 0x0007F80000000000, 0xFFDFFFFFE0000000, 0x00000000007FFFFF, 0x006007F7FFFEE000,
  0x0000000000700000, 0x00600401CCFE8000, 0x0000000000720000, 0x00000011CC3E8000, 0x0000000000700118,
  0x00000001DDFE8000]

/-- include/muu/impl/unicode_char16_t.h:1091-1252 bit table number 3 of `is_combining_mark` -/
def isCombiningMarkTable3 : List Nat := [
  0x00000003BF000003, 0x00380E67F4000000, 0x0000000100000003, 0x00200F71F0000000, 0x00000007C0000000,
  0x00180F77F4000000, 0x0000000380000003, 0x00180F77F4000000, 0x00000003C0020003, 0x00200F77F6000000,
  0x0000000380000003, 0x3FD7E10000000000, 0x0000000000030000, 0x00001FE001FC8000, 0x0000000000000000,
  0x0000000007FC8000]

/-- include/muu/impl/unicode_char16_t.h:1091-1252 bit table number 4 of `is_combining_mark` -/
def isCombiningMarkTable4 : List Nat := [
  0x000000000000007F, 0x00C2A00000030000, 0xDFFFFE0000000000, 0x401FFFFFFFFEFFE0, 0x0000000000000000,
  0x007FFFF800000000, 0xFC001E3F9DC3C000, 0x00000000003C00BF]

/-- include/muu/impl/unicode_char16_t.h:1091-1252 bit table number 5 of `is_combining_mark` -/
def isCombiningMarkTable5 : List Nat := [
  0x000000070000000F, 0x0000000300000003, 0xFFFFFFFC00000000, 0x2E00000000000803, 0x0000000000000000,
  0x0018000000000000, 0x0000000000800000, 0x0000000000000000, 0x000003FFC3FFC000, 0x0000000000000000,
  0x0000000000000000, 0x0000000000000000, 0x00000000000003E0, 0x000027FFFFFFDFF8]

/-- include/muu/impl/unicode_char16_t.h:1091-1252 bit table number 6 of `is_combining_mark` -/
def isCombiningMarkTable6 : List Nat := [
  0x000000007FFFBFFF, 0x00000000001F0000, 0xF8000000001FFFF0, 0x3FFE00000007000F, 0xFFC0000000000000,
  0xFFF000000000000F, 0x00000000000000FF, 0x0000000000000000, 0x21FFFFF700000000, 0x0000000000000390,
  0x0000000000000000, 0x0000000000000000, 0xFFFFFFFFFFFF0000, 0x000000000000FFFF]

/-- include/muu/impl/unicode_char16_t.h:1091-1252 bit table number 7 of `is_combining_mark` -/
def isCombiningMarkTable7 : List Nat := [
  0x0000043E00000211, 0xC000000000000000, 0xFFFC000000000000, 0x2000FFFFC000000F, 0x00000FF000000000,
  0xC00000000003FFE0, 0x7FFE000000000003, 0x0000000800000000, 0x001FFF8000000000, 0x0E00000000000C02,
  0xB067400000000000, 0x00183E0000000000]

/-- include/muu/impl/unicode_char16_t.h:1091-1252 `is_combining_mark` -/
def isCombiningMark : Prog :=
  .retIf (.or (.lt 0x300) (.gt 0xFE2F)) false <|
  .retIf (.bit 64 (.div (.sub 64 .c 0x300) 0x3ED) 0x7FFFF1FFFFFFF300) false <|
  .caseOf (.div (.sub 64 .c 0x300) 0x3ED) 0x0 (
      .assume (.and (.ge 0x300) (.le 0x6EC)) <|
      .ret (.tbl isCombiningMarkTable1 (.div (.sub 64 .c 0x300) 0x40) (.mod .c 0x40))) <|
  .caseOf (.div (.sub 64 .c 0x300) 0x3ED) 0x1 (
      .retIf (.gt 0xACD) false <|
      .assume (.ge 0x6ED) <|
      .ret (.tbl isCombiningMarkTable2 (.div (.sub 64 .c 0x6ED) 0x40) (.mod (.sub 64 .c 0x6ED) 0x40))) <|
  .caseOf (.div (.sub 64 .c 0x300) 0x3ED) 0x2 (
      .retIf (.or (.lt 0xAE2) (.gt 0xEBC)) false <|
      .ret (.tbl isCombiningMarkTable3 (.div (.sub 64 .c 0xAE2) 0x40) (.mod (.sub 64 .c 0xAE2) 0x40))) <|
  .caseOf (.div (.sub 64 .c 0x300) 0x3ED) 0x3 (
      .retIf (.or (.lt 0xEC8) (.gt 0x109D)) false <|
      .ret (.tbl isCombiningMarkTable4 (.div (.sub 64 .c 0xEC8) 0x40) (.mod (.sub 64 .c 0xEC8) 0x40))) <|
  .caseOf (.div (.sub 64 .c 0x300) 0x3ED) 0x4 (
      .ret (.and (.ge 0x135D) (.le 0x135F))) <|
  .caseOf (.div (.sub 64 .c 0x300) 0x3ED) 0x5 (
      .retIf (.or (.lt 0x1712) (.gt 0x1A7F)) false <|
      .ret (.tbl isCombiningMarkTable5 (.div (.sub 64 .c 0x1712) 0x40) (.mod (.sub 64 .c 0x1712) 0x40))) <|
  .caseOf (.div (.sub 64 .c 0x300) 0x3ED) 0x6 (
      .retIf (.or (.lt 0x1AB0) (.gt 0x1DFF)) false <|
      .ret (.tbl isCombiningMarkTable6 (.div (.sub 64 .c 0x1AB0) 0x40) (.mod (.sub 64 .c 0x1AB0) 0x40))) <|
  .caseOf (.div (.sub 64 .c 0x300) 0x3ED) 0x7 (
      .ret (.and (.and (.ge 0x20D0) (.le 0x20F0)) (.bit 64 (.sub 64 .c 0x20D0) 0x1FFE21FFF))) <|
  .caseOf (.div (.sub 64 .c 0x300) 0x3ED) 0xA (
      .ret (.or (.or (.and (.ge 0x2CEF) (.le 0x2CF1)) (.and (.ge 0x2DE0) (.le 0x2DFF))) (.eq 0x2D7F))) <|
  .caseOf (.div (.sub 64 .c 0x300) 0x3ED) 0xB (
      .ret (.or (.and (.ge 0x302A) (.le 0x302F)) (.and (.ge 0x3099) (.le 0x309A)))) <|
  .caseOf (.div (.sub 64 .c 0x300) 0x3ED) 0x29 (
      .retIf (.or (.lt 0xA66F) (.gt 0xA6F1)) false <|
      .caseOf (.div (.sub 64 .c 0xA66F) 0x40) 0x0 (
          .ret (.and (.le 0xA69F) (.bit 64 (.sub 64 .c 0xA66F) 0x1800000007FE1))) <|
      .caseOf (.div (.sub 64 .c 0xA66F) 0x40) 0x2 (
          .ret (.ne 0xA6EF)) <|
      .ret (.lit false)) <|
  .caseOf (.div (.sub 64 .c 0x300) 0x3ED) 0x2A (
      .retIf (.or (.lt 0xA802) (.gt 0xAAF6)) false <|
      .ret (.tbl isCombiningMarkTable7 (.div (.sub 64 .c 0xA802) 0x40) (.mod (.sub 64 .c 0xA802) 0x40))) <|
  .caseOf (.div (.sub 64 .c 0x300) 0x3ED) 0x2B (
      .ret (.and (.and (.ge 0xABE3) (.le 0xABED)) (.bit 32 (.sub 32 .c 0xABE3) 0x6FF))) <|
  .caseOf (.div (.sub 64 .c 0x300) 0x3ED) 0x3F (
      .ret (.or (.or (.and (.ge 0xFE00) (.le 0xFE0F)) (.ge 0xFE20)) (.eq 0xFB1E))) <|
  .unreachable

/-- include/muu/impl/unicode_char16_t.h:1261-1264 `is_decimal_digit` -/
def isDecimalDigit : Prog :=
  .ret (.and (.ge 0x30) (.le 0x39))

/-- include/muu/impl/unicode_char16_t.h:1273-1276 `is_hexadecimal_digit` -/
def isHexadecimalDigit : Prog :=
  .ret (.and (.and (.ge 0x30) (.le 0x66)) (.bit 64 (.sub 64 .c 0x30) 0x7E0000007E03FF))

/-- include/muu/impl/unicode_char16_t.h:1333-1336 `is_octal_digit` -/
def isOctalDigit : Prog :=
  .ret (.and (.ge 0x30) (.le 0x37))

end Verif.Model.CodePoint.Char16
