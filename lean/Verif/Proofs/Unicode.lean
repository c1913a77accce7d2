import Verif.Proofs.UnicodeCert.Char32
import Verif.Proofs.UnicodeCert.Char16
import Verif.Proofs.UnicodeCert.Char8
import Verif.Model.Unicode

/-! The code point predicates against the Unicode Character Database. -/
namespace Verif.Proofs.CodePoint
open Verif.Model Verif.Model.CodePoint Verif.Spec

set_option maxRecDepth 100000

/-- where the predicates have undefined behaviour -/
def hyphenUb : List (Nat × Nat) :=
  [(0xAE, 0x589), (0x58B, 0x8A2), (0x1494, 0x1805), (0x1807, 0x188E), (0x2C76, 0x2E16), (0x2E18, 0x30FA),
   (0x30FC, 0x346B)]
def whitespaceUb : List (Nat × Nat) := [(0x160B, 0x167F), (0x1681, 0x16C8), (0x2F47, 0x2FFF)]
def uppercaseUb : List (Nat × Nat) := [(0x2182, 0x2182)]

/-- the ranges of `rs` within `[a, b]` -/
def within (a b : Nat) (rs : List (Nat × Nat)) : List (Nat × Nat) :=
  rs.filter fun r => Nat.ble a r.1 && Nat.ble r.2 b

/-- no range straddles `a` or `b + 1` -/
def cutsAt (a b : Nat) (rs : List (Nat × Nat)) : Bool :=
  rs.all fun r => (Nat.blt r.2 a || Nat.ble a r.1) && (Nat.ble r.2 b || Nat.blt b r.1)

theorem inRanges_within_iff {a b c : Nat} {rs : List (Nat × Nat)} (hs : cutsAt a b rs = true) :
    InRanges (within a b rs) c ↔ InRanges rs c ∧ a ≤ c ∧ c ≤ b := by
  constructor
  · rintro ⟨r, hr, h1, h2⟩
    simp only [within, List.mem_filter, Bool.and_eq_true, Nat.ble_eq] at hr
    exact ⟨⟨r, hr.1, h1, h2⟩, by omega, by omega⟩
  · rintro ⟨⟨r, hr, h1, h2⟩, ha, hb⟩
    have := List.all_eq_true.1 hs r hr
    simp only [Bool.and_eq_true, Bool.or_eq_true, Nat.blt_eq, Nat.ble_eq] at this
    refine ⟨r, ?_, h1, h2⟩
    simp only [within, List.mem_filter, Bool.and_eq_true, Nat.ble_eq]
    exact ⟨hr, by omega, by omega⟩

theorem eval_of_certify {p : Prog} {bound a b : Nat} {ends : List Nat} {ub rs : List (Nat × Nat)}
    (h : certify p bound ends ub (within a b rs) = true) (hs : cutsAt a b rs = true) {c : Nat} (hc : c < bound) :
    (InRanges ub c → p.eval c = none) ∧
    (¬ InRanges ub c → p.eval c = some (decide (InRanges rs c ∧ a ≤ c ∧ c ≤ b))) := by
  have := certify_sound h hc
  simpa only [inRanges_within_iff hs] using this

theorem either_ranges {x y : Option Bool} {rs : List (Nat × Nat)} {c b : Nat}
    (hx : x = some (decide (InRanges rs c ∧ 0 ≤ c ∧ c ≤ 0x7F)))
    (hy : y = some (decide (InRanges rs c ∧ 0x80 ≤ c ∧ c ≤ b))) :
    either x y = some (decide (InRanges rs c ∧ c ≤ max 0x7F b)) ∧
    neither x y = some (decide (¬ (InRanges rs c ∧ c ≤ max 0x7F b))) := by
  subst hx hy
  by_cases h : InRanges rs c
  · simp only [either, neither, h, true_and, Option.bind_some, Nat.zero_le, decide_eq_true_eq, Option.map_some]
    by_cases h1 : c ≤ 0x7F
    · rw [if_pos h1, if_pos h1]
      have : c ≤ max 0x7F b := by omega
      simp [this]
    · rw [if_neg h1, if_neg h1]
      have e : (128 ≤ c ∧ c ≤ b) ↔ c ≤ max 0x7F b := by omega
      simp only [e, decide_not, and_self]
  · simp [either, neither, h]

theorem either_ub {x y : Option Bool} (hx : x = some false) (hy : y = none) :
    either x y = none ∧ neither x y = none := by
  subst hx hy; exact ⟨rfl, rfl⟩

theorem isAsciiHyphen_cert32 : certify Char32.isAsciiHyphen (2 ^ 32) Char32.isAsciiHyphenEnds [] (within 0 0x7F Ucd.hyphen) = true := by
  decide +kernel
theorem isNonAsciiHyphen_cert32 : certify Char32.isNonAsciiHyphen (2 ^ 32) Char32.isNonAsciiHyphenEnds hyphenUb (within 0x80 0xFFFFFFFF Ucd.hyphen) = true := by
  decide +kernel

theorem isAsciiLetter_cert32 : certify Char32.isAsciiLetter (2 ^ 32) Char32.isAsciiLetterEnds [] (within 0 0x7F Ucd.letter) = true := by
  decide +kernel
theorem isNonAsciiLetter_cert32 : certify Char32.isNonAsciiLetter (2 ^ 32) Char32.isNonAsciiLetterEnds [] (within 0x80 0xFFFFFFFF Ucd.letter) = true := by
  decide +kernel

theorem isAsciiLowercase_cert32 : certify Char32.isAsciiLowercase (2 ^ 32) Char32.isAsciiLowercaseEnds [] (within 0 0x7F Ucd.lowercase) = true := by
  decide +kernel
theorem isNonAsciiLowercase_cert32 : certify Char32.isNonAsciiLowercase (2 ^ 32) Char32.isNonAsciiLowercaseEnds [] (within 0x80 0xFFFF Ucd.lowercase) = true := by
  decide +kernel

theorem isAsciiNumber_cert32 : certify Char32.isAsciiNumber (2 ^ 32) Char32.isAsciiNumberEnds [] (within 0 0x7F Ucd.number) = true := by
  decide +kernel
theorem isNonAsciiNumber_cert32 : certify Char32.isNonAsciiNumber (2 ^ 32) Char32.isNonAsciiNumberEnds [] (within 0x80 0xFFFFFFFF Ucd.number) = true := by
  decide +kernel

theorem isAsciiUppercase_cert32 : certify Char32.isAsciiUppercase (2 ^ 32) Char32.isAsciiUppercaseEnds [] (within 0 0x7F Ucd.uppercase) = true := by
  decide +kernel
theorem isNonAsciiUppercase_cert32 : certify Char32.isNonAsciiUppercase (2 ^ 32) Char32.isNonAsciiUppercaseEnds uppercaseUb (within 0x80 0xFFFF Ucd.uppercase) = true := by
  decide +kernel

theorem isAsciiWhitespace_cert32 : certify Char32.isAsciiWhitespace (2 ^ 32) Char32.isAsciiWhitespaceEnds [] (within 0 0x7F Ucd.whiteSpace) = true := by
  decide +kernel
theorem isNonAsciiWhitespace_cert32 : certify Char32.isNonAsciiWhitespace (2 ^ 32) Char32.isNonAsciiWhitespaceEnds whitespaceUb (within 0x80 0xFFFFFFFF Ucd.whiteSpace) = true := by
  decide +kernel

theorem isAsciiHyphen_cert16 : certify Char16.isAsciiHyphen (2 ^ 16) Char16.isAsciiHyphenEnds [] (within 0 0x7F Ucd.hyphen) = true := by
  decide +kernel
theorem isNonAsciiHyphen_cert16 : certify Char16.isNonAsciiHyphen (2 ^ 16) Char16.isNonAsciiHyphenEnds hyphenUb (within 0x80 0xFFFF Ucd.hyphen) = true := by
  decide +kernel

theorem isAsciiLetter_cert16 : certify Char16.isAsciiLetter (2 ^ 16) Char16.isAsciiLetterEnds [] (within 0 0x7F Ucd.letter) = true := by
  decide +kernel
theorem isNonAsciiLetter_cert16 : certify Char16.isNonAsciiLetter (2 ^ 16) Char16.isNonAsciiLetterEnds [] (within 0x80 0xFFFF Ucd.letter) = true := by
  decide +kernel

theorem isAsciiLowercase_cert16 : certify Char16.isAsciiLowercase (2 ^ 16) Char16.isAsciiLowercaseEnds [] (within 0 0x7F Ucd.lowercase) = true := by
  decide +kernel
theorem isNonAsciiLowercase_cert16 : certify Char16.isNonAsciiLowercase (2 ^ 16) Char16.isNonAsciiLowercaseEnds [] (within 0x80 0xFFFF Ucd.lowercase) = true := by
  decide +kernel

theorem isAsciiNumber_cert16 : certify Char16.isAsciiNumber (2 ^ 16) Char16.isAsciiNumberEnds [] (within 0 0x7F Ucd.number) = true := by
  decide +kernel
theorem isNonAsciiNumber_cert16 : certify Char16.isNonAsciiNumber (2 ^ 16) Char16.isNonAsciiNumberEnds [] (within 0x80 0xFFFF Ucd.number) = true := by
  decide +kernel

theorem isAsciiUppercase_cert16 : certify Char16.isAsciiUppercase (2 ^ 16) Char16.isAsciiUppercaseEnds [] (within 0 0x7F Ucd.uppercase) = true := by
  decide +kernel
theorem isNonAsciiUppercase_cert16 : certify Char16.isNonAsciiUppercase (2 ^ 16) Char16.isNonAsciiUppercaseEnds uppercaseUb (within 0x80 0xFFFF Ucd.uppercase) = true := by
  decide +kernel

theorem isAsciiWhitespace_cert16 : certify Char16.isAsciiWhitespace (2 ^ 16) Char16.isAsciiWhitespaceEnds [] (within 0 0x7F Ucd.whiteSpace) = true := by
  decide +kernel
theorem isNonAsciiWhitespace_cert16 : certify Char16.isNonAsciiWhitespace (2 ^ 16) Char16.isNonAsciiWhitespaceEnds whitespaceUb (within 0x80 0xFFFF Ucd.whiteSpace) = true := by
  decide +kernel

theorem isAsciiHyphen_cert8 : certify Char8.isAsciiHyphen (2 ^ 8) Char8.isAsciiHyphenEnds [] (within 0 0x7F Ucd.hyphen) = true := by
  decide +kernel
theorem isNonAsciiHyphen_cert8 : certify Char8.isNonAsciiHyphen (2 ^ 8) Char8.isNonAsciiHyphenEnds [] (within 0x80 0x7F Ucd.hyphen) = true := by
  decide +kernel

theorem isAsciiLetter_cert8 : certify Char8.isAsciiLetter (2 ^ 8) Char8.isAsciiLetterEnds [] (within 0 0x7F Ucd.letter) = true := by
  decide +kernel
theorem isNonAsciiLetter_cert8 : certify Char8.isNonAsciiLetter (2 ^ 8) Char8.isNonAsciiLetterEnds [] (within 0x80 0x7F Ucd.letter) = true := by
  decide +kernel

theorem isAsciiLowercase_cert8 : certify Char8.isAsciiLowercase (2 ^ 8) Char8.isAsciiLowercaseEnds [] (within 0 0x7F Ucd.lowercase) = true := by
  decide +kernel
theorem isNonAsciiLowercase_cert8 : certify Char8.isNonAsciiLowercase (2 ^ 8) Char8.isNonAsciiLowercaseEnds [] (within 0x80 0x7F Ucd.lowercase) = true := by
  decide +kernel

theorem isAsciiNumber_cert8 : certify Char8.isAsciiNumber (2 ^ 8) Char8.isAsciiNumberEnds [] (within 0 0x7F Ucd.number) = true := by
  decide +kernel
theorem isNonAsciiNumber_cert8 : certify Char8.isNonAsciiNumber (2 ^ 8) Char8.isNonAsciiNumberEnds [] (within 0x80 0x7F Ucd.number) = true := by
  decide +kernel

theorem isAsciiUppercase_cert8 : certify Char8.isAsciiUppercase (2 ^ 8) Char8.isAsciiUppercaseEnds [] (within 0 0x7F Ucd.uppercase) = true := by
  decide +kernel
theorem isNonAsciiUppercase_cert8 : certify Char8.isNonAsciiUppercase (2 ^ 8) Char8.isNonAsciiUppercaseEnds [] (within 0x80 0x7F Ucd.uppercase) = true := by
  decide +kernel

theorem isAsciiWhitespace_cert8 : certify Char8.isAsciiWhitespace (2 ^ 8) Char8.isAsciiWhitespaceEnds [] (within 0 0x7F Ucd.whiteSpace) = true := by
  decide +kernel
theorem isNonAsciiWhitespace_cert8 : certify Char8.isNonAsciiWhitespace (2 ^ 8) Char8.isNonAsciiWhitespaceEnds [] (within 0x80 0x7F Ucd.whiteSpace) = true := by
  decide +kernel

theorem hyphen_cut1 : cutsAt 0 0x7F Ucd.hyphen = true := by decide +kernel
theorem hyphen_cut2 : cutsAt 0x80 0x7F Ucd.hyphen = true := by decide +kernel
theorem hyphen_cut3 : cutsAt 0x80 0xFFFF Ucd.hyphen = true := by decide +kernel
theorem hyphen_cut4 : cutsAt 0x80 0xFFFFFFFF Ucd.hyphen = true := by decide +kernel

theorem letter_cut1 : cutsAt 0 0x7F Ucd.letter = true := by decide +kernel
theorem letter_cut2 : cutsAt 0x80 0x7F Ucd.letter = true := by decide +kernel
theorem letter_cut3 : cutsAt 0x80 0xFFFF Ucd.letter = true := by decide +kernel
theorem letter_cut4 : cutsAt 0x80 0xFFFFFFFF Ucd.letter = true := by decide +kernel

theorem lowercase_cut1 : cutsAt 0 0x7F Ucd.lowercase = true := by decide +kernel
theorem lowercase_cut2 : cutsAt 0x80 0x7F Ucd.lowercase = true := by decide +kernel
theorem lowercase_cut3 : cutsAt 0x80 0xFFFF Ucd.lowercase = true := by decide +kernel
theorem lowercase_cut4 : cutsAt 0x80 0xFFFFFFFF Ucd.lowercase = true := by decide +kernel

theorem number_cut1 : cutsAt 0 0x7F Ucd.number = true := by decide +kernel
theorem number_cut2 : cutsAt 0x80 0x7F Ucd.number = true := by decide +kernel
theorem number_cut3 : cutsAt 0x80 0xFFFF Ucd.number = true := by decide +kernel
theorem number_cut4 : cutsAt 0x80 0xFFFFFFFF Ucd.number = true := by decide +kernel

theorem uppercase_cut1 : cutsAt 0 0x7F Ucd.uppercase = true := by decide +kernel
theorem uppercase_cut2 : cutsAt 0x80 0x7F Ucd.uppercase = true := by decide +kernel
theorem uppercase_cut3 : cutsAt 0x80 0xFFFF Ucd.uppercase = true := by decide +kernel
theorem uppercase_cut4 : cutsAt 0x80 0xFFFFFFFF Ucd.uppercase = true := by decide +kernel

theorem whiteSpace_cut1 : cutsAt 0 0x7F Ucd.whiteSpace = true := by decide +kernel
theorem whiteSpace_cut2 : cutsAt 0x80 0x7F Ucd.whiteSpace = true := by decide +kernel
theorem whiteSpace_cut3 : cutsAt 0x80 0xFFFF Ucd.whiteSpace = true := by decide +kernel
theorem whiteSpace_cut4 : cutsAt 0x80 0xFFFFFFFF Ucd.whiteSpace = true := by decide +kernel

theorem isCombiningMark_cert32 : certify Char32.isCombiningMark (2 ^ 32) Char32.isCombiningMarkEnds []
    Ucd.combiningMark = true := by
  decide +kernel
theorem isCombiningMark_cert16 : certify Char16.isCombiningMark (2 ^ 16) Char16.isCombiningMarkEnds []
    (within 0 0xFFFF Ucd.combiningMark) = true := by
  decide +kernel
theorem combiningMark_cut : cutsAt 0 0xFFFF Ucd.combiningMark = true := by decide +kernel

theorem isDecimalDigit_cert32 : certify Char32.isDecimalDigit (2 ^ 32) Char32.isDecimalDigitEnds [] [(0x30, 0x39)] = true := by decide +kernel

theorem isOctalDigit_cert32 : certify Char32.isOctalDigit (2 ^ 32) Char32.isOctalDigitEnds [] [(0x30, 0x37)] = true := by decide +kernel

theorem isHexadecimalDigit_cert32 : certify Char32.isHexadecimalDigit (2 ^ 32) Char32.isHexadecimalDigitEnds [] [(0x30, 0x39), (0x41, 0x46), (0x61, 0x66)] = true := by decide +kernel

theorem isAsciiCodePoint_cert32 : certify Char32.isAsciiCodePoint (2 ^ 32) Char32.isAsciiCodePointEnds [] [(0, 0x7F)] = true := by decide +kernel

theorem isDecimalDigit_cert16 : certify Char16.isDecimalDigit (2 ^ 16) Char16.isDecimalDigitEnds [] [(0x30, 0x39)] = true := by decide +kernel

theorem isOctalDigit_cert16 : certify Char16.isOctalDigit (2 ^ 16) Char16.isOctalDigitEnds [] [(0x30, 0x37)] = true := by decide +kernel

theorem isHexadecimalDigit_cert16 : certify Char16.isHexadecimalDigit (2 ^ 16) Char16.isHexadecimalDigitEnds [] [(0x30, 0x39), (0x41, 0x46), (0x61, 0x66)] = true := by decide +kernel

theorem isAsciiCodePoint_cert16 : certify Char16.isAsciiCodePoint (2 ^ 16) Char16.isAsciiCodePointEnds [] [(0, 0x7F)] = true := by decide +kernel

theorem isDecimalDigit_cert8 : certify Char8.isDecimalDigit (2 ^ 8) Char8.isDecimalDigitEnds [] [(0x30, 0x39)] = true := by decide +kernel

theorem isOctalDigit_cert8 : certify Char8.isOctalDigit (2 ^ 8) Char8.isOctalDigitEnds [] [(0x30, 0x37)] = true := by decide +kernel

theorem isHexadecimalDigit_cert8 : certify Char8.isHexadecimalDigit (2 ^ 8) Char8.isHexadecimalDigitEnds [] [(0x30, 0x39), (0x41, 0x46), (0x61, 0x66)] = true := by decide +kernel

theorem isAsciiCodePoint_cert8 : certify Char8.isAsciiCodePoint (2 ^ 8) Char8.isAsciiCodePointEnds [] [(0, 0x7F)] = true := by decide +kernel

end Verif.Proofs.CodePoint
