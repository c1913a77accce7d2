import Verif.Proofs.Unicode
import Verif.Model.Chars

/-!
# C13-C15, C60-C65: code point predicates

The specification is the Unicode Character Database, `Verif.Spec.Ucd`.
-/
namespace Verif.Props
open Verif.Spec Verif.Model Verif.Model.CodePoint Verif.Proofs.CodePoint

/-! ## C13 -/

/-- **C13 is violated**: on these `char32_t` values `is_whitespace` and `is_not_whitespace` reach `MUU_UNREACHABLE`. -/
theorem C13_is_whitespace_undefined32_violated (c : BitVec 32)
    (h : InRanges [(0x160B, 0x167F), (0x1681, 0x16C8), (0x2F47, 0x2FFF)] c.toNat) :
    isWhitespace32 c = none ∧ isNotWhitespace32 c = none := by
  have hc : c.toNat < 2 ^ 32 := c.isLt
  have ha := (eval_of_certify isAsciiWhitespace_cert32 whiteSpace_cut1 hc).2 (by simp [InRanges])
  have hn := (eval_of_certify isNonAsciiWhitespace_cert32 whiteSpace_cut4 hc).1 h
  refine either_ub ?_ hn
  rw [ha]
  simp only [InRanges, List.mem_cons, List.not_mem_nil, or_false, exists_eq_or_imp, exists_eq_left] at h
  simp; omega

/-- **C13 (partial)** (`char32_t`) `is_whitespace` is defined and is the Unicode property, and `is_not_whitespace` is its negation. Missing from the full statement: the values with undefined behaviour, for which it is false. -/
theorem C13_is_whitespace32_partial (c : BitVec 32)
    (h : ¬ InRanges [(0x160B, 0x167F), (0x1681, 0x16C8), (0x2F47, 0x2FFF)] c.toNat) :
    isWhitespace32 c = some (decide (InRanges Ucd.whiteSpace c.toNat)) ∧
    isNotWhitespace32 c = some (!decide (InRanges Ucd.whiteSpace c.toNat)) := by
  have hc : c.toNat < 2 ^ 32 := c.isLt
  have ha := (eval_of_certify isAsciiWhitespace_cert32 whiteSpace_cut1 hc).2 (by simp [InRanges])
  have hn := (eval_of_certify isNonAsciiWhitespace_cert32 whiteSpace_cut4 hc).2 h
  unfold isWhitespace32 isNotWhitespace32
  rw [(either_ranges ha hn).1, (either_ranges ha hn).2]
  have e : (InRanges Ucd.whiteSpace c.toNat ∧ c.toNat ≤ max 0x7F 0xFFFFFFFF) ↔ InRanges Ucd.whiteSpace c.toNat := by
    constructor
    · exact And.left
    · intro h'; exact ⟨h', by omega⟩
  simp only [e, decide_not, and_self]

/-- **C13 is violated**: on these `char16_t` values `is_whitespace` and `is_not_whitespace` reach `MUU_UNREACHABLE`. -/
theorem C13_is_whitespace_undefined16_violated (c : BitVec 16)
    (h : InRanges [(0x160B, 0x167F), (0x1681, 0x16C8), (0x2F47, 0x2FFF)] c.toNat) :
    isWhitespace16 c = none ∧ isNotWhitespace16 c = none := by
  have hc : c.toNat < 2 ^ 16 := c.isLt
  have ha := (eval_of_certify isAsciiWhitespace_cert16 whiteSpace_cut1 hc).2 (by simp [InRanges])
  have hn := (eval_of_certify isNonAsciiWhitespace_cert16 whiteSpace_cut3 hc).1 h
  refine either_ub ?_ hn
  rw [ha]
  simp only [InRanges, List.mem_cons, List.not_mem_nil, or_false, exists_eq_or_imp, exists_eq_left] at h
  simp; omega

/-- **C13 (partial)** (`char16_t`) `is_whitespace` is defined and is the Unicode property, and `is_not_whitespace` is its negation. Missing from the full statement: the values with undefined behaviour, for which it is false. -/
theorem C13_is_whitespace16_partial (c : BitVec 16)
    (h : ¬ InRanges [(0x160B, 0x167F), (0x1681, 0x16C8), (0x2F47, 0x2FFF)] c.toNat) :
    isWhitespace16 c = some (decide (InRanges Ucd.whiteSpace c.toNat)) ∧
    isNotWhitespace16 c = some (!decide (InRanges Ucd.whiteSpace c.toNat)) := by
  have hc : c.toNat < 2 ^ 16 := c.isLt
  have ha := (eval_of_certify isAsciiWhitespace_cert16 whiteSpace_cut1 hc).2 (by simp [InRanges])
  have hn := (eval_of_certify isNonAsciiWhitespace_cert16 whiteSpace_cut3 hc).2 h
  unfold isWhitespace16 isNotWhitespace16
  rw [(either_ranges ha hn).1, (either_ranges ha hn).2]
  have e : (InRanges Ucd.whiteSpace c.toNat ∧ c.toNat ≤ max 0x7F 0xFFFF) ↔ InRanges Ucd.whiteSpace c.toNat := by
    constructor
    · exact And.left
    · intro h'; exact ⟨h', by omega⟩
  simp only [e, decide_not, and_self]

example : isWhitespace32 0x2003#32 = some true ∧ isWhitespace16 0x41#16 = some false := by decide +kernel
example : isWhitespace32 0x16A0#32 = none := by decide +kernel

/-! ## C14 -/

/-- **C14 is violated**: on these `char32_t` values `is_hyphen` and `is_not_hyphen` reach `MUU_UNREACHABLE`. -/
theorem C14_is_hyphen_undefined32_violated (c : BitVec 32)
    (h : InRanges [(0xAE, 0x589), (0x58B, 0x8A2), (0x1494, 0x1805), (0x1807, 0x188E), (0x2C76, 0x2E16),
      (0x2E18, 0x30FA), (0x30FC, 0x346B)] c.toNat) :
    isHyphen32 c = none ∧ isNotHyphen32 c = none := by
  have hc : c.toNat < 2 ^ 32 := c.isLt
  have ha := (eval_of_certify isAsciiHyphen_cert32 hyphen_cut1 hc).2 (by simp [InRanges])
  have hn := (eval_of_certify isNonAsciiHyphen_cert32 hyphen_cut4 hc).1 h
  refine either_ub ?_ hn
  rw [ha]
  simp only [InRanges, List.mem_cons, List.not_mem_nil, or_false, exists_eq_or_imp, exists_eq_left] at h
  simp; omega

/-- **C14 (partial)** (`char32_t`) `is_hyphen` is defined and is the Unicode property, and `is_not_hyphen` is its negation. Missing from the full statement: the values with undefined behaviour, for which it is false. -/
theorem C14_is_hyphen32_partial (c : BitVec 32)
    (h : ¬ InRanges [(0xAE, 0x589), (0x58B, 0x8A2), (0x1494, 0x1805), (0x1807, 0x188E), (0x2C76, 0x2E16),
      (0x2E18, 0x30FA), (0x30FC, 0x346B)] c.toNat) :
    isHyphen32 c = some (decide (InRanges Ucd.hyphen c.toNat)) ∧
    isNotHyphen32 c = some (!decide (InRanges Ucd.hyphen c.toNat)) := by
  have hc : c.toNat < 2 ^ 32 := c.isLt
  have ha := (eval_of_certify isAsciiHyphen_cert32 hyphen_cut1 hc).2 (by simp [InRanges])
  have hn := (eval_of_certify isNonAsciiHyphen_cert32 hyphen_cut4 hc).2 h
  unfold isHyphen32 isNotHyphen32
  rw [(either_ranges ha hn).1, (either_ranges ha hn).2]
  have e : (InRanges Ucd.hyphen c.toNat ∧ c.toNat ≤ max 0x7F 0xFFFFFFFF) ↔ InRanges Ucd.hyphen c.toNat := by
    constructor
    · exact And.left
    · intro h'; exact ⟨h', by omega⟩
  simp only [e, decide_not, and_self]

/-- **C14 is violated**: on these `char16_t` values `is_hyphen` and `is_not_hyphen` reach `MUU_UNREACHABLE`. -/
theorem C14_is_hyphen_undefined16_violated (c : BitVec 16)
    (h : InRanges [(0xAE, 0x589), (0x58B, 0x8A2), (0x1494, 0x1805), (0x1807, 0x188E), (0x2C76, 0x2E16),
      (0x2E18, 0x30FA), (0x30FC, 0x346B)] c.toNat) :
    isHyphen16 c = none ∧ isNotHyphen16 c = none := by
  have hc : c.toNat < 2 ^ 16 := c.isLt
  have ha := (eval_of_certify isAsciiHyphen_cert16 hyphen_cut1 hc).2 (by simp [InRanges])
  have hn := (eval_of_certify isNonAsciiHyphen_cert16 hyphen_cut3 hc).1 h
  refine either_ub ?_ hn
  rw [ha]
  simp only [InRanges, List.mem_cons, List.not_mem_nil, or_false, exists_eq_or_imp, exists_eq_left] at h
  simp; omega

/-- **C14 (partial)** (`char16_t`) `is_hyphen` is defined and is the Unicode property, and `is_not_hyphen` is its negation. Missing from the full statement: the values with undefined behaviour, for which it is false. -/
theorem C14_is_hyphen16_partial (c : BitVec 16)
    (h : ¬ InRanges [(0xAE, 0x589), (0x58B, 0x8A2), (0x1494, 0x1805), (0x1807, 0x188E), (0x2C76, 0x2E16),
      (0x2E18, 0x30FA), (0x30FC, 0x346B)] c.toNat) :
    isHyphen16 c = some (decide (InRanges Ucd.hyphen c.toNat)) ∧
    isNotHyphen16 c = some (!decide (InRanges Ucd.hyphen c.toNat)) := by
  have hc : c.toNat < 2 ^ 16 := c.isLt
  have ha := (eval_of_certify isAsciiHyphen_cert16 hyphen_cut1 hc).2 (by simp [InRanges])
  have hn := (eval_of_certify isNonAsciiHyphen_cert16 hyphen_cut3 hc).2 h
  unfold isHyphen16 isNotHyphen16
  rw [(either_ranges ha hn).1, (either_ranges ha hn).2]
  have e : (InRanges Ucd.hyphen c.toNat ∧ c.toNat ≤ max 0x7F 0xFFFF) ↔ InRanges Ucd.hyphen c.toNat := by
    constructor
    · exact And.left
    · intro h'; exact ⟨h', by omega⟩
  simp only [e, decide_not, and_self]

example : isHyphen32 0x2010#32 = some true ∧ isHyphen16 0x41#16 = some false := by decide +kernel
example : isHyphen32 0xAE#32 = none := by decide +kernel

/-! ## C60 -/

/-- **C60** (`char32_t`) `is_letter` is defined and is the Unicode property, and `is_not_letter` is its negation. -/
theorem C60_is_letter32 (c : BitVec 32) :
    isLetter32 c = some (decide (InRanges Ucd.letter c.toNat)) ∧
    isNotLetter32 c = some (!decide (InRanges Ucd.letter c.toNat)) := by
  have hc : c.toNat < 2 ^ 32 := c.isLt
  have ha := (eval_of_certify isAsciiLetter_cert32 letter_cut1 hc).2 (by simp [InRanges])
  have hn := (eval_of_certify isNonAsciiLetter_cert32 letter_cut4 hc).2 (by simp [InRanges])
  unfold isLetter32 isNotLetter32
  rw [(either_ranges ha hn).1, (either_ranges ha hn).2]
  have e : (InRanges Ucd.letter c.toNat ∧ c.toNat ≤ max 0x7F 0xFFFFFFFF) ↔ InRanges Ucd.letter c.toNat := by
    constructor
    · exact And.left
    · intro h'; exact ⟨h', by omega⟩
  simp only [e, decide_not, and_self]

/-- **C60** (`char16_t`) `is_letter` is defined and is the Unicode property, and `is_not_letter` is its negation. -/
theorem C60_is_letter16 (c : BitVec 16) :
    isLetter16 c = some (decide (InRanges Ucd.letter c.toNat)) ∧
    isNotLetter16 c = some (!decide (InRanges Ucd.letter c.toNat)) := by
  have hc : c.toNat < 2 ^ 16 := c.isLt
  have ha := (eval_of_certify isAsciiLetter_cert16 letter_cut1 hc).2 (by simp [InRanges])
  have hn := (eval_of_certify isNonAsciiLetter_cert16 letter_cut3 hc).2 (by simp [InRanges])
  unfold isLetter16 isNotLetter16
  rw [(either_ranges ha hn).1, (either_ranges ha hn).2]
  have e : (InRanges Ucd.letter c.toNat ∧ c.toNat ≤ max 0x7F 0xFFFF) ↔ InRanges Ucd.letter c.toNat := by
    constructor
    · exact And.left
    · intro h'; exact ⟨h', by omega⟩
  simp only [e, decide_not, and_self]

example : isLetter32 0x4E2D#32 = some true ∧ isLetter16 0x41#16 = some true := by decide +kernel

/-! ## C61 -/

/-- **C61** (`char32_t`) `is_number` is defined and is the Unicode property, and `is_not_number` is its negation. -/
theorem C61_is_number32 (c : BitVec 32) :
    isNumber32 c = some (decide (InRanges Ucd.number c.toNat)) ∧
    isNotNumber32 c = some (!decide (InRanges Ucd.number c.toNat)) := by
  have hc : c.toNat < 2 ^ 32 := c.isLt
  have ha := (eval_of_certify isAsciiNumber_cert32 number_cut1 hc).2 (by simp [InRanges])
  have hn := (eval_of_certify isNonAsciiNumber_cert32 number_cut4 hc).2 (by simp [InRanges])
  unfold isNumber32 isNotNumber32
  rw [(either_ranges ha hn).1, (either_ranges ha hn).2]
  have e : (InRanges Ucd.number c.toNat ∧ c.toNat ≤ max 0x7F 0xFFFFFFFF) ↔ InRanges Ucd.number c.toNat := by
    constructor
    · exact And.left
    · intro h'; exact ⟨h', by omega⟩
  simp only [e, decide_not, and_self]

/-- **C61** (`char16_t`) `is_number` is defined and is the Unicode property, and `is_not_number` is its negation. -/
theorem C61_is_number16 (c : BitVec 16) :
    isNumber16 c = some (decide (InRanges Ucd.number c.toNat)) ∧
    isNotNumber16 c = some (!decide (InRanges Ucd.number c.toNat)) := by
  have hc : c.toNat < 2 ^ 16 := c.isLt
  have ha := (eval_of_certify isAsciiNumber_cert16 number_cut1 hc).2 (by simp [InRanges])
  have hn := (eval_of_certify isNonAsciiNumber_cert16 number_cut3 hc).2 (by simp [InRanges])
  unfold isNumber16 isNotNumber16
  rw [(either_ranges ha hn).1, (either_ranges ha hn).2]
  have e : (InRanges Ucd.number c.toNat ∧ c.toNat ≤ max 0x7F 0xFFFF) ↔ InRanges Ucd.number c.toNat := by
    constructor
    · exact And.left
    · intro h'; exact ⟨h', by omega⟩
  simp only [e, decide_not, and_self]

example : isNumber32 0x663#32 = some true ∧ isNumber16 0x41#16 = some false := by decide +kernel

/-! ## C63 -/

/-- **C63 is violated**: no code point beyond the Basic Multilingual Plane is recognised although many have the property. -/
theorem C63_is_lowercase_supplementary_violated (c : BitVec 32) (h : 0x10000 ≤ c.toNat) : isLowercase32 c = some false := by
  have hc : c.toNat < 2 ^ 32 := c.isLt
  have ha := (eval_of_certify isAsciiLowercase_cert32 lowercase_cut1 hc).2 (by simp [InRanges])
  have hn := (eval_of_certify isNonAsciiLowercase_cert32 lowercase_cut3 hc).2 (by simp [InRanges])
  unfold isLowercase32
  rw [(either_ranges ha hn).1]
  simp; omega

/-- a code point with the property on which it is violated -/
example : InRanges Ucd.lowercase 0x10428 := by decide +kernel

/-- **C63 (partial)** (`char32_t`) `is_lowercase` is defined and is the Unicode property, and `is_not_lowercase` is its negation. Missing from the full statement: the supplementary code points with the property, for which it is false. -/
theorem C63_is_lowercase32_partial (c : BitVec 32)
    (hb : c.toNat < 0x10000 ∨ ¬ InRanges Ucd.lowercase c.toNat) :
    isLowercase32 c = some (decide (InRanges Ucd.lowercase c.toNat)) ∧
    isNotLowercase32 c = some (!decide (InRanges Ucd.lowercase c.toNat)) := by
  have hc : c.toNat < 2 ^ 32 := c.isLt
  have ha := (eval_of_certify isAsciiLowercase_cert32 lowercase_cut1 hc).2 (by simp [InRanges])
  have hn := (eval_of_certify isNonAsciiLowercase_cert32 lowercase_cut3 hc).2 (by simp [InRanges])
  unfold isLowercase32 isNotLowercase32
  rw [(either_ranges ha hn).1, (either_ranges ha hn).2]
  have e : (InRanges Ucd.lowercase c.toNat ∧ c.toNat ≤ max 0x7F 0xFFFF) ↔ InRanges Ucd.lowercase c.toNat := by
    constructor
    · exact And.left
    · intro h'
      refine ⟨h', ?_⟩
      rcases hb with hb | hb
      · omega
      · exact absurd h' hb
  simp only [e, decide_not, and_self]

/-- **C63** (`char16_t`) `is_lowercase` is defined and is the Unicode property, and `is_not_lowercase` is its negation. -/
theorem C63_is_lowercase16 (c : BitVec 16) :
    isLowercase16 c = some (decide (InRanges Ucd.lowercase c.toNat)) ∧
    isNotLowercase16 c = some (!decide (InRanges Ucd.lowercase c.toNat)) := by
  have hc : c.toNat < 2 ^ 16 := c.isLt
  have ha := (eval_of_certify isAsciiLowercase_cert16 lowercase_cut1 hc).2 (by simp [InRanges])
  have hn := (eval_of_certify isNonAsciiLowercase_cert16 lowercase_cut3 hc).2 (by simp [InRanges])
  unfold isLowercase16 isNotLowercase16
  rw [(either_ranges ha hn).1, (either_ranges ha hn).2]
  have e : (InRanges Ucd.lowercase c.toNat ∧ c.toNat ≤ max 0x7F 0xFFFF) ↔ InRanges Ucd.lowercase c.toNat := by
    constructor
    · exact And.left
    · intro h'; exact ⟨h', by omega⟩
  simp only [e, decide_not, and_self]

example : isLowercase32 0xE9#32 = some true ∧ isLowercase16 0x41#16 = some false := by decide +kernel

/-! ## C64 -/

/-- **C64 is violated**: on these `char32_t` values `is_uppercase` and `is_not_uppercase` reach `MUU_UNREACHABLE`. -/
theorem C64_is_uppercase_undefined32_violated (c : BitVec 32)
    (h : InRanges [(0x2182, 0x2182)] c.toNat) :
    isUppercase32 c = none ∧ isNotUppercase32 c = none := by
  have hc : c.toNat < 2 ^ 32 := c.isLt
  have ha := (eval_of_certify isAsciiUppercase_cert32 uppercase_cut1 hc).2 (by simp [InRanges])
  have hn := (eval_of_certify isNonAsciiUppercase_cert32 uppercase_cut3 hc).1 h
  refine either_ub ?_ hn
  rw [ha]
  simp only [InRanges, List.mem_cons, List.not_mem_nil, or_false, exists_eq_left] at h
  simp; omega

/-- **C64 is violated**: no code point beyond the Basic Multilingual Plane is recognised although many have the property. -/
theorem C64_is_uppercase_supplementary_violated (c : BitVec 32) (h : 0x10000 ≤ c.toNat) : isUppercase32 c = some false := by
  have hc : c.toNat < 2 ^ 32 := c.isLt
  have ha := (eval_of_certify isAsciiUppercase_cert32 uppercase_cut1 hc).2 (by simp [InRanges])
  have hn := (eval_of_certify isNonAsciiUppercase_cert32 uppercase_cut3 hc).2 (by simp [uppercaseUb, InRanges]; omega)
  unfold isUppercase32
  rw [(either_ranges ha hn).1]
  simp; omega

/-- a code point with the property on which it is violated -/
example : InRanges Ucd.uppercase 0x10400 := by decide +kernel

/-- **C64 (partial)** (`char32_t`) `is_uppercase` is defined and is the Unicode property, and `is_not_uppercase` is its negation. Missing from the full statement: the values with undefined behaviour and the supplementary code points with the property, for which it is false. -/
theorem C64_is_uppercase32_partial (c : BitVec 32)
    (h : ¬ InRanges [(0x2182, 0x2182)] c.toNat)
    (hb : c.toNat < 0x10000 ∨ ¬ InRanges Ucd.uppercase c.toNat) :
    isUppercase32 c = some (decide (InRanges Ucd.uppercase c.toNat)) ∧
    isNotUppercase32 c = some (!decide (InRanges Ucd.uppercase c.toNat)) := by
  have hc : c.toNat < 2 ^ 32 := c.isLt
  have ha := (eval_of_certify isAsciiUppercase_cert32 uppercase_cut1 hc).2 (by simp [InRanges])
  have hn := (eval_of_certify isNonAsciiUppercase_cert32 uppercase_cut3 hc).2 h
  unfold isUppercase32 isNotUppercase32
  rw [(either_ranges ha hn).1, (either_ranges ha hn).2]
  have e : (InRanges Ucd.uppercase c.toNat ∧ c.toNat ≤ max 0x7F 0xFFFF) ↔ InRanges Ucd.uppercase c.toNat := by
    constructor
    · exact And.left
    · intro h'
      refine ⟨h', ?_⟩
      rcases hb with hb | hb
      · omega
      · exact absurd h' hb
  simp only [e, decide_not, and_self]

/-- **C64 is violated**: on these `char16_t` values `is_uppercase` and `is_not_uppercase` reach `MUU_UNREACHABLE`. -/
theorem C64_is_uppercase_undefined16_violated (c : BitVec 16)
    (h : InRanges [(0x2182, 0x2182)] c.toNat) :
    isUppercase16 c = none ∧ isNotUppercase16 c = none := by
  have hc : c.toNat < 2 ^ 16 := c.isLt
  have ha := (eval_of_certify isAsciiUppercase_cert16 uppercase_cut1 hc).2 (by simp [InRanges])
  have hn := (eval_of_certify isNonAsciiUppercase_cert16 uppercase_cut3 hc).1 h
  refine either_ub ?_ hn
  rw [ha]
  simp only [InRanges, List.mem_cons, List.not_mem_nil, or_false, exists_eq_left] at h
  simp; omega

/-- **C64 (partial)** (`char16_t`) `is_uppercase` is defined and is the Unicode property, and `is_not_uppercase` is its negation. Missing from the full statement: the values with undefined behaviour, for which it is false. -/
theorem C64_is_uppercase16_partial (c : BitVec 16)
    (h : ¬ InRanges [(0x2182, 0x2182)] c.toNat) :
    isUppercase16 c = some (decide (InRanges Ucd.uppercase c.toNat)) ∧
    isNotUppercase16 c = some (!decide (InRanges Ucd.uppercase c.toNat)) := by
  have hc : c.toNat < 2 ^ 16 := c.isLt
  have ha := (eval_of_certify isAsciiUppercase_cert16 uppercase_cut1 hc).2 (by simp [InRanges])
  have hn := (eval_of_certify isNonAsciiUppercase_cert16 uppercase_cut3 hc).2 h
  unfold isUppercase16 isNotUppercase16
  rw [(either_ranges ha hn).1, (either_ranges ha hn).2]
  have e : (InRanges Ucd.uppercase c.toNat ∧ c.toNat ≤ max 0x7F 0xFFFF) ↔ InRanges Ucd.uppercase c.toNat := by
    constructor
    · exact And.left
    · intro h'; exact ⟨h', by omega⟩
  simp only [e, decide_not, and_self]

example : isUppercase32 0xC9#32 = some true ∧ isUppercase16 0x41#16 = some true := by decide +kernel
example : isUppercase32 0x2182#32 = none := by decide +kernel

/-! ## C62 -/

/-- **C62** `is_combining_mark` is defined everywhere and is exactly general category Mn or Mc. -/
theorem C62_is_combining_mark32 (c : BitVec 32) :
    Char32.isCombiningMark.eval c.toNat = some (decide (InRanges Ucd.combiningMark c.toNat)) :=
  (certify_sound isCombiningMark_cert32 c.isLt).2 (by simp [InRanges])

theorem C62_is_combining_mark16 (c : BitVec 16) :
    Char16.isCombiningMark.eval c.toNat = some (decide (InRanges Ucd.combiningMark c.toNat)) := by
  have := (eval_of_certify isCombiningMark_cert16 combiningMark_cut c.isLt).2 (by simp [InRanges])
  rw [this]
  have : c.toNat ≤ 0xFFFF := by omega
  simp [this]

example : Char32.isCombiningMark.eval 0x301 = some true ∧ Char32.isCombiningMark.eval 0x41 = some false := by
  decide +kernel

/-! ## C65 -/

/-- **C65** `is_whitespace` on 8-bit code units -/
theorem C65_is_whitespace8 (c : BitVec 8) :
    isWhitespace8 c = some (decide (c.toNat < 0x80 ∧ InRanges Ucd.whiteSpace c.toNat)) ∧
    isNotWhitespace8 c = some (!decide (c.toNat < 0x80 ∧ InRanges Ucd.whiteSpace c.toNat)) := by
  have hc : c.toNat < 2 ^ 8 := c.isLt
  have ha := (eval_of_certify isAsciiWhitespace_cert8 whiteSpace_cut1 hc).2 (by simp [InRanges])
  have hn := (eval_of_certify isNonAsciiWhitespace_cert8 whiteSpace_cut2 hc).2 (by simp [InRanges])
  unfold isWhitespace8 isNotWhitespace8
  rw [(either_ranges ha hn).1, (either_ranges ha hn).2]
  have e : (InRanges Ucd.whiteSpace c.toNat ∧ c.toNat ≤ max 0x7F 0x7F) ↔ (c.toNat < 0x80 ∧ InRanges Ucd.whiteSpace c.toNat) := by
    rw [and_comm]; exact and_congr_left' (by omega)
  simp only [e, decide_not, and_self]

/-- **C65** `is_hyphen` on 8-bit code units -/
theorem C65_is_hyphen8 (c : BitVec 8) :
    isHyphen8 c = some (decide (c.toNat < 0x80 ∧ InRanges Ucd.hyphen c.toNat)) ∧
    isNotHyphen8 c = some (!decide (c.toNat < 0x80 ∧ InRanges Ucd.hyphen c.toNat)) := by
  have hc : c.toNat < 2 ^ 8 := c.isLt
  have ha := (eval_of_certify isAsciiHyphen_cert8 hyphen_cut1 hc).2 (by simp [InRanges])
  have hn := (eval_of_certify isNonAsciiHyphen_cert8 hyphen_cut2 hc).2 (by simp [InRanges])
  unfold isHyphen8 isNotHyphen8
  rw [(either_ranges ha hn).1, (either_ranges ha hn).2]
  have e : (InRanges Ucd.hyphen c.toNat ∧ c.toNat ≤ max 0x7F 0x7F) ↔ (c.toNat < 0x80 ∧ InRanges Ucd.hyphen c.toNat) := by
    rw [and_comm]; exact and_congr_left' (by omega)
  simp only [e, decide_not, and_self]

/-- **C65** `is_letter` on 8-bit code units -/
theorem C65_is_letter8 (c : BitVec 8) :
    isLetter8 c = some (decide (c.toNat < 0x80 ∧ InRanges Ucd.letter c.toNat)) ∧
    isNotLetter8 c = some (!decide (c.toNat < 0x80 ∧ InRanges Ucd.letter c.toNat)) := by
  have hc : c.toNat < 2 ^ 8 := c.isLt
  have ha := (eval_of_certify isAsciiLetter_cert8 letter_cut1 hc).2 (by simp [InRanges])
  have hn := (eval_of_certify isNonAsciiLetter_cert8 letter_cut2 hc).2 (by simp [InRanges])
  unfold isLetter8 isNotLetter8
  rw [(either_ranges ha hn).1, (either_ranges ha hn).2]
  have e : (InRanges Ucd.letter c.toNat ∧ c.toNat ≤ max 0x7F 0x7F) ↔ (c.toNat < 0x80 ∧ InRanges Ucd.letter c.toNat) := by
    rw [and_comm]; exact and_congr_left' (by omega)
  simp only [e, decide_not, and_self]

/-- **C65** `is_number` on 8-bit code units -/
theorem C65_is_number8 (c : BitVec 8) :
    isNumber8 c = some (decide (c.toNat < 0x80 ∧ InRanges Ucd.number c.toNat)) ∧
    isNotNumber8 c = some (!decide (c.toNat < 0x80 ∧ InRanges Ucd.number c.toNat)) := by
  have hc : c.toNat < 2 ^ 8 := c.isLt
  have ha := (eval_of_certify isAsciiNumber_cert8 number_cut1 hc).2 (by simp [InRanges])
  have hn := (eval_of_certify isNonAsciiNumber_cert8 number_cut2 hc).2 (by simp [InRanges])
  unfold isNumber8 isNotNumber8
  rw [(either_ranges ha hn).1, (either_ranges ha hn).2]
  have e : (InRanges Ucd.number c.toNat ∧ c.toNat ≤ max 0x7F 0x7F) ↔ (c.toNat < 0x80 ∧ InRanges Ucd.number c.toNat) := by
    rw [and_comm]; exact and_congr_left' (by omega)
  simp only [e, decide_not, and_self]

/-- **C65** `is_lowercase` on 8-bit code units -/
theorem C65_is_lowercase8 (c : BitVec 8) :
    isLowercase8 c = some (decide (c.toNat < 0x80 ∧ InRanges Ucd.lowercase c.toNat)) ∧
    isNotLowercase8 c = some (!decide (c.toNat < 0x80 ∧ InRanges Ucd.lowercase c.toNat)) := by
  have hc : c.toNat < 2 ^ 8 := c.isLt
  have ha := (eval_of_certify isAsciiLowercase_cert8 lowercase_cut1 hc).2 (by simp [InRanges])
  have hn := (eval_of_certify isNonAsciiLowercase_cert8 lowercase_cut2 hc).2 (by simp [InRanges])
  unfold isLowercase8 isNotLowercase8
  rw [(either_ranges ha hn).1, (either_ranges ha hn).2]
  have e : (InRanges Ucd.lowercase c.toNat ∧ c.toNat ≤ max 0x7F 0x7F) ↔ (c.toNat < 0x80 ∧ InRanges Ucd.lowercase c.toNat) := by
    rw [and_comm]; exact and_congr_left' (by omega)
  simp only [e, decide_not, and_self]

/-- **C65** `is_uppercase` on 8-bit code units -/
theorem C65_is_uppercase8 (c : BitVec 8) :
    isUppercase8 c = some (decide (c.toNat < 0x80 ∧ InRanges Ucd.uppercase c.toNat)) ∧
    isNotUppercase8 c = some (!decide (c.toNat < 0x80 ∧ InRanges Ucd.uppercase c.toNat)) := by
  have hc : c.toNat < 2 ^ 8 := c.isLt
  have ha := (eval_of_certify isAsciiUppercase_cert8 uppercase_cut1 hc).2 (by simp [InRanges])
  have hn := (eval_of_certify isNonAsciiUppercase_cert8 uppercase_cut2 hc).2 (by simp [InRanges])
  unfold isUppercase8 isNotUppercase8
  rw [(either_ranges ha hn).1, (either_ranges ha hn).2]
  have e : (InRanges Ucd.uppercase c.toNat ∧ c.toNat ≤ max 0x7F 0x7F) ↔ (c.toNat < 0x80 ∧ InRanges Ucd.uppercase c.toNat) := by
    rw [and_comm]; exact and_congr_left' (by omega)
  simp only [e, decide_not, and_self]

example : isWhitespace8 0x20#8 = some true ∧ isWhitespace8 0xA0#8 = some false := by decide +kernel

/-! ## C15 -/

/-- the value of a hexadecimal digit -/
def hexValue (c : Nat) : Nat :=
  if c ≤ 0x39 then c - 0x30 else if c ≤ 0x46 then c - 0x41 + 10 else c - 0x61 + 10

/-- '0'-'9', 'A'-'F', 'a'-'f' -/
def IsHexDigit (c : Nat) : Prop := (0x30 ≤ c ∧ c ≤ 0x39) ∨ (0x41 ≤ c ∧ c ≤ 0x46) ∨ (0x61 ≤ c ∧ c ≤ 0x66)

instance (c : Nat) : Decidable (IsHexDigit c) := by unfold IsHexDigit; infer_instance

/-- **C15** the digit predicates on every code unit type -/
theorem C15_digit_predicates32 (c : BitVec 32) :
    Char32.isDecimalDigit.eval c.toNat = some (decide (0x30 ≤ c.toNat ∧ c.toNat ≤ 0x39)) ∧
    Char32.isOctalDigit.eval c.toNat = some (decide (0x30 ≤ c.toNat ∧ c.toNat ≤ 0x37)) ∧
    Char32.isHexadecimalDigit.eval c.toNat = some (decide (IsHexDigit c.toNat)) := by
  refine ⟨?_, ?_, ?_⟩
  · rw [(certify_sound isDecimalDigit_cert32 c.isLt).2 (by simp [InRanges])]; simp [InRanges]
  · rw [(certify_sound isOctalDigit_cert32 c.isLt).2 (by simp [InRanges])]; simp [InRanges]
  · rw [(certify_sound isHexadecimalDigit_cert32 c.isLt).2 (by simp [InRanges])]
    rw [Option.some.injEq, decide_eq_decide]; simp [InRanges, IsHexDigit]

theorem C15_digit_predicates16 (c : BitVec 16) :
    Char16.isDecimalDigit.eval c.toNat = some (decide (0x30 ≤ c.toNat ∧ c.toNat ≤ 0x39)) ∧
    Char16.isOctalDigit.eval c.toNat = some (decide (0x30 ≤ c.toNat ∧ c.toNat ≤ 0x37)) ∧
    Char16.isHexadecimalDigit.eval c.toNat = some (decide (IsHexDigit c.toNat)) := by
  refine ⟨?_, ?_, ?_⟩
  · rw [(certify_sound isDecimalDigit_cert16 c.isLt).2 (by simp [InRanges])]; simp [InRanges]
  · rw [(certify_sound isOctalDigit_cert16 c.isLt).2 (by simp [InRanges])]; simp [InRanges]
  · rw [(certify_sound isHexadecimalDigit_cert16 c.isLt).2 (by simp [InRanges])]
    rw [Option.some.injEq, decide_eq_decide]; simp [InRanges, IsHexDigit]

theorem C15_digit_predicates8 (c : BitVec 8) :
    Char8.isDecimalDigit.eval c.toNat = some (decide (0x30 ≤ c.toNat ∧ c.toNat ≤ 0x39)) ∧
    Char8.isOctalDigit.eval c.toNat = some (decide (0x30 ≤ c.toNat ∧ c.toNat ≤ 0x37)) ∧
    Char8.isHexadecimalDigit.eval c.toNat = some (decide (IsHexDigit c.toNat)) := by
  refine ⟨?_, ?_, ?_⟩
  · rw [(certify_sound isDecimalDigit_cert8 c.isLt).2 (by simp [InRanges])]; simp [InRanges]
  · rw [(certify_sound isOctalDigit_cert8 c.isLt).2 (by simp [InRanges])]; simp [InRanges]
  · rw [(certify_sound isHexadecimalDigit_cert8 c.isLt).2 (by simp [InRanges])]
    rw [Option.some.injEq, decide_eq_decide]; simp [InRanges, IsHexDigit]

/-- **C15** `hex_to_dec` of a hexadecimal digit is its value -/
theorem C15_hex_to_dec (c : BitVec 32) (h : IsHexDigit c.toNat) :
    (hexToDec c).toNat = hexValue c.toNat ∧ (hexToDec c).toNat < 16 := by
  have hlt : c.toNat < 0x67 := by unfold IsHexDigit at h; omega
  have key : ∀ n < 0x67, IsHexDigit n →
      (hexToDec (BitVec.ofNat 32 n)).toNat = hexValue n ∧ (hexToDec (BitVec.ofNat 32 n)).toNat < 16 := by
    decide +kernel
  have := key c.toNat hlt h
  simpa using this

/-- **C15** `dec_to_hex` gives the digit of every value below 16, in lower and in upper case, and `hex_to_dec` undoes it -/
theorem C15_dec_to_hex (n : Nat) (h : n < 16) :
    (hexToDec ((decToHex (BitVec.ofNat 32 n)).zeroExtend 32)).toNat = n ∧
    (hexToDec ((decToHex (BitVec.ofNat 32 n) 0x41#8).zeroExtend 32)).toNat = n ∧
    IsHexDigit (decToHex (BitVec.ofNat 32 n)).toNat ∧ IsHexDigit (decToHex (BitVec.ofNat 32 n) 0x41#8).toNat := by
  revert n; decide +kernel

/-- **C15** `byte_to_hex` gives the two digits of every byte -/
theorem C15_byte_to_hex (b : BitVec 8) :
    hexValue (byteToHex b).1.toNat * 16 + hexValue (byteToHex b).2.toNat = b.toNat ∧
    hexValue (byteToHex b 0x41#8).1.toNat * 16 + hexValue (byteToHex b 0x41#8).2.toNat = b.toNat ∧
    IsHexDigit (byteToHex b).1.toNat ∧ IsHexDigit (byteToHex b).2.toNat := by
  have key : ∀ n < 256,
    hexValue (byteToHex (BitVec.ofNat 8 n)).1.toNat * 16 + hexValue (byteToHex (BitVec.ofNat 8 n)).2.toNat = n ∧
    hexValue (byteToHex (BitVec.ofNat 8 n) 0x41#8).1.toNat * 16 +
      hexValue (byteToHex (BitVec.ofNat 8 n) 0x41#8).2.toNat = n ∧
    IsHexDigit (byteToHex (BitVec.ofNat 8 n)).1.toNat ∧ IsHexDigit (byteToHex (BitVec.ofNat 8 n)).2.toNat := by
    decide +kernel
  have := key b.toNat b.isLt
  simpa using this

example : IsHexDigit 0x66 ∧ hexValue 0x66 = 15 ∧ byteToHex 0xA7#8 = (0x61#8, 0x37#8) := by decide +kernel

end Verif.Props
