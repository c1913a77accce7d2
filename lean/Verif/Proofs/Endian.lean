import Verif.Proofs.UtfDecode2
import Mathlib.Tactic.IntervalCases

/-! Byte order detection. -/
namespace Verif.Proofs
open Verif.Spec Verif.Model

theorem low_iff {w : Nat} (u : BitVec w) : (u.extractLsb' 0 8 == 0#8) = lowByteZero u := by
  rw [Bool.eq_iff_iff, beq_iff_eq, lowByteZero, beq_iff_eq, ← BitVec.toNat_inj]
  simp [BitVec.extractLsb'_toNat]

theorem high_iff {w : Nat} (hw : 8 ≤ w) (u : BitVec w) : (u.extractLsb' (w - 8) 8 == 0#8) = highByteZero u := by
  rw [Bool.eq_iff_iff, beq_iff_eq, highByteZero, beq_iff_eq, ← BitVec.toNat_inj]
  simp only [BitVec.extractLsb'_toNat, BitVec.toNat_ofNat, Nat.zero_mod, Nat.shiftRight_eq_div_pow]
  have h : u.toNat / 2 ^ (w - 8) < 2 ^ 8 := by
    rw [Nat.div_lt_iff_lt_mul (Nat.two_pow_pos _), ← Nat.pow_add, show 8 + (w - 8) = w by omega]
    exact u.isLt
  rw [Nat.mod_eq_of_lt h]

theorem detect_iff {w : Nat} (hw : 8 ≤ w) (l : List (BitVec w)) :
    detectPlatformEndian l = decide ((l.filter lowByteZero).length < (l.filter highByteZero).length) := by
  unfold detectPlatformEndian
  have h1 : (fun c : BitVec w => c.extractLsb' 0 8 == 0#8) = lowByteZero := funext low_iff
  have h2 : (fun c : BitVec w => c.extractLsb' (w - 8) 8 == 0#8) = highByteZero := funext (high_iff hw)
  simp only [h1, h2, gt_iff_lt]

theorem count_all {α : Type} {p : α → Bool} {l : List α} (h : ∀ x ∈ l, p x = true) : (l.filter p).length = l.length := by
  rw [List.filter_eq_self.2 h]

theorem count_some {α : Type} {p : α → Bool} {l : List α} (h : ∃ x ∈ l, p x = false) :
    (l.filter p).length < l.length := by
  induction l with
  | nil => simp at h
  | cons a l ih =>
    obtain ⟨x, hx, hp⟩ := h
    rcases List.mem_cons.1 hx with rfl | hx
    · rw [List.filter_cons_of_neg (by simp [hp])]
      have := List.length_filter_le p l
      simp; omega
    · have := ih ⟨x, hx, hp⟩
      rw [List.filter_cons]
      split <;> simp only [List.length_cons] <;> omega

theorem endian16_native (str : List (BitVec 16)) (hne : str ≠ []) (h1 : str.head? ≠ some 0xFEFF#16)
    (h2 : str.head? ≠ some 0xFFFE#16)
    (hc : ((str.take 16).filter lowByteZero).length < ((str.take 16).filter highByteZero).length) :
    endian16 str = (0, false) := by
  cases str with
  | nil => exact absurd rfl hne
  | cons u us =>
    simp only [List.head?_cons, ne_eq, Option.some.injEq] at h1 h2
    simp only [endian16, beq_iff_eq, h1, h2, if_false, detect_iff (w := 16) (by decide), hc, decide_true,
      Bool.not_true]

theorem endian32_native (str : List (BitVec 32)) (hne : str ≠ []) (h1 : str.head? ≠ some 0xFEFF#32)
    (h2 : str.head? ≠ some 0xFFFE0000#32)
    (hc : ((str.take 16).filter lowByteZero).length < ((str.take 16).filter highByteZero).length) :
    endian32 str = (0, false) := by
  cases str with
  | nil => exact absurd rfl hne
  | cons u us =>
    simp only [List.head?_cons, ne_eq, Option.some.injEq] at h1 h2
    simp only [endian32, beq_iff_eq, h1, h2, if_false, detect_iff (w := 32) (by decide), hc, decide_true,
      Bool.not_true]

theorem endian32_swapped (str : List (BitVec 32)) (hne : str ≠ []) (h1 : str.head? ≠ some 0xFEFF#32)
    (h2 : str.head? ≠ some 0xFFFE0000#32)
    (hc : ((str.take 16).filter highByteZero).length ≤ ((str.take 16).filter lowByteZero).length) :
    endian32 str = (0, true) := by
  cases str with
  | nil => exact absurd rfl hne
  | cons u us =>
    simp only [List.head?_cons, ne_eq, Option.some.injEq] at h1 h2
    have : ¬ ((List.take 16 (u :: us)).filter lowByteZero).length <
        ((List.take 16 (u :: us)).filter highByteZero).length := by omega
    simp only [endian32, beq_iff_eq, h1, h2, if_false, detect_iff (w := 32) (by decide), this, decide_false,
      Bool.not_false]

theorem endian16_swapped (str : List (BitVec 16)) (hne : str ≠ []) (h1 : str.head? ≠ some 0xFEFF#16)
    (h2 : str.head? ≠ some 0xFFFE#16)
    (hc : ((str.take 16).filter highByteZero).length ≤ ((str.take 16).filter lowByteZero).length) :
    endian16 str = (0, true) := by
  cases str with
  | nil => exact absurd rfl hne
  | cons u us =>
    simp only [List.head?_cons, ne_eq, Option.some.injEq] at h1 h2
    have : ¬ ((List.take 16 (u :: us)).filter lowByteZero).length <
        ((List.take 16 (u :: us)).filter highByteZero).length := by omega
    simp only [endian16, beq_iff_eq, h1, h2, if_false, detect_iff (w := 16) (by decide), this, decide_false,
      Bool.not_false]

theorem rawL_id (start : Nat) (us : List (BitVec 32)) : rawL id start us = unitReports start us := by
  induction us generalizing start with
  | nil => rfl
  | cons u us ih => simp [rawL, unitReports, ih]

theorem fwdL_bmp (us : List (BitVec 16)) (hs : ∀ u ∈ us, u.toNat < 0xD800 ∨ 0xE000 ≤ u.toNat) (d : Utf16Decoder)
    (hd : d.state = .initial ∨ d.state = .hasCodepoint) (start : Nat) :
    fwdL utf16Ops (·.zeroExtend 32) us d start [] = unitReports start us := by
  induction us generalizing d start with
  | nil => rfl
  | cons u us ih =>
    have hu := hs u (by simp)
    have hb : Utf16Decoder.unitClass u = .basicMultilingual := by
      unfold Utf16Decoder.unitClass
      rw [if_neg, if_neg]
      · simp only [BitVec.le_def, BitVec.toNat_ofNat]; omega
      · simp only [BitVec.le_def, BitVec.toNat_ofNat]; omega
    have hf : d.feed u = { codepoint := u.zeroExtend 32, state := .hasCodepoint } := by
      rcases hd with hd | hd <;> simp only [Utf16Decoder.feed, hb, hd]
    rw [fwdL]
    have hf' : utf16Ops.feed d u = { codepoint := u.zeroExtend 32, state := .hasCodepoint } := hf
    simp only [hf']
    rw [if_pos (by rfl)]
    simp only [List.nil_append, List.length_singleton, unitReports]
    congr 1
    exact ih (fun x hx => hs x (by simp [hx])) _ (Or.inr rfl) (start + 1)

theorem byteReverse32_invol (v : BitVec 32) : byteReverse32 (byteReverse32 v) = v := by
  unfold byteReverse32
  apply BitVec.eq_of_getLsbD_eq
  intro i hi
  interval_cases i <;> simp

theorem utf16_pair (c : Nat) (h : 0x10000 ≤ c) (h' : c ≤ 0x10FFFF) : ∃ hi lo : BitVec 16, utf16 c = [hi, lo] ∧
    hi.toNat = 0xD800 + (c - 0x10000) / 1024 ∧ lo.toNat = 0xDC00 + (c - 0x10000) % 1024 := by
  refine ⟨_, _, by unfold utf16; rw [if_neg (by omega)], ?_, ?_⟩
  · rw [BitVec.toNat_ofNat]; omega
  · rw [BitVec.toNat_ofNat]; omega

theorem unitClass_high (hi : BitVec 16) (h1 : 0xD800 ≤ hi.toNat) (h2 : hi.toNat < 0xDC00) :
    Utf16Decoder.unitClass hi = .highSurrogate := by
  unfold Utf16Decoder.unitClass
  rw [if_neg, if_pos]
  · simp only [BitVec.le_def, BitVec.toNat_ofNat]; omega
  · simp only [BitVec.le_def, BitVec.toNat_ofNat]; omega

theorem unitClass_low (lo : BitVec 16) (h1 : 0xDC00 ≤ lo.toNat) (h2 : lo.toNat < 0xE000) :
    Utf16Decoder.unitClass lo = .lowSurrogate := by
  unfold Utf16Decoder.unitClass
  rw [if_pos]
  simp only [BitVec.le_def, BitVec.toNat_ofNat]; omega

/-- every 16 bit unit is reported on its own, surrogates too: the decoder never combines a pair (see C03) -/
theorem fwdL_units (us : List (BitVec 16)) (d : Utf16Decoder) (hd : d.state = .initial ∨ d.state = .hasCodepoint)
    (start : Nat) : fwdL utf16Ops (·.zeroExtend 32) us d start [] = unitReports start us := by
  induction us generalizing d start with
  | nil => rfl
  | cons u us ih =>
    rw [fwdL]
    by_cases hl : Utf16Decoder.unitClass u = .lowSurrogate
    · have hf' : utf16Ops.feed d u = { d with state := .error } := by
        show d.feed u = _
        rcases hd with hd | hd <;> simp only [Utf16Decoder.feed, hl, hd]
      simp only [hf']
      rw [if_neg (by simp [utf16Ops, Utf16Decoder.hasValue]), if_pos (by rfl)]
      simp only [List.nil_append, rawL, List.length_singleton, unitReports, List.cons_append]
      congr 1
      exact ih _ (Or.inl rfl) (start + 1)
    · have hf' : utf16Ops.feed d u = { codepoint := u.zeroExtend 32, state := .hasCodepoint } := by
        show d.feed u = _
        cases hc : Utf16Decoder.unitClass u with
        | lowSurrogate => exact absurd hc hl
        | basicMultilingual => rcases hd with hd | hd <;> simp only [Utf16Decoder.feed, hc, hd]
        | highSurrogate => rcases hd with hd | hd <;> simp only [Utf16Decoder.feed, hc, hd]
      simp only [hf']
      rw [if_pos (by rfl)]
      simp only [List.nil_append, List.length_singleton, unitReports]
      congr 1
      exact ih _ (Or.inr rfl) (start + 1)

end Verif.Proofs
