import Verif.Proofs.UtfDecode3
import Verif.Proofs.Endian

/-!
# Properties C01–C08: decoding

Models: `Verif.Model.Utf8Decoder`, `Verif.Model.Utf16Decoder`, `Verif.Model.utfDecode8/16/32`.
Specification: `Verif.Spec.Unicode` (the Unicode encoding forms, reports, tilings).
-/
namespace Verif.Props
open Verif.Spec Verif.Model Verif.Proofs

/-! ## C01 -/

/-- **C01** From any decoder that holds a code point (in particular a fresh one), the encoding of any scalar value
is accepted with exactly that value at its last unit, more input is needed before that, and no error appears. -/
theorem C01_utf8_decoder_accepts_encoding (d : Utf8Decoder) (hd : d.hasValue = true) (c : Nat) (hc : IsScalar c) :
    (d.feedAll (utf8 c)).hasValue = true ∧ (d.feedAll (utf8 c)).error = false ∧
    (d.feedAll (utf8 c)).needsMoreInput = false ∧ (d.feedAll (utf8 c)).value.toNat = c ∧
    ∀ n, 0 < n → n < (utf8 c).length →
      (d.feedAll ((utf8 c).take n)).needsMoreInput = true ∧ (d.feedAll ((utf8 c).take n)).hasValue = false ∧
      (d.feedAll ((utf8 c).take n)).error = false := by
  have hd' : d.state = 0 := by simpa [Utf8Decoder.hasValue] using hd
  obtain ⟨⟨h0, hv⟩, hmid⟩ := feed_utf8 hd' hc
  refine ⟨by simp [Utf8Decoder.hasValue, h0], by simp [Utf8Decoder.error, h0],
    by simp [Utf8Decoder.needsMoreInput, h0], hv, ?_⟩
  intro n h1 h2
  obtain ⟨⟨k, lo, hi, t⟩, hp⟩ := hmid n h1 h2
  have := pend_bounds hp
  refine ⟨?_, (pend_not hp).1, (pend_not hp).2⟩
  simp only [Utf8Decoder.needsMoreInput, Bool.and_eq_true, decide_eq_true_eq, bne_iff_ne]
  omega

/-- A whole text: after the encodings of any scalar values the decoder holds the last one. -/
theorem C01_utf8_decoder_accepts_text (cs : List Nat) (hcs : ∀ c ∈ cs, IsScalar c) (c : Nat) (hc : IsScalar c) :
    (({} : Utf8Decoder).feedAll (utf8s (cs ++ [c]))).hasValue = true ∧
    (({} : Utf8Decoder).feedAll (utf8s (cs ++ [c]))).value.toNat = c := by
  have hpre : ∀ cs : List Nat, (∀ c ∈ cs, IsScalar c) → (({} : Utf8Decoder).feedAll (utf8s cs)).hasValue = true := by
    intro cs
    induction cs using snoc_induction with
    | nil => intro _; rfl
    | snoc xs x ih =>
      intro h
      rw [utf8s_append, utf8s_singleton, feedAll_append]
      exact (C01_utf8_decoder_accepts_encoding _ (ih fun y hy => h y (by simp [hy])) x (h x (by simp))).1
  rw [utf8s_append, utf8s_singleton, feedAll_append]
  have := C01_utf8_decoder_accepts_encoding _ (hpre cs hcs) c hc
  exact ⟨this.1, this.2.2.2.1⟩

-- the hypotheses are met by a fresh decoder and U+1F600, a four byte sequence
example : ({} : Utf8Decoder).hasValue = true ∧ IsScalar 0x1F600 ∧ (utf8 0x1F600).length = 4 := by decide

/-! ## C02 -/

/-- **C02** Whatever bytes are fed to a fresh decoder: if it ends holding a value then the bytes are well-formed UTF-8 and
the value is the last scalar value of the text. -/
theorem C02_utf8_decoder_accepts_only_wellformed (bs : List (BitVec 8)) (hne : bs ≠ [])
    (h : (({} : Utf8Decoder).feedAll bs).hasValue = true) :
    ∃ cs c, (∀ x ∈ cs, IsScalar x) ∧ IsScalar c ∧ bs = utf8s (cs ++ [c]) ∧
      (({} : Utf8Decoder).feedAll bs).value.toNat = c := by
  have h0 : (({} : Utf8Decoder).feedAll bs).state = 0 := by simpa [Utf8Decoder.hasValue] using h
  rcases feedAll_inv bs with h1 | ⟨_, cs, hcs, hbs, hlast⟩ | ⟨cs, pre, _, _, _, hp⟩
  · rw [h0] at h1; simp at h1
  · have hcsne : cs ≠ [] := by rintro rfl; exact hne hbs
    refine ⟨cs.dropLast, cs.getLast hcsne, fun x hx => hcs x (List.dropLast_subset _ hx),
      hcs _ (List.getLast_mem hcsne), ?_, ?_⟩
    · rw [List.dropLast_concat_getLast]; exact hbs
    · have := hlast hcsne
      rw [List.getLast?_eq_some_getLast hcsne] at this
      exact (Option.some.inj this).symm
  · have := hp.not_value.1
    rw [h] at this; simp at this

/-- An error is reported exactly when the bytes are not a prefix of well-formed UTF-8. -/
theorem C02_utf8_decoder_error_iff (bs : List (BitVec 8)) :
    (({} : Utf8Decoder).feedAll bs).error = true ↔
      ¬ ∃ cs t, (∀ c ∈ cs, IsScalar c) ∧ Truncated8 t ∧ bs = utf8s cs ++ t := by
  constructor
  · rintro h ⟨cs, t, hcs, ⟨c, hc, ⟨t', ht⟩, _⟩, hbs⟩
    have h12 : (({} : Utf8Decoder).feedAll bs).state = 12 := by simpa [Utf8Decoder.error] using h
    have h2 : (({} : Utf8Decoder).feedAll (bs ++ t')).state = 12 := by
      rw [feedAll_append]; exact feedAll_error h12 _
    have h3 := (C01_utf8_decoder_accepts_text cs hcs c hc).1
    rw [utf8s_append, utf8s_singleton, ← ht, ← List.append_assoc, ← hbs] at h3
    rw [hasValue_iff, h2] at h3; simp at h3
  · intro h
    rcases feedAll_inv bs with h1 | ⟨_, cs, hcs, hbs, _⟩ | ⟨cs, pre, hcs, hbs, _, hp⟩
    · exact (error_iff _).2 h1
    · exact absurd ⟨cs, [], hcs, ⟨0, by decide, by simp, (utf8_ne_nil 0).symm⟩, by simpa using hbs⟩ h
    · exact absurd ⟨cs, pre, hcs, hp.truncated, hbs⟩ h

/-- Once reported, an error stays until it is cleared. -/
theorem C02_utf8_decoder_error_sticks (d : Utf8Decoder) (h : d.error = true) (bs : List (BitVec 8)) :
    (d.feedAll bs).error = true ∧ (d.feedAll bs).clearError.error = false ∧ (d.feedAll bs).clearError.hasValue = true := by
  have h12 : d.state = 12 := by simpa [Utf8Decoder.error] using h
  exact ⟨by simp [Utf8Decoder.error, feedAll_error h12 bs], rfl, rfl⟩

/-- **C02** In whatever state, exactly one of "has a value", "is in error" and "needs more input" is reported. -/
theorem C02_utf8_decoder_status (d : Utf8Decoder) :
    (d.hasValue = true ∧ d.error = false ∧ d.needsMoreInput = false) ∨
    (d.hasValue = false ∧ d.error = true ∧ d.needsMoreInput = false) ∨
    (d.hasValue = false ∧ d.error = false ∧ d.needsMoreInput = true) := by
  unfold Utf8Decoder.hasValue Utf8Decoder.error Utf8Decoder.needsMoreInput
  by_cases h0 : d.state = 0
  · simp [h0]
  · by_cases h12 : d.state = 12
    · simp [h12]
    · simp [h0, h12]; omega

-- an overlong encoding of '/', a surrogate and U+110000 are all rejected; a truncated sequence is not (yet) an error
example : (({} : Utf8Decoder).feedAll [0xC0#8, 0xAF#8]).error = true := by decide +kernel
example : (({} : Utf8Decoder).feedAll [0xED#8, 0xA0#8, 0x80#8]).error = true := by decide +kernel
example : (({} : Utf8Decoder).feedAll [0xF4#8, 0x90#8]).error = true := by decide +kernel
example : (({} : Utf8Decoder).feedAll [0xE2#8, 0x82#8]).error = false := by decide +kernel

/-! ## C03 -/

/-- **C03 is violated** for *every* supplementary scalar value: after the leading surrogate the decoder claims to hold a
complete code point (the surrogate itself) and needs no more input, and the trailing surrogate is then an error. -/
theorem C03_utf16_decoder_supplementary_violated (c : Nat) (h : 0x10000 ≤ c) (h' : c ≤ 0x10FFFF) :
    (({} : Utf16Decoder).feedAll (utf16 c)).hasValue = false ∧
    (({} : Utf16Decoder).feedAll (utf16 c)).error = true ∧
    (({} : Utf16Decoder).feedAll ((utf16 c).take 1)).hasValue = true ∧
    (({} : Utf16Decoder).feedAll ((utf16 c).take 1)).needsMoreInput = false ∧
    (({} : Utf16Decoder).feedAll ((utf16 c).take 1)).value.toNat = 0xD800 + (c - 0x10000) / 1024 := by
  obtain ⟨hi, lo, e, h1, h2⟩ := utf16_pair c h h'
  have f1 : ({} : Utf16Decoder).feed hi = { codepoint := hi.zeroExtend 32, state := .hasCodepoint } := by
    simp only [Utf16Decoder.feed, unitClass_high hi (by omega) (by omega)]
  rw [e, ← h1]
  simp only [Utf16Decoder.feedAll, List.take_succ_cons, List.take_zero, List.foldl_cons, List.foldl_nil, f1]
  simp only [Utf16Decoder.feed, unitClass_low lo (by omega) (by omega)]
  refine ⟨rfl, rfl, rfl, rfl, ?_⟩
  simp only [Utf16Decoder.value, BitVec.toNat_setWidth]
  omega

/-- **C03 (partial)**: scalar values of the Basic Multilingual Plane are decoded correctly and a lone trailing surrogate is
an error. Missing from the full statement: the supplementary planes, for which it is false. -/
theorem C03_utf16_decoder_bmp_partial (c : Nat) (hc : IsScalar c) (h : c < 0x10000) :
    (({} : Utf16Decoder).feedAll (utf16 c)).hasValue = true ∧
    (({} : Utf16Decoder).feedAll (utf16 c)).value.toNat = c ∧
    ∀ u : BitVec 16, 0xDC00#16 ≤ u → u ≤ 0xDFFF#16 → (({} : Utf16Decoder).feed u).error = true := by
  have e : utf16 c = [BitVec.ofNat 16 c] := by unfold utf16; rw [if_pos h]
  unfold IsScalar at hc
  have hb : Utf16Decoder.unitClass (BitVec.ofNat 16 c) = .basicMultilingual := by
    unfold Utf16Decoder.unitClass
    rw [if_neg, if_neg]
    · simp only [BitVec.le_def, BitVec.toNat_ofNat]; omega
    · simp only [BitVec.le_def, BitVec.toNat_ofNat]; omega
  rw [e]
  simp only [Utf16Decoder.feedAll, List.foldl_cons, List.foldl_nil]
  refine ⟨by simp only [Utf16Decoder.feed, hb]; rfl, ?_, ?_⟩
  · simp only [Utf16Decoder.feed, hb, Utf16Decoder.value, BitVec.toNat_setWidth, BitVec.toNat_ofNat]
    omega
  · intro u h1 h2
    have : Utf16Decoder.unitClass u = .lowSurrogate := by unfold Utf16Decoder.unitClass; rw [if_pos ⟨h1, h2⟩]
    simp only [Utf16Decoder.feed, this]; rfl

example : IsScalar 0x20AC ∧ 0x20AC < 0x10000 ∧ 0x10000 ≤ 0x1F600 ∧ 0x1F600 ≤ 0x10FFFF := by decide

/-! ## C04 -/

/-- **C04** Decoding well-formed UTF-8 that does not start with a byte order mark reports exactly its scalar values. -/
theorem C04_utf_decode_wellformed (raw : BitVec 8 → BitVec 32) (cs : List Nat) (hcs : ∀ c ∈ cs, IsScalar c)
    (hbom : ¬ bom8 <+: utf8s cs) :
    utfDecode8 raw (utf8s cs) false always = some (reports8 0 cs) := by
  have hs : dataStart8 (utf8s cs) = 0 := by
    unfold dataStart8; rw [if_neg]; intro h; exact hbom ((hasBom8_iff _).1 h)
  rw [utfDecode8_always]
  obtain ⟨d', _, h⟩ := fwdL_utf8s raw cs hcs {} rfl 0 []
  simp only [List.append_nil, fwdL] at h
  simp only [trace8, hs, List.drop_zero]
  exact congrArg some h

/-- **C04** With a byte order mark in front, the mark is skipped and everything else is reported. -/
theorem C04_utf_decode_wellformed_bom (raw : BitVec 8 → BitVec 32) (cs : List Nat) (hcs : ∀ c ∈ cs, IsScalar c) :
    utfDecode8 raw (bom8 ++ utf8s cs) false always = some (reports8 3 cs) := by
  rw [utfDecode8_always]
  obtain ⟨d', _, h⟩ := fwdL_utf8s raw cs hcs {} rfl 3 []
  simp only [List.append_nil, fwdL] at h
  simp only [trace8, dataStart8_append_bom]
  exact congrArg some h

example : (∀ c ∈ [0x48, 0xE9, 0x20AC, 0x1F600], IsScalar c) ∧ ¬ bom8 <+: utf8s [0x48, 0xE9, 0x20AC, 0x1F600] ∧
    reports8 0 [0x48, 0xE9, 0x20AC, 0x1F600] =
      [⟨0x48#32, 0, 1⟩, ⟨0xE9#32, 1, 2⟩, ⟨0x20AC#32, 3, 3⟩, ⟨0x1F600#32, 6, 4⟩] := by decide

/-! ## C05 -/

/-- **C05** For every byte string a forward traversal reads only inside the string; its reports tile the string from just
after the byte order mark to a point `m`, what is left after `m` is at most three bytes long and a truncated
sequence; and each report is truthful. -/
theorem C05_utf_decode_arbitrary (raw : BitVec 8 → BitVec 32) (str : List (BitVec 8)) :
    ∃ rs m, utfDecode8 raw str false always = some rs ∧
      Tiles (if bom8.isPrefixOf str then 3 else 0) rs m ∧ m ≤ str.length ∧ str.length ≤ m + 3 ∧
      Truncated8 (str.drop m) ∧ ∀ r ∈ rs, Truthful8 raw str r := by
  have hl : (str.take (dataStart8 str)).length = dataStart8 str := by
    have := dataStart8_le str; simp; omega
  obtain ⟨m, h1, h2, h3, h4, h5⟩ := fwdL_arbitrary raw str (str.take (dataStart8 str)) [] (str.drop (dataStart8 str))
    (by simp) {} (Or.inl ⟨rfl, rfl⟩)
  rw [hl] at h1 h5
  refine ⟨trace8 raw str false, m, ?_, ?_, h2, h3, h4, h5⟩
  · rw [utfDecode8_always]
  · rw [← dataStart8_eq]; exact h1

/-- **C05** For every byte string a reverse traversal reads only inside the string and its reports are truthful, in
decreasing order, and do not overlap. -/
theorem C05_utf_decode_arbitrary_reverse (raw : BitVec 8 → BitVec 32) (str : List (BitVec 8)) :
    ∃ rs, utfDecode8 raw str true always = some rs ∧
      Descends (if bom8.isPrefixOf str then 3 else 0) str.length rs ∧ ∀ r ∈ rs, Truthful8 raw str r := by
  have hle := dataStart8_le str
  have hl : (str.take (dataStart8 str)).length = dataStart8 str := by simp; omega
  obtain ⟨h1, h2⟩ := revL_arbitrary raw str (str.take (dataStart8 str)) (str.drop (dataStart8 str)).reverse [] []
    (by simp) {} (Or.inl rfl) (by simp) (by simp)
  rw [hl] at h1 h2
  refine ⟨trace8 raw str true, ?_, ?_, h2⟩
  · rw [utfDecode8_always]
  · rw [← dataStart8_eq]
    simp only [List.length_reverse, List.length_drop, List.length_nil] at h1
    rw [show dataStart8 str + (str.length - dataStart8 str) + 0 = str.length by omega] at h1
    exact h1

/-! ## C06 -/

/-- **C06** On well-formed UTF-8 the reverse traversal makes exactly the reports of the forward one, in reverse order. -/
theorem C06_utf_decode_reverse (raw : BitVec 8 → BitVec 32) (cs : List Nat) (hcs : ∀ c ∈ cs, IsScalar c)
    (hbom : ¬ bom8 <+: utf8s cs) :
    utfDecode8 raw (utf8s cs) true always = some (reports8 0 cs).reverse := by
  have hs : dataStart8 (utf8s cs) = 0 := by
    unfold dataStart8; rw [if_neg]; intro h; exact hbom ((hasBom8_iff _).1 h)
  rw [utfDecode8_always]
  simp only [trace8, hs, List.drop_zero, if_true]
  exact congrArg some (revL_utf8s raw cs hcs {} rfl 0)

theorem C06_utf_decode_reverse_bom (raw : BitVec 8 → BitVec 32) (cs : List Nat) (hcs : ∀ c ∈ cs, IsScalar c) :
    utfDecode8 raw (bom8 ++ utf8s cs) true always = some (reports8 3 cs).reverse := by
  rw [utfDecode8_always]
  simp only [trace8, dataStart8_append_bom, if_true]
  exact congrArg some (revL_utf8s raw cs hcs {} rfl 3)

/-! ## C07 -/

/-- **C07** Whatever the string, the direction and the callback: the callback sees exactly what it would see if it never
stopped, cut after the first report for which it answers `false`. -/
theorem C07_utf_decode_stops8 (raw : BitVec 8 → BitVec 32) (str : List (BitVec 8)) (reverse : Bool) (cb : Callback) :
    ∃ rs, utfDecode8 raw str reverse always = some rs ∧ utfDecode8 raw str reverse cb = some (cut cb [] rs) := by
  refine ⟨trace8 raw str reverse, ?_, ?_⟩
  · rw [utfDecode8_always]
  · rw [utfDecode8_eq, runLog_cut cb {} rfl]; rfl

theorem C07_utf_decode_stops16 (str : List (BitVec 16)) (reverse : Bool) (cb : Callback) :
    ∃ rs, utfDecode16 str reverse always = some rs ∧ utfDecode16 str reverse cb = some (cut cb [] rs) := by
  refine ⟨trace16 str reverse, ?_, ?_⟩
  · rw [utfDecode16_always]
  · rw [utfDecode16_eq, runLog_cut cb {} rfl]; rfl

theorem C07_utf_decode_stops32 (str : List (BitVec 32)) (reverse : Bool) (cb : Callback) :
    ∃ rs, utfDecode32 str reverse always = some rs ∧ utfDecode32 str reverse cb = some (cut cb [] rs) := by
  refine ⟨trace32 str reverse, ?_, ?_⟩
  · rw [utfDecode32_always]
  · rw [utfDecode32_eq, runLog_cut cb {} rfl]; rfl

-- a callback that stops at its second call, inside a malformed sequence
example : utfDecode8 (·.zeroExtend 32) [0xE2#8, 0x82#8, 0x41#8, 0x42#8] false (fun l => l.length < 2) =
    some [⟨0xE2#32, 0, 1⟩, ⟨0x82#32, 1, 1⟩] := by decide +kernel

/-! ## C08 -/

/-- **C08 is violated** (UTF-16): a one-character string U+4E2D in native byte order is decoded byte-swapped. -/
theorem C08_native_endian16_violated :
    utfDecode16 [0x4E2D#16] false always = some [⟨0x2D4E#32, 0, 1⟩] := by decide +kernel

/-- **C08 is violated** (UTF-32): a one-character string U+0100 in native byte order is decoded byte-swapped. -/
theorem C08_native_endian32_violated :
    utfDecode32 [0x100#32] false always = some [⟨0x10000#32, 0, 1⟩] := by decide +kernel

/-- **C08 is violated** for every UTF-32 string that does not start with a byte order mark and whose first (up to) 16
code points are all multiples of 256: every reported code point is the byte-swapped unit. -/
theorem C08_native_endian32_violated_general (str : List (BitVec 32)) (hne : str ≠ [])
    (h1 : str.head? ≠ some 0xFEFF#32) (h2 : str.head? ≠ some 0xFFFE0000#32)
    (hlow : ∀ u ∈ str.take 16, lowByteZero u = true) :
    utfDecode32 str false always = some (unitReports 0 (str.map byteReverse32)) := by
  have he := endian32_swapped str hne h1 h2 (by
    rw [count_all hlow]; exact List.length_filter_le _ _)
  rw [utfDecode32_always]
  simp only [trace32, he, if_true, List.drop_zero, rawL_id, Bool.false_eq_true, if_false]

/-- **C08 (partial)** UTF-16: a string without byte order mark and without surrogates in whose first 16 units the high byte
is zero more often than the low byte is decoded in native byte order. Missing from the full statement: all
other strings (for which it is false), and surrogates (C03). -/
theorem C08_native_endian16_partial (str : List (BitVec 16)) (hne : str ≠ [])
    (h1 : str.head? ≠ some 0xFEFF#16) (h2 : str.head? ≠ some 0xFFFE#16)
    (hs : ∀ u ∈ str, u.toNat < 0xD800 ∨ 0xE000 ≤ u.toNat)
    (hcount : ((str.take 16).filter lowByteZero).length < ((str.take 16).filter highByteZero).length) :
    utfDecode16 str false always = some (unitReports 0 str) := by
  have he := endian16_native str hne h1 h2 hcount
  rw [utfDecode16_always]
  simp only [trace16, he, if_false, List.drop_zero, List.map_id', Bool.false_eq_true]
  exact congrArg some (fwdL_bmp str hs {} (Or.inl rfl) 0)

/-- **C08 (partial)** UTF-32: a string without byte order mark all of whose units are code points, at least one of the
first 16 of them not a multiple of 256, is decoded in native byte order. -/
theorem C08_native_endian32_partial (str : List (BitVec 32))
    (h1 : str.head? ≠ some 0xFEFF#32) (hcp : ∀ u ∈ str, u.toNat ≤ 0x10FFFF)
    (hlow : ∃ u ∈ str.take 16, lowByteZero u = false) :
    utfDecode32 str false always = some (unitReports 0 str) ∧
    utfDecode32 str true always = some (unitReports 0 str).reverse := by
  have hne : str ≠ [] := by rintro rfl; simp at hlow
  have h2 : str.head? ≠ some 0xFFFE0000#32 := by
    intro h
    have := hcp _ (List.mem_of_head? h)
    simp at this
  have hhigh : ∀ u ∈ str.take 16, highByteZero u = true := by
    intro u hu
    have := hcp u (List.mem_of_mem_take hu)
    simp only [highByteZero, beq_iff_eq]
    omega
  have he := endian32_native str hne h1 h2 (by
    rw [count_all hhigh]; exact count_some hlow)
  constructor
  · rw [utfDecode32_always]
    simp only [trace32, he, if_false, List.drop_zero, List.map_id', Bool.false_eq_true, rawL_id]
  · rw [utfDecode32_always]
    simp only [trace32, he, if_false, List.drop_zero, List.map_id', Bool.false_eq_true, rawL_id, if_true]

/-- A byte order mark always decides the byte order: text in either order behind its mark is decoded as written. -/
theorem C08_bom32 (str : List (BitVec 32)) :
    utfDecode32 (0xFEFF#32 :: str) false always = some (unitReports 1 str) ∧
    utfDecode32 (0xFFFE0000#32 :: str.map byteReverse32) false always = some (unitReports 1 str) := by
  constructor
  · rw [utfDecode32_always]
    simp [trace32, endian32, rawL_id]
  · rw [utfDecode32_always]
    simp [trace32, endian32, rawL_id, Function.comp_def, byteReverse32_invol]

/-- **C03 is violated** for whole strings too: `utf_decode` of a UTF-16 string never combines a surrogate pair, it reports
every code unit on its own. (The byte order mark only fixes the byte order.) -/
theorem C03_utf_decode16_units_violated (str : List (BitVec 16)) :
    utfDecode16 (0xFEFF#16 :: str) false always = some (unitReports 1 str) := by
  rw [utfDecode16_always]
  have := fwdL_units str {} (Or.inl rfl) 1
  simp [trace16, endian16]
  exact this

-- U+1F600 as a surrogate pair
example : utfDecode16 (0xFEFF#16 :: utf16 0x1F600) false always = some [⟨0xD83D#32, 1, 1⟩, ⟨0xDE00#32, 2, 1⟩] :=
  C03_utf_decode16_units_violated _

/-- **C08** the same for UTF-16 strings without surrogates -/
theorem C08_bom16 (str : List (BitVec 16)) (hs : ∀ u ∈ str, u.toNat < 0xD800 ∨ 0xE000 ≤ u.toNat) :
    utfDecode16 (0xFEFF#16 :: str) false always = some (unitReports 1 str) ∧
    utfDecode16 (0xFFFE#16 :: str.map byteReverse16) false always = some (unitReports 1 str) := by
  have hinv : ∀ u : BitVec 16, byteReverse16 (byteReverse16 u) = u := by
    intro u
    unfold byteReverse16
    apply BitVec.eq_of_getLsbD_eq
    intro i hi
    interval_cases i <;> simp
  constructor
  · rw [utfDecode16_always]
    have := fwdL_bmp str hs {} (Or.inl rfl) 1
    simp [trace16, endian16]
    exact this
  · rw [utfDecode16_always]
    have := fwdL_bmp str hs {} (Or.inl rfl) 1
    simp [trace16, endian16, Function.comp_def, hinv]
    exact this


example : utfDecode16 [0x48#16, 0x4E2D#16] false always = some (unitReports 0 [0x48#16, 0x4E2D#16]) :=
  C08_native_endian16_partial _ (by simp) (by simp) (by simp) (by simp) (by simp [lowByteZero, highByteZero])
example : utfDecode32 [0x100#32, 0x1F601#32] false always = some (unitReports 0 [0x100#32, 0x1F601#32]) :=
  (C08_native_endian32_partial _ (by simp) (by simp) ⟨0x1F601#32, by simp, by simp [lowByteZero]⟩).1

end Verif.Props
