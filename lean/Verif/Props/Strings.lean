import Verif.Proofs.Strings
import Verif.Spec.Trim
import Verif.Props.Utf
import Verif.Props.Unicode

/-!
# C09-C12: encoding, transcoding, trimming
-/
namespace Verif.Props
open Verif.Spec Verif.Model Verif.Proofs

/-! ## C09 -/

/-- **C09 is violated** for U+0000: the encoder's view is empty, so a NUL disappears when transcoding to UTF-8. -/
theorem C09_utf8_encoder_nul_violated : enc8 0#32 = [] ∧ utf8 0 = [0#8] := by decide

/-- **C09 (partial)** Every other scalar value is encoded in the standard way, and the decoder gives it back.
Missing: U+0000, for which it is false. -/
theorem C09_utf8_encoder_partial (c : BitVec 32) (hc : IsScalar c.toNat) (h0 : c ≠ 0#32) :
    enc8 c = utf8 c.toNat ∧
    (({} : Utf8Decoder).feedAll (enc8 c)).hasValue = true ∧ (({} : Utf8Decoder).feedAll (enc8 c)).value = c := by
  have hle : c.toNat ≤ 0x10FFFF := by unfold IsScalar at hc; omega
  have e := enc8_eq c h0 hle
  obtain ⟨h1, _, _, h2, _⟩ := C01_utf8_decoder_accepts_encoding {} rfl c.toNat hc
  rw [e]
  exact ⟨rfl, h1, BitVec.eq_of_toNat_eq h2⟩

/-- **C09 (partial)** Different scalar values have different encodings, and none is a prefix of another. -/
theorem C09_utf8_encoder_prefix_free_partial (c d : BitVec 32) (hc : IsScalar c.toNat) (hd : IsScalar d.toNat)
    (hc0 : c ≠ 0#32) (hd0 : d ≠ 0#32) (hp : enc8 c <+: enc8 d) : c = d := by
  obtain ⟨ec, hcv, hcv'⟩ := C09_utf8_encoder_partial c hc hc0
  obtain ⟨ed, hdv, hdv'⟩ := C09_utf8_encoder_partial d hd hd0
  rw [ec, ed] at hp
  obtain ⟨_, _, _, _, hmid⟩ := C01_utf8_decoder_accepts_encoding {} rfl d.toNat hd
  by_cases hl : (utf8 c.toNat).length < (utf8 d.toNat).length
  · have h3 := (hmid _ (utf8_length_pos _) hl).2.1
    rw [← List.prefix_iff_eq_take.1 hp, ← ec, hcv] at h3
    cases h3
  · have := hp.eq_of_length_le (by omega)
    rw [← hcv', ← hdv', ec, ed, this]

example : enc8 0x20AC#32 = [0xE2#8, 0x82#8, 0xAC#8] ∧ IsScalar (0x20AC#32).toNat := by decide
example : enc8 0x1F600#32 = [0xF0#8, 0x9F#8, 0x98#8, 0x80#8] := by decide

/-! ## C10 -/

/-- **C10 is violated** for U+0000: the encoder's view is empty. -/
theorem C10_utf16_encoder_nul_violated : enc16 0#32 = [] ∧ utf16 0 = [0#16] := by decide

/-- **C10 (partial)** Every other scalar value is encoded in the standard way. Missing: U+0000. -/
theorem C10_utf16_encoder_partial (c : BitVec 32) (hc : IsScalar c.toNat) (h0 : c ≠ 0#32) :
    enc16 c = utf16 c.toNat := by
  have hle : c.toNat ≤ 0x10FFFF := by unfold IsScalar at hc; omega
  exact enc16_eq c h0 hle

/-- **C10 (partial)** The value can be computed back: one unit is the value, two units `hi`, `lo` stand for
`0x10000 + (hi - 0xD800) * 0x400 + (lo - 0xDC00)`, with `hi` and `lo` in the surrogate ranges. -/
theorem C10_utf16_encoder_inverse_partial (c : BitVec 32) (hc : IsScalar c.toNat) (h0 : c ≠ 0#32) :
    (c.toNat < 0x10000 ∧ ∃ u, enc16 c = [u] ∧ u.toNat = c.toNat) ∨
    (0x10000 ≤ c.toNat ∧ ∃ hi lo, enc16 c = [hi, lo] ∧ 0xD800 ≤ hi.toNat ∧ hi.toNat ≤ 0xDBFF ∧ 0xDC00 ≤ lo.toNat ∧
      lo.toNat ≤ 0xDFFF ∧ c.toNat = 0x10000 + (hi.toNat - 0xD800) * 0x400 + (lo.toNat - 0xDC00)) := by
  rw [C10_utf16_encoder_partial c hc h0]
  by_cases h : c.toNat < 0x10000
  · left
    refine ⟨h, BitVec.ofNat 16 c.toNat, by simp [utf16, h], ?_⟩
    simp only [BitVec.toNat_ofNat]; omega
  · right
    unfold IsScalar at hc
    generalize c.toNat = n at *
    refine ⟨by omega, BitVec.ofNat 16 (0xD800 + (n - 0x10000) / 1024), BitVec.ofNat 16 (0xDC00 + (n - 0x10000) % 1024),
      by simp [utf16, h], ?_⟩
    simp only [BitVec.toNat_ofNat]
    omega

example : enc16 0x1F600#32 = [0xD83D#16, 0xDE00#16] ∧ enc16 0x20AC#32 = [0x20AC#16] := by decide

/-! ## C11 -/

/-- **C11** UTF-8 to UTF-32 gives exactly the scalar values. -/
theorem C11_transcode_8_to_32 (raw : BitVec 8 → BitVec 32) (cs : List Nat) (hcs : ∀ c ∈ cs, IsScalar c)
    (hbom : ¬ bom8 <+: utf8s cs) :
    transcode8to32 raw (utf8s cs) = some (cs.map (BitVec.ofNat 32)) := by
  have key : ∀ s, (reports8 s cs).flatMap (fun r => enc32 r.cp) = cs.map (BitVec.ofNat 32) := by
    clear hcs hbom
    induction cs with
    | nil => intro s; rfl
    | cons c cs ih => intro s; simp [reports8, enc32] at ih ⊢; exact ih _
  cases cs with
  | nil => rfl
  | cons c cs =>
    have hne := utf8s_ne_nil (cs := c :: cs) (by simp)
    unfold transcode8to32 utfTranscode
    rw [if_neg (by simpa using hne), C04_utf_decode_wellformed raw _ hcs hbom]
    simp only [Option.map_some, key]

/-- **C11 is violated**: the round trip loses NUL characters. -/
theorem C11_round_trip_nul_violated :
    (transcode8to32 (·.zeroExtend 32) (utf8s [0x61, 0])).bind transcode32to8 = some (utf8s [0x61]) ∧
    utf8s [0x61, 0] = [0x61#8, 0#8] ∧ utf8s [0x61] = [0x61#8] := by decide +kernel

/-- **C11 is violated**: U+0100 comes back as U+10000. -/
theorem C11_round_trip_swap_violated :
    (transcode8to32 (·.zeroExtend 32) (utf8s [0x100])).bind transcode32to8 = some (utf8s [0x10000]) := by decide +kernel

/-- **C11 (partial)** The round trip is the identity unless the string contains NUL or its first 16 code points are all
multiples of 256. Missing: those strings, for which it is false. -/
theorem C11_round_trip_partial (raw : BitVec 8 → BitVec 32) (cs : List Nat) (hcs : ∀ c ∈ cs, IsScalar c)
    (hbom : ¬ bom8 <+: utf8s cs) (hnul : 0 ∉ cs) (hlow : ∃ c ∈ cs.take 16, c % 256 ≠ 0) :
    (transcode8to32 raw (utf8s cs)).bind transcode32to8 = some (utf8s cs) := by
  rw [C11_transcode_8_to_32 raw cs hcs hbom, Option.bind_some]
  have hne : cs ≠ [] := by rintro rfl; simp at hlow
  unfold transcode32to8 utfTranscode
  rw [if_neg (by simpa using hne)]
  have hto : ∀ c ∈ cs, (BitVec.ofNat 32 c).toNat = c := by
    intro c hc
    have := hcs c hc
    unfold IsScalar at this
    simp only [BitVec.toNat_ofNat]; omega
  have hdec := (C08_native_endian32_partial (cs.map (BitVec.ofNat 32)) (by
      intro hh
      apply hbom
      cases cs with
      | nil => simp at hh
      | cons c cs =>
        simp only [List.map_cons, List.head?_cons, Option.some.injEq] at hh
        have h1 := hto c (by simp)
        rw [hh] at h1
        have : c = 0xFEFF := by simpa using h1.symm
        subst this
        exact ⟨utf8s cs, by rw [utf8s_cons]; congr 1⟩) (by
      intro u hu
      obtain ⟨c, hc, rfl⟩ := List.mem_map.1 hu
      have := hcs c hc
      rw [hto c hc]; unfold IsScalar at this; omega) (by
      obtain ⟨c, hc, hm⟩ := hlow
      refine ⟨BitVec.ofNat 32 c, by rw [← List.map_take]; exact List.mem_map.2 ⟨c, hc, rfl⟩, ?_⟩
      have hm' : ¬ c % 256 = 0 := hm
      simpa [lowByteZero] using hm')).1
  rw [hdec, Option.map_some]
  congr 1
  have key : ∀ (s : Nat) (l : List Nat), (∀ c ∈ l, c ∈ cs) →
      (unitReports s (l.map (BitVec.ofNat 32))).flatMap (fun r => enc8 r.cp) = utf8s l := by
    intro s l
    induction l generalizing s with
    | nil => intro _; rfl
    | cons c l ih =>
      intro hl
      simp only [List.map_cons, unitReports, List.flatMap_cons, utf8s_cons]
      rw [ih (s + 1) (fun x hx => hl x (by simp [hx]))]
      have hc := hl c (by simp)
      have h1 := hto c hc
      have h2 := hcs c hc
      rw [BitVec.setWidth_eq, enc8_eq _ (by
          intro hh; rw [hh] at h1; exact hnul (by rw [show c = 0 by simpa using h1.symm] at hc; exact hc))
        (by rw [h1]; unfold IsScalar at h2; omega), h1]
  exact key 0 cs (fun _ h => h)

/-- **C11 (partial)** UTF-8 to UTF-16 is the standard UTF-16 encoding of the same text, for text without NUL. -/
theorem C11_transcode_8_to_16_partial (raw : BitVec 8 → BitVec 32) (cs : List Nat) (hcs : ∀ c ∈ cs, IsScalar c)
    (hbom : ¬ bom8 <+: utf8s cs) (hnul : 0 ∉ cs) :
    transcode8to16 raw (utf8s cs) = some (utf16s cs) := by
  have key : ∀ (s : Nat) (l : List Nat), (∀ c ∈ l, c ∈ cs) →
      (reports8 s l).flatMap (fun r => enc16 r.cp) = utf16s l := by
    intro s l
    induction l generalizing s with
    | nil => intro _; rfl
    | cons c l ih =>
      intro hl
      have hc := hl c (by simp)
      have h2 := hcs c hc
      have h1 : (BitVec.ofNat 32 c).toNat = c := by
        unfold IsScalar at h2
        simp only [BitVec.toNat_ofNat]; omega
      simp only [reports8, List.flatMap_cons, utf16s, List.map_cons, List.flatten_cons]
      rw [ih _ (fun x hx => hl x (by simp [hx])), enc16_eq _ (by
          intro hh; rw [hh] at h1; exact hnul (by rw [show c = 0 by simpa using h1.symm] at hc; exact hc))
        (by rw [h1]; unfold IsScalar at h2; omega), h1]
      rfl
  cases cs with
  | nil => rfl
  | cons c cs =>
    have hne := utf8s_ne_nil (cs := c :: cs) (by simp)
    unfold transcode8to16 utfTranscode
    rw [if_neg (by simpa using hne), C04_utf_decode_wellformed raw _ hcs hbom]
    simp only [Option.map_some]
    rw [key 0 _ (fun _ h => h)]

example : (transcode8to32 (·.zeroExtend 32) (utf8s [0x48, 0x20AC])).bind transcode32to8 = some (utf8s [0x48, 0x20AC]) :=
  C11_round_trip_partial _ _ (by decide) (by decide +kernel) (by decide) (by decide)

/-! ## C12 -/

/-- the code points on which `is_not_whitespace` has undefined behaviour (C13) -/
def wsUndefined : List (Nat × Nat) := [(0x160B, 0x167F), (0x1681, 0x16C8), (0x2F47, 0x2FFF)]

theorem notWs (c : Nat) (hs : IsScalar c) (hu : ¬ InRanges wsUndefined c) :
    isNotWhitespace32 (BitVec.ofNat 32 c) = some (!isWs c) := by
  have ht : (BitVec.ofNat 32 c).toNat = c := by
    unfold IsScalar at hs
    simp only [BitVec.toNat_ofNat]; omega
  have := (C13_is_whitespace32_partial (BitVec.ofNat 32 c) (by rw [ht]; exact hu)).2
  rw [ht] at this
  exact this

def hit (c : BitVec 32) : Bool := isNotWhitespace32 c == some true

private theorem finds (raw : BitVec 8 → BitVec 32) (cs : List Nat) (hne : cs ≠ []) (hcs : ∀ c ∈ cs, IsScalar c)
    (hbom : ¬ bom8 <+: utf8s cs) (hu : ∀ c ∈ cs, ¬ InRanges wsUndefined c) :
    utfFind (utfDecode8 raw) (utf8s cs) false isNotWhitespace32 = some ((reports8 0 cs).find? fun r => hit r.cp) ∧
    utfFind (utfDecode8 raw) (utf8s cs) true isNotWhitespace32 =
      some ((reports8 0 cs).reverse.find? fun r => hit r.cp) := by
  have hdef : ∀ r ∈ reports8 0 cs, isNotWhitespace32 r.cp ≠ none := by
    intro r hr
    obtain ⟨c, hc, e⟩ := reports8_cp r hr
    rw [e, notWs c (hcs c hc) (hu c hc)]; simp
  constructor
  · refine utfFind_eq (utf8s_ne_nil hne) (fun cb => ?_) hdef
    obtain ⟨rs, h1, h2⟩ := C07_utf_decode_stops8 raw (utf8s cs) false cb
    rw [C04_utf_decode_wellformed raw cs hcs hbom] at h1
    rw [h2, ← Option.some.inj h1]
  · refine utfFind_eq (utf8s_ne_nil hne) (fun cb => ?_) (fun r hr => hdef r (List.mem_reverse.1 hr))
    obtain ⟨rs, h1, h2⟩ := C07_utf_decode_stops8 raw (utf8s cs) true cb
    rw [C06_utf_decode_reverse raw cs hcs hbom] at h1
    rw [h2, ← Option.some.inj h1]

theorem hit_eq (c : Nat) (hs : IsScalar c) (hu : ¬ InRanges wsUndefined c) :
    hit (BitVec.ofNat 32 c) = !isWs c := by
  unfold hit
  rw [notWs c hs hu]
  cases isWs c <;> rfl

/-- **C12 (partial)** `trim_left` of a well-formed UTF-8 string without byte order mark and without the code points of
C13's undefined behaviour is the string without its leading whitespace. -/
theorem C12_trim_left_partial (raw : BitVec 8 → BitVec 32) (cs : List Nat) (hcs : ∀ c ∈ cs, IsScalar c)
    (hbom : ¬ bom8 <+: utf8s cs) (hu : ∀ c ∈ cs, ¬ InRanges wsUndefined c) :
    trimLeft8 raw (utf8s cs) = some (utf8s (trimmedLeft cs)) := by
  by_cases hne : cs = []
  · subst hne; rfl
  unfold trimLeft8 predicatedTrimLeft
  rw [if_neg (by simpa using utf8s_ne_nil hne), (finds raw cs hne hcs hbom hu).1, Option.bind_some]
  unfold trimmedLeft
  rcases split_left isWs cs with ⟨h1, h2⟩ | ⟨pre, a, post, rfl, h1, h2, h3⟩
  · rw [(find_reports8_none cs 0 (fun c hc => by rw [hit_eq c (hcs c hc) (hu c hc), h1 c hc]; rfl)).1, h2]
    rfl
  · rw [find_reports8 pre a post 0
      (fun c hc => by rw [hit_eq c (hcs c (by simp [hc])) (hu c (by simp [hc])), h1 c hc]; rfl)
      (by rw [hit_eq a (hcs a (by simp)) (hu a (by simp)), h2]; rfl), h3]
    simp only [substr]
    rw [if_pos (by rw [utf8s_append]; simp), utf8s_append]
    simp only [Nat.zero_add, List.drop_left, List.length_append]
    rw [List.take_of_length_le (by omega)]

/-- **C12 (partial)** `trim_right` likewise, at the other end. -/
theorem C12_trim_right_partial (raw : BitVec 8 → BitVec 32) (cs : List Nat) (hcs : ∀ c ∈ cs, IsScalar c)
    (hbom : ¬ bom8 <+: utf8s cs) (hu : ∀ c ∈ cs, ¬ InRanges wsUndefined c) :
    trimRight8 raw (utf8s cs) = some (utf8s (trimmedRight cs)) := by
  by_cases hne : cs = []
  · subst hne; rfl
  unfold trimRight8 predicatedTrimRight
  rw [if_neg (by simpa using utf8s_ne_nil hne), (finds raw cs hne hcs hbom hu).2, Option.bind_some]
  unfold trimmedRight
  rcases split_right isWs cs with ⟨h1, h2⟩ | ⟨pre, a, post, rfl, h1, h2, h3⟩
  · rw [(find_reports8_none cs 0 (fun c hc => by rw [hit_eq c (hcs c hc) (hu c hc), h1 c hc]; rfl)).2, h2]
    rfl
  · rw [find_reports8_rev pre a post 0
      (fun c hc => by rw [hit_eq c (hcs c (by simp [hc])) (hu c (by simp [hc])), h1 c hc]; rfl)
      (by rw [hit_eq a (hcs a (by simp)) (hu a (by simp)), h2]; rfl), h3]
    simp only [substr, Nat.zero_le, if_true, List.drop_zero, Nat.zero_add]
    have := utf8s_mid [] (pre ++ [a]) post
    simp only [List.nil_append, List.append_assoc, List.singleton_append] at this
    rw [utf8s_append pre [a], List.length_append, utf8s_singleton] at this
    simpa [utf8s, ] using this

/-- **C12 (partial)** `trim` does both. (The length of an object is always below 2^64.) -/
theorem C12_trim_partial (raw : BitVec 8 → BitVec 32) (cs : List Nat) (hcs : ∀ c ∈ cs, IsScalar c)
    (hbom : ¬ bom8 <+: utf8s cs) (hu : ∀ c ∈ cs, ¬ InRanges wsUndefined c) (hlen : (utf8s cs).length < 2 ^ 64) :
    trim8 raw (utf8s cs) = some (utf8s (trimmed cs)) := by
  by_cases hne : cs = []
  · subst hne; rfl
  unfold trim8 predicatedTrim
  obtain ⟨f1, f2⟩ := finds raw cs hne hcs hbom hu
  rw [if_neg (by simpa using utf8s_ne_nil hne), f1, Option.bind_some]
  unfold trimmed trimmedLeft trimmedRight
  rcases split_left isWs cs with ⟨h1, h2⟩ | ⟨pre, a, post, hc1, h1, h2, h3⟩
  · rw [(find_reports8_none cs 0 (fun c hc => by rw [hit_eq c (hcs c hc) (hu c hc), h1 c hc]; rfl)).1, h2]
    rfl
  · have hfirst := find_reports8 (p := hit) pre a post 0
      (fun c hc => by rw [hit_eq c (hcs c (by simp [hc1, hc])) (hu c (by simp [hc1, hc])), h1 c hc]; rfl)
      (by rw [hit_eq a (hcs a (by simp [hc1])) (hu a (by simp [hc1])), h2]; rfl)
    rw [← hc1] at hfirst
    rw [hfirst]
    simp only [f2]
    rw [h3]
    rcases split_right isWs (a :: post) with ⟨g1, _⟩ | ⟨pre', b, post', hc2, g1, g2, g3⟩
    · have := g1 a (by simp); rw [h2] at this; cases this
    · have hcs2 : cs = (pre ++ pre') ++ b :: post' := by rw [hc1, hc2]; simp
      have hlast := find_reports8_rev (p := hit) (pre ++ pre') b post' 0
        (fun c hc => by rw [hit_eq c (hcs c (by simp [hcs2, hc])) (hu c (by simp [hcs2, hc])), g1 c hc]; rfl)
        (by rw [hit_eq b (hcs b (by simp [hcs2])) (hu b (by simp [hcs2])), g2]; rfl)
      rw [← hcs2] at hlast
      rw [hlast, g3]
      simp only [Option.bind_some, Nat.zero_add, substr]
      have hmid := utf8s_mid pre (pre' ++ [b]) post'
      have e : pre ++ (pre' ++ [b]) ++ post' = cs := by rw [hcs2]; simp
      rw [e] at hmid
      have hl : (utf8s cs).length = (utf8s pre).length + (utf8s pre').length + (utf8 b).length + (utf8s post').length := by
        rw [hcs2, utf8s_append, utf8s_append, utf8s_cons]; simp; omega
      have hl2 : (utf8s (pre' ++ [b])).length = (utf8s pre').length + (utf8 b).length := by
        rw [utf8s_append, utf8s_singleton]; simp
      rw [if_pos (by omega)]
      have hl3 : ((utf8s (pre ++ pre')).length + (utf8 b).length + (2 ^ 64 - (utf8s pre).length)) % 2 ^ 64 =
          (utf8s (pre' ++ [b])).length := by
        rw [utf8s_append, List.length_append, hl2]
        omega
      rw [hl3, hmid]

/-- **C12 (partial)** Trimming a second time changes nothing, if the trimmed text does not begin with U+FEFF. -/
theorem C12_trim_idempotent_partial (raw : BitVec 8 → BitVec 32) (cs : List Nat) (hcs : ∀ c ∈ cs, IsScalar c)
    (hbom : ¬ bom8 <+: utf8s cs) (hbom2 : (trimmed cs).head? ≠ some 0xFEFF)
    (hu : ∀ c ∈ cs, ¬ InRanges wsUndefined c) (hlen : (utf8s cs).length < 2 ^ 64) :
    (trim8 raw (utf8s cs)).bind (trim8 raw) = trim8 raw (utf8s cs) := by
  have hsub : ∀ c ∈ trimmed cs, c ∈ cs := by
    intro c hc
    unfold trimmed trimmedLeft trimmedRight at hc
    have h1 := List.mem_reverse.1 hc
    have h2 := List.mem_reverse.1 ((List.dropWhile_suffix _).subset h1)
    exact (List.dropWhile_suffix _).subset h2
  have hb : ¬ bom8 <+: utf8s (trimmed cs) := by
    intro hp
    apply hbom2
    cases ht : trimmed cs with
    | nil => rw [ht] at hp; have := hp.length_le; simp [bom8, utf8s] at this
    | cons c t =>
      rw [ht, utf8s_cons] at hp
      have hsc := hcs c (hsub c (by rw [ht]; simp))
      have e : bom8 = utf8 0xFEFF := by decide
      rw [e] at hp
      have hp2 : utf8 0xFEFF <+: utf8 c ∨ utf8 c <+: utf8 0xFEFF :=
        List.prefix_or_prefix_of_prefix hp (List.prefix_append _ _)
      have hne : c ≠ 0 := by
        rintro rfl
        rcases hp2 with h | h <;> revert h <;> decide
      have hc32 : (BitVec.ofNat 32 c).toNat = c := by
        unfold IsScalar at hsc; simp only [BitVec.toNat_ofNat]; omega
      have hcz : BitVec.ofNat 32 c ≠ 0#32 := by
        intro h; rw [h] at hc32; exact hne (by simpa using hc32.symm)
      have e1 := (C09_utf8_encoder_partial (BitVec.ofNat 32 c) (by rw [hc32]; exact hsc) hcz).1
      have e2 := (C09_utf8_encoder_partial 0xFEFF#32 (by decide) (by decide)).1
      rw [hc32] at e1
      have e2' : enc8 0xFEFF#32 = utf8 0xFEFF := e2
      have : BitVec.ofNat 32 c = 0xFEFF#32 := by
        rcases hp2 with h | h
        · exact (C09_utf8_encoder_prefix_free_partial _ _ (by decide) (by rw [hc32]; exact hsc) (by decide) hcz
            (by rw [e1, e2']; exact h)).symm
        · exact C09_utf8_encoder_prefix_free_partial _ _ (by rw [hc32]; exact hsc) (by decide) hcz (by decide)
            (by rw [e1, e2']; exact h)
      rw [this] at hc32
      simp at hc32 ⊢; exact hc32.symm
  have hl : (utf8s (trimmed cs)).length ≤ (utf8s cs).length := by
    have hsl : (trimmed cs).Sublist cs := by
      unfold trimmed trimmedLeft trimmedRight
      refine List.Sublist.trans ?_ (List.dropWhile_sublist isWs)
      have := (List.dropWhile_sublist (l := (List.dropWhile isWs cs).reverse) isWs).reverse
      simpa using this
    exact utf8s_length_sublist hsl
  have hid : trimmed (trimmed cs) = trimmed cs := by
    unfold trimmed
    have hlft : trimmedLeft (trimmedRight (trimmedLeft cs)) = trimmedRight (trimmedLeft cs) := by
      unfold trimmedLeft trimmedRight
      rcases split_left isWs cs with ⟨_, h⟩ | ⟨pre, a, post, _, _, h2, h⟩
      · rw [h]; rfl
      · rw [h]
        rcases split_right isWs (a :: post) with ⟨_, h'⟩ | ⟨pre', b, post', hc2, _, g2, h'⟩
        · rw [h']; rfl
        · rw [h']
          cases pre' with
          | nil => simp [g2]
          | cons x xs =>
            simp only [List.cons_append, List.cons.injEq] at hc2
            rw [← hc2.1]
            simp [h2]
    rw [hlft]
    unfold trimmedRight
    rw [List.reverse_reverse]
    congr 1
    rcases split_left isWs (trimmedLeft cs).reverse with ⟨_, h⟩ | ⟨pre, a, post, _, _, h2, h⟩
    · rw [h]; rfl
    · rw [h]; simp [h2]
  rw [C12_trim_partial raw cs hcs hbom hu hlen, Option.bind_some,
    C12_trim_partial raw _ (fun c hc => hcs c (hsub c hc)) hb (fun c hc => hu c (hsub c hc)) (by omega), hid]

/-- **C12 is violated**: `trim` is not idempotent. U+FEFF is not whitespace, so it survives the first `trim`; being then in
front it is taken for a byte order mark and removed by the second. -/
theorem C12_trim_idempotent_violated :
    trim8 (·.zeroExtend 32) (utf8s [0x20, 0xFEFF, 0x61]) = some (utf8s [0xFEFF, 0x61]) ∧
    trim8 (·.zeroExtend 32) (utf8s [0xFEFF, 0x61]) = some (utf8s [0x61]) := by decide +kernel

/-- **C12 is violated**: on a Canadian syllabics letter `trim` has undefined behaviour. -/
theorem C12_trim_undefined_violated : trim8 (·.zeroExtend 32) (utf8s [0x160B]) = none := by decide +kernel

example : trim8 (·.zeroExtend 32) (utf8s [0x20, 0x2003, 0xE9, 0x20, 0x62, 0x3000]) = some (utf8s [0xE9, 0x20, 0x62]) ∧
    trimmed [0x20, 0x2003, 0xE9, 0x20, 0x62, 0x3000] = [0xE9, 0x20, 0x62] := by decide +kernel
example : (∀ c ∈ [0x20, 0x2003, 0xE9, 0x20, 0x62, 0x3000], ¬ InRanges wsUndefined c) := by decide

end Verif.Props
