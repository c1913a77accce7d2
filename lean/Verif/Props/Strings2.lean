import Verif.Proofs.Strings2
import Verif.Spec.Native
import Verif.Props.Strings
/-!
# C08, C11, C12 for UTF-16 and UTF-32
-/
namespace Verif.Props
open Verif.Spec Verif.Model Verif.Proofs

private theorem lt32 {c : Nat} (h : IsScalar c) : c < 2 ^ 32 := by unfold IsScalar at h; omega

private theorem ofNat_inj {w c d : Nat} (hc : c < 2 ^ w) (hd : d < 2 ^ w) (h : BitVec.ofNat w c = BitVec.ofNat w d) : c = d := by
  have := congrArg BitVec.toNat h
  simpa [Nat.mod_eq_of_lt hc, Nat.mod_eq_of_lt hd] using this

theorem native32_decode (cs : List Nat) (h : Native32 cs) (cb : Callback) :
    utfDecode32 (unitsOf 32 cs) false cb = some (cut cb [] (unitReports 0 (unitsOf 32 cs))) ∧
    utfDecode32 (unitsOf 32 cs) true cb = some (cut cb [] (unitReports 0 (unitsOf 32 cs)).reverse) := by
  have hto : ∀ c ∈ cs, (BitVec.ofNat 32 c).toNat = c := fun c hc => by
    have := lt32 (h.scalar c hc); simp only [BitVec.toNat_ofNat]; omega
  have hdec := C08_native_endian32_partial (unitsOf 32 cs) (by
      intro hh
      apply h.mark
      cases cs with
      | nil => simp [unitsOf] at hh
      | cons c cs =>
        simp only [unitsOf, List.map_cons, List.head?_cons, Option.some.injEq] at hh ⊢
        exact ofNat_inj (lt32 (h.scalar c (by simp))) (by decide) hh) (by
      intro u hu
      obtain ⟨c, hc, rfl⟩ := List.mem_map.1 hu
      have := h.scalar c hc
      rw [hto c hc]; unfold IsScalar at this; omega) (by
      obtain ⟨c, hc, hm⟩ := h.low
      refine ⟨BitVec.ofNat 32 c, by unfold unitsOf; rw [← List.map_take]; exact List.mem_map.2 ⟨c, hc, rfl⟩, ?_⟩
      have hm' : ¬ c % 256 = 0 := hm
      simpa [lowByteZero] using hm')
  constructor
  · obtain ⟨rs, h1, h2⟩ := C07_utf_decode_stops32 (unitsOf 32 cs) false cb
    rw [hdec.1] at h1
    rw [h2, ← Option.some.inj h1]
  · obtain ⟨rs, h1, h2⟩ := C07_utf_decode_stops32 (unitsOf 32 cs) true cb
    rw [hdec.2] at h1
    rw [h2, ← Option.some.inj h1]

/-- **C08 (partial)** UTF-16, traversed from the end: the reports of the forward traversal in reverse order. -/
theorem C08_native_endian16_reverse_partial (str : List (BitVec 16)) (hne : str ≠ [])
    (h1 : str.head? ≠ some 0xFEFF#16) (h2 : str.head? ≠ some 0xFFFE#16)
    (hs : ∀ u ∈ str, u.toNat < 0xD800 ∨ 0xE000 ≤ u.toNat)
    (hcount : ((str.take 16).filter lowByteZero).length < ((str.take 16).filter highByteZero).length) :
    utfDecode16 str true always = some (unitReports 0 str).reverse := by
  have he := endian16_native str hne h1 h2 hcount
  rw [utfDecode16_always]
  simp only [trace16, he, if_false, List.drop_zero, List.map_id', Bool.false_eq_true, if_true]
  exact congrArg some (revL_bmp str hs {} (Or.inl rfl) 0)

theorem native16_decode (cs : List Nat) (h : Native16 cs) (cb : Callback) :
    utfDecode16 (unitsOf 16 cs) false cb = some (cut cb [] (unitReports 0 (unitsOf 16 cs))) ∧
    utfDecode16 (unitsOf 16 cs) true cb = some (cut cb [] (unitReports 0 (unitsOf 16 cs)).reverse) := by
  have hto : ∀ c ∈ cs, (BitVec.ofNat 16 c).toNat = c := fun c hc => by
    have := h.bmp c hc; simp only [BitVec.toNat_ofNat]; omega
  have hne : unitsOf 16 cs ≠ [] := by
    intro hn
    have : cs = [] := by simpa [unitsOf] using hn
    have hl := h.low
    rw [this] at hl; simp at hl
  have hm : ∀ d, d < 2 ^ 16 → cs.head? ≠ some d → (unitsOf 16 cs).head? ≠ some (BitVec.ofNat 16 d) := by
    intro d hd hh hu
    apply hh
    cases cs with
    | nil => simp [unitsOf] at hu
    | cons c cs =>
      simp only [unitsOf, List.map_cons, List.head?_cons, Option.some.injEq] at hu ⊢
      exact ofNat_inj (h.bmp c (by simp)) hd hu
  have hs : ∀ u ∈ unitsOf 16 cs, u.toNat < 0xD800 ∨ 0xE000 ≤ u.toNat := by
    intro u hu
    obtain ⟨c, hc, rfl⟩ := List.mem_map.1 hu
    rw [hto c hc]
    have := h.scalar c hc
    unfold IsScalar at this
    omega
  have hcount : (((unitsOf 16 cs).take 16).filter lowByteZero).length < (((unitsOf 16 cs).take 16).filter highByteZero).length := by
    have hl := h.low
    unfold unitsOf
    rw [← List.map_take, List.filter_map, List.filter_map, List.length_map, List.length_map]
    have e1 : (cs.take 16).filter (lowByteZero ∘ BitVec.ofNat 16) = (cs.take 16).filter fun c => c % 256 == 0 := by
      apply List.filter_congr
      intro c hc
      simp only [Function.comp, lowByteZero, hto c (List.mem_of_mem_take hc)]
    have e2 : (cs.take 16).filter (highByteZero ∘ BitVec.ofNat 16) = (cs.take 16).filter fun c => c / 256 == 0 := by
      apply List.filter_congr
      intro c hc
      simp only [Function.comp, highByteZero, hto c (List.mem_of_mem_take hc)]
    rw [e1, e2]; exact hl
  constructor
  · obtain ⟨rs, h1, h2⟩ := C07_utf_decode_stops16 (unitsOf 16 cs) false cb
    rw [C08_native_endian16_partial _ hne (hm _ (by decide) h.mark.1) (hm _ (by decide) h.mark.2) hs hcount] at h1
    rw [h2, ← Option.some.inj h1]
  · obtain ⟨rs, h1, h2⟩ := C07_utf_decode_stops16 (unitsOf 16 cs) true cb
    rw [C08_native_endian16_reverse_partial _ hne (hm _ (by decide) h.mark.1) (hm _ (by decide) h.mark.2) hs hcount] at h1
    rw [h2, ← Option.some.inj h1]

theorem utf16s_bmp (cs : List Nat) (h : ∀ c ∈ cs, c < 0x10000) : utf16s cs = unitsOf 16 cs := by
  induction cs with
  | nil => rfl
  | cons c cs ih =>
    have := ih (fun x hx => h x (by simp [hx]))
    simp only [utf16s, unitsOf, List.map_cons, List.flatten_cons] at this ⊢
    rw [this]
    simp [utf16, h c (by simp)]

/-! ## C11 -/

private theorem reports_flat {w : Nat} {τ : Type} (enc : BitVec 32 → List τ) (std : Nat → List τ) (cs : List Nat) (s : Nat)
    (hw : ∀ c ∈ cs, c < 2 ^ w) (he : ∀ c ∈ cs, enc (BitVec.ofNat 32 c) = std c) :
    (unitReports s (unitsOf w cs)).flatMap (fun r => enc r.cp) = (cs.map std).flatten := by
  induction cs generalizing s with
  | nil => rfl
  | cons c cs ih =>
    have := ih (s + 1) (fun x hx => hw x (by simp [hx])) (fun x hx => he x (by simp [hx]))
    simp only [unitsOf] at this
    simp only [unitsOf, List.map_cons, unitReports, List.flatMap_cons, List.flatten_cons, this,
      unit_cp (hw c (by simp)), he c (by simp)]

private theorem cut_always (rs : List Report) (seen : List Report) : cut always seen rs = rs := by
  induction rs generalizing seen with
  | nil => rfl
  | cons r rs ih => simp [cut, always, ih]

private theorem std8 {cs : List Nat} (hcs : ∀ c ∈ cs, IsScalar c) (hnul : 0 ∉ cs) :
    ∀ c ∈ cs, enc8 (BitVec.ofNat 32 c) = utf8 c := by
  intro c hc
  have h1 : (BitVec.ofNat 32 c).toNat = c := by
    have := lt32 (hcs c hc); simp only [BitVec.toNat_ofNat]; omega
  have h2 := (C09_utf8_encoder_partial (BitVec.ofNat 32 c) (by rw [h1]; exact hcs c hc) (by
    intro hh; rw [hh] at h1; exact hnul (by rw [show c = 0 by simpa using h1.symm] at hc; exact hc))).1
  rw [h1] at h2; exact h2

private theorem std16 {cs : List Nat} (hcs : ∀ c ∈ cs, IsScalar c) (hnul : 0 ∉ cs) :
    ∀ c ∈ cs, enc16 (BitVec.ofNat 32 c) = utf16 c := by
  intro c hc
  have h1 : (BitVec.ofNat 32 c).toNat = c := by
    have := lt32 (hcs c hc); simp only [BitVec.toNat_ofNat]; omega
  have h2 := C10_utf16_encoder_partial (BitVec.ofNat 32 c) (by rw [h1]; exact hcs c hc) (by
    intro hh; rw [hh] at h1; exact hnul (by rw [show c = 0 by simpa using h1.symm] at hc; exact hc))
  rw [h1] at h2; exact h2

private theorem native32_ne {cs : List Nat} (h : Native32 cs) : unitsOf 32 cs ≠ [] := by
  intro hn
  have : cs = [] := by simpa [unitsOf] using hn
  obtain ⟨c, hc, _⟩ := h.low
  rw [this] at hc; simp at hc

private theorem native16_ne {cs : List Nat} (h : Native16 cs) : unitsOf 16 cs ≠ [] := by
  intro hn
  have : cs = [] := by simpa [unitsOf] using hn
  have hl := h.low
  rw [this] at hl; simp at hl

/-- **C11 (partial)** UTF-32 to UTF-8, for text whose byte order is guessed correctly (`Native32`) and without NUL. -/
theorem C11_transcode_32_to_8_partial (cs : List Nat) (h : Native32 cs) (hnul : 0 ∉ cs) :
    transcode32to8 (cs.map (BitVec.ofNat 32)) = some (utf8s cs) := by
  unfold transcode32to8 utfTranscode
  rw [if_neg (by simpa [unitsOf] using native32_ne h)]
  have := (native32_decode cs h always).1
  unfold unitsOf at this
  rw [this, Option.map_some, cut_always]
  exact congrArg some (reports_flat enc8 utf8 cs 0 (fun c hc => lt32 (h.scalar c hc)) (std8 h.scalar hnul))

/-- **C11 (partial)** UTF-32 to UTF-16, likewise; supplementary characters become surrogate pairs. -/
theorem C11_transcode_32_to_16_partial (cs : List Nat) (h : Native32 cs) (hnul : 0 ∉ cs) :
    transcode32to16 (cs.map (BitVec.ofNat 32)) = some (utf16s cs) := by
  unfold transcode32to16 utfTranscode
  rw [if_neg (by simpa [unitsOf] using native32_ne h)]
  have := (native32_decode cs h always).1
  unfold unitsOf at this
  rw [this, Option.map_some, cut_always]
  exact congrArg some (reports_flat enc16 utf16 cs 0 (fun c hc => lt32 (h.scalar c hc)) (std16 h.scalar hnul))

/-- **C11 (partial)** UTF-16 to UTF-32, for text of the basic multilingual plane whose byte order is guessed correctly. -/
theorem C11_transcode_16_to_32_partial (cs : List Nat) (h : Native16 cs) :
    transcode16to32 (utf16s cs) = some (cs.map (BitVec.ofNat 32)) := by
  rw [utf16s_bmp cs h.bmp]
  unfold transcode16to32 utfTranscode
  rw [if_neg (by simpa using native16_ne h), (native16_decode cs h always).1, Option.map_some, cut_always]
  congr 1
  have := reports_flat (w := 16) enc32 (fun c => [BitVec.ofNat 32 c]) cs 0 h.bmp (fun _ _ => rfl)
  rw [this]
  clear h this
  induction cs with
  | nil => rfl
  | cons c cs ih => simp [ih]

/-- **C11 (partial)** UTF-16 to UTF-8, likewise, without NUL. -/
theorem C11_transcode_16_to_8_partial (cs : List Nat) (h : Native16 cs) (hnul : 0 ∉ cs) :
    transcode16to8 (utf16s cs) = some (utf8s cs) := by
  rw [utf16s_bmp cs h.bmp]
  unfold transcode16to8 utfTranscode
  rw [if_neg (by simpa using native16_ne h), (native16_decode cs h always).1, Option.map_some, cut_always]
  exact congrArg some (reports_flat enc8 utf8 cs 0 h.bmp (std8 h.scalar hnul))

/-- **C11 is violated** in UTF-16: a supplementary character does not survive. "ab😀" comes out as 'a', 'b' and
two surrogates. -/
theorem C11_transcode_16_to_32_violated :
    transcode16to32 (utf16s [0x61, 0x62, 0x1F600]) = some [0x61#32, 0x62#32, 0xD83D#32, 0xDE00#32] := by decide +kernel

example : Native32 [0x48, 0x20AC, 0x1F600] := ⟨by decide, by decide, ⟨0x48, by decide, by decide⟩⟩
example : Native16 [0x48, 0x20AC, 0x62] := ⟨by decide, by decide, by decide, by decide⟩
example : transcode16to8 (utf16s [0x48, 0x20AC, 0x62]) = some (utf8s [0x48, 0x20AC, 0x62]) :=
  C11_transcode_16_to_8_partial _ ⟨by decide, by decide, by decide, by decide⟩ (by decide)

/-! ## C12 -/

/-- **C12 (partial)** `trim`, `trim_left` and `trim_right` of UTF-16 text of the basic multilingual plane whose byte order
is guessed correctly, without the code points of C13's undefined behaviour. -/
theorem C12_trim16_partial (cs : List Nat) (h : Native16 cs) (hu : ∀ c ∈ cs, ¬ InRanges wsUndefined c)
    (hlen : cs.length < 2 ^ 64) :
    trim16 (utf16s cs) = some (utf16s (trimmed cs)) ∧
    trimLeft16 (utf16s cs) = some (utf16s (trimmedLeft cs)) ∧
    trimRight16 (utf16s cs) = some (utf16s (trimmedRight cs)) := by
  have hf := fun cb => (native16_decode cs h cb).1
  have hr := fun cb => (native16_decode cs h cb).2
  have hp : ∀ c ∈ cs, isNotWhitespace32 (BitVec.ofNat 32 c) = some (!isWs c) := fun c hc => notWs c (h.scalar c hc) (hu c hc)
  have hl : ∀ c ∈ trimmedLeft cs, c ∈ cs := (List.dropWhile_suffix _).subset
  have hrt : ∀ c ∈ trimmedRight cs, c ∈ cs := by
    intro c hc
    unfold trimmedRight at hc
    exact List.mem_reverse.1 ((List.dropWhile_suffix _).subset (List.mem_reverse.1 hc))
  rw [utf16s_bmp cs h.bmp, utf16s_bmp _ (fun c hc => h.bmp c (trimmed_subset c hc)),
    utf16s_bmp _ (fun c hc => h.bmp c (hl c hc)), utf16s_bmp _ (fun c hc => h.bmp c (hrt c hc))]
  exact ⟨trim_units (by decide) _ _ cs h.bmp hf hr hp hlen, trimLeft_units (by decide) _ _ cs h.bmp hf hp,
    trimRight_units (by decide) _ _ cs h.bmp hr hp⟩

/-- **C12 (partial)** The same for UTF-32 text. -/
theorem C12_trim32_partial (cs : List Nat) (h : Native32 cs) (hu : ∀ c ∈ cs, ¬ InRanges wsUndefined c)
    (hlen : cs.length < 2 ^ 64) :
    trim32 (cs.map (BitVec.ofNat 32)) = some ((trimmed cs).map (BitVec.ofNat 32)) ∧
    trimLeft32 (cs.map (BitVec.ofNat 32)) = some ((trimmedLeft cs).map (BitVec.ofNat 32)) ∧
    trimRight32 (cs.map (BitVec.ofNat 32)) = some ((trimmedRight cs).map (BitVec.ofNat 32)) := by
  have hf := fun cb => (native32_decode cs h cb).1
  have hr := fun cb => (native32_decode cs h cb).2
  have hp : ∀ c ∈ cs, isNotWhitespace32 (BitVec.ofNat 32 c) = some (!isWs c) := fun c hc => notWs c (h.scalar c hc) (hu c hc)
  have hw : ∀ c ∈ cs, c < 2 ^ 32 := fun c hc => lt32 (h.scalar c hc)
  exact ⟨trim_units (by decide) _ _ cs hw hf hr hp hlen, trimLeft_units (by decide) _ _ cs hw hf hp,
    trimRight_units (by decide) _ _ cs hw hr hp⟩

/-- **C12 is violated** in UTF-16: trimming text whose first code points are multiples of 256 looks at byte-swapped
code points. U+0900 (DEVANAGARI SIGN INVERTED CANDRABINDU) is deleted, being taken for U+0009 (TAB). -/
theorem C12_trim16_violated : trim16 (utf16s [0x0900]) = some [] ∧ trimmed [0x0900] = [0x0900] := by decide +kernel

/-- **C12 is violated** in UTF-32: U+2000 (whitespace) is not removed, being taken for U+200000. -/
theorem C12_trim32_violated : trim32 ([0x2000].map (BitVec.ofNat 32)) = some [0x2000#32] ∧ trimmed [0x2000] = [] := by
  decide +kernel

example : trim16 (utf16s [0x20, 0x2003, 0xE9, 0x20, 0x62, 0x3000]) = some (utf16s [0xE9, 0x20, 0x62]) :=
  (C12_trim16_partial _ ⟨by decide, by decide, by decide, by decide⟩ (by decide) (by decide)).1

end Verif.Props
