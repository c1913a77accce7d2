import Verif.Props.Hashing
import Verif.Props.Strings2

/-! # C68: hashing UTF-16 text, and text in general -/
namespace Verif.Props
open Verif.Spec Verif.Model Verif.Proofs

private theorem hasher_bytes (c : Nat) (hc : IsScalar c) : hasherUtf8 (BitVec.ofNat 32 c) = utf8 c := by
  have hlt : c ≤ 0x10FFFF := by unfold IsScalar at hc; omega
  have ht : (BitVec.ofNat 32 c).toNat = c := by rw [BitVec.toNat_ofNat]; omega
  unfold hasherUtf8
  by_cases h0 : c = 0
  · subst h0; rfl
  · have h0' : BitVec.ofNat 32 c ≠ 0#32 := by
      intro h; have := congrArg BitVec.toNat h; rw [ht] at this; exact h0 this
    rw [if_neg (show ¬ BitVec.ofNat 32 c = 0 from h0')]
    have := enc8_eq (BitVec.ofNat 32 c) h0' (by rw [ht]; exact hlt)
    rw [ht] at this
    exact this

private theorem widen {n c : Nat} (hc : c < 2 ^ n) : (BitVec.ofNat n c).setWidth 32 = BitVec.ofNat 32 c := by
  apply BitVec.eq_of_toNat_eq
  rw [BitVec.toNat_setWidth, BitVec.toNat_ofNat, BitVec.toNat_ofNat, Nat.mod_eq_of_lt hc]

private theorem fnv_reports {w n : Nat} (t : Fnv1aTraits w) (cs : List Nat) (hs : ∀ c ∈ cs, IsScalar c) (hn : ∀ c ∈ cs, c < 2 ^ n) (i : Nat)
    (v : BitVec w) :
    (unitReports i (cs.map (BitVec.ofNat n))).foldl (fun v r => fnv1aBytes t v (hasherUtf8 r.cp)) v = fnv1aBytes t v (utf8s cs) := by
  induction cs generalizing i v with
  | nil => rfl
  | cons c cs ih =>
    rw [List.map_cons, unitReports, List.foldl_cons, ih (fun x hx => hs x (by simp [hx])) (fun x hx => hn x (by simp [hx])), utf8s_cons]
    have hc := C27_fnv1a_chunking t v [utf8 c, utf8s cs]
    simp only [List.foldl_cons, List.foldl_nil, List.flatten_cons, List.flatten_nil, List.append_nil] at hc
    rw [← hc, widen (hn c (by simp)), hasher_bytes c (hs c (by simp))]

private theorem sha_reports {n : Nat} (cs : List Nat) (hs : ∀ c ∈ cs, IsScalar c) (hn : ∀ c ∈ cs, c < 2 ^ n) (i : Nat) (s : Sha1.State)
    (msg : List (BitVec 8)) (h : Proofs.Sha1.Abs s msg) :
    ∃ s', (unitReports i (cs.map (BitVec.ofNat n))).foldlM
        (fun s r => if r.cp = 0 then Sha1.feedByte s 0 else Sha1.feed s (unitsView (encode8 r.cp))) s = some s' ∧
        Proofs.Sha1.Abs s' (msg ++ utf8s cs) := by
  induction cs generalizing i s msg with
  | nil => exact ⟨s, rfl, by simpa [utf8s] using h⟩
  | cons c cs ih =>
    have hu := hasher_bytes c (hs c (by simp))
    have h1 : ∃ s1, (if BitVec.ofNat 32 c = 0 then Sha1.feedByte s 0
        else Sha1.feed s (unitsView (encode8 (BitVec.ofNat 32 c)))) = some s1 ∧
        Proofs.Sha1.Abs s1 (msg ++ utf8 c) := by
      rw [← hu]
      unfold hasherUtf8
      split
      · exact Proofs.Sha1.abs_feedByte h 0
      · exact Proofs.Sha1.abs_feed h _
    obtain ⟨s1, e1, a1⟩ := h1
    obtain ⟨s2, e2, a2⟩ := ih (fun x hx => hs x (by simp [hx])) (fun x hx => hn x (by simp [hx])) (i + 1) s1 _ a1
    refine ⟨s2, ?_, by rwa [utf8s_cons, ← List.append_assoc]⟩
    rw [List.map_cons, unitReports, List.foldlM_cons, widen (hn c (by simp)), e1]
    exact e2

private theorem cut_always (rs : List Report) (seen : List Report) : cut always seen rs = rs := by
  induction rs generalizing seen with
  | nil => rfl
  | cons r rs ih => simp [cut, always, ih]

/-- FNV-1a of UTF-16 text of the basic multilingual plane is FNV-1a of its UTF-8 encoding, if its byte order is guessed correctly, or a byte order mark (of either
byte order) comes first. Supplementary characters: `C68_fnv1a_utf16_violated`. -/
theorem C68_fnv1a_utf16_partial {w : Nat} (t : Fnv1aTraits w) (v : BitVec w) (cs : List Nat) :
    (Native16 cs → fnv1aString t utfDecode16 v (utf16s cs) = some (fnv1aBytes t v (utf8s cs))) ∧
    ((∀ c ∈ cs, IsScalar c ∧ c < 0x10000) → fnv1aString t utfDecode16 v (0xFEFF#16 :: utf16s cs) = some (fnv1aBytes t v (utf8s cs)) ∧
      fnv1aString t utfDecode16 v (0xFFFE#16 :: (utf16s cs).map byteReverse16) = some (fnv1aBytes t v (utf8s cs))) := by
  constructor
  · intro h
    rw [utf16s_bmp cs h.bmp]
    unfold fnv1aString
    rw [(native16_decode cs h always).1, Option.map_some, cut_always]
    exact congrArg some (fnv_reports t cs h.scalar h.bmp 0 v)
  · intro h
    have hb : ∀ c ∈ cs, c < 0x10000 := fun c hc => (h c hc).2
    rw [utf16s_bmp cs hb]
    have := C08_bom16 (unitsOf 16 cs) (by
      intro u hu
      obtain ⟨c, hc, rfl⟩ := List.mem_map.1 hu
      have h1 := (h c hc).1
      have h2 := hb c hc
      unfold IsScalar at h1
      rw [BitVec.toNat_ofNat]
      omega)
    unfold fnv1aString
    rw [this.1, this.2, Option.map_some]
    have := fnv_reports (n := 16) t cs (fun c hc => (h c hc).1) hb 1 v
    exact ⟨congrArg some this, congrArg some this⟩

example : fnv1aString fnv1a32 utfDecode16 fnv1a32.offsetBasis (utf16s [0x48, 0x20AC, 0]) =
    some (fnv1aBytes fnv1a32 fnv1a32.offsetBasis (utf8s [0x48, 0x20AC, 0])) :=
  (C68_fnv1a_utf16_partial _ _ _).1 ⟨by decide, by decide, by decide, by decide⟩

example : ∀ c ∈ [0x100, 0, 0x20AC], IsScalar c ∧ c < 0x10000 := by decide

/-- **C68 is violated** in UTF-16: U+1F600 is hashed as its two surrogates, each encoded on its own, and U+0100 as U+0001. -/
theorem C68_fnv1a_utf16_violated :
    fnv1aString fnv1a32 utfDecode16 fnv1a32.offsetBasis (utf16s [0x61, 0x1F600]) ≠
      some (fnv1aBytes fnv1a32 fnv1a32.offsetBasis (utf8s [0x61, 0x1F600])) ∧
    fnv1aString fnv1a32 utfDecode16 fnv1a32.offsetBasis (utf16s [0x100]) = some (fnv1aBytes fnv1a32 fnv1a32.offsetBasis (utf8s [1])) ∧
    fnv1aBytes fnv1a32 fnv1a32.offsetBasis (utf8s [1]) ≠ fnv1aBytes fnv1a32 fnv1a32.offsetBasis (utf8s [0x100]) := by decide +kernel

/-- SHA-1 of UTF-16 and UTF-32 text without byte order mark, whose byte order is guessed correctly (and in UTF-16 of the basic multilingual plane), fed after
any other calls, is the SHA-1 of everything else followed by the UTF-8 encoding: the same for both. -/
theorem C68_sha1_text_partial (garbage : Nat → BitVec 8) (calls : List Sha1.Input) (cs : List Nat)
    (hlen : (calls.flatMap Sha1.Input.bytes ++ utf8s cs).length < 2 ^ 38) :
    (Native16 cs → ∃ s s' f, Sha1.applyAll (Sha1.init garbage) calls = some s ∧ Sha1.feedString utfDecode16 s (utf16s cs) = some s' ∧
      Sha1.finish s' = some f ∧ Sha1.value f = Spec.Sha1.sha1 (calls.flatMap Sha1.Input.bytes ++ utf8s cs)) ∧
    (Native32 cs → ∃ s s' f, Sha1.applyAll (Sha1.init garbage) calls = some s ∧
      Sha1.feedString utfDecode32 s (cs.map (BitVec.ofNat 32)) = some s' ∧
      Sha1.finish s' = some f ∧ Sha1.value f = Spec.Sha1.sha1 (calls.flatMap Sha1.Input.bytes ++ utf8s cs)) := by
  obtain ⟨s, e, a⟩ := Proofs.Sha1.abs_applyAll calls (Proofs.Sha1.abs_init garbage)
  rw [List.nil_append] at a
  constructor
  · intro h
    obtain ⟨s', e', a'⟩ := sha_reports cs h.scalar (n := 16) h.bmp 0 s _ a
    obtain ⟨f, e2, _, hv⟩ := Proofs.Sha1.finish_eq a'
    refine ⟨s, s', f, e, ?_, e2, ?_⟩
    · rw [utf16s_bmp cs h.bmp]
      unfold Sha1.feedString
      rw [(native16_decode cs h always).1, Option.bind_some, cut_always]
      exact e'
    · rw [hv, Nat.mod_eq_of_lt hlen]; rfl
  · intro h
    obtain ⟨s', e', a'⟩ := sha_reports cs h.scalar (n := 32) (fun c hc => by
      have := h.scalar c hc; unfold IsScalar at this; omega) 0 s _ a
    obtain ⟨f, e2, _, hv⟩ := Proofs.Sha1.finish_eq a'
    refine ⟨s, s', f, e, ?_, e2, ?_⟩
    · have := (native32_decode cs h always).1
      unfold unitsOf at this
      unfold Sha1.feedString
      rw [this, Option.bind_some, cut_always]
      exact e'
    · rw [hv, Nat.mod_eq_of_lt hlen]; rfl

example : Native16 [0x48, 0x20AC, 0] ∧ Native32 [0x48, 0x1F600, 0] :=
  ⟨⟨by decide, by decide, by decide, by decide⟩, ⟨by decide, by decide, ⟨0x48, by decide, by decide⟩⟩⟩

end Verif.Props
