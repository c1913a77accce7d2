import Verif.Proofs.Sha1
import Verif.Proofs.Strings
import Verif.Props.Utf
import Verif.Spec.Fnv

/-!
# C24-C29, C67, C68: hashing
-/
namespace Verif.Props
open Verif.Spec Verif.Model Verif.Proofs

/-! ## C24 -/

/-- **C24** A new hasher (whatever the uninitialised block contains), fed any byte sequence shorter than 2^38 bytes and
finished, has the SHA-1 digest of FIPS 180-4 of that sequence. No access is out of bounds. -/
theorem C24_sha1_fips (garbage : Nat → BitVec 8) (msg : List (BitVec 8)) (hlen : msg.length < 2 ^ 38) :
    ∃ s f, Sha1.feed (Sha1.init garbage) msg = some s ∧ Sha1.finish s = some f ∧ f.finished = true ∧
      Sha1.value f = Spec.Sha1.sha1 msg := by
  obtain ⟨s, e, a⟩ := Proofs.Sha1.abs_feed (Proofs.Sha1.abs_init garbage) msg
  obtain ⟨f, e2, hf, hv⟩ := Proofs.Sha1.finish_eq a
  refine ⟨s, f, e, e2, hf, ?_⟩
  rw [hv, List.nil_append, Nat.mod_eq_of_lt hlen]
  rfl

/-- the FIPS example message, hashed by the model -/
example : ((Sha1.feed (Sha1.init fun _ => 0xCC#8) [0x61#8, 0x62#8, 0x63#8]).bind Sha1.finish).map Sha1.value =
    some [0xa9#8, 0x99#8, 0x3e#8, 0x36#8, 0x47#8, 0x06#8, 0x81#8, 0x6a#8, 0xba#8, 0x3e#8, 0x25#8, 0x71#8,
     0x78#8, 0x50#8, 0xc2#8, 0x6c#8, 0x9c#8, 0xd0#8, 0xd8#8, 0x9d#8] := by decide +kernel

/-! ## C25 -/

/-- **C25** Whatever sequence of calls (single bytes, blocks of any size, empty blocks) a message is fed in, the digest is
that of the concatenated message; in particular it is the same as for one call with the whole message. -/
theorem C25_sha1_chunking (garbage garbage' : Nat → BitVec 8) (calls : List Sha1.Input) :
    ∃ s f s' f', Sha1.applyAll (Sha1.init garbage) calls = some s ∧ Sha1.finish s = some f ∧
      Sha1.feed (Sha1.init garbage') (calls.flatMap Sha1.Input.bytes) = some s' ∧ Sha1.finish s' = some f' ∧
      Sha1.value f = Sha1.value f' ∧
      ((calls.flatMap Sha1.Input.bytes).length < 2 ^ 38 →
        Sha1.value f = Spec.Sha1.sha1 (calls.flatMap Sha1.Input.bytes)) := by
  obtain ⟨s, e, a⟩ := Proofs.Sha1.abs_applyAll calls (Proofs.Sha1.abs_init garbage)
  obtain ⟨f, e2, _, hv⟩ := Proofs.Sha1.finish_eq a
  obtain ⟨s', e', a'⟩ := Proofs.Sha1.abs_feed (Proofs.Sha1.abs_init garbage') (calls.flatMap Sha1.Input.bytes)
  obtain ⟨f', e2', _, hv'⟩ := Proofs.Sha1.finish_eq a'
  refine ⟨s, f, s', f', e, e2, e', e2', by rw [hv, hv'], ?_⟩
  intro hlen
  rw [hv, List.nil_append, Nat.mod_eq_of_lt hlen]
  rfl

example : [Sha1.Input.data [], .byte 0x61#8, .data [0x62#8, 0x63#8]].flatMap Sha1.Input.bytes = [0x61#8, 0x62#8, 0x63#8] := rfl

/-! ## C26 -/

/-- **C26** After `finish`, no sequence of inputs and further `finish` calls changes the hasher. -/
theorem C26_sha1_finished (s : Sha1.State) (h : s.finished = true) (calls : List Sha1.Input) :
    Sha1.applyAll s calls = some s ∧ Sha1.finish s = some s := by
  constructor
  · induction calls with
    | nil => rfl
    | cons i is ih =>
      have : Sha1.apply s i = some s := by
        cases i with
        | byte b => unfold Sha1.apply Sha1.feedByte; rw [h]; rfl
        | data d => unfold Sha1.apply Sha1.feed; rw [h]; rfl
      rw [Sha1.applyAll, this, Option.bind_some, ih]
  · unfold Sha1.finish; rw [h]; rfl

/-- … and `finish` does finish (see `C24_sha1_fips` for any reachable state) -/
example : ((Sha1.finish (Sha1.init fun _ => 0#8)).map fun s => s.finished) = some true := by decide +kernel

/-! ## C67 -/

/-- **C67 is violated**: the number of blocks is kept in 32 bits. For a message of 2^38 or more bytes (FIPS 180-4 allows
up to 2^61) the number put in the length field of the padding is `8 * (length mod 2^38)`, and the sequence of blocks
digested is not the padded message. (That the digest differs as well cannot be proved without assuming that SHA-1 has no
collision there.) -/
theorem C67_sha1_long_violated (garbage : Nat → BitVec 8) (msg : List (BitVec 8)) (h1 : 2 ^ 38 ≤ msg.length)
    (h2 : msg.length < 2 ^ 61) :
    ∃ s f p, Sha1.feed (Sha1.init garbage) msg = some s ∧ Sha1.finish s = some f ∧
      p = msg ++ 0x80#8 :: List.replicate (Spec.Sha1.zeroBytes msg.length) 0 ++
        Spec.Sha1.bigEndian64 (8 * (msg.length % 2 ^ 38)) ∧
      Sha1.value f = Spec.Sha1.digestBytes (Spec.Sha1.compressAll (p.length / 64) p Spec.Sha1.initial) ∧
      p ≠ Spec.Sha1.pad msg := by
  obtain ⟨s, e, a⟩ := Proofs.Sha1.abs_feed (Proofs.Sha1.abs_init garbage) msg
  obtain ⟨f, e2, hf, hv⟩ := Proofs.Sha1.finish_eq a
  refine ⟨s, f, _, e, e2, rfl, ?_, ?_⟩
  · rw [hv, List.nil_append]; rfl
  · intro h
    unfold Spec.Sha1.pad at h
    have h := List.append_cancel_left h
    have key : ∀ m n, Spec.Sha1.bigEndian64 m = Spec.Sha1.bigEndian64 n → m < 2 ^ 64 → n < 2 ^ 64 → m = n := by
      intro m n h hm hn
      unfold Spec.Sha1.bigEndian64 at h
      have hi : ∀ i < 8, m / 256 ^ (7 - i) % 256 = n / 256 ^ (7 - i) % 256 := by
        intro i hi
        have := congrArg (fun l => (l[i]?).map BitVec.toNat) h
        simpa [List.getElem?_map, List.getElem?_range hi] using this
      have := hi 0 (by decide); have := hi 1 (by decide); have := hi 2 (by decide); have := hi 3 (by decide)
      have := hi 4 (by decide); have := hi 5 (by decide); have := hi 6 (by decide); have := hi 7 (by decide)
      omega
    have := key _ _ h (by omega) (by omega)
    omega

/-! ## C27 -/

private theorem fnv_fold {w : Nat} (t : Fnv1aTraits w) (hw : 8 ≤ w) (bs : List (BitVec 8)) (v : BitVec w) :
    (fnv1aBytes t v bs).toNat = Fnv.fnv1a w t.prime.toNat v.toNat (bs.map BitVec.toNat) := by
  induction bs generalizing v with
  | nil => rfl
  | cons b bs ih =>
    rw [fnv1aBytes, ih]
    simp only [Fnv.fnv1a, List.map_cons, List.foldl_cons]
    congr 1
    unfold fnv1aByte
    rw [BitVec.toNat_mul, BitVec.toNat_xor, BitVec.toNat_setWidth,
      Nat.mod_eq_of_lt (Nat.lt_of_lt_of_le b.isLt (Nat.pow_le_pow_right (by decide) hw))]
    rfl

/-- **C27** fed any bytes, the three hashers compute FNV-1a -/
theorem C27_fnv1a (bs : List (BitVec 8)) :
    (fnv1aBytes fnv1a32 fnv1a32.offsetBasis bs).toNat = Fnv.fnv1a 32 Fnv.prime32 Fnv.basis32 (bs.map BitVec.toNat) ∧
    (fnv1aBytes fnv1a64 fnv1a64.offsetBasis bs).toNat = Fnv.fnv1a 64 Fnv.prime64 Fnv.basis64 (bs.map BitVec.toNat) ∧
    (fnv1aBytes fnv1a128 fnv1a128.offsetBasis bs).toNat =
      Fnv.fnv1a 128 Fnv.prime128 Fnv.basis128 (bs.map BitVec.toNat) :=
  ⟨fnv_fold fnv1a32 (by decide) bs _, fnv_fold fnv1a64 (by decide) bs _, fnv_fold fnv1a128 (by decide) bs _⟩

/-- **C27** feeding a list of chunks one after the other is feeding their concatenation -/
theorem C27_fnv1a_chunking {w : Nat} (t : Fnv1aTraits w) (v : BitVec w) (chunks : List (List (BitVec 8))) :
    chunks.foldl (fnv1aBytes t) v = fnv1aBytes t v chunks.flatten := by
  have app : ∀ (a b : List (BitVec 8)) (v : BitVec w), fnv1aBytes t v (a ++ b) = fnv1aBytes t (fnv1aBytes t v a) b := by
    intro a b
    induction a with
    | nil => intro v; rfl
    | cons x a ih => intro v; exact ih _
  induction chunks generalizing v with
  | nil => rfl
  | cons c cs ih => rw [List.foldl_cons, ih, List.flatten_cons, app]

-- "a" → 0xE40C292C (published test vector); "foobar" → 0x85944171f73967e8
example : fnv1aBytes fnv1a32 fnv1a32.offsetBasis [0x61#8] = 0xE40C292C#32 ∧
    fnv1aBytes fnv1a64 fnv1a64.offsetBasis [0x66#8, 0x6f#8, 0x6f#8, 0x62#8, 0x61#8, 0x72#8] = 0x85944171f73967e8#64 := by
  decide +kernel

/-! ## C28 -/

private theorem fnv_inj {w : Nat} (t : Fnv1aTraits w) (inv : BitVec w) (hinv : t.prime * inv = 1) (bs : List (BitVec 8))
    (u v : BitVec w) (h : fnv1aBytes t u bs = fnv1aBytes t v bs) : u = v := by
  induction bs generalizing u v with
  | nil => exact h
  | cons b bs ih =>
    have := ih _ _ h
    unfold fnv1aByte at this
    have := congrArg (· * inv) this
    simp only [BitVec.mul_assoc, hinv] at this
    have := congrArg (· ^^^ b.setWidth w) (by simpa using this : u ^^^ b.setWidth w = v ^^^ b.setWidth w)
    simpa [BitVec.xor_assoc] using this

private theorem fnv_one {w : Nat} (t : Fnv1aTraits w) (hw : 8 ≤ w) (inv : BitVec w) (hinv : t.prime * inv = 1)
    (v : BitVec w) (pre post : List (BitVec 8)) (b c : BitVec 8) (hbc : b ≠ c) :
    fnv1aBytes t v (pre ++ b :: post) ≠ fnv1aBytes t v (pre ++ c :: post) := by
  induction pre generalizing v with
  | nil =>
    intro h
    have h := fnv_inj t inv hinv post _ _ h
    unfold fnv1aByte at h
    have h := congrArg (· * inv) h
    simp only [BitVec.mul_assoc, hinv] at h
    have h : v ^^^ b.setWidth w = v ^^^ c.setWidth w := by simpa using h
    have h := congrArg (v ^^^ ·) h
    simp only [← BitVec.xor_assoc, BitVec.xor_self, BitVec.zero_xor] at h
    have h := congrArg BitVec.toNat h
    rw [BitVec.toNat_setWidth, BitVec.toNat_setWidth,
      Nat.mod_eq_of_lt (Nat.lt_of_lt_of_le b.isLt (Nat.pow_le_pow_right (by decide) hw)),
      Nat.mod_eq_of_lt (Nat.lt_of_lt_of_le c.isLt (Nat.pow_le_pow_right (by decide) hw))] at h
    exact hbc (BitVec.eq_of_toNat_eq h)
  | cons x pre ih => exact ih _

/-- **C28** Two strings that differ in exactly one byte have different hashes, at all three sizes and from any
intermediate state of the hasher. -/
theorem C28_fnv1a_one_byte (pre post : List (BitVec 8)) (b c : BitVec 8) (hbc : b ≠ c)
    (v32 : BitVec 32) (v64 : BitVec 64) (v128 : BitVec 128) :
    fnv1aBytes fnv1a32 v32 (pre ++ b :: post) ≠ fnv1aBytes fnv1a32 v32 (pre ++ c :: post) ∧
    fnv1aBytes fnv1a64 v64 (pre ++ b :: post) ≠ fnv1aBytes fnv1a64 v64 (pre ++ c :: post) ∧
    fnv1aBytes fnv1a128 v128 (pre ++ b :: post) ≠ fnv1aBytes fnv1a128 v128 (pre ++ c :: post) :=
  ⟨fnv_one _ (by decide) 0x359C449B#32 (by decide) _ _ _ _ _ hbc, fnv_one _ (by decide) 0xCE965057AFF6957B#64 (by decide) _ _ _ _ _ hbc,
   fnv_one _ (by decide) 0xB1041AD2562FF2FF2FF2FF2FF2FF2FF3#128 (by decide) _ _ _ _ _ hbc⟩

example : fnv1aBytes fnv1a32 fnv1a32.offsetBasis [1, 2, 3] ≠ fnv1aBytes fnv1a32 fnv1a32.offsetBasis [1, 9, 3] := by
  decide +kernel

/-! ## C29 -/

/-- **C29** For any previous value and any size (16, 32, 64, 128 bits: `t` is any constants), combining is a bijection of
the new hash. -/
theorem C29_hash_combiner {w : Nat} (t : HashCombinerTraits w) (seed : BitVec w) (hs : List (BitVec w)) :
    (∀ g h, hashCombineAll t seed (hs ++ [g]) = hashCombineAll t seed (hs ++ [h]) → g = h) ∧
    (∀ wanted, ∃ g, hashCombineAll t seed (hs ++ [g]) = wanted) := by
  have e : ∀ g, hashCombineAll t seed (hs ++ [g]) = hashCombine t (hashCombineAll t seed hs) g := by
    intro g; simp [hashCombineAll, List.foldl_append]
  constructor
  · intro g h hgh
    rw [e, e] at hgh
    generalize hashCombineAll t seed hs = v at hgh
    unfold hashCombine at hgh
    have hgh := congrArg (v ^^^ ·) hgh
    simp only [← BitVec.xor_assoc, BitVec.xor_self, BitVec.zero_xor] at hgh
    have hgh := congrArg (· - (v >>> t.rightShift)) hgh
    simp only [BitVec.add_sub_cancel] at hgh
    have hgh := congrArg (· - (v <<< t.leftShift)) hgh
    simp only [BitVec.add_sub_cancel] at hgh
    have hgh := congrArg (· - t.offset) hgh
    simpa only [BitVec.add_sub_cancel] using hgh
  · intro wanted
    generalize hv : hashCombineAll t seed hs = v at e
    refine ⟨(v ^^^ wanted) - (v >>> t.rightShift) - (v <<< t.leftShift) - t.offset, ?_⟩
    rw [e]
    unfold hashCombine
    simp only [BitVec.sub_add_cancel]
    rw [← BitVec.xor_assoc, BitVec.xor_self, BitVec.zero_xor]

-- the constants of the code
example : hashCombineAll hashCombiner16 1#16 [2#16, 3#16] ≠ hashCombineAll hashCombiner16 1#16 [2#16, 4#16] ∧
    hashCombineAll hashCombiner64 1#64 [2#64, 3#64] ≠ hashCombineAll hashCombiner64 1#64 [3#64, 2#64] := by decide +kernel

/-- **C29** At none of the four sizes does combining a zero hash into a zero state leave it zero. -/
theorem C29_hash_combiner_zero :
    hashCombine hashCombiner16 0 0 ≠ 0 ∧ hashCombine hashCombiner32 0 0 ≠ 0 ∧ hashCombine hashCombiner64 0 0 ≠ 0 ∧
    hashCombine hashCombiner128 0 0 ≠ 0 := by decide +kernel

/-! ## C68 -/

private theorem hasherUtf8_eq (c : Nat) (hc : IsScalar c) : hasherUtf8 (BitVec.ofNat 32 c) = utf8 c := by
  have hlt : c ≤ 0x10FFFF := by unfold IsScalar at hc; omega
  have ht : (BitVec.ofNat 32 c).toNat = c := by rw [BitVec.toNat_ofNat]; omega
  unfold hasherUtf8
  by_cases h0 : c = 0
  · subst h0; rfl
  · have h0' : BitVec.ofNat 32 c ≠ 0#32 := by
      intro h; have := congrArg BitVec.toNat h; rw [ht] at this; exact h0 this
    rw [if_neg (show ¬ BitVec.ofNat 32 c = 0 from h0')]
    have := enc8_eq (BitVec.ofNat 32 c) h0' (by rw [ht]; exact hlt)
    rw [ht] at this
    exact this

/-- **C68** FNV-1a of a UTF-32 string of scalar values marked with a byte order mark (of either byte order) is FNV-1a of
its UTF-8 encoding (`pre` is whatever was hashed before). U+0000 included. -/
theorem C68_fnv1a_utf32_partial {w : Nat} (t : Fnv1aTraits w) (v : BitVec w) (cs : List Nat) (hcs : ∀ c ∈ cs, IsScalar c) :
    fnv1aString t utfDecode32 v (0xFEFF#32 :: cs.map (BitVec.ofNat 32)) = some (fnv1aBytes t v (utf8s cs)) ∧
    fnv1aString t utfDecode32 v (0xFFFE0000#32 :: (cs.map (BitVec.ofNat 32)).map byteReverse32) =
      some (fnv1aBytes t v (utf8s cs)) := by
  have key : ∀ (i : Nat) (v : BitVec w), (unitReports i (cs.map (BitVec.ofNat 32))).foldl
      (fun v r => fnv1aBytes t v (hasherUtf8 r.cp)) v = fnv1aBytes t v (utf8s cs) := by
    induction cs with
    | nil => intro i v; rfl
    | cons c cs ih =>
      intro i v
      rw [List.map_cons, unitReports, List.foldl_cons, ih (fun x hx => hcs x (by simp [hx])), utf8s_cons]
      have hc := C27_fnv1a_chunking t v [utf8 c, utf8s cs]
      simp only [List.foldl_cons, List.foldl_nil, List.flatten_cons, List.flatten_nil, List.append_nil] at hc
      rw [← hc, BitVec.setWidth_eq, hasherUtf8_eq c (hcs c (by simp))]
  obtain ⟨h1, h2⟩ := C08_bom32 (cs.map (BitVec.ofNat 32))
  unfold fnv1aString
  rw [h1, h2, Option.map_some, key]
  exact ⟨rfl, rfl⟩

/-- **C68** the same for a string without mark in native byte order that the heuristic of C08 recognises -/
theorem C68_fnv1a_utf32_native_partial {w : Nat} (t : Fnv1aTraits w) (v : BitVec w) (cs : List Nat)
    (hcs : ∀ c ∈ cs, IsScalar c) (hbom : cs.head? ≠ some 0xFEFF) (hlow : ∃ c ∈ cs.take 16, c % 256 ≠ 0) :
    fnv1aString t utfDecode32 v (cs.map (BitVec.ofNat 32)) = some (fnv1aBytes t v (utf8s cs)) := by
  have ht : ∀ c ∈ cs, (BitVec.ofNat 32 c).toNat = c := by
    intro c hc
    have := hcs c hc
    unfold IsScalar at this
    rw [BitVec.toNat_ofNat]; omega
  have h1 := (C08_native_endian32_partial (cs.map (BitVec.ofNat 32)) (by
      cases cs with
      | nil => simp
      | cons c cs =>
        simp only [List.map_cons, List.head?_cons]
        intro h
        apply hbom
        have := congrArg BitVec.toNat (Option.some.inj h)
        rw [ht c (by simp)] at this
        simpa using this)
    (by
      intro u hu
      obtain ⟨c, hc, rfl⟩ := List.mem_map.1 hu
      rw [ht c hc]
      have := hcs c hc
      unfold IsScalar at this
      omega)
    (by
      obtain ⟨c, hc, hlow⟩ := hlow
      refine ⟨BitVec.ofNat 32 c, ?_, ?_⟩
      · rw [← List.map_take]; exact List.mem_map_of_mem hc
      · unfold lowByteZero
        rw [ht c (List.mem_of_mem_take hc)]
        simpa using hlow)).1
  obtain ⟨hb, _⟩ := C68_fnv1a_utf32_partial t v cs hcs
  unfold fnv1aString at hb ⊢
  rw [(C08_bom32 _).1, Option.map_some] at hb
  rw [h1, Option.map_some]
  have shift : ∀ (l : List (BitVec 32)) (i j : Nat) (v : BitVec w),
      (unitReports i l).foldl (fun v r => fnv1aBytes t v (hasherUtf8 r.cp)) v =
      (unitReports j l).foldl (fun v r => fnv1aBytes t v (hasherUtf8 r.cp)) v := by
    intro l
    induction l with
    | nil => intros; rfl
    | cons a l ih => intro i j v; exact ih _ _ _
  rw [shift _ 0 1 v]
  exact hb

/-- **C68** SHA-1 of a UTF-32 string of scalar values with a byte order mark, fed after any other calls, is the SHA-1 of
everything else followed by its UTF-8 encoding. -/
theorem C68_sha1_utf32_partial (garbage : Nat → BitVec 8) (calls : List Sha1.Input) (cs : List Nat)
    (hcs : ∀ c ∈ cs, IsScalar c)
    (hlen : (calls.flatMap Sha1.Input.bytes ++ utf8s cs).length < 2 ^ 38) :
    ∃ s s' f, Sha1.applyAll (Sha1.init garbage) calls = some s ∧
      Sha1.feedString utfDecode32 s (0xFEFF#32 :: cs.map (BitVec.ofNat 32)) = some s' ∧ Sha1.finish s' = some f ∧
      Sha1.value f = Spec.Sha1.sha1 (calls.flatMap Sha1.Input.bytes ++ utf8s cs) := by
  obtain ⟨s, e, a⟩ := Proofs.Sha1.abs_applyAll calls (Proofs.Sha1.abs_init garbage)
  rw [List.nil_append] at a
  have key : ∀ (cs : List Nat) (_ : ∀ c ∈ cs, IsScalar c) (i : Nat) (s : Sha1.State) (msg : List (BitVec 8)),
      Proofs.Sha1.Abs s msg → ∃ s', (unitReports i (cs.map (BitVec.ofNat 32))).foldlM
        (fun s r => if r.cp = 0 then Sha1.feedByte s 0 else Sha1.feed s (unitsView (encode8 r.cp))) s = some s' ∧
        Proofs.Sha1.Abs s' (msg ++ utf8s cs) := by
    intro cs
    induction cs with
    | nil => intro _ i s msg h; exact ⟨s, rfl, by simpa [utf8s] using h⟩
    | cons c cs ih =>
      intro hcs i s msg h
      have hu := hasherUtf8_eq c (hcs c (by simp))
      have h1 : ∃ s1, (if BitVec.ofNat 32 c = 0 then Sha1.feedByte s 0
          else Sha1.feed s (unitsView (encode8 (BitVec.ofNat 32 c)))) = some s1 ∧
          Proofs.Sha1.Abs s1 (msg ++ utf8 c) := by
        rw [← hu]
        unfold hasherUtf8
        split
        · exact Proofs.Sha1.abs_feedByte h 0
        · exact Proofs.Sha1.abs_feed h _
      obtain ⟨s1, e1, a1⟩ := h1
      obtain ⟨s2, e2, a2⟩ := ih (fun x hx => hcs x (by simp [hx])) (i + 1) s1 _ a1
      refine ⟨s2, ?_, by rwa [utf8s_cons, ← List.append_assoc]⟩
      rw [List.map_cons, unitReports, List.foldlM_cons, BitVec.setWidth_eq]
      rw [e1]
      exact e2
  obtain ⟨s', e', a'⟩ := key cs hcs 1 s _ a
  obtain ⟨f, e2, _, hv⟩ := Proofs.Sha1.finish_eq a'
  refine ⟨s, s', f, e, ?_, e2, ?_⟩
  · unfold Sha1.feedString
    rw [(C08_bom32 _).1, Option.bind_some]
    exact e'
  · rw [hv, Nat.mod_eq_of_lt hlen]; rfl

example : (∀ c ∈ [0x48, 0, 0x1F600], IsScalar c) ∧ (utf8s [0x48, 0, 0x1F600]).length = 6 := by decide

/-- **C68 is violated**: the one-character string U+0100 is hashed as if it were U+10000 (a consequence of C08). -/
theorem C68_fnv1a_utf32_violated :
    fnv1aString fnv1a32 utfDecode32 fnv1a32.offsetBasis [0x100#32] =
      some (fnv1aBytes fnv1a32 fnv1a32.offsetBasis (utf8 0x10000)) ∧
    fnv1aBytes fnv1a32 fnv1a32.offsetBasis (utf8 0x10000) ≠ fnv1aBytes fnv1a32 fnv1a32.offsetBasis (utf8 0x100) := by
  decide +kernel

/-- **C68** a hash is printed as its bytes, most significant first, two hexadecimal digits each -/
theorem C68_fnv1a_text_partial {n : Nat} (hn : n = 4 ∨ n = 8 ∨ n = 16) (v : BitVec (8 * n)) :
    fnv1aText v = some ((List.range n).reverse.flatMap fun i =>
      [decToHex ((byteAt v i).setWidth 32 / 16#32), decToHex ((byteAt v i).setWidth 32 % 16#32)]) := by
  have key : ∀ l : List Nat, (∀ i ∈ l, i < n) →
      (l.mapM fun i => byteSelect v i) = some (l.map fun i => byteAt v i) := by
    intro l
    induction l with
    | nil => intro _; rfl
    | cons i l ih =>
      intro h
      have hi := h i (by simp)
      rw [List.mapM_cons, ih (fun j hj => h j (by simp [hj])), C21_byte_select_partial (by omega) v i (.inl (by omega)),
        if_pos hi]
      rfl
  unfold fnv1aText
  rw [key _ (by intro i hi; simpa using hi), Option.map_some, List.flatMap_map]
  rfl

example : fnv1aText (n := 4) 0xE40C292C#32 = some ("e40c292c".toList.map fun c => BitVec.ofNat 8 c.toNat) := by
  decide +kernel

end Verif.Props
