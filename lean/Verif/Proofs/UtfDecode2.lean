import Verif.Proofs.UtfDecode

/-! Traversal of well-formed and of arbitrary UTF-8. -/
namespace Verif.Proofs
open Verif.Spec Verif.Model

/-! ### UTF-16 and UTF-32 traces -/

def trace16 (str : List (BitVec 16)) (reverse : Bool) : List Report :=
  let s := (endian16 str).1
  let str' := str.map fun u => if (endian16 str).2 then byteReverse16 u else u
  if reverse then revL utf16Ops (·.zeroExtend 32) isBoundary16 2 s (str'.drop s).reverse utf16Ops.init []
  else fwdL utf16Ops (·.zeroExtend 32) (str'.drop s) utf16Ops.init s []

def trace32 (str : List (BitVec 32)) (reverse : Bool) : List Report :=
  let s := (endian32 str).1
  let str' := str.map fun u => if (endian32 str).2 then byteReverse32 u else u
  if reverse then (rawL id s (str'.drop s)).reverse else rawL id s (str'.drop s)

theorem endian16_le (str : List (BitVec 16)) : (endian16 str).1 ≤ str.length := by
  unfold endian16; split
  · simp
  · split
    · simp
    · split <;> simp

theorem endian32_le (str : List (BitVec 32)) : (endian32 str).1 ≤ str.length := by
  unfold endian32; split
  · simp
  · split
    · simp
    · split <;> simp

theorem utfDecode16_eq (str : List (BitVec 16)) (reverse : Bool) (cb : Callback) :
    utfDecode16 str reverse cb = some (runLog cb {} (trace16 str reverse)).reports := by
  unfold utfDecode16
  split
  · next h =>
    have : str = [] := by simpa using h
    subst this
    cases reverse <;> rfl
  · have hs := endian16_le str
    simp only [trace16]
    generalize (endian16 str).1 = s at hs ⊢
    generalize (endian16 str).2 = b
    have hget : (fun (i : Nat) => Option.map (fun u => if b = true then byteReverse16 u else u) str[i]?) =
        fun (i : Nat) => (str.map fun u => if b = true then byteReverse16 u else u)[i]? := by
      funext i; rw [List.getElem?_map]
    simp only [hget]
    have hlen : (str.map fun u => if b = true then byteReverse16 u else u).length = str.length := by simp
    generalize (str.map fun u => if b = true then byteReverse16 u else u) = str' at hlen
    have hl : (str'.take s).length = s := by simp; omega
    have hl2 : (str'.drop s).length = str.length - s := by simp; omega
    split
    · have := revLoop_eq utf16Ops (·.zeroExtend 32) isBoundary16 2 cb str' (str'.take s) (str'.drop s) [] []
        (by simp) utf16Ops.init {}
      rw [hl, hl2] at this
      rw [List.length_nil] at this
      rw [this]; rfl
    · have := fwdLoop_eq utf16Ops (·.zeroExtend 32) cb str' (str'.take s) [] (str'.drop s)
        (by simp) utf16Ops.init {}
      rw [hl, hl2] at this
      rw [List.length_nil, Nat.add_zero] at this
      rw [this]; rfl

theorem utfDecode32_eq (str : List (BitVec 32)) (reverse : Bool) (cb : Callback) :
    utfDecode32 str reverse cb = some (runLog cb {} (trace32 str reverse)).reports := by
  unfold utfDecode32
  split
  · next h =>
    have : str = [] := by simpa using h
    subst this
    cases reverse <;> rfl
  · have hs := endian32_le str
    simp only [trace32]
    generalize (endian32 str).1 = s at hs ⊢
    generalize (endian32 str).2 = b
    have hget : (fun (i : Nat) => Option.map (fun u => if b = true then byteReverse32 u else u) str[i]?) =
        fun (i : Nat) => (str.map fun u => if b = true then byteReverse32 u else u)[i]? := by
      funext i; rw [List.getElem?_map]
    simp only [hget]
    have hlen : (str.map fun u => if b = true then byteReverse32 u else u).length = str.length := by simp
    generalize (str.map fun u => if b = true then byteReverse32 u else u) = str' at hlen
    have hl : (str'.take s).length = s := by simp; omega
    have hl2 : (str'.drop s).length = str.length - s := by simp; omega
    split
    · have := emitRawRev_eq id cb str' (str'.take s) (str'.drop s) [] (by simp) {}
      rw [hl, hl2] at this
      rw [this]; rfl
    · have := emitRawFwd_eq id cb str' (str'.take s) (str'.drop s) [] (by simp) {}
      rw [hl, hl2] at this
      rw [this]; rfl

theorem utfDecode16_always (str : List (BitVec 16)) (reverse : Bool) :
    utfDecode16 str reverse always = some (trace16 str reverse) := by
  rw [utfDecode16_eq, runLog_true {} rfl]; rfl

theorem utfDecode32_always (str : List (BitVec 32)) (reverse : Bool) :
    utfDecode32 str reverse always = some (trace32 str reverse) := by
  rw [utfDecode32_eq, runLog_true {} rfl]; rfl

/-! ### Byte order mark -/

theorem pack3 (a b c : BitVec 8) :
    ((a.zeroExtend 32 <<< 16) ||| ((b.zeroExtend 32 <<< 8) ||| c.zeroExtend 32)).toNat =
      a.toNat * 65536 + b.toNat * 256 + c.toNat := by
  have ha := a.isLt; have hb := b.isLt; have hc := c.isLt
  simp only [BitVec.toNat_or, BitVec.toNat_shiftLeft, BitVec.toNat_setWidth]
  rw [Nat.mod_eq_of_lt (a := a.toNat) (by omega), Nat.mod_eq_of_lt (a := b.toNat) (by omega),
    Nat.mod_eq_of_lt (a := c.toNat) (by omega)]
  have h1 : b.toNat <<< 8 % 2 ^ 32 = b.toNat <<< 8 := Nat.mod_eq_of_lt (by rw [Nat.shiftLeft_eq]; omega)
  have h2 : a.toNat <<< 16 % 2 ^ 32 = a.toNat <<< 16 := Nat.mod_eq_of_lt (by rw [Nat.shiftLeft_eq]; omega)
  rw [h1, h2, ← Nat.shiftLeft_add_eq_or_of_lt (i := 8) (by omega), ← Nat.shiftLeft_add_eq_or_of_lt (i := 16)]
  · simp only [Nat.shiftLeft_eq]; omega
  · rw [Nat.shiftLeft_eq]; omega

theorem hasBom8_iff (str : List (BitVec 8)) : hasBom8 str = true ↔ bom8 <+: str := by
  unfold hasBom8
  split
  · next a b c rest =>
    have h := pack3 a b c
    have ha := a.isLt; have hb := b.isLt; have hc := c.isLt
    rw [beq_iff_eq, ← BitVec.toNat_inj, h]
    simp only [bom8, List.cons_prefix_cons, ← BitVec.toNat_inj, List.nil_prefix, and_true]
    simp only [BitVec.toNat_ofNat]
    omega
  · next h =>
    simp only [Bool.false_eq_true, false_iff]
    rintro ⟨t, ht⟩
    exact h _ _ _ _ ht.symm

theorem dataStart8_append_bom (s : List (BitVec 8)) : dataStart8 (bom8 ++ s) = 3 := by
  unfold dataStart8
  rw [if_pos ((hasBom8_iff _).2 (List.prefix_append _ _))]

theorem dataStart8_eq (str : List (BitVec 8)) : dataStart8 str = if bom8.isPrefixOf str then 3 else 0 := by
  unfold dataStart8
  by_cases h : hasBom8 str = true
  · rw [if_pos h, if_pos (List.isPrefixOf_iff_prefix.2 ((hasBom8_iff _).1 h))]
  · rw [if_neg h, if_neg]
    intro h2; exact h ((hasBom8_iff _).2 (List.isPrefixOf_iff_prefix.1 h2))

/-! ### Well-formed input, forward -/

theorem pend_not {d : Utf8Decoder} {p} (h : pend d.state = some p) : d.hasValue = false ∧ d.error = false := by
  obtain ⟨k, lo, hi, t⟩ := p
  have := pend_bounds h
  simp [Utf8Decoder.hasValue, Utf8Decoder.error, this.2.2.1, this.2.2.2.1]

theorem fwdL_group (raw : BitVec 8 → BitVec 32) (us rest pre : List (BitVec 8)) (d : Utf8Decoder) (cp : Nat)
    (hne : us ≠ []) (h0 : (d.feedAll us).state = 0)
    (hmid : ∀ n, 0 < n → n < us.length → ∃ p, pend (d.feedAll (us.take n)).state = some p) :
    fwdL utf8Ops raw (us ++ rest) d cp pre =
      ⟨(d.feedAll us).value, cp, (pre ++ us).length⟩ :: fwdL utf8Ops raw rest (d.feedAll us) (cp + (pre ++ us).length) [] := by
  induction us generalizing d pre with
  | nil => exact absurd rfl hne
  | cons u us ih =>
    have e : ∀ xs, d.feedAll (u :: xs) = (d.feed u).feedAll xs := by
      intro xs; unfold Utf8Decoder.feedAll; rw [List.foldl_cons]
    cases us with
    | nil =>
      rw [e] at h0 ⊢
      have h0' : (d.feed u).state = 0 := h0
      have hv : utf8Ops.hasValue (utf8Ops.feed d u) = true := by
        show (d.feed u).hasValue = true
        simp [Utf8Decoder.hasValue, h0']
      simp only [List.cons_append, List.nil_append, fwdL, hv, if_true]
      rfl
    | cons v vs =>
      obtain ⟨p, hp⟩ := hmid 1 (by omega) (by simp)
      have hp' : pend (d.feed u).state = some p := by
        have : (u :: v :: vs).take 1 = [u] := by simp
        rw [this, e] at hp; exact hp
      obtain ⟨h1, h2⟩ := pend_not hp'
      have hv : utf8Ops.hasValue (utf8Ops.feed d u) = false := h1
      have he : utf8Ops.error (utf8Ops.feed d u) = false := h2
      rw [List.cons_append]
      rw [fwdL]
      simp only [hv, he]
      rw [if_neg (by simp), if_neg (by simp)]
      have := ih (pre ++ [u]) (d.feed u) (by simp) (by rw [← e]; exact h0) (by
        intro n hn hn'
        obtain ⟨p, hp⟩ := hmid (n + 1) (by omega) (by simp at hn' ⊢; omega)
        rw [List.take_succ_cons, e] at hp
        exact ⟨p, hp⟩)
      rw [e]
      have ha : pre ++ u :: v :: vs = pre ++ [u] ++ v :: vs := by simp
      rw [ha]
      exact this

theorem utf8_ne_nil (c : Nat) : utf8 c ≠ [] := by
  unfold utf8; split
  · simp
  · split
    · simp
    · split <;> simp

theorem fwdL_utf8s (raw : BitVec 8 → BitVec 32) (cs : List Nat) (hcs : ∀ c ∈ cs, IsScalar c) (d : Utf8Decoder)
    (hd : d.state = 0) (cp : Nat) (rest : List (BitVec 8)) :
    ∃ d', d'.state = 0 ∧ fwdL utf8Ops raw (utf8s cs ++ rest) d cp [] =
      reports8 cp cs ++ fwdL utf8Ops raw rest d' (cp + (utf8s cs).length) [] := by
  induction cs generalizing d cp with
  | nil => exact ⟨d, hd, by simp [utf8s, reports8]⟩
  | cons c cs ih =>
    have hc := hcs c (by simp)
    obtain ⟨⟨h0, hv⟩, hmid⟩ := feed_utf8 hd hc
    have hg := fwdL_group raw (utf8 c) (utf8s cs ++ rest) [] d cp (utf8_ne_nil c) h0 hmid
    obtain ⟨d', hd', h⟩ := ih (fun x hx => hcs x (by simp [hx])) (d.feedAll (utf8 c)) h0 (cp + (utf8 c).length)
    refine ⟨d', hd', ?_⟩
    have e : utf8s (c :: cs) = utf8 c ++ utf8s cs := by simp [utf8s]
    rw [e, List.append_assoc, hg]
    simp only [List.nil_append]
    rw [h]
    have hval : (d.feedAll (utf8 c)).value = BitVec.ofNat 32 c := by
      apply BitVec.eq_of_toNat_eq
      rw [BitVec.toNat_ofNat]
      show (d.feedAll (utf8 c)).codepoint.toNat = _
      rw [hv, Nat.mod_eq_of_lt]
      unfold IsScalar at hc; omega
    simp only [reports8, List.cons_append, hval, List.length_append, Nat.add_assoc]

/-! ### Well-formed input, reverse -/

theorem boundary_cont (n : Nat) : isBoundary8 (cont n) = false := by
  have h : ∀ m < 64, isBoundary8 (BitVec.ofNat 8 (0x80 + m)) = false := by decide
  exact h (n % 64) (Nat.mod_lt _ (by decide))

theorem boundary_lead : ∀ n < 256, n < 0x80 ∨ 0xC0 ≤ n → isBoundary8 (BitVec.ofNat 8 n) = true := by decide +kernel

theorem feedL_eq (us : List (BitVec 8)) (d : Utf8Decoder)
    (hmid : ∀ n, 0 < n → n < us.length → ∃ p, pend (d.feedAll (us.take n)).state = some p) :
    feedL utf8Ops us d = d.feedAll us := by
  induction us generalizing d with
  | nil => rfl
  | cons u us ih =>
    have e : ∀ xs, d.feedAll (u :: xs) = (d.feed u).feedAll xs := by
      intro xs; unfold Utf8Decoder.feedAll; rw [List.foldl_cons]
    cases us with
    | nil =>
      simp only [feedL, ite_self]; rfl
    | cons v vs =>
      obtain ⟨p, hp⟩ := hmid 1 (by omega) (by simp)
      have hp' : pend (d.feed u).state = some p := by
        have : (u :: v :: vs).take 1 = [u] := by simp
        rw [this, e] at hp; exact hp
      have he : utf8Ops.error (utf8Ops.feed d u) = false := (pend_not hp').2
      rw [e]
      unfold feedL
      simp only [he]
      rw [if_neg (by simp)]
      exact ih (d.feed u) (by
        intro n hn hn'
        obtain ⟨p, hp⟩ := hmid (n + 1) (by omega) (by simp at hn' ⊢; omega)
        rw [List.take_succ_cons, e] at hp
        exact ⟨p, hp⟩)

theorem revL_utf8 (raw : BitVec 8 → BitVec 32) {c : Nat} (hc : IsScalar c) (d : Utf8Decoder) (hd : d.state = 0)
    (ds : Nat) (rr : List (BitVec 8)) :
    ∃ d', d'.state = 0 ∧ revL utf8Ops raw isBoundary8 4 ds ((utf8 c).reverse ++ rr) d [] =
      ⟨BitVec.ofNat 32 c, ds + rr.length, (utf8 c).length⟩ :: revL utf8Ops raw isBoundary8 4 ds rr d' [] := by
  obtain ⟨⟨h0, hv⟩, hmid⟩ := feed_utf8 hd hc
  have hval : (d.feedAll (utf8 c)).value = BitVec.ofNat 32 c := by
    apply BitVec.eq_of_toNat_eq
    rw [BitVec.toNat_ofNat]
    show (d.feedAll (utf8 c)).codepoint.toNat = _
    rw [hv, Nat.mod_eq_of_lt]
    unfold IsScalar at hc; omega
  have hf := feedL_eq (utf8 c) d hmid
  have hh : utf8Ops.hasValue (feedL utf8Ops (utf8 c) d) = true := by
    rw [hf]; show (d.feedAll (utf8 c)).hasValue = true; simp [Utf8Decoder.hasValue, h0]
  have hvv : utf8Ops.value (feedL utf8Ops (utf8 c) d) = BitVec.ofNat 32 c := by rw [hf]; exact hval
  refine ⟨d.feedAll (utf8 c), h0, ?_⟩
  rw [← hf]
  unfold IsScalar at hc
  clear hf h0 hv hmid hval
  revert hh hvv
  have key : ∀ u suf, utf8 c = u :: suf → (∀ x ∈ suf, isBoundary8 x = false) → suf.length ≤ 3 →
      (isBoundary8 u = true) →
      utf8Ops.hasValue (feedL utf8Ops (utf8 c) d) = true →
      utf8Ops.value (feedL utf8Ops (utf8 c) d) = BitVec.ofNat 32 c →
      revL utf8Ops raw isBoundary8 4 ds ((utf8 c).reverse ++ rr) d [] =
      ⟨BitVec.ofNat 32 c, ds + rr.length, (utf8 c).length⟩ ::
        revL utf8Ops raw isBoundary8 4 ds rr (feedL utf8Ops (utf8 c) d) [] := by
    intro u suf heq hsuf hlen hu hh hvv
    rw [heq] at hh hvv ⊢
    -- skip the continuation bytes
    have skip : ∀ (xs ys : List (BitVec 8)), (∀ x ∈ xs, isBoundary8 x = false) → xs.length + ys.length ≤ 3 →
        revL utf8Ops raw isBoundary8 4 ds (xs.reverse ++ (u :: rr)) d ys =
          revL utf8Ops raw isBoundary8 4 ds (u :: rr) d (xs ++ ys) := by
      intro xs
      induction xs using snoc_induction with
      | nil => intro ys _ _; rfl
      | snoc xs x ih =>
        intro ys hxs hl
        simp only [List.length_append, List.length_singleton] at hl
        rw [List.reverse_append]
        simp only [List.reverse_cons, List.reverse_nil, List.nil_append, List.cons_append]
        rw [revL]
        rw [if_neg]
        · rw [ih (x :: ys) (fun y hy => hxs y (by simp [hy])) (by simp; omega)]
          simp
        · have := hxs x (by simp)
          simp [this]; omega
    have := skip suf [] hsuf (by simpa using hlen)
    rw [List.append_nil] at this
    rw [List.reverse_cons, List.append_assoc, List.singleton_append, this, revL]
    rw [if_pos (by simp [hu])]
    simp only [hh, hvv, if_true]
  by_cases h1 : c < 0x80
  · exact key _ _ (utf8_1 h1) (by simp) (by simp) (boundary_lead _ (by omega) (by omega))
  by_cases h2 : c < 0x800
  · exact key _ _ (utf8_2 (by omega) h2) (by simp [boundary_cont]) (by simp) (boundary_lead _ (by omega) (by omega))
  by_cases h3 : c < 0x10000
  · exact key _ _ (utf8_3 (by omega) h3) (by simp [boundary_cont]) (by simp) (boundary_lead _ (by omega) (by omega))
  · exact key _ _ (utf8_4 (by omega)) (by simp [boundary_cont]) (by simp) (boundary_lead _ (by omega) (by omega))

theorem reports8_append (s : Nat) (xs ys : List Nat) :
    reports8 s (xs ++ ys) = reports8 s xs ++ reports8 (s + (utf8s xs).length) ys := by
  induction xs generalizing s with
  | nil => simp [reports8, utf8s]
  | cons x xs ih =>
    have e : utf8s (x :: xs) = utf8 x ++ utf8s xs := by simp [utf8s]
    simp only [List.cons_append, reports8, ih, e, List.length_append, Nat.add_assoc]

theorem revL_utf8s (raw : BitVec 8 → BitVec 32) (cs : List Nat) (hcs : ∀ c ∈ cs, IsScalar c) (d : Utf8Decoder)
    (hd : d.state = 0) (ds : Nat) :
    revL utf8Ops raw isBoundary8 4 ds (utf8s cs).reverse d [] = (reports8 ds cs).reverse := by
  induction cs using snoc_induction generalizing d with
  | nil => rfl
  | snoc cs c ih =>
    obtain ⟨d', hd', h⟩ := revL_utf8 raw (hcs c (by simp)) d hd ds (utf8s cs).reverse
    rw [utf8s_append, utf8s_singleton, List.reverse_append, h, ih (fun x hx => hcs x (by simp [hx])) d' hd',
      reports8_append]
    simp [reports8]

end Verif.Proofs
