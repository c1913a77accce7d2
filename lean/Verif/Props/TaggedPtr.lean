import Verif.Proofs.TaggedPtr
/-! C51 (tagged_ptr keeps pointer and tag apart). -/
namespace Verif.Props
open Verif.Spec.CInt Verif.Spec.TaggedPtr Verif.Model.CInt Verif.Model Verif.Model.TaggedPtr Verif.Proofs.TaggedPtr

/-- the call is used as documented: pointers are aligned and of the machine's address range, tags pass can_store_tag -/
def TaggedPtrAccepted (c : Cfg) : Op → Prop
  | .resetPtr p | .setPtr p => Address c.align c.free c.amd64 p
  | .resetBoth p t => Address c.align c.free c.amd64 p ∧ t.Valid ∧ canStoreTag c t = true
  | .setTag t => t.Valid ∧ canStoreTag c t = true
  | .setTagBit i _ => i < c.tagBits
  | .reset | .clearPtr | .clearTag => True

/-- the tag stored is not a negative number of an integer type (for constructors and reset also: character type) -/
def NotNegative : Op → Prop
  | .resetBoth _ (.int _ v) | .resetBoth _ (.chr _ v) | .setTag (.int _ v) => 0 ≤ v
  | _ => True

theorem copyBytes_bit (w : BitVec 64) {n : Nat} (b : BitVec (8 * n)) (i : Nat) (hi : i < 64) :
    (copyBytes w b).getLsbD i = if i < 8 * n then b.getLsbD i else w.getLsbD i := by
  unfold copyBytes
  rw [BitVec.getLsbD_or, BitVec.getLsbD_shiftLeft, BitVec.getLsbD_ushiftRight, BitVec.getLsbD_setWidth]
  by_cases h : i < 8 * n
  · simp [h, hi]
  · rw [BitVec.getLsbD_of_ge b i (by omega)]
    simp [h, hi, show 8 * n + (i - 8 * n) = i by omega]

theorem copy_holds {c : Cfg} {k : Nat} (h : Ok c k) {w p : BitVec 64} {n : Nat} (b : BitVec (8 * n))
    (hn : 8 * n ≤ k + c.free) (ha : Address c.align c.free c.amd64 p)
    (hw : ∀ i, k + c.free ≤ i → i < 64 → w.getLsbD i = p.getLsbD (i - c.free)) :
    Holds c k (copyBytes (if 8 * n < c.tagBits then w &&& c.ptrMask else w) b) ⟨p, b.toNat⟩ := by
  have hlt := h.lt
  refine ⟨?_, ?_, Nat.lt_of_lt_of_le b.isLt (Nat.pow_le_pow_right (by decide) hn), ha⟩
  · intro i hi
    rw [copyBytes_bit _ _ _ (by omega)]
    by_cases h1 : i < 8 * n
    · rw [if_pos h1]; simp only [BitVec.testBit_toNat]
    · rw [if_neg h1, tagBits_eq h, if_pos (by omega), BitVec.getLsbD_and, ptrMask_bit h]
      simp only [BitVec.testBit_toNat]
      rw [BitVec.getLsbD_of_ge b i (by omega)]
      simp; intro _ _; omega
  · intro i hi hi2
    rw [copyBytes_bit _ _ _ hi2, if_neg (by omega)]
    split
    · rw [BitVec.getLsbD_and, ptrMask_bit h, hw i hi hi2]; simp [hi, hi2]
    · exact hw i hi hi2

/-- the two ways of or-ing in an integer tag agree if it fits -/
theorem word_bits {c : Cfg} {k : Nat} (h : Ok c k) {n : Nat} (hn : n < 2 ^ (k + c.free)) (y : BitVec 64)
    (hy : y = BitVec.ofNat 64 n &&& c.tagMask ∨ y = BitVec.ofNat 64 n) :
    (∀ i, i < k + c.free → y.getLsbD i = n.testBit i) ∧ (∀ i, k + c.free ≤ i → y.getLsbD i = false) := by
  have hlt := h.lt
  have hb := ofNat_bit (by omega : k + c.free ≤ 64) hn
  rcases hy with rfl | rfl
  · constructor
    · intro i hi; rw [BitVec.getLsbD_and, hb, tagMask_bit h]; simp [hi]
    · intro i hi; rw [BitVec.getLsbD_and, tagMask_bit h]; simp; intro _; omega
  · constructor
    · intro i hi; rw [hb]
    · intro i hi; rw [hb]; exact tag_testBit_ge hn hi

theorem canStoreTag_unsigned {c : Cfg} {t : Ty} {v : Int} (h : canStoreTag c (.enm t v) = true) :
    canStoreTag c (.int ⟨t.bits, false⟩ (asUnsigned t v)) = true := by
  have : asUnsigned ⟨t.bits, false⟩ (asUnsigned t v) = asUnsigned t v := by
    unfold asUnsigned Model.CInt.conv
    simp
  unfold canStoreTag at h ⊢
  simp only [Tag.bits] at h ⊢
  rw [this]; exact h

/-- only integers and enums may be larger than the tag -/
theorem small_of_store {c : Cfg} {k : Nat} (h : Ok c k) {tag : Tag} (hs : canStoreTag c tag = true) :
    tag.bits ≤ k + c.free ∨ (∃ t v, tag = .int t v) ∨ (∃ t v, tag = .enm t v) := by
  by_cases h1 : tag.bits ≤ k + c.free
  · exact Or.inl h1
  · unfold canStoreTag at hs
    rw [tagBits_eq h] at hs
    by_cases h0 : k + c.free = 0
    · rw [if_pos h0] at hs; simp at hs
    rw [if_neg h0, if_neg h1] at hs
    cases tag with
    | int t v => exact Or.inr (Or.inl ⟨t, v, rfl⟩)
    | enm t v => exact Or.inr (Or.inr ⟨t, v, rfl⟩)
    | chr t v => simp at hs
    | obj n b => simp at hs

theorem mask_ptr_bits {c : Cfg} {k : Nat} (h : Ok c k) {w : BitVec 64} {s : Pair} (hh : Holds c k w s) :
    (∀ i, i < k + c.free → (w &&& c.ptrMask).getLsbD i = false) ∧
    (∀ i, k + c.free ≤ i → i < 64 → (w &&& c.ptrMask).getLsbD i = s.ptr.getLsbD (i - c.free)) := by
  constructor
  · intro i hi; rw [BitVec.getLsbD_and, ptrMask_bit h]; simp; intro _ _; omega
  · intro i hi hi2; rw [BitVec.getLsbD_and, ptrMask_bit h, hh.high i hi hi2]; simp [hi, hi2]

theorem setTagInt_holds {c : Cfg} {k : Nat} (h : Ok c k) {w : BitVec 64} {s : Pair} (hh : Holds c k w s) {t : Ty} {v : Int}
    {n : Nat} (hv : v = (n : Int)) (hn : n < 2 ^ (k + c.free)) (hs : canStoreTag c (.int t v) = true) :
    ∃ w', setTagInt c w t v = some w' ∧ Holds c k w' ⟨s.ptr, n⟩ := by
  obtain ⟨x1, x2⟩ := mask_ptr_bits h hh
  unfold setTagInt
  by_cases hb : t.bits > c.tagBits
  · rw [if_pos hb, if_pos hs]
    obtain ⟨y1, y2⟩ := word_bits h hn _ (Or.inl rfl)
    refine ⟨_, rfl, ?_⟩
    rw [hv, toWord_nat]
    exact holds_or h hn hh.addr x1 x2 y1 y2
  · rw [if_neg hb]
    obtain ⟨y1, y2⟩ := word_bits h hn _ (Or.inr rfl)
    refine ⟨_, rfl, ?_⟩
    rw [hv, toWord_nat]
    exact holds_or h hn hh.addr x1 x2 y1 y2

theorem packBothInt_holds {c : Cfg} {k : Nat} (h : Ok c k) {p : BitVec 64} (ha : Address c.align c.free c.amd64 p) {tag : Tag}
    {t : Ty} {v : Int} {n : Nat} (hv : v = (n : Int)) (hn : n < 2 ^ (k + c.free)) (hs : canStoreTag c tag = true) :
    ∃ w', packBothInt c p tag t v = some w' ∧ Holds c k w' ⟨p, n⟩ := by
  have hp := packPtr_some h ha.1
  unfold packBothInt
  by_cases hb : t.bits > c.tagBits
  · rw [if_pos hb, if_pos hs, hp]
    obtain ⟨y1, y2⟩ := word_bits h hn _ (Or.inl rfl)
    refine ⟨_, rfl, ?_⟩
    rw [hv, toWord_nat]
    exact holds_or h hn ha (pack_low h ha) (pack_high h) y1 y2
  · rw [if_neg hb, hp]
    obtain ⟨y1, y2⟩ := word_bits h hn _ (Or.inr rfl)
    refine ⟨_, rfl, ?_⟩
    rw [hv, toWord_nat]
    exact holds_or h hn ha (pack_low h ha) (pack_high h) y1 y2

theorem zero_addr (c : Cfg) : Address c.align c.free c.amd64 0 := ⟨by simp, by simp⟩

theorem step_holds {c : Cfg} {k : Nat} (h : Ok c k) {w : BitVec 64} {s : Pair} (hh : Holds c k w s) (op : Op)
    (hop : TaggedPtrAccepted c op) (hnn : NotNegative op) :
    ∃ w', step c w op = some w' ∧ Holds c k w' (s.step op) := by
  have hlt := h.lt
  have tz : (0 : Nat) < 2 ^ (k + c.free) := Nat.two_pow_pos _
  have hpack : ∀ p, Address c.align c.free c.amd64 p → Holds c k (packPtrUnchecked c p) ⟨p, 0⟩ := fun p ha =>
    ⟨fun i hi => by rw [pack_low h ha i hi]; simp, fun i hi hi2 => pack_high h i hi hi2, tz, ha⟩
  cases op with
  | reset => exact ⟨0, rfl, by intro i _; simp [Pair.step], by intro i _ _; simp [Pair.step], tz, zero_addr c⟩
  | resetPtr p => exact ⟨_, packPtr_some h hop.1, hpack p hop⟩
  | resetBoth p t =>
    obtain ⟨ha, hv, hs⟩ := hop
    have hn := pattern_lt h hv hs
    cases t with
    | int t v =>
      exact packBothInt_holds h ha (pattern_of_nonneg hv.1 hv.2.1 hnn) hn hs
    | enm t v =>
      exact packBothInt_holds h ha (asUnsigned_eq t v) hn (canStoreTag_unsigned hs)
    | chr t v =>
      exact packBothInt_holds h ha (pattern_of_nonneg hv.1 hv.2.1 hnn) hn hs
    | obj n b =>
      have hle : 8 * n ≤ k + c.free := by
        rcases small_of_store h hs with h' | ⟨_, _, h'⟩ | ⟨_, _, h'⟩
        · exact h'
        · simp at h'
        · simp at h'
      refine ⟨_, ?_, copy_holds h b hle ha (w := packPtrUnchecked c p) (fun i hi hi2 => pack_high h i hi hi2)⟩
      show packBoth c p (.obj n b) = _
      simp only [packBoth]
      rw [if_pos (show 8 * n ≤ c.tagBits by rw [tagBits_eq h]; exact hle), packPtr_some h ha.1]; rfl
  | setPtr p =>
    have ha : Address c.align c.free c.amd64 p := hop
    simp only [step, setPtr]
    rw [packPtr_some h ha.1]
    by_cases h0 : c.tagBits ≠ 0
    · rw [if_pos h0]
      refine ⟨_, rfl, ?_⟩
      refine holds_or h hh.fits ha (pack_low h ha) (pack_high h) ?_ ?_
      · intro i hi; rw [BitVec.getLsbD_and, tagMask_bit h, hh.low i hi]; simp [hi]
      · intro i hi; rw [BitVec.getLsbD_and, tagMask_bit h]; simp; intro _; omega
    · rw [if_neg h0]
      refine ⟨_, rfl, ?_⟩
      have ht := hh.fits
      rw [tagBits_eq h] at h0
      have : s.tag = 0 := by
        rw [show k + c.free = 0 by omega] at ht
        simpa using ht
      simp only [Pair.step, this]
      exact hpack p ha
  | clearPtr =>
    refine ⟨_, rfl, ?_, ?_, hh.fits, zero_addr c⟩
    · intro i hi; rw [BitVec.getLsbD_and, tagMask_bit h, hh.low i hi]; simp [hi, Pair.step]
    · intro i hi _; rw [BitVec.getLsbD_and, tagMask_bit h]; simp [Pair.step]; intro _; omega
  | setTag t =>
    obtain ⟨hv, hs⟩ := hop
    have hn := pattern_lt h hv hs
    cases t with
    | int t v => exact setTagInt_holds h hh (pattern_of_nonneg hv.1 hv.2.1 hnn) hn hs
    | enm t v => exact setTagInt_holds h hh (asUnsigned_eq t v) hn (canStoreTag_unsigned hs)
    | chr t v =>
      have hle : t.bits ≤ k + c.free := by
        rcases small_of_store h hs with h' | ⟨_, _, h'⟩ | ⟨_, _, h'⟩
        · exact h'
        · simp at h'
        · simp at h'
      have h8 : 8 * (t.bits / 8) = t.bits := by have := hv.2.2.2; omega
      have hpat : (BitVec.ofInt (8 * (t.bits / 8)) v).toNat = (v % 2 ^ t.bits).toNat := by
        rw [BitVec.toNat_ofInt, h8]; simp
      have := copy_holds h (BitVec.ofInt (8 * (t.bits / 8)) v) (by omega) hh.addr (w := w) hh.high
      rw [hpat] at this
      refine ⟨_, ?_, this⟩
      show setTagObj c w _ _ = _
      unfold setTagObj
      rw [if_pos (show 8 * (t.bits / 8) ≤ c.tagBits by rw [tagBits_eq h]; omega)]
    | obj n b =>
      have hle : 8 * n ≤ k + c.free := by
        rcases small_of_store h hs with h' | ⟨_, _, h'⟩ | ⟨_, _, h'⟩
        · exact h'
        · simp at h'
        · simp at h'
      refine ⟨_, ?_, copy_holds h b hle hh.addr (w := w) hh.high⟩
      show setTagObj c w n b = _
      unfold setTagObj
      rw [if_pos (show 8 * n ≤ c.tagBits by rw [tagBits_eq h]; exact hle)]
  | setTagBit i b =>
    have hi : i < c.tagBits := hop
    have hi' : i < k + c.free := by rw [← tagBits_eq h]; exact hi
    have hfits : (if s.tag.testBit i = b then s.tag else s.tag ^^^ 2 ^ i) < 2 ^ (k + c.free) := by
      split
      · exact hh.fits
      · exact Nat.xor_lt_two_pow hh.fits (Nat.pow_lt_pow_right (by decide) hi')
    have hbit : ∀ j, (if s.tag.testBit i = b then s.tag else s.tag ^^^ 2 ^ i).testBit j =
        if j = i then b else s.tag.testBit j := by
      intro j
      by_cases hj : j = i
      · subst hj
        rw [if_pos rfl]
        split
        · assumption
        · rename_i hne
          rw [Nat.testBit_xor, Nat.testBit_two_pow_self]
          cases hb : s.tag.testBit j <;> cases b <;> simp_all
      · rw [if_neg hj]
        split
        · rfl
        · rw [Nat.testBit_xor, Nat.testBit_two_pow_of_ne (by omega)]; simp
    simp only [step, setTagBit]
    rw [if_pos hi]
    refine ⟨_, rfl, ?_, ?_, hfits, hh.addr⟩
    · intro j hj
      simp only [Pair.step]
      rw [hbit]
      cases b
      · simp only [Bool.false_eq_true, if_false]
        rw [BitVec.getLsbD_and, BitVec.getLsbD_not, one_shl_bit, hh.low j hj]
        by_cases hji : j = i
        · simp [hji]
        · simp [hji]; omega
      · simp only [if_true]
        rw [BitVec.getLsbD_or, one_shl_bit, hh.low j hj]
        by_cases hji : j = i
        · simp [hji]; omega
        · simp [hji]
    · intro j hj hj2
      have hji : j ≠ i := by omega
      simp only [Pair.step]
      cases b
      · simp only [Bool.false_eq_true, if_false]
        rw [BitVec.getLsbD_and, BitVec.getLsbD_not, one_shl_bit, hh.high j hj hj2]
        simp [hji, hj2]
      · simp only [if_true]
        rw [BitVec.getLsbD_or, one_shl_bit, hh.high j hj hj2]
        simp [hji]
  | clearTag =>
    obtain ⟨x1, x2⟩ := mask_ptr_bits h hh
    exact ⟨_, rfl, fun i hi => by rw [x1 i hi]; simp [Pair.step], x2, tz, hh.addr⟩

theorem run_holds {c : Cfg} {k : Nat} (h : Ok c k) (ops : List Op)
    (hops : ∀ op ∈ ops, TaggedPtrAccepted c op ∧ NotNegative op) :
    ∀ {w : BitVec 64} {s : Pair}, Holds c k w s →
      ∃ w', run c w ops = some w' ∧ Holds c k w' (ops.foldl Pair.step s) := by
  induction ops with
  | nil => intro w s hh; exact ⟨w, rfl, hh⟩
  | cons op l ih =>
    intro w s hh
    obtain ⟨w1, e1, h1⟩ := step_holds h hh op (hops op (by simp)).1 (hops op (by simp)).2
    obtain ⟨w2, e2, h2⟩ := ih (fun o ho => hops o (by simp [ho])) h1
    refine ⟨w2, ?_, h2⟩
    rw [run, e1]; exact e2

/-- **C51** for every alignment, number of free address bits, and every history of calls on a tagged_ptr, used as documented
    and with no negative integer tag: the pointer, the tag (as a whole and bit by bit), and the test for null read what two
    separate variables would hold; no assertion fails. -/
theorem C51_history_partial (c : Cfg) (k : Nat) (hal : c.align = 2 ^ k) (hlt : k + c.free < 64) (ops : List Op)
    (hops : ∀ op ∈ ops, TaggedPtrAccepted c op ∧ NotNegative op) :
    ∃ w, run c 0 ops = some w ∧
      getPtr c w = (ops.foldl Pair.step ⟨0, 0⟩).ptr ∧
      (getTag c w).toNat = (ops.foldl Pair.step ⟨0, 0⟩).tag ∧
      (∀ i, i < k + c.free → getTagBit c w i = some ((ops.foldl Pair.step ⟨0, 0⟩).tag.testBit i)) ∧
      (isSet c w = true ↔ (ops.foldl Pair.step ⟨0, 0⟩).ptr ≠ 0) := by
  have h : Ok c k := ⟨hal, hlt⟩
  have h0 : Holds c k 0 ⟨0, 0⟩ := ⟨by simp, by simp, Nat.two_pow_pos _, zero_addr c⟩
  obtain ⟨w, e, hh⟩ := run_holds h ops hops h0
  refine ⟨w, e, getPtr_holds h hh, getTag_holds h hh, ?_, isSet_holds h hh⟩
  intro i hi
  unfold getTagBit
  rw [if_pos (by rw [tagBits_eq h]; exact hi), and_one_shl, hh.low i hi]

/-- 48-bit addresses, 16-byte alignment: a pointer of the upper half, a tag, another pointer, one more tag bit -/
example : let c : Cfg := ⟨16, 16, true⟩
    let ops : List Op := [.resetPtr 0xffff800012345670#64, .setTag (.int ⟨32, false⟩ 0xabcde), .setPtr 0x7fff12345670#64, .setTagBit 0 true]
    (∀ op ∈ ops, TaggedPtrAccepted c op ∧ NotNegative op) ∧ (run c 0 ops).map (getPtr c) = some 0x7fff12345670#64 ∧
    (run c 0 ops).map (getTag c) = some 0xabcdf#64 := by
  intro c ops
  refine ⟨?_, by decide +kernel, by decide +kernel⟩
  intro op hop
  simp only [ops, List.mem_cons, List.not_mem_nil, or_false] at hop
  have ha : ∀ p : BitVec 64, (p.toNat % 16 = 0 ∧ ∀ i : Fin 64, 48 ≤ i.val → p.getLsbD i = (true && p.getLsbD 47)) →
      Address c.align c.free c.amd64 p := fun p hp => ⟨hp.1, fun i h1 h2 => hp.2 ⟨i, h2⟩ h1⟩
  rcases hop with rfl | rfl | rfl | rfl
  · exact ⟨ha _ (by decide +kernel), trivial⟩
  · exact ⟨⟨⟨by decide, by decide, by decide, by decide⟩, by decide +kernel⟩, by simp [NotNegative]⟩
  · exact ⟨ha _ (by decide +kernel), trivial⟩
  · exact ⟨by show 0 < c.tagBits; decide +kernel, trivial⟩

/-- **C51** reading back: after any such history, setting a tag and reading it as the same type gives the value stored,
    whenever reading it as that type compiles, and the pointer is the one before -/
theorem C51_read_back_partial (c : Cfg) (k : Nat) (hal : c.align = 2 ^ k) (hlt : k + c.free < 64) (ops : List Op)
    (hops : ∀ op ∈ ops, TaggedPtrAccepted c op ∧ NotNegative op) (tag : Tag)
    (htag : TaggedPtrAccepted c (.setTag tag) ∧ NotNegative (.setTag tag)) :
    ∃ w w', run c 0 ops = some w ∧ setTag c w tag = some w' ∧ getPtr c w' = getPtr c w ∧
      match tag with
      | .int t v | .enm t v => t.bits ≥ k + c.free → tagAsInt c w' t = some v
      | .chr t v => tagAsObj c w' (t.bits / 8) = some (BitVec.ofInt _ v)
      | .obj n b => tagAsObj c w' n = some b := by
  have h : Ok c k := ⟨hal, hlt⟩
  have h0 : Holds c k 0 ⟨0, 0⟩ := ⟨by simp, by simp, Nat.two_pow_pos _, zero_addr c⟩
  obtain ⟨w, e, hh⟩ := run_holds h ops hops h0
  obtain ⟨w', e', hh'⟩ := step_holds h hh (.setTag tag) htag.1 htag.2
  have hint : ∀ (t : Ty) (v : Int), t.Has v → 0 < t.bits → tag.pattern = (v % 2 ^ t.bits).toNat → t.bits ≥ k + c.free →
      tagAsInt c w' t = some v := by
    intro t v hv hb hp hge
    unfold tagAsInt
    rw [if_pos (by rw [tagBits_eq h]; exact hge), getTag_holds h hh']
    simp only [Pair.step]
    rw [hp]
    have : (0 : Int) ≤ v % 2 ^ t.bits := Int.emod_nonneg _ (by have := Verif.Proofs.CInt.two_pow_pos t.bits; omega)
    rw [Int.toNat_of_nonneg this]
    congr 1
    have h1 := Verif.Proofs.CInt.conv_has hb hv
    have h2 : Model.CInt.conv t (v % 2 ^ t.bits) = Model.CInt.conv t v := by
      unfold Model.CInt.conv
      simp only [Int.emod_emod_of_dvd _ (Int.dvd_refl _)]
    rw [h2, h1]
  have hobj : ∀ (n : Nat) (b : BitVec (8 * n)), 8 * n ≤ k + c.free → tag.pattern = b.toNat → tagAsObj c w' n = some b := by
    intro n b hle hp
    unfold tagAsObj
    rw [if_pos (by rw [tagBits_eq h]; exact hle)]
    congr 1
    apply BitVec.eq_of_getLsbD_eq
    intro i hi
    rw [BitVec.getLsbD_setWidth, hh'.low i (by omega)]
    simp only [Pair.step]
    rw [hp, BitVec.testBit_toNat]; simp [hi]
  have hsize := small_of_store h htag.1.2
  refine ⟨w, w', e, e', ?_, ?_⟩
  · rw [getPtr_holds h hh, getPtr_holds h hh']; rfl
  · cases tag with
    | int t v => exact hint t v htag.1.1.1 htag.1.1.2.1 rfl
    | enm t v => exact hint t v htag.1.1.1 htag.1.1.2.1 rfl
    | chr t v =>
      have h8 : 8 * (t.bits / 8) = t.bits := by have := htag.1.1.2.2.2; omega
      refine hobj _ _ ?_ ?_
      · rw [h8]
        rcases hsize with h' | ⟨_, _, h'⟩ | ⟨_, _, h'⟩
        · exact h'
        · simp at h'
        · simp at h'
      · rw [BitVec.toNat_ofInt, h8]; simp [Tag.pattern]
    | obj n b =>
      refine hobj _ _ ?_ rfl
      rcases hsize with h' | ⟨_, _, h'⟩ | ⟨_, _, h'⟩
      · exact h'
      · simp at h'
      · simp at h'

/-- a negative enumerator in the upper 16 bits of a 48-bit address -/
example : let c : Cfg := ⟨1, 16, true⟩
    TaggedPtrAccepted c (.setTag (.enm ⟨16, true⟩ (-3))) ∧ (setTag c 0x123450000#64 (.enm ⟨16, true⟩ (-3))).bind (fun w => tagAsInt c w ⟨16, true⟩) = some (-3) := by
  intro c
  exact ⟨⟨⟨by decide, by decide, by decide, by decide⟩, by decide +kernel⟩, by decide +kernel⟩

/-- **C51 is violated**: can_store_tag accepts every value of an integer type that fits in the tag bits, but storing a
    negative one sets all the bits of the pointer: whatever the pointer was, even null, it reads as the highest aligned
    address and tests true. -/
theorem C51_negative_violated (c : Cfg) (k : Nat) (hal : c.align = 2 ^ k) (hlt : k + c.free < 64) (t : Ty) (v : Int)
    (hv : (Tag.int t v).Valid) (hfit : t.bits ≤ k + c.free) (hneg : v < 0) (w : BitVec 64) :
    canStoreTag c (.int t v) = true ∧ ∃ w', setTag c w (.int t v) = some w' ∧ isSet c w' = true ∧
      (∀ i, k ≤ i → i < 64 - c.free → (getPtr c w').getLsbD i = true) := by
  have h : Ok c k := ⟨hal, hlt⟩
  have hb : ¬ t.bits > c.tagBits := by rw [tagBits_eq h]; omega
  have hpos := hv.2.1
  have hstore : canStoreTag c (.int t v) = true := by
    unfold canStoreTag
    rw [tagBits_eq h, if_neg (by omega), if_pos (by simpa [Tag.bits] using hfit)]
  -- the sign extension
  have hlow : -(2 ^ (t.bits - 1) : Int) ≤ v := by
    have := hv.1.1
    unfold Ty.lo at this
    have := Verif.Proofs.CInt.two_pow_pos (t.bits - 1)
    split at * <;> omega
  have hbits : ∀ i, k + c.free ≤ i → i < 64 → (toWord v).getLsbD i = true := by
    intro i h1 h2
    unfold toWord
    have hn : v = -((-v - 1).toNat : Int) - 1 := by omega
    have hsmall : (-v - 1).toNat < 2 ^ (t.bits - 1) := by
      have : ((-v - 1).toNat : Int) < ((2 ^ (t.bits - 1) : Nat) : Int) := by push_cast; omega
      exact_mod_cast this
    have hw : BitVec.ofInt 64 v = ~~~(BitVec.ofNat 64 (-v - 1).toNat) := by
      have : v = Int.negSucc (-v - 1).toNat := by rw [Int.negSucc_eq]; omega
      conv => lhs; rw [this]
      rw [BitVec.ofInt_negSucc_eq_not_ofNat]
    rw [hw, BitVec.getLsbD_not, BitVec.getLsbD_ofNat, tag_testBit_ge hsmall (by omega)]
    simp [h2]
  have hw' : ∀ i, k + c.free ≤ i → i < 64 → ((w &&& c.ptrMask) ||| toWord v).getLsbD i = true := by
    intro i h1 h2; rw [BitVec.getLsbD_or, hbits i h1 h2]; simp
  refine ⟨hstore, (w &&& c.ptrMask) ||| toWord v, ?_, ?_, ?_⟩
  · simp only [setTag, setTagInt]; rw [if_neg hb]
  · unfold isSet
    rw [bne_iff_ne]
    intro h0
    have := congrArg (fun x : BitVec 64 => x.getLsbD 63) h0
    simp only [BitVec.getLsbD_and, ptrMask_bit h, hw' 63 (by omega) (by omega)] at this
    simp at this
    omega
  · intro i hi hi2
    unfold getPtr
    simp only
    by_cases hf : c.free > 0
    · rw [if_pos hf]
      have : (((w &&& c.ptrMask ||| toWord v) &&& c.ptrMask) >>> c.free).getLsbD i = true := by
        rw [BitVec.getLsbD_ushiftRight, BitVec.getLsbD_and, ptrMask_bit h, hw' _ (by omega) (by omega)]
        simp; omega
      split
      · rw [BitVec.getLsbD_or, this]; simp
      · exact this
    · rw [if_neg hf, BitVec.getLsbD_and, ptrMask_bit h, hw' _ (by omega) (by omega)]
      simp; omega

/-- `int8_t{-1}` in a null pointer of alignment 256 -/
example : (Tag.int ⟨8, true⟩ (-1)).Valid ∧ (setTag ⟨256, 0, true⟩ 0 (.int ⟨8, true⟩ (-1))).map (getPtr ⟨256, 0, true⟩) =
    some 0xffffffffffffff00#64 := ⟨⟨by decide, by decide, by decide, by decide⟩, by decide +kernel⟩

/-- **C51 is violated**: the check of the pointer does not look at its alignment; a misaligned pointer above the alignment
    is accepted and changes the tag -/
theorem C51_misaligned_violated (k : Nat) (hk : k < 63) (h0 : 0 < k) :
    let c : Cfg := ⟨2 ^ k, 0, true⟩
    let p : BitVec 64 := BitVec.ofNat 64 (2 ^ k + 1)
    canStorePtr c p = false ∧ ∃ w, packPtr c p = some w ∧ (getTag c w).toNat = 1 ∧ getPtr c w ≠ p := by
  intro c p
  have h : Ok c k := ⟨rfl, by show k + 0 < 64; omega⟩
  have hlt : 2 ^ k < 2 ^ 63 := Nat.pow_lt_pow_right (by decide) hk
  have hpn : p.toNat = 2 ^ k + 1 := by
    show (BitVec.ofNat 64 (2 ^ k + 1)).toNat = _
    rw [BitVec.toNat_ofNat]; exact Nat.mod_eq_of_lt (by omega)
  have hp0 : p ≠ 0 := by intro hz; rw [hz] at hpn; simp at hpn
  have hun : packPtrUnchecked c p = p := by
    unfold packPtrUnchecked; rw [if_neg (by show ¬ 0 > 0; omega)]
  have hbit : p.getLsbD 0 = true := by
    rw [← BitVec.testBit_toNat, hpn]
    obtain ⟨m, rfl⟩ : ∃ m, k = m + 1 := ⟨k - 1, by omega⟩
    simp [Nat.testBit_zero, Nat.pow_succ]
  have hmask : (p &&& c.tagMask).toNat = 1 := by
    have : c.tagMask.toNat = 2 ^ k - 1 := by
      apply Nat.eq_of_testBit_eq
      intro i
      rw [BitVec.testBit_toNat, tagMask_bit h, Nat.testBit_two_pow_sub_one]; rfl
    rw [BitVec.toNat_and, this, Nat.and_two_pow_sub_one_eq_mod, hpn]
    rw [Nat.add_mod_left]
    exact Nat.mod_eq_of_lt (Nat.one_lt_two_pow (by omega))
  have hT : c.tagBits ≠ 0 := by rw [tagBits_eq h]; show k + 0 ≠ 0; omega
  refine ⟨?_, p, ?_, ?_, ?_⟩
  · unfold canStorePtr
    rw [if_neg hT, hun]
    apply Bool.eq_false_iff.mpr
    rw [ne_eq, beq_iff_eq]
    intro hz; rw [hz] at hmask; simp at hmask
  · unfold packPtr
    obtain ⟨r, h1, _, _, h4⟩ := Verif.Props.C18_bit_floor (by decide) p hp0
    rw [if_pos (Or.inr ?_), hun]
    rw [h1, Option.getD_some]
    exact h4 _ ⟨k, rfl⟩ (by show 2 ^ k ≤ p.toNat; omega)
  · unfold getTag; rw [if_pos hT]; exact hmask
  · intro he
    have := congrArg (fun x : BitVec 64 => x.getLsbD 0) he
    simp only [hbit] at this
    unfold getPtr at this
    rw [if_neg (by show ¬ 0 > 0; omega), BitVec.getLsbD_and, ptrMask_bit h] at this
    simp at this
    omega

example : (4 : Nat) < 63 ∧ 0 < 4 := by decide

end Verif.Props
