import Mathlib.Tactic.IntervalCases
import Verif.Proofs.Bits
import Verif.Proofs.Bits2

/-!
# C16-C23, C66: bit utilities
-/
namespace Verif.Props
open Verif.Spec Verif.Model Verif.Proofs

/-! ## C16 -/

/-- **C16** `countl_zero` and `countl_one`, every value of every width up to 64 (stated for any width). -/
theorem C16_countl {w : Nat} (hw : 0 < w) (x : BitVec w) :
    (∃ n, countlZero x = some n ∧ LeadingRun false x n) ∧ (∃ n, countlOne x = some n ∧ LeadingRun true x n) := by
  refine ⟨countlZero_spec hw x, ?_⟩
  obtain ⟨n, h1, h2⟩ := countlZero_spec hw (~~~x)
  exact ⟨n, h1, LeadingRun.not h2⟩

/-- **C16** the same for 128 bit values -/
theorem C16_countl128 (x : BitVec 128) :
    (∃ n, countlZero128 x = some n ∧ LeadingRun false x n) ∧ (∃ n, countlOne128 x = some n ∧ LeadingRun true x n) := by
  refine ⟨countlZero128_spec x, ?_⟩
  obtain ⟨n, h1, h2⟩ := countlZero128_spec (~~~x)
  exact ⟨n, h1, LeadingRun.not h2⟩

/-- **C16** `countr_zero` and `countr_one` -/
theorem C16_countr {w : Nat} (x : BitVec w) :
    (∃ n, countrZero x = some n ∧ TrailingRun false x n) ∧ (∃ n, countrOne x = some n ∧ TrailingRun true x n) := by
  refine ⟨countrZero_spec x, ?_⟩
  obtain ⟨n, h1, h2⟩ := countrZero_spec (~~~x)
  exact ⟨n, h1, TrailingRun.not h2⟩

/-- **C16** the same for 128 bit values -/
theorem C16_countr128 (x : BitVec 128) :
    (∃ n, countrZero128 x = some n ∧ TrailingRun false x n) ∧
    (∃ n, countrOne128 x = some n ∧ TrailingRun true x n) := by
  refine ⟨countrZero128_spec x, ?_⟩
  obtain ⟨n, h1, h2⟩ := countrZero128_spec (~~~x)
  exact ⟨n, h1, TrailingRun.not h2⟩

/-- **C16** the run length is unique, and it is the whole width exactly when all bits are equal -/
theorem C16_run_unique {w : Nat} (b : Bool) (x : BitVec w) (m n : Nat) :
    (LeadingRun b x m → LeadingRun b x n → m = n) ∧ (TrailingRun b x m → TrailingRun b x n → m = n) ∧
    (LeadingRun b x w ↔ ∀ i < w, x.getLsbD i = b) ∧ (TrailingRun b x w ↔ ∀ i < w, x.getLsbD i = b) := by
  refine ⟨LeadingRun.unique, TrailingRun.unique, ?_, ?_⟩
  · constructor
    · rintro ⟨_, h, _⟩ i hi
      have := h (w - 1 - i) (by omega)
      simp only [BitVec.getMsbD, show w - 1 - i < w by omega, decide_true, Bool.true_and,
        show w - 1 - (w - 1 - i) = i by omega] at this
      exact this
    · intro h
      refine ⟨Nat.le_refl _, fun i hi => ?_, by omega⟩
      simp only [BitVec.getMsbD, hi, decide_true, Bool.true_and]
      exact h _ (by omega)
  · exact ⟨fun h => h.2.1, fun h => ⟨Nat.le_refl _, h, by omega⟩⟩

example : countlZero 0x00F0#16 = some 8 ∧ countrZero 0x00F0#16 = some 4 ∧ countlOne 0xFFF0#16 = some 12 ∧
    countlZero128 (1#128 <<< 70) = some 57 := by decide

/-! ## C17 -/

/-- **C17** `popcount` is the number of set bits, for all five widths -/
theorem C17_popcount (a : BitVec 8) (b : BitVec 16) (c : BitVec 32) (d : BitVec 64) (e : BitVec 128) :
    popcount popcountTraits8 a = some (numOnes a) ∧ popcount popcountTraits16 b = some (numOnes b) ∧
    popcount popcountTraits32 c = some (numOnes c) ∧ popcount popcountTraits64 d = some (numOnes d) ∧
    popcount popcountTraits128 e = some (numOnes e) := by
  refine ⟨popcount_spec (n := 0) rfl (by decide) _ rfl rfl rfl rfl rfl _,
    popcount_spec (n := 1) rfl (by decide) _ rfl rfl rfl rfl rfl _,
    popcount_spec (n := 3) rfl (by decide) _ rfl rfl rfl rfl rfl _,
    popcount_spec (n := 7) rfl (by decide) _ rfl rfl rfl rfl rfl _,
    popcount_spec (n := 15) rfl (by decide) _ rfl rfl rfl rfl rfl _⟩

example : numOnes 0xF0F1#16 = 9 ∧ popcount popcountTraits16 0xF0F1#16 = some 9 := by decide
example : popcount popcountTraits128 (~~~0#128) = some 128 := by decide

/-! ## C18 -/

/-- **C18** `bit_floor` is the largest power of two not above `x` -/
theorem C18_bit_floor {w : Nat} (hw : 0 < w) (x : BitVec w) (h0 : x ≠ 0) :
    ∃ r, bitFloor countlZero x = some r ∧ IsPow2 r.toNat ∧ r.toNat ≤ x.toNat ∧
      ∀ p, IsPow2 p → p ≤ x.toNat → p ≤ r.toNat :=
  bitFloor_spec (countlZero_spec hw) x h0

theorem C18_bit_floor128 (x : BitVec 128) (h0 : x ≠ 0) :
    ∃ r, bitFloor countlZero128 x = some r ∧ IsPow2 r.toNat ∧ r.toNat ≤ x.toNat ∧
      ∀ p, IsPow2 p → p ≤ x.toNat → p ≤ r.toNat :=
  bitFloor_spec countlZero128_spec x h0

theorem C18_bit_floor_zero (w : Nat) : bitFloor countlZero (0 : BitVec w) = some 0 ∧
    bitFloor countlZero128 0 = some 0 := ⟨if_pos rfl, if_pos rfl⟩

/-- **C18** `bit_ceil` is the smallest power of two not below `x`, whenever that is representable (`x ≤ 2^(w-1)`) -/
theorem C18_bit_ceil {w : Nat} (hw : 0 < w) (x : BitVec w) (h : x.toNat ≤ 2 ^ (w - 1)) :
    ∃ r, bitCeil countlZero x = some r ∧ IsPow2 r.toNat ∧ x.toNat ≤ r.toNat ∧
      ∀ p, IsPow2 p → x.toNat ≤ p → r.toNat ≤ p :=
  bitCeil_spec hw (countlZero_spec hw) x h

theorem C18_bit_ceil128 (x : BitVec 128) (h : x.toNat ≤ 2 ^ 127) :
    ∃ r, bitCeil countlZero128 x = some r ∧ IsPow2 r.toNat ∧ x.toNat ≤ r.toNat ∧
      ∀ p, IsPow2 p → x.toNat ≤ p → r.toNat ≤ p :=
  bitCeil_spec (by decide) countlZero128_spec x h

/-- **C18** `bit_width`: `2^(r-1) ≤ x < 2^r`, and 0 for 0 -/
theorem C18_bit_width {w : Nat} (hw : w = 8 ∨ w = 16 ∨ w = 32 ∨ w = 64) (x : BitVec w) :
    ∃ r, bitWidth countlZero x = some r ∧ (x = 0 → r.toNat = 0) ∧
      (x ≠ 0 → 0 < r.toNat ∧ 2 ^ (r.toNat - 1) ≤ x.toNat ∧ x.toNat < 2 ^ r.toNat) := by
  have hpos : 0 < w := by omega
  obtain ⟨n, h1, h2⟩ := countlZero_spec hpos x
  have hb : w < 2 ^ w := Nat.lt_two_pow_self
  have ht : (BitVec.ofNat w (w - n)).toNat = w - n := by
    rw [BitVec.toNat_ofNat]; exact Nat.mod_eq_of_lt (by omega)
  refine ⟨BitVec.ofNat w (w - n), by unfold bitWidth; rw [h1]; rfl, ?_, ?_⟩
  · rintro rfl
    have : n = w := by
      rcases Nat.lt_or_ge n w with hlt | hge
      · have := h2.2.2 hlt; simp [BitVec.getMsbD] at this
      · have := h2.1; omega
    rw [ht]; omega
  · intro h0
    obtain ⟨b1, b2, b3⟩ := LeadingRun.bounds h2 h0
    rw [ht]
    exact ⟨by omega, by rw [show w - n - 1 = w - 1 - n by omega]; exact b2, b3⟩

/-- **C18** `has_single_bit` decides whether the value is a power of two -/
theorem C18_has_single_bit {w : Nat} (hw : 0 < w) (x : BitVec w) : hasSingleBit x = true ↔ IsPow2 x.toNat :=
  hasSingleBit_spec hw x

example : bitFloor countlZero 0x12345#32 = some 0x10000#32 ∧ bitCeil countlZero 0x12345#32 = some 0x20000#32 ∧
    bitWidth countlZero 0x12345#32 = some 17#32 ∧ hasSingleBit 0x12345#32 = false ∧ hasSingleBit 64#8 = true := by decide

/-! ## C19 -/

/-- **C19** byte `i` of the result is byte `n - 1 - i` of the argument -/
theorem C19_byte_reverse16 (x : BitVec 16) : ∀ i < 2, byteAt (byteReverse16 x) i = byteAt x (1 - i) := by
  intro i hi
  unfold byteAt byteReverse16
  apply BitVec.eq_of_getLsbD_eq
  intro j hj
  interval_cases i <;> interval_cases j <;> simp
theorem C19_byte_reverse32 (x : BitVec 32) : ∀ i < 4, byteAt (byteReverse32 x) i = byteAt x (3 - i) := by
  intro i hi
  unfold byteAt byteReverse32
  apply BitVec.eq_of_getLsbD_eq
  intro j hj
  interval_cases i <;> interval_cases j <;> simp
theorem C19_byte_reverse64 (x : BitVec 64) : ∀ i < 8, byteAt (byteReverse64 x) i = byteAt x (7 - i) := by
  intro i hi
  unfold byteAt byteReverse64
  apply BitVec.eq_of_getLsbD_eq
  intro j hj
  interval_cases i <;> interval_cases j <;> simp
theorem C19_byte_reverse128 (x : BitVec 128) : ∀ i < 16, byteAt (byteReverse128 x) i = byteAt x (15 - i) := by
  intro i hi
  unfold byteReverse128
  have hA : ∀ (a b : BitVec 64) (k : Nat), k < 8 →
      byteAt ((a.setWidth 128 <<< 64) ||| b.setWidth 128) k = byteAt b k := by
    intro a b k hk
    unfold byteAt
    apply BitVec.eq_of_getLsbD_eq
    intro j hj
    simp [show 8 * k + j < 128 by omega, show 8 * k + j < 64 by omega, hj]
  have hB : ∀ (a b : BitVec 64) (k : Nat), k < 8 →
      byteAt ((a.setWidth 128 <<< 64) ||| b.setWidth 128) (8 + k) = byteAt a k := by
    intro a b k hk
    unfold byteAt
    apply BitVec.eq_of_getLsbD_eq
    intro j hj
    simp [show 8 * (8 + k) + j < 128 by omega, show ¬ 8 * (8 + k) + j < 64 by omega, hj,
      show 8 * (8 + k) + j - 64 = 8 * k + j by omega, show 64 ≤ 8 * (8 + k) + j by omega,
      show 8 * k + j < 128 by omega]
  have hlo : ∀ k < 8, byteAt (x.setWidth 64) k = byteAt x k := by
    intro k hk
    unfold byteAt
    apply BitVec.eq_of_getLsbD_eq
    intro j hj
    simp [show 8 * k + j < 64 by omega, hj]
  have hhi : ∀ k < 8, byteAt ((x >>> 64).setWidth 64) k = byteAt x (8 + k) := by
    intro k hk
    unfold byteAt
    apply BitVec.eq_of_getLsbD_eq
    intro j hj
    simp [show 8 * k + j < 64 by omega, hj, show 64 + (8 * k + j) = 8 * (8 + k) + j by omega]
  by_cases h : i < 8
  · rw [hA _ _ i h, C19_byte_reverse64 _ i h, hhi _ (by omega), show 8 + (7 - i) = 15 - i by omega]
  · rw [show i = 8 + (i - 8) by omega, hB _ _ _ (by omega), C19_byte_reverse64 _ _ (by omega), hlo _ (by omega)]
    congr 1; omega

private theorem eq_of_bytes {n : Nat} (x y : BitVec (8 * n)) (h : ∀ i < n, byteAt x i = byteAt y i) : x = y := by
  apply BitVec.eq_of_getLsbD_eq
  intro i hi
  have := congrArg (fun b => b.getLsbD (i % 8)) (h (i / 8) (by omega))
  simp only [byteAt, BitVec.getLsbD_setWidth, BitVec.getLsbD_ushiftRight, show i % 8 < 8 by omega, decide_true,
    Bool.true_and, show 8 * (i / 8) + i % 8 = i by omega] at this
  exact this

/-- **C19** reversing twice gives the value back -/
theorem C19_byte_reverse_involutive (a : BitVec 16) (b : BitVec 32) (c : BitVec 64) (d : BitVec 128) :
    byteReverse16 (byteReverse16 a) = a ∧ byteReverse32 (byteReverse32 b) = b ∧
    byteReverse64 (byteReverse64 c) = c ∧ byteReverse128 (byteReverse128 d) = d := by
  refine ⟨eq_of_bytes (n := 2) _ _ fun i hi => ?_, eq_of_bytes (n := 4) _ _ fun i hi => ?_,
    eq_of_bytes (n := 8) _ _ fun i hi => ?_, eq_of_bytes (n := 16) _ _ fun i hi => ?_⟩
  · rw [C19_byte_reverse16 _ i hi, C19_byte_reverse16 _ _ (by omega)]; congr 1; omega
  · rw [C19_byte_reverse32 _ i hi, C19_byte_reverse32 _ _ (by omega)]; congr 1; omega
  · rw [C19_byte_reverse64 _ i hi, C19_byte_reverse64 _ _ (by omega)]; congr 1; omega
  · rw [C19_byte_reverse128 _ i hi, C19_byte_reverse128 _ _ (by omega)]; congr 1; omega

example : byteReverse32 0x11223344#32 = 0x44332211#32 := by decide
example : byteReverse64 0x1122334455667788#64 = 0x8877665544332211#64 := by decide

/-! ## C20 -/

/-- **C20** Whatever integers (any number, any widths, signed or not) are packed into a type wide enough for all of them:
every one can be read back at its place, and nothing is set above them. -/
theorem C20_bit_pack (r : Nat) (rs : Bool) (pre : List PackArg) (a : PackArg) (post : List PackArg)
    (hr : totalWidth (pre ++ a :: post) ≤ r) :
    (bitPack r rs (pre ++ a :: post) >>> totalWidth post).setWidth a.width = a.bits ∧
    (bitPack r rs (pre ++ a :: post)).toNat < 2 ^ totalWidth (pre ++ a :: post) := by
  have e := bitPack_toNat r rs _ hr
  refine ⟨?_, by rw [e]; exact packNat_lt _⟩
  apply BitVec.eq_of_toNat_eq
  rw [BitVec.toNat_setWidth, BitVec.toNat_ushiftRight, e, packNat_append, packNat, totalWidth_cons, Nat.pow_add,
    Nat.shiftRight_eq_div_pow, ← Nat.mul_assoc, ← Nat.add_assoc, ← Nat.add_mul, Nat.mul_comm (_ + _),
    Nat.mul_add_div (Nat.two_pow_pos _), Nat.div_eq_of_lt (packNat_lt _), Nat.add_zero,
    Nat.mul_add_mod_self_right]
  exact Nat.mod_eq_of_lt a.bits.isLt

private theorem ff_elem {w j : Nat} (h : j < w) (hj : j < 8) : (255#w)[j] = true := by
  rw [← BitVec.getLsbD_eq_getElem, BitVec.getLsbD_ofNat, show (255 : Nat) = 2 ^ 8 - 1 from rfl,
    Nat.testBit_two_pow_sub_one]
  simp [h, hj]

/-- **C20** `byte_select<i>` is byte `i` -/
theorem C20_byte_select {n : Nat} (i : Nat) (hi : i < n) (x : BitVec (8 * n)) : byteSelectT i x = byteAt x i := by
  unfold byteSelectT byteAt
  split
  · subst n; obtain rfl : i = 0 := by omega
    simp
  · apply BitVec.eq_of_getLsbD_eq
    intro j hj
    have h1 : i * 8 + j < 8 * n := by omega
    split
    · subst i
      simp [show j < 8 * n by omega, hj, ff_elem (show j < 8 * n by omega) hj]
    · simp [hj, Nat.mul_comm 8 i, h1, show j < 8 * n by omega, ff_elem (show j < 8 * n by omega) hj]

/-- **C20** `swizzle<is...>` packs the selected bytes in order: byte `k` from the right is the byte selected by the `k`-th
index from the right, and nothing is set above them. -/
theorem C20_swizzle {n : Nat} (r : Nat) (rs : Bool) (pre : List Nat) (i : Nat) (post : List Nat)
    (hi : ∀ j ∈ pre ++ i :: post, j < n) (hr : 8 * (pre ++ i :: post).length ≤ r) (x : BitVec (8 * n)) :
    byteAt (swizzle r rs (pre ++ i :: post) x) post.length = byteAt x i ∧
    (swizzle r rs (pre ++ i :: post) x).toNat < 2 ^ (8 * (pre ++ i :: post).length) := by
  have hw : ∀ l : List Nat, totalWidth (l.map fun i => (⟨8, byteSelectT i x, false⟩ : PackArg)) = 8 * l.length := by
    intro l; induction l with
    | nil => rfl
    | cons a l ih => rw [List.map_cons, totalWidth_cons, ih, List.length_cons]; show 8 + _ = _; omega
  by_cases h1 : pre = [] ∧ post = []
  · obtain ⟨rfl, rfl⟩ := h1
    simp only [List.nil_append, swizzle, List.length_singleton, List.length_nil] at hr ⊢
    rw [C20_byte_select i (hi i (by simp)) x]
    have ht := (byteAt x i).isLt
    generalize byteAt x i = b at ht
    have hb : (b.setWidth r).toNat = b.toNat := by
      rw [BitVec.toNat_setWidth]
      exact Nat.mod_eq_of_lt (Nat.lt_of_lt_of_le ht (Nat.pow_le_pow_right (by decide) (by omega)))
    refine ⟨?_, by rw [hb]; exact ht⟩
    apply BitVec.eq_of_toNat_eq
    simp only [byteAt, Nat.mul_zero, BitVec.ushiftRight_zero]
    rw [BitVec.toNat_setWidth, hb]
    exact Nat.mod_eq_of_lt ht
  · have e : swizzle r rs (pre ++ i :: post) x =
        bitPack r rs ((pre ++ i :: post).map fun i => ⟨8, byteSelectT i x, false⟩) := by
      unfold swizzle
      split
      · rename_i j heq
        exfalso; apply h1
        cases pre with
        | nil => simp at heq; exact ⟨rfl, heq.2⟩
        | cons => simp at heq
      · rfl
    have := C20_bit_pack r rs (pre.map fun i => ⟨8, byteSelectT i x, false⟩) ⟨8, byteSelectT i x, false⟩
      (post.map fun i => ⟨8, byteSelectT i x, false⟩) (by
        have := hw (pre ++ i :: post)
        rw [List.map_append, List.map_cons] at this
        rw [this]; exact hr)
    rw [e, List.map_append, List.map_cons]
    obtain ⟨p1, p2⟩ := this
    constructor
    · have h' := hw post
      rw [h'] at p1
      rw [← C20_byte_select i (hi i (by simp)) x]
      exact p1
    · have := hw (pre ++ i :: post)
      rw [List.map_append, List.map_cons] at this
      rw [this] at p2
      exact p2

example : bitPack 32 false [⟨16, 0xAABB#16, false⟩, ⟨16, 0xCCDD#16, true⟩] = 0xAABBCCDD#32 ∧
    bitPack 64 false [⟨16, 0xAABB#16, true⟩, ⟨8, 0xFF#8, true⟩, ⟨16, 0xEEFF#16, false⟩] = 0xAABBFFEEFF#64 := by decide
example : swizzle (n := 4) 32 false [3, 2, 3] 0xAABBCCDD#32 = 0x00AABBAA#32 := by decide

/-! ## C21 -/

/-- **C21 is violated**: for 4, 8 and 16 byte integers the index `sizeof(T)` gets past the range check and the shift count is
the width of the type, which is undefined behaviour. -/
theorem C21_byte_select_index_violated (x : BitVec 32) (y : BitVec 64) (z : BitVec 128) :
    byteSelect (n := 4) x 4 = none ∧ byteSelect (n := 8) y 8 = none ∧ byteSelect (n := 16) z 16 = none := by
  refine ⟨rfl, rfl, rfl⟩

/-- **C21 is violated** for single-byte integers: index 1 returns the value itself instead of 0. -/
theorem C21_byte_select_byte_violated (x : BitVec 8) : byteSelect (n := 1) x 1 = some x := by
  simp [byteSelect]

/-- **C21 (partial)** Every index other than `sizeof(T)` does what it should. Missing: that index, for which it is false
(unless `sizeof(T)` is 2). -/
theorem C21_byte_select_partial {n : Nat} (hn : n = 1 ∨ n = 2 ∨ n = 4 ∨ n = 8 ∨ n = 16) (x : BitVec (8 * n)) (i : Nat)
    (h : i ≠ n ∨ n = 2) : byteSelect x i = some (if i < n then byteAt x i else 0) := by
  unfold byteSelect
  by_cases h1 : i > n
  · rw [if_pos h1, if_neg (by omega)]
  · rw [if_neg h1]
    by_cases hn1 : n = 1
    · subst hn1
      obtain rfl : i = 0 := by omega
      simp [byteAt]
    · rw [if_neg hn1, if_pos (by omega)]
      congr 1
      by_cases hin : i < n
      · rw [if_pos hin]
        unfold byteAt
        apply BitVec.eq_of_getLsbD_eq
        intro j hj
        simp [hj, Nat.mul_comm 8 i, show j < 8 * n by omega, ff_elem (show j < 8 * n by omega) hj]
      · rw [if_neg hin]
        obtain rfl : n = 2 := by omega
        obtain rfl : i = 2 := by omega
        apply BitVec.eq_of_getLsbD_eq
        intro j hj
        simp [BitVec.getLsbD_of_ge x (16 + j) (by omega)]

example : byteSelect (n := 4) 0xAABBCCDD#32 1 = some 0xCC#8 ∧ byteSelect (n := 4) 0xAABBCCDD#32 5 = some 0#8 := by decide

/-! ## C22 -/

/-- **C22** `bit_fill_right<T>(n)`: bit `i` from the right is set iff `i < n`; `bit_fill_left<T>(n)`: bit `i` from the left
is set iff `i < n`. Never undefined. -/
theorem C22_bit_fill (w n : Nat) :
    ∃ r l, bitFillRight w n = some r ∧ bitFillLeft w n = some l ∧
      (∀ i < w, r.getLsbD i = decide (i < n)) ∧ (∀ i < w, l.getMsbD i = decide (i < n)) := by
  by_cases h0 : n = 0
  · subst h0
    exact ⟨0, 0, if_pos rfl, if_pos rfl, by simp, by simp [BitVec.getMsbD]⟩
  by_cases hw : n ≥ w
  · refine ⟨~~~0, ~~~0, by rw [bitFillRight, if_neg h0, if_pos hw], by rw [bitFillLeft, if_neg h0, if_pos hw], ?_, ?_⟩
    · intro i hi; simp [hi]; omega
    · intro i hi; simp [BitVec.getMsbD, hi]; omega
  · have hr : bitFillRight w n = some (BitVec.ofNat w (2 ^ n - 1)) := by
      rw [bitFillRight, if_neg h0, if_neg hw, shlOne, if_pos (by omega), Option.map_some]
      congr 1
      apply BitVec.eq_of_toNat_eq
      have hp : 2 ^ n < 2 ^ w := Nat.pow_lt_pow_right (by decide) (by omega)
      have hp0 := Nat.two_pow_pos n
      have h1 : (1 : BitVec w).toNat = 1 := by
        show 1 % 2 ^ w = 1
        exact Nat.mod_eq_of_lt (Nat.one_lt_two_pow (by omega))
      have h2 : (BitVec.ofNat w (2 ^ n)).toNat = 2 ^ n := by
        rw [BitVec.toNat_ofNat]; exact Nat.mod_eq_of_lt hp
      rw [BitVec.toNat_sub_of_le (by rw [BitVec.le_def, h1, h2]; omega), h1, h2, BitVec.toNat_ofNat]
      exact (Nat.mod_eq_of_lt (by omega)).symm
    refine ⟨_, BitVec.ofNat w (2 ^ n - 1) <<< (w - n), hr,
      by rw [bitFillLeft, if_neg h0, if_neg hw, hr, Option.bind_some, if_pos (by omega)], ?_, ?_⟩
    · intro i hi
      rw [BitVec.getLsbD_ofNat, Nat.testBit_two_pow_sub_one]
      simp [hi]
    · intro i hi
      simp only [BitVec.getMsbD, hi, decide_true, Bool.true_and, BitVec.getLsbD_shiftLeft, BitVec.getLsbD_ofNat,
        Nat.testBit_two_pow_sub_one]
      by_cases hin : i < n
      · simp [hin]; omega
      · simp [hin]; omega

example : bitFillRight 8 5 = some 0x1F#8 ∧ bitFillLeft 8 5 = some 0xF8#8 ∧ bitFillRight 8 300 = some 0xFF#8 := by decide

/-! ## C23 -/

/-- **C23** For a power of two alignment: if the smallest multiple of it not below `x` is representable, that is the result,
and otherwise the result is 0. -/
theorem C23_apply_alignment {w : Nat} (x : BitVec w) (a : BitVec 64) (ha : IsPow2 a.toNat) :
    ∃ r, applyAlignment x a = some r ∧
      ((∃ m, a.toNat ∣ m ∧ x.toNat ≤ m ∧ m < 2 ^ w) →
        a.toNat ∣ r.toNat ∧ x.toNat ≤ r.toNat ∧ ∀ m, a.toNat ∣ m → x.toNat ≤ m → r.toNat ≤ m) ∧
      ((¬ ∃ m, a.toNat ∣ m ∧ x.toNat ≤ m ∧ m < 2 ^ w) → r = 0) := by
  obtain ⟨k, hk⟩ := ha
  obtain ⟨_, _, hk64⟩ := pow2_mask hk
  obtain ⟨r, h1, h2⟩ := applyAlignment_toNat x a hk
  have hp := Nat.two_pow_pos k
  obtain ⟨d1, d2, d3, d4⟩ := roundUp_spec x.toNat (2 ^ k) hp
  have hx := x.isLt
  have hwu : 2 ^ w ≤ 2 ^ max w 64 := Nat.pow_le_pow_right (by decide) (Nat.le_max_left _ _)
  have h64u : 2 ^ 64 ≤ 2 ^ max w 64 := Nat.pow_le_pow_right (by decide) (Nat.le_max_right _ _)
  have hku : 2 ^ k ∣ 2 ^ max w 64 := Nat.pow_dvd_pow 2 (by omega)
  refine ⟨r, h1, ?_, ?_⟩
  · rintro ⟨m, hm1, hm2, hm3⟩
    rw [hk] at hm1 ⊢
    have hle := d4 m hm1 hm2
    have hr : r.toNat = (x.toNat + (2 ^ k - 1)) / 2 ^ k * 2 ^ k := by
      rw [h2]
      by_cases hov : x.toNat + (2 ^ k - 1) < 2 ^ max w 64
      · rw [Nat.mod_eq_of_lt hov, Nat.mod_eq_of_lt (by omega)]
      · -- then a multiple of 2^k would lie above
        exfalso
        have : 2 ^ max w 64 / 2 ^ k * 2 ^ k ≤ (x.toNat + (2 ^ k - 1)) / 2 ^ k * 2 ^ k :=
          Nat.mul_le_mul_right _ (Nat.div_le_div_right (by omega))
        rw [Nat.div_mul_cancel hku] at this
        omega
    rw [hr]
    exact ⟨d1, d2, d4⟩
  · intro hno
    have hge : 2 ^ w ≤ (x.toNat + (2 ^ k - 1)) / 2 ^ k * 2 ^ k := by
      apply Classical.byContradiction
      intro hlt
      exact hno ⟨_, by rw [hk]; exact d1, d2, by omega⟩
    apply BitVec.eq_of_toNat_eq
    rw [h2]
    simp only [BitVec.ofNat_eq_ofNat, BitVec.toNat_ofNat, Nat.zero_mod]
    by_cases hov : x.toNat + (2 ^ k - 1) < 2 ^ max w 64
    · rw [Nat.mod_eq_of_lt hov]
      by_cases hkw : w ≤ k
      · have : 2 ^ w ∣ 2 ^ k := Nat.pow_dvd_pow 2 hkw
        exact Nat.mod_eq_zero_of_dvd (Nat.dvd_trans this (Nat.dvd_mul_left _ _))
      · -- the only multiple of 2^k in [2^w, 2^w + 2^k) is 2^w
        have hkd : 2 ^ k ∣ 2 ^ w := Nat.pow_dvd_pow 2 (by omega)
        have := d4 (2 ^ w) hkd (by omega)
        rw [show (x.toNat + (2 ^ k - 1)) / 2 ^ k * 2 ^ k = 2 ^ w by omega, Nat.mod_self]
    · have hb : x.toNat + (2 ^ k - 1) - 2 ^ max w 64 < 2 ^ k := by omega
      have hlt : 2 ^ k < 2 ^ max w 64 := Nat.pow_lt_pow_right (by decide) (by omega)
      have : (x.toNat + (2 ^ k - 1)) % 2 ^ max w 64 = x.toNat + (2 ^ k - 1) - 2 ^ max w 64 := by
        rw [Nat.mod_eq_sub_mod (by omega)]
        exact Nat.mod_eq_of_lt (by omega)
      rw [this, Nat.div_eq_of_lt hb, Nat.zero_mul, Nat.zero_mod]

/-- **C23** idempotent and monotone where representable -/
theorem C23_apply_alignment_monotone {w : Nat} (x y : BitVec w) (a : BitVec 64) (ha : IsPow2 a.toNat)
    (hxy : x.toNat ≤ y.toNat) (hy : ∃ m, a.toNat ∣ m ∧ y.toNat ≤ m ∧ m < 2 ^ w) :
    ∃ r s, applyAlignment x a = some r ∧ applyAlignment y a = some s ∧ r.toNat ≤ s.toNat ∧
      applyAlignment r a = some r := by
  obtain ⟨r, r1, r2, _⟩ := C23_apply_alignment x a ha
  obtain ⟨s, s1, s2, _⟩ := C23_apply_alignment y a ha
  have hs := s2 hy
  obtain ⟨m, m1, m2, m3⟩ := hy
  have hr := r2 ⟨m, m1, by omega, m3⟩
  refine ⟨r, s, r1, s1, hr.2.2 _ hs.1 (by omega), ?_⟩
  obtain ⟨t, t1, t2, _⟩ := C23_apply_alignment r a ha
  have ht := t2 ⟨r.toNat, hr.1, Nat.le_refl _, r.isLt⟩
  rw [t1]
  congr 1
  apply BitVec.eq_of_toNat_eq
  have := ht.2.2 r.toNat hr.1 (Nat.le_refl _)
  omega

example : applyAlignment 0x1001#32 16#64 = some 0x1010#32 ∧ applyAlignment 0xFD#8 8#64 = some 0#8 ∧
    IsPow2 (16#64).toNat := ⟨by decide, by decide, 4, rfl⟩

/-! ## C66 -/

/-- **C66 is violated**: for a size within `alignment - 1` of the top of the range, the rounded size wraps around to 0. -/
theorem C66_aligned_alloc_wraps_violated :
    alignedAllocRequest 0xFFFFFFFFFFFFFFF8#64 16#64 = some (16#64, 0#64) := by decide

/-- **C66 (partial)** Otherwise the alignment requested from the C library is a power of two of at least 16 and at least
the one asked for, and the size is the smallest multiple of it that is not below the one asked for.
Missing: sizes whose rounding up is not representable. -/
theorem C66_aligned_alloc_partial (size a : BitVec 64) (hs : size ≠ 0) (ha : IsPow2 a.toNat)
    (hfit : size.toNat + max a.toNat 16 ≤ 2 ^ 64) :
    ∃ a' s', alignedAllocRequest size a = some (a', s') ∧ a'.toNat = max a.toNat 16 ∧ IsPow2 a'.toNat ∧
      a'.toNat ∣ s'.toNat ∧ size.toNat ≤ s'.toNat ∧ ∀ m, a'.toNat ∣ m → size.toNat ≤ m → s'.toNat ≤ m := by
  have ha0 : a ≠ 0 := by
    obtain ⟨k, hk⟩ := ha
    exact (pow2_mask hk).1
  unfold alignedAllocRequest
  rw [if_neg (by rintro (h | h); exact hs h; exact ha0 h)]
  have key : ∀ b : BitVec 64, b.toNat = max a.toNat 16 → IsPow2 b.toNat →
      ∃ a' s', some (b, (size + b - 1) &&& ~~~(b - 1)) = some (a', s') ∧ a'.toNat = max a.toNat 16 ∧ IsPow2 a'.toNat ∧
      a'.toNat ∣ s'.toNat ∧ size.toNat ≤ s'.toNat ∧ ∀ m, a'.toNat ∣ m → size.toNat ≤ m → s'.toNat ≤ m := by
    intro b hb hpow
    refine ⟨b, _, rfl, hb, hpow, ?_⟩
    obtain ⟨k, hk⟩ := hpow
    obtain ⟨p1, p2, hk64⟩ := pow2_mask hk
    have hp := Nat.two_pow_pos k
    have happ := applyAlignment_toNat size b hk
    obtain ⟨r, r1, r2⟩ := happ
    have hr : r = (size + b - 1) &&& ~~~(b - 1) := by
      unfold applyAlignment at r1
      simp only [] at r1
      rw [if_neg (by rintro (h | h); exact p1 h; exact h p2)] at r1
      have := Option.some.inj r1
      rw [← this]
      show BitVec.setWidth 64 ((BitVec.setWidth 64 size + BitVec.setWidth 64 b - 1 : BitVec 64) &&&
        ~~~(BitVec.setWidth 64 b - 1 : BitVec 64)) = _
      simp only [BitVec.setWidth_eq]
    rw [← hr, r2, hk]
    obtain ⟨d1, d2, d3, d4⟩ := roundUp_spec size.toNat (2 ^ k) hp
    rw [show max 64 64 = 64 from rfl, Nat.mod_eq_of_lt (a := size.toNat + (2 ^ k - 1)) (by omega),
      Nat.mod_eq_of_lt (by omega)]
    exact ⟨d1, d2, d4⟩
  by_cases h16 : a > 16#64
  · simp only [h16, if_true]
    have : 16 < a.toNat := by simpa [BitVec.lt_def] using h16
    exact key a (by omega) ha
  · simp only [h16, if_false]
    have : a.toNat ≤ 16 := by simpa [BitVec.lt_def] using h16
    exact key 16#64 (by simp; omega) ⟨4, rfl⟩

example : alignedAllocRequest 100#64 64#64 = some (64#64, 128#64) ∧ alignedAllocRequest 1#64 1#64 = some (16#64, 16#64) := by
  decide

end Verif.Props
