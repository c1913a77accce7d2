import Verif.Model.IntegralRange
import Verif.Proofs.CoreUtils
/-! C46 (integral_range), C72 (iteration over an integral_range). -/
namespace Verif.Props
open Verif.Spec.CInt Verif.Spec.IntegralRange Verif.Model.CInt Verif.Model.CoreUtils Verif.Model.IntegralRange
open Verif.Proofs.CInt

/-- a range over type `t` -/
def RangeOf (t : Ty) (r : Range) : Prop := t.Has r.s ∧ t.Has r.e ∧ r.s ≤ r.e

/-- **C46** contains(x) says whether x is in the range; it is empty exactly when it has no elements; first and last are
    its least and greatest element -/
theorem C46_elements (t : Ty) (ht : 0 < t.bits) (r : Range) (hr : RangeOf t r) :
    (∀ x, contains r x = true ↔ r.Mem x) ∧ (Model.IntegralRange.empty r = true ↔ ¬ ∃ x, r.Mem x) ∧ Model.IntegralRange.toBool r = !Model.IntegralRange.empty r ∧
    ((∃ x, r.Mem x) → (r.Mem (first r) ∧ ∀ x, r.Mem x → first r ≤ x) ∧
      ∃ l, last t r = some l ∧ r.Mem l ∧ ∀ x, r.Mem x → x ≤ l) := by
  obtain ⟨h1, h2, h3⟩ := hr
  refine ⟨fun x => by simp [contains, Range.Mem], ?_, ?_, ?_⟩
  · simp only [Model.IntegralRange.empty, decide_eq_true_eq]
    constructor
    · rintro h ⟨x, hx1, hx2⟩; omega
    · intro h
      rcases (by omega : r.e = r.s ∨ r.s < r.e) with h' | h'
      · exact h'
      · exact absurd ⟨r.s, Int.le_refl _, h'⟩ h
  · simp only [Model.IntegralRange.toBool, Model.IntegralRange.empty]
    by_cases h : r.e = r.s
    · simp [h]
    · have : r.e > r.s := by omega
      simp [h, this]
  · rintro ⟨y, hy1, hy2⟩
    refine ⟨⟨⟨Int.le_refl _, by unfold first; omega⟩, fun x hx => hx.1⟩, r.e - 1, ?_, ⟨by omega, by omega⟩, fun x hx => ?_⟩
    · unfold last
      rw [if_pos (by omega), conv_has ht ⟨by have := h1.1; omega, by have := h2.2; omega⟩]
    · have := hx.2; omega

example : RangeOf ⟨8, true⟩ ⟨-128, 127⟩ ∧ last ⟨8, true⟩ ⟨-128, 127⟩ = some 126 := by
  exact ⟨⟨by decide, by decide, by decide⟩, by decide⟩

/-- **C46** size is the number of elements. Missing: ranges over the signed 64-bit type with 2^63 elements or more, where
    the subtraction overflows (C46_size_violated). -/
theorem C46_size_partial (t : Ty) (ht : 0 < t.bits) (hb : t.bits ≤ 64) (r : Range) (hr : RangeOf t r)
    (hok : t.signed = true → r.e - r.s < 2 ^ 63) :
    size t r = some (r.toList.length : Int) := by
  obtain ⟨h1, h2, h3⟩ := hr
  have hlen : (r.toList.length : Int) = r.e - r.s := by
    unfold Range.toList; simp; omega
  rw [hlen]
  have p1 : (2 : Int) ^ t.bits ≤ 2 ^ 64 := two_pow_mono hb
  have p2 : (2 : Int) ^ (t.bits - 1) ≤ 2 ^ 63 := two_pow_mono (by omega)
  unfold size
  cases hs : t.signed with
  | true =>
    have hhas : ∀ x, t.Has x → diffTy.Has x := by
      intro x hx
      obtain ⟨a, b⟩ := hx
      unfold Ty.lo at a; unfold Ty.hi at b
      simp only [hs, if_true] at a b
      unfold Ty.Has Ty.lo Ty.hi diffTy
      simp only [if_true]; omega
    rw [if_pos rfl, conv_has (by decide) (hhas _ h1), conv_has (by decide) (hhas _ h2)]
    have hlt := hok hs
    have : diffTy.Has (r.e - r.s) := by
      unfold Ty.Has Ty.lo Ty.hi diffTy; simp only [if_true]; omega
    unfold signed64
    rw [if_pos this, Option.map_some, conv_has (by decide) (by unfold Ty.Has Ty.lo Ty.hi sizeTy; simp only [Bool.false_eq_true, if_false]; omega)]
  | false =>
    have hhas : ∀ x, t.Has x → sizeTy.Has x := by
      intro x hx
      obtain ⟨a, b⟩ := hx
      unfold Ty.lo at a; unfold Ty.hi at b
      simp only [hs, Bool.false_eq_true, if_false] at a b
      unfold Ty.Has Ty.lo Ty.hi sizeTy
      simp only [Bool.false_eq_true, if_false]; omega
    rw [if_neg (by simp), conv_has (by decide) (hhas _ h1), conv_has (by decide) (hhas _ h2)]
    have ha := (hhas _ h1).1
    have hb := (hhas _ h2).2
    unfold Ty.lo sizeTy at ha
    unfold Ty.hi sizeTy at hb
    simp only [Bool.false_eq_true, if_false] at ha hb
    rw [conv_has (by decide) (by unfold Ty.Has Ty.lo Ty.hi sizeTy; simp only [Bool.false_eq_true, if_false]; omega)]

example : size ⟨8, true⟩ ⟨-128, 127⟩ = some 255 ∧ size ⟨64, false⟩ ⟨0, 2 ^ 64 - 1⟩ = some (2 ^ 64 - 1) := by decide

/-- **C46 is violated**: size of a range over the signed 64-bit type with 2^63 elements or more is a signed overflow,
    although size_type is documented to be big enough for it -/
theorem C46_size_violated (r : Range) (hr : RangeOf ⟨64, true⟩ r) (h : 2 ^ 63 ≤ r.e - r.s) : size ⟨64, true⟩ r = none := by
  obtain ⟨h1, h2, h3⟩ := hr
  unfold size
  have e1 : conv diffTy r.e = r.e := conv_has (by decide) h2
  have e2 : conv diffTy r.s = r.s := conv_has (by decide) h1
  have : ¬ diffTy.Has (r.e - r.s) := by
    unfold Ty.Has Ty.lo Ty.hi diffTy; simp only [if_true]; omega
  rw [if_pos rfl, e1, e2, signed64, if_neg this, Option.map_none]

example : RangeOf ⟨64, true⟩ ⟨-1, 2 ^ 63 - 1⟩ ∧ (2 : Int) ^ 63 ≤ (2 ^ 63 - 1) - (-1) :=
  ⟨⟨by decide, by decide, by decide⟩, by decide⟩

/-- **C46** Two ranges: one contains the other exactly when all its elements are in it, they intersect exactly when they
    have a common element, they are adjacent exactly when they have no common element and one starts where the other
    ends, and they are equal exactly when they have the same elements. Missing: empty ranges (see C46_empty_violated). -/
theorem C46_pairs_partial (a b : Range) (ha : a.s < a.e) (hb : b.s < b.e) :
    (containsRange a b = true ↔ ∀ x, b.Mem x → a.Mem x) ∧
    (intersects a b = true ↔ ∃ x, a.Mem x ∧ b.Mem x) ∧
    (adjacent a b = true ↔ (¬ ∃ x, a.Mem x ∧ b.Mem x) ∧ (a.s = b.e ∨ b.s = a.e)) ∧
    (intersectsOrAdjacent a b = true ↔ (∃ x, a.Mem x ∧ b.Mem x) ∨ a.s = b.e ∨ b.s = a.e) ∧
    (beq a b = true ↔ ∀ x, a.Mem x ↔ b.Mem x) := by
  have hint : (∃ x, a.Mem x ∧ b.Mem x) ↔ a.e > b.s ∧ b.e > a.s := by
    constructor
    · rintro ⟨x, ⟨h1, h2⟩, h3, h4⟩; omega
    · rintro ⟨h1, h2⟩
      rcases (by omega : a.s ≤ b.s ∨ b.s ≤ a.s) with h | h
      · exact ⟨b.s, ⟨h, h1⟩, Int.le_refl _, hb⟩
      · exact ⟨a.s, ⟨Int.le_refl _, ha⟩, h, h2⟩
  refine ⟨?_, ?_, ?_, ?_, ?_⟩
  · simp only [containsRange, decide_eq_true_eq]
    constructor
    · rintro ⟨h1, h2⟩ x ⟨h3, h4⟩; exact ⟨by omega, by omega⟩
    · intro h
      have h1 := (h b.s ⟨Int.le_refl _, hb⟩).1
      have h2 := (h (b.e - 1) ⟨by omega, by omega⟩).2
      omega
  · simp only [intersects, decide_eq_true_eq, hint]
  · simp only [adjacent, decide_eq_true_eq, hint]
    omega
  · simp only [intersectsOrAdjacent, decide_eq_true_eq, hint]
    omega
  · simp only [beq, decide_eq_true_eq]
    constructor
    · rintro ⟨h1, h2⟩ x; unfold Range.Mem; rw [h1, h2]
    · intro h
      have h1 := ((h a.s).mp ⟨Int.le_refl _, ha⟩).1
      have h2 := ((h b.s).mpr ⟨Int.le_refl _, hb⟩).1
      have h3 := ((h (a.e - 1)).mp ⟨by omega, by omega⟩).2
      have h4 := ((h (b.e - 1)).mpr ⟨by omega, by omega⟩).2
      omega

example : intersects ⟨0, 5⟩ ⟨4, 9⟩ = true ∧ adjacent ⟨0, 5⟩ ⟨5, 9⟩ = true ∧ containsRange ⟨0, 9⟩ ⟨2, 9⟩ = true := by decide

/-- **C46 is violated** by empty ranges: an empty range strictly inside another is said to intersect it, and an empty
    range outside another is said not to be contained in it -/
theorem C46_empty_violated (a b : Range) (hb : b.s = b.e) :
    (a.s < b.s → b.s < a.e → intersects a b = true ∧ ¬ ∃ x, a.Mem x ∧ b.Mem x) ∧
    (b.s < a.s ∨ a.e < b.s → containsRange a b = false ∧ ∀ x, b.Mem x → a.Mem x) := by
  have hno : ∀ x, ¬ b.Mem x := by rintro x ⟨h1, h2⟩; omega
  constructor
  · intro h1 h2
    refine ⟨by simp only [intersects, decide_eq_true_eq]; omega, ?_⟩
    rintro ⟨x, _, hx⟩; exact hno x hx
  · intro h
    refine ⟨by simp only [containsRange, decide_eq_false_iff_not]; omega, fun x hx => absurd hx (hno x)⟩

example : intersects ⟨0, 10⟩ ⟨5, 5⟩ = true ∧ containsRange ⟨0, 10⟩ ⟨20, 20⟩ = false := by decide

/-- **C46** union_with is the smallest range containing both, and its elements are exactly those of the two ranges if
    these intersect or are adjacent -/
theorem C46_union (a b : Range) :
    (∀ x, a.Mem x ∨ b.Mem x → (unionWith a b).Mem x) ∧
    (intersectsOrAdjacent a b = true → ∀ x, (unionWith a b).Mem x ↔ a.Mem x ∨ b.Mem x) ∧
    (∀ c : Range, c.s ≤ a.s → c.s ≤ b.s → a.e ≤ c.e → b.e ≤ c.e → ∀ x, (unionWith a b).Mem x → c.Mem x) := by
  have e1 : (unionWith a b).s = min a.s b.s := by
    unfold unionWith min2; simp only [decide_eq_true_eq]; split <;> omega
  have e2 : (unionWith a b).e = max a.e b.e := by
    unfold unionWith max2; simp only [decide_eq_true_eq]; split <;> omega
  unfold Range.Mem
  rw [e1, e2]
  simp only [intersectsOrAdjacent, decide_eq_true_eq]
  exact ⟨fun x hx => by omega, fun h x => by omega, fun c h1 h2 h3 h4 x hx => by omega⟩

example : unionWith ⟨0, 5⟩ ⟨5, 9⟩ = ⟨0, 9⟩ ∧ intersectsOrAdjacent ⟨0, 5⟩ ⟨5, 9⟩ = true := ⟨rfl, by decide⟩


/-- **C46** (the union of two ranges which do not touch is not a range: union_with then has elements of neither) -/
theorem C46_union_violated (a b : Range) (ha : a.s ≤ a.e) (hb : b.s ≤ b.e) (h : a.e < b.s) :
    (unionWith a b).Mem a.e ∧ ¬ a.Mem a.e ∧ ¬ b.Mem a.e := by
  have e1 : (unionWith a b).s = min a.s b.s := by
    unfold unionWith min2; simp only [decide_eq_true_eq]; split <;> omega
  have e2 : (unionWith a b).e = max a.e b.e := by
    unfold unionWith max2; simp only [decide_eq_true_eq]; split <;> omega
  unfold Range.Mem
  rw [e1, e2]
  omega

example : (unionWith ⟨0, 2⟩ ⟨7, 9⟩).Mem 2 := (C46_union_violated ⟨0, 2⟩ ⟨7, 9⟩ (by decide) (by decide) (by decide)).1

/-- **C72** A loop over a range visits exactly its elements, in increasing order, without overflow, for every integer
    type and range -/
theorem C72_iterate (t : Ty) (ht : 0 < t.bits) (r : Range) (hr : RangeOf t r) (fuel : Nat)
    (hf : (r.e - r.s).toNat < fuel) : iterate t r.e fuel r.s = some r.toList := by
  obtain ⟨h1, h2, h3⟩ := hr
  have key : ∀ (n fuel : Nat) (v : Int), n < fuel → t.Has v → v + n = r.e → iterate t r.e fuel v = some ((List.range n).map (fun i : Nat => v + (i : Int))) := by
    intro n
    induction n with
    | zero =>
      intro fuel v hf hv he
      obtain ⟨f, rfl⟩ : ∃ f, fuel = f + 1 := ⟨fuel - 1, by omega⟩
      unfold iterate
      rw [if_pos (by simpa using he)]; rfl
    | succ n ih =>
      intro fuel v hf hv he
      obtain ⟨f, rfl⟩ : ∃ f, fuel = f + 1 := ⟨fuel - 1, by omega⟩
      unfold iterate
      rw [if_neg (by omega)]
      have hv' : t.Has (v + 1) := ⟨by have := hv.1; omega, by have := h2.2; omega⟩
      have hinc : inc t v = some (v + 1) := by
        unfold inc
        rw [if_neg (by rintro ⟨_, h, _⟩; exact h hv'), conv_has ht hv']
      simp only [hinc]
      rw [ih f (v + 1) (by omega) hv' (by omega), List.range_succ_eq_map]
      simp only [Option.map_some, List.map_cons, List.map_map, Option.some.injEq, List.cons.injEq]
      refine ⟨by omega, ?_⟩
      apply List.map_congr_left
      intro i _
      simp only [Function.comp, Nat.succ_eq_add_one]; omega
  exact key (r.e - r.s).toNat fuel r.s hf h1 (by omega)

/-- a range which ends at the greatest value of its type -/
example : iterate ⟨8, true⟩ 127 5 124 = some [124, 125, 126] := by decide

/-- **C72** Moving an iterator by an unsigned offset gives the element that far, for every integer type, if both are
    values of the type -/
theorem C72_advance (t : Ty) (ht : 0 < t.bits) (hb : t.bits ≤ 64) (v offset : Int)
    (hr : t.Has (v + offset)) : advance t v offset = v + offset := by
  unfold advance
  have hsz : ∀ x : Int, conv sizeTy x = x % 2 ^ 64 := by intro x; unfold conv sizeTy; simp
  rw [hsz, hsz, Int.emod_add_emod]
  -- the result modulo 2^64, taken to `t.bits ≤ 64` bits, is the result
  obtain ⟨k, hk⟩ : ∃ k, t.bits + k = 64 := ⟨64 - t.bits, by omega⟩
  have hd : (2 : Int) ^ t.bits ∣ 2 ^ 64 := by rw [← hk, Int.pow_add]; exact Int.dvd_mul_right _ _
  have hcm : conv t ((v + offset) % 2 ^ 64) = conv t (v + offset) := by
    unfold conv
    rw [Int.emod_emod_of_dvd _ hd]
  rw [hcm, conv_has ht hr]

example : advance ⟨16, true⟩ (-32768) 65535 = 32767 := by decide

/-- **C72** Moving an iterator back by an unsigned offset -/
theorem C72_retreat (t : Ty) (ht : 0 < t.bits) (hb : t.bits ≤ 64) (v offset : Int)
    (hr : t.Has (v - offset)) : retreat t v offset = v - offset := by
  unfold retreat
  have hsz : ∀ x : Int, conv sizeTy x = x % 2 ^ 64 := by intro x; unfold conv sizeTy; simp
  rw [hsz, hsz, Int.emod_sub_emod]
  obtain ⟨k, hk⟩ : ∃ k, t.bits + k = 64 := ⟨64 - t.bits, by omega⟩
  have hd : (2 : Int) ^ t.bits ∣ 2 ^ 64 := by rw [← hk, Int.pow_add]; exact Int.dvd_mul_right _ _
  have hcm : conv t ((v - offset) % 2 ^ 64) = conv t (v - offset) := by
    unfold conv
    rw [Int.emod_emod_of_dvd _ hd]
  rw [hcm, conv_has ht hr]

example : retreat ⟨16, true⟩ 32767 65535 = -32768 := by decide

/-- **C72** Moving an iterator by a signed offset, either way, gives the element that far, except for iterators over the
    unsigned 64-bit type. Missing: that type, where the sum overflows for some offsets (C72_signed_offset_violated). -/
theorem C72_signed_offset_partial (t : Ty) (ht : 0 < t.bits) (hb : t.bits ≤ 64) (h64 : t ≠ ⟨64, false⟩) (v offset : Int)
    (hv : t.Has v) :
    (t.Has (v + offset) → advanceSigned t v offset = some (v + offset)) ∧
    (t.Has (v - offset) → retreatSigned t v offset = some (v - offset)) := by
  have p2 : (2 : Int) ^ (t.bits - 1) ≤ 2 ^ 63 := two_pow_mono (by omega)
  have p3 : t.signed = false → (2 : Int) ^ t.bits ≤ 2 ^ 63 := by
    intro hs
    refine two_pow_mono ?_
    rcases (by omega : t.bits = 64 ∨ t.bits ≤ 63) with h | h
    · exact absurd (by cases t; simp only at h hs; rw [h, hs]) h64
    · exact h
  have hD : ∀ x, t.Has x → diffTy.Has x := by
    intro x ⟨a, b⟩
    unfold Ty.lo at a; unfold Ty.hi at b
    unfold Ty.Has Ty.lo Ty.hi diffTy
    cases hs : t.signed
    · have := p3 hs
      simp only [hs, Bool.false_eq_true, if_true, if_false] at a b ⊢
      omega
    · simp only [hs, if_true] at a b ⊢
      omega
  unfold advanceSigned retreatSigned signed64
  rw [conv_has (by decide) (hD v hv)]
  constructor
  · intro hr
    rw [if_pos (hD _ hr), Option.map_some, conv_has ht hr]
  · intro hr
    rw [if_pos (hD _ hr), Option.map_some, conv_has ht hr]

example : advanceSigned ⟨16, true⟩ 5 (-7) = some (-2) ∧ retreatSigned ⟨32, false⟩ 9 7 = some 2 := by decide

/-- **C72 is violated**: moving an iterator over the unsigned 64-bit type back across 2^63 by a negative offset, or on
    across it by a positive one, overflows although the result is a value of the type -/
theorem C72_signed_offset_violated (v offset : Int) (hv : (⟨64, false⟩ : Ty).Has v) (ho : diffTy.Has offset)
    (hr : (⟨64, false⟩ : Ty).Has (v + offset))
    (hcross : (v < 2 ^ 63 ∧ 2 ^ 63 ≤ v + offset) ∨ (2 ^ 63 ≤ v ∧ v + offset < 2 ^ 63)) :
    advanceSigned ⟨64, false⟩ v offset = none := by
  obtain ⟨a, b⟩ := hv
  obtain ⟨c, d⟩ := hr
  unfold Ty.lo at a c; unfold Ty.hi at b d
  simp only [Bool.false_eq_true, if_false] at a b c d
  have hm : v % 2 ^ 64 = v := Int.emod_eq_of_lt (by omega) (by omega)
  unfold advanceSigned signed64
  rcases hcross with ⟨h1, h2⟩ | ⟨h1, h2⟩
  · have e : conv diffTy v = v := conv_has (by decide) (by unfold Ty.Has Ty.lo Ty.hi diffTy; simp only [if_true]; omega)
    rw [e, if_neg (by unfold Ty.Has Ty.lo Ty.hi diffTy; simp only [if_true]; omega), Option.map_none]
  · have e : conv diffTy v = v - 2 ^ 64 := by
      unfold conv diffTy
      simp only [hm]
      rw [if_pos ⟨trivial, by simpa using h1⟩]
    rw [e, if_neg (by unfold Ty.Has Ty.lo Ty.hi diffTy; simp only [if_true]; omega), Option.map_none]

example : (⟨64, false⟩ : Ty).Has (2 ^ 63) ∧ diffTy.Has (-1) ∧ (⟨64, false⟩ : Ty).Has (2 ^ 63 + -1) ∧
    (2 : Int) ^ 63 ≤ 2 ^ 63 ∧ (2 : Int) ^ 63 + -1 < 2 ^ 63 := by decide

/-- **C72** The difference of two iterators is the difference of the values, for integer types of at most 32 bits, signed
    64-bit values whose difference is representable, and unsigned 64-bit values below 2^63.
    Missing: larger unsigned 64-bit values (C72_distance_violated). -/
theorem C72_distance_partial (t : Ty) (ht : 0 < t.bits) (hb : t.bits ≤ 64) (l r : Int) (hl : t.Has l) (hr : t.Has r)
    (hsmall : t.signed = false → l < 2 ^ 63 ∧ r < 2 ^ 63) (hrep : diffTy.Has (l - r)) : distance t l r = some (l - r) := by
  have p1 : (2 : Int) ^ t.bits ≤ 2 ^ 64 := two_pow_mono hb
  have p2 : (2 : Int) ^ (t.bits - 1) ≤ 2 ^ 63 := two_pow_mono (by omega)
  have hlow : ∀ x, t.Has x → -(2 ^ 63) ≤ x ∧ (t.signed = false → 0 ≤ x) ∧ (t.signed = true → x < 2 ^ 63) := by
    intro x ⟨a, b⟩
    unfold Ty.lo at a; unfold Ty.hi at b
    have := two_pow_pos (t.bits - 1)
    cases hs : t.signed <;> simp only [hs, Bool.false_eq_true, if_true, if_false] at a b <;>
      refine ⟨by omega, fun h => ?_, fun h => ?_⟩ <;> first | omega | simp at h
  obtain ⟨l1, l2, l3⟩ := hlow l hl
  obtain ⟨r1, r2, r3⟩ := hlow r hr
  have hD : ∀ x : Int, -(2 ^ 63) ≤ x → x < 2 ^ 63 → conv diffTy x = x := by
    intro x h1 h2
    exact conv_has (by decide) (by unfold Ty.Has Ty.lo Ty.hi diffTy; simp only [if_true]; omega)
  have hS : ∀ x : Int, 0 ≤ x → x < 2 ^ 63 → conv sizeTy x = x := by
    intro x h1 h2
    exact conv_has (by decide) (by unfold Ty.Has Ty.lo Ty.hi sizeTy; simp only [Bool.false_eq_true, if_false]; omega)
  unfold distance
  cases hs : t.signed with
  | true =>
    rw [if_neg (by simp), hD l l1 (l3 hs), hD r r1 (r3 hs), signed64, if_pos hrep]
  | false =>
    obtain ⟨s1, s2⟩ := hsmall hs
    have l2 := l2 hs
    have r2 := r2 hs
    by_cases h : r > l
    · rw [if_pos ⟨by simp, h⟩, hS r r2 s2, hS l l2 s1, hS (r - l) (by omega) (by omega), hD (r - l) (by omega) (by omega),
        show -(r - l) = l - r by omega, signed64, if_pos hrep]
    · rw [if_neg (by rintro ⟨_, h'⟩; exact h h'), hD l l1 s1, hD r r1 s2, signed64, if_pos hrep]

example : distance ⟨16, false⟩ 3 65535 = some (-65532) ∧ distance ⟨64, true⟩ (-2) 5 = some (-7) := by decide

/-- **C72 is violated**: for unsigned 64-bit iterators with l ≥ 2^63 > r the difference is a signed overflow, also when
    it is representable (l - r < 2^63) -/
theorem C72_distance_violated (l r : Int) (h0 : 0 < r) (h1 : r < 2 ^ 63) (h2 : 2 ^ 63 ≤ l) (h3 : l - r < 2 ^ 63) :
    distance ⟨64, false⟩ l r = none ∧ diffTy.Has (l - r) := by
  constructor
  · unfold distance
    rw [if_neg (by rintro ⟨_, h⟩; omega)]
    have e1 : conv diffTy r = r := conv_has (by decide) (by unfold Ty.Has Ty.lo Ty.hi diffTy; simp only [if_true]; omega)
    have e2 : conv diffTy l = l - 2 ^ 64 := by
      unfold conv diffTy
      have : l % 2 ^ 64 = l := Int.emod_eq_of_lt (by omega) (by omega)
      simp only [this]
      rw [if_pos ⟨trivial, by simpa using h2⟩]
    rw [e1, e2, signed64, if_neg (by unfold Ty.Has Ty.lo Ty.hi diffTy; simp only [if_true]; omega)]
  · unfold Ty.Has Ty.lo Ty.hi diffTy; simp only [if_true]; omega

example : (0 : Int) < 1 ∧ (1 : Int) < 2 ^ 63 ∧ (2 : Int) ^ 63 ≤ 2 ^ 63 ∧ (2 : Int) ^ 63 - 1 < 2 ^ 63 := by decide

end Verif.Props
