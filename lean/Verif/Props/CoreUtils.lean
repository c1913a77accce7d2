import Verif.Spec.CoreUtils
import Verif.Proofs.CoreUtils
/-! C55 (min, max, clamp, between), C56 (evenly_distribute), C57 (gcd, lcm). -/
namespace Verif.Props
open Verif.Spec.CInt Verif.Spec.CoreUtils Verif.Model.CInt Verif.Model.CoreUtils Verif.Proofs.CInt Verif.Proofs.CoreUtils

/-- **C55** min of any number of arguments, for every type whose `<` is a strict weak order, is one of them, and no
    argument is less -/
theorem C55_min {α : Type} (lt : α → α → Bool) (asymm : ∀ a b, lt a b = true → lt b a = false)
    (trans : ∀ a b c, lt a b = false → lt b c = false → lt a c = false) (a b : α) (l : List α) :
    minN lt a b l ∈ a :: b :: l ∧ ∀ x ∈ a :: b :: l, lt x (minN lt a b l) = false :=
  minN_spec asymm trans l a b

/-- **C55** max of any number of arguments is one of them, and it is not less than any -/
theorem C55_max {α : Type} (lt : α → α → Bool) (asymm : ∀ a b, lt a b = true → lt b a = false)
    (trans : ∀ a b c, lt a b = false → lt b c = false → lt a c = false) (a b : α) (l : List α) :
    maxN lt a b l ∈ a :: b :: l ∧ ∀ x ∈ a :: b :: l, lt (maxN lt a b l) x = false :=
  maxN_spec asymm trans l a b

/-- the order of the integers is a strict weak order; six arguments -/
example : (∀ a b : Int, decide (a < b) = true → decide (b < a) = false) ∧
    (∀ a b c : Int, decide (a < b) = false → decide (b < c) = false → decide (a < c) = false) ∧
    minN (fun a b : Int => decide (a < b)) 4 7 [-2, 9, 0, 3] = -2 ∧
    maxN (fun a b : Int => decide (a < b)) 4 7 [-2, 9, 0, 3] = 9 :=
  ⟨by simp; omega, by simp; omega, by decide, by decide⟩

/-- **C55** clamp returns the value in [lo, hi] nearest to the argument -/
theorem C55_clamp (v lo hi : Int) (h : lo ≤ hi) (r : Int) (hr : r = clamp (fun a b : Int => decide (a < b)) v lo hi) :
    lo ≤ r ∧ r ≤ hi ∧ ∀ x, lo ≤ x → x ≤ hi → (v - r).natAbs ≤ (v - x).natAbs := by
  subst hr
  unfold clamp
  simp only [decide_eq_true_eq]
  split
  · exact ⟨by omega, by omega, fun x h1 h2 => by omega⟩
  · split
    · exact ⟨by omega, by omega, fun x h1 h2 => by omega⟩
    · exact ⟨by omega, by omega, fun x h1 h2 => by omega⟩

example : clamp (fun a b : Int => decide (a < b)) 12 (-3) 7 = 7 := by decide

/-- **C55** between(v, lo, hi) says whether lo ≤ v ≤ hi as mathematical integers, whatever the types of `v` and of the
    bounds. Missing: `v` unsigned, the bounds signed with lo negative, and an unsigned common type; the code is wrong
    there (C55_between_violated). -/
theorem C55_between_partial (T U : Ty) (hT : 0 < T.bits) (hU : 0 < U.bits) (v lo hi : Int) (hv : T.Has v) (hlo : U.Has lo)
    (hhi : U.Has hi) (hok : ¬ (T.signed = false ∧ U.signed = true ∧ lo < 0 ∧ (common T U).signed = false)) :
    between T U v lo hi = decide (lo ≤ v ∧ v ≤ hi) := by
  have hb := common_bits hT hU
  obtain ⟨c1, c2⟩ := common_hi hT hU
  have hnn : ∀ t : Ty, t.signed = false → ∀ x, t.Has x → 0 ≤ x := by
    intro t ht x hx
    have := hx.1
    unfold Ty.lo at this
    simpa [ht] using this
  -- a value keeps its meaning in the common type unless it is negative and that type is unsigned
  have hcT : ∀ x, T.Has x → 0 ≤ x ∨ (common T U).signed = true → conv (common T U) x = x := by
    intro x hx h
    refine conv_has hb ?_
    rcases h with h | h
    · exact has_nonneg h (Int.le_trans hx.2 c1)
    · exact ⟨Int.le_trans (common_lo hT hU h).1 hx.1, Int.le_trans hx.2 c1⟩
  have hcU : ∀ x, U.Has x → 0 ≤ x ∨ (common T U).signed = true → conv (common T U) x = x := by
    intro x hx h
    refine conv_has hb ?_
    rcases h with h | h
    · exact has_nonneg h (Int.le_trans hx.2 c2)
    · exact ⟨Int.le_trans (common_lo hT hU h).2 hx.1, Int.le_trans hx.2 c2⟩
  -- two signed types have a signed common type
  have hss : T.signed = true → U.signed = true → (common T U).signed = true := by
    intro h1 h2
    unfold common arith promote
    dsimp only
    split
    · exact h1
    · by_cases e1 : T.bits < 32 <;> by_cases e2 : U.bits < 32 <;> simp only [e1, e2, if_true, if_false, h1, h2] <;>
        (repeat' split) <;> first | rfl | exact h1 | exact h2
  unfold between
  by_cases hTU : T = U
  · subst hTU
    rw [if_neg (by rintro ⟨h1, h2, _⟩; exact h2 h1), if_neg (by rintro ⟨h1, h2, _⟩; exact h1 h2), if_neg (by simp)]
  · cases hts : T.signed <;> cases hus : U.signed
    · have h1 := hnn T hts v hv
      have h2 := hnn U hus lo hlo
      have h3 := hnn U hus hi hhi
      rw [if_neg (by simp), if_neg (by simp), if_pos hTU]
      simp only [hcT v hv (.inl h1), hcU lo hlo (.inl h2), hcU hi hhi (.inl h3)]
    · have h1 := hnn T hts v hv
      rw [if_neg (by simp)]
      by_cases hneg : hi < 0
      · rw [if_pos (by simp [hneg])]
        have : ¬ (lo ≤ v ∧ v ≤ hi) := by omega
        simp [this]
      · rw [if_neg (by simp; omega), if_pos hTU]
        have hl : 0 ≤ lo ∨ (common T U).signed = true := by
          rcases (by omega : 0 ≤ lo ∨ lo < 0) with h | h
          · exact .inl h
          · right
            cases hc : (common T U).signed with
            | true => rfl
            | false => exact absurd ⟨hts, hus, h, hc⟩ hok
        simp only [hcT v hv (.inl h1), hcU lo hlo hl, hcU hi hhi (.inl (by omega))]
    · have h2 := hnn U hus lo hlo
      have h3 := hnn U hus hi hhi
      by_cases hneg : v < 0
      · rw [if_pos (by simp [hneg])]
        have : ¬ (lo ≤ v ∧ v ≤ hi) := by omega
        simp [this]
      · rw [if_neg (by simp; omega), if_neg (by simp), if_pos hTU]
        simp only [hcT v hv (.inl (by omega)), hcU lo hlo (.inl h2), hcU hi hhi (.inl h3)]
    · have hs := hss hts hus
      rw [if_neg (by simp), if_neg (by simp), if_pos hTU]
      simp only [hcT v hv (.inr hs), hcU lo hlo (.inr hs), hcU hi hhi (.inr hs)]

/-- a signed 8-bit value between unsigned 32-bit bounds, and an unsigned 16-bit value between 64-bit signed bounds -/
example : between ⟨8, true⟩ ⟨32, false⟩ (-1) 0 4294967295 = false ∧ between ⟨16, false⟩ ⟨64, true⟩ 5 (-1) 10 = true := by
  decide

/-- **C55 is violated**: for an unsigned value and signed bounds whose common type is unsigned, between is false whenever
    lo is negative, also when lo ≤ v ≤ hi; e.g. between(5u, -1, 10) -/
theorem C55_between_violated (T U : Ty) (hT : 0 < T.bits) (hU : 0 < U.bits) (v lo hi : Int) (hv : T.Has v)
    (hlo : U.Has lo) (hhi : U.Has hi) (ht : T.signed = false) (hu : U.signed = true) (hc : (common T U).signed = false)
    (hneg : lo < 0) : between T U v lo hi = false := by
  have hb := common_bits hT hU
  obtain ⟨c1, c2⟩ := common_hi hT hU
  have hne : T ≠ U := by rintro rfl; rw [ht] at hu; simp at hu
  unfold between
  rw [if_neg (by simp [ht])]
  by_cases h0 : hi < 0
  · rw [if_pos (by simp [ht, hu, h0])]
  · rw [if_neg (by simp; omega), if_pos hne]
    have hvn : 0 ≤ v := by
      have := hv.1
      unfold Ty.lo at this
      simpa [ht] using this
    have e1 : conv (common T U) hi = hi := conv_has hb (has_nonneg (by omega) (Int.le_trans hhi.2 c2))
    have e2 : conv (common T U) v = v := conv_has hb (has_nonneg hvn (Int.le_trans hv.2 c1))
    have hl := hlo.1
    have hh := hhi.2
    unfold Ty.lo at hl
    unfold Ty.hi at hh c2
    simp only [hu, if_true, hc, Bool.false_eq_true, if_false] at hl hh c2
    have p1 := two_pow_pred hb
    have p2 := two_pow_pos (U.bits - 1)
    have e3 : conv (common T U) lo = lo + 2 ^ (common T U).bits := conv_neg hc hneg (by omega)
    -- the common type is at least as wide as the signed one
    have hwide : (2 : Int) ^ U.bits ≤ 2 ^ (common T U).bits := by
      refine two_pow_mono ?_
      revert hc
      unfold common arith promote
      dsimp only
      rw [if_neg hne]
      by_cases e1 : T.bits < 32 <;> by_cases e2 : U.bits < 32 <;> simp only [e1, e2, if_true, if_false, ht, hu] <;>
        (repeat' split) <;> simp_all <;> omega
    have p3 := two_pow_pred hU
    simp only [e1, e2, e3, decide_eq_false_iff_not, not_and]
    omega

example : between ⟨32, false⟩ ⟨32, true⟩ 5 (-1) 10 = false ∧ (common ⟨32, false⟩ ⟨32, true⟩).signed = false := by decide

/-- **C56** The shares of all buckets sum to the total, no share is more than one larger than another, and they do not
    increase with the index; for every unsigned type, total and bucket count other than zero -/
theorem C56_evenly_distribute {w : Nat} (total count : BitVec w) (h : 0 < count.toNat) :
    ∃ share : Nat → Nat,
      (∀ i < count.toNat, ∃ r, evenlyDistribute total count (BitVec.ofNat w i) = some r ∧ r.toNat = share i) ∧
      ((List.range count.toNat).map share).sum = total.toNat ∧
      (∀ i j, i ≤ j → share j ≤ share i) ∧ (∀ i j, share i ≤ share j + 1) := by
  refine ⟨share total.toNat count.toNat, evenlyDistribute_spec total count h, share_sum _ _ h, ?_, ?_⟩
  · intro i j hij; unfold share; split <;> split <;> omega
  · intro i j; unfold share; split <;> split <;> omega

example : (List.range 3).map (fun i => evenlyDistribute 11#8 3#8 (BitVec.ofNat 8 i)) = [some 4#8, some 4#8, some 3#8] := by
  decide

/-- **C57** gcd of two or more arguments of any integer types is their greatest common divisor, if the absolute value of
    each is representable in its type (which std::gcd requires) -/
theorem C57_gcd (a b : Arg) (l : List Arg) (h : ∀ x ∈ a :: b :: l, 0 < x.1.bits ∧ (x.2.natAbs : Int) ≤ x.1.hi) :
    ∃ z, variadic stdGcd a b l = some z ∧ IsGcd ((a :: b :: l).map (·.2)) z.2 := by
  -- sign aside, a single argument is its own greatest common divisor
  have hstep := variadic_spec stdGcd (fun xs z => (∀ x ∈ xs, z.2 ∣ x.2) ∧ ∀ d : Int, (∀ x ∈ xs, d ∣ x.2) → d ∣ z.2)
    (fun x => ⟨by simp, fun d hd => hd x (by simp)⟩) Fits (by
      rintro xs ys x y hx hy ⟨qx1, qx2⟩ ⟨qy1, qy2⟩
      obtain ⟨z, hz, fz, ez⟩ := stdGcd_spec x y hx hy
      refine ⟨z, hz, fz, ?_, ?_⟩
      · intro u hu
        rw [ez]
        rcases List.mem_append.mp hu with hu | hu
        · exact Int.dvd_trans (Int.gcd_dvd_left ..) (qx1 u hu)
        · exact Int.dvd_trans (Int.gcd_dvd_right ..) (qy1 u hu)
      · intro d hd
        rw [ez]
        exact Int.dvd_coe_gcd (qx2 d (fun u hu => hd u (List.mem_append_left _ hu)))
          (qy2 d (fun u hu => hd u (List.mem_append_right _ hu))))
  obtain ⟨z, hz, fz, q1, q2⟩ := hstep l a [a] b [b] (h a (by simp)) (h b (by simp))
    (fun x hx => h x (by simp [hx])) ⟨by simp, fun d hd => hd a (by simp)⟩ ⟨by simp, fun d hd => hd b (by simp)⟩
  refine ⟨z, hz, ?_, ?_, ?_⟩
  · -- the result of std::gcd is not negative
    have hnn : ∀ x y r, stdGcd x y = some r → 0 ≤ r.2 := by
      intro x y r hr
      unfold stdGcd at hr
      dsimp only at hr
      split at hr
      · obtain rfl := Option.some.inj hr; exact Int.natCast_nonneg _
      · simp at hr
    clear q1 q2 fz h hstep
    induction l generalizing a b with
    | nil => exact hnn _ _ _ (by simpa only [variadic] using hz)
    | cons c l ih =>
      match l with
      | [] =>
        simp only [variadic] at hz
        split at hz
        · exact hnn _ _ _ hz
        · simp at hz
      | [d] =>
        simp only [variadic] at hz
        split at hz
        · exact hnn _ _ _ hz
        · simp at hz
      | d :: e :: l =>
        simp only [variadic] at hz
        split at hz
        · exact ih _ _ hz
        · simp at hz
  · intro x hx
    obtain ⟨y, hy, rfl⟩ := List.mem_map.mp hx
    exact q1 y (by simpa using hy)
  · intro d hd
    exact q2 d (fun x hx => hd _ (List.mem_map.mpr ⟨x, by simpa using hx, rfl⟩))

example : variadic stdGcd (⟨32, true⟩, -12) (⟨8, false⟩, 18) [(⟨64, true⟩, 30), (⟨16, true⟩, 42), (⟨32, false⟩, 0)] =
    some (⟨64, true⟩, 6) := by decide

/-- **C57** lcm of two or more arguments of any integer types is their least common multiple, if they are not zero and
    the result is representable in the type of every argument.
    Missing: results representable only in the common type of all arguments (C57_lcm_mixed_violated), and lists with
    a zero (C57_lcm_zero_violated). -/
theorem C57_lcm_partial (a b : Arg) (l : List Arg) (L : Int) (hL : 0 < L) (hm : ∀ x ∈ a :: b :: l, x.2 ∣ L)
    (h : ∀ x ∈ a :: b :: l, 0 < x.1.bits ∧ L ≤ x.1.hi) :
    ∃ z, variadic stdLcm a b l = some z ∧ IsLcm ((a :: b :: l).map (·.2)) z.2 := by
  have hfit : ∀ x : Arg, 0 < x.1.bits → L ≤ x.1.hi → x.2 ∣ L → Fits x := by
    intro x h1 h2 h3
    refine ⟨h1, ?_⟩
    have := Int.le_of_dvd hL (Int.natAbs_dvd.mpr h3)
    omega
  have hstep := variadic_spec stdLcm (fun xs z => (∀ x ∈ xs, x.2 ∣ z.2) ∧ ∀ m : Int, (∀ x ∈ xs, x.2 ∣ m) → z.2 ∣ m)
    (fun x => ⟨by simp, fun d hd => hd x (by simp)⟩) (fun x => Fits x ∧ L ≤ x.1.hi ∧ x.2 ∣ L) (by
      rintro xs ys x y ⟨hx, lx, dx⟩ ⟨hy, ly, dy⟩ ⟨qx1, qx2⟩ ⟨qy1, qy2⟩
      obtain ⟨z, hz, fz, lz, ez⟩ := stdLcm_spec x y hx hy L hL lx dx dy
      refine ⟨z, hz, ⟨fz, lz, by rw [ez]; exact Int.coe_lcm_dvd dx dy⟩, ?_, ?_⟩
      · intro u hu
        rw [ez]
        rcases List.mem_append.mp hu with hu | hu
        · exact Int.dvd_trans (qx1 u hu) (Int.dvd_lcm_left ..)
        · exact Int.dvd_trans (qy1 u hu) (Int.dvd_lcm_right ..)
      · intro d hd
        rw [ez]
        exact Int.coe_lcm_dvd (qx2 d (fun u hu => hd u (List.mem_append_left _ hu)))
          (qy2 d (fun u hu => hd u (List.mem_append_right _ hu))))
  have hall : ∀ x ∈ a :: b :: l, Fits x ∧ L ≤ x.1.hi ∧ x.2 ∣ L := fun x hx =>
    ⟨hfit x (h x hx).1 (h x hx).2 (hm x hx), (h x hx).2, hm x hx⟩
  obtain ⟨z, hz, fz, q1, q2⟩ := hstep l a [a] b [b] (hall a (by simp)) (hall b (by simp))
    (fun x hx => hall x (by simp [hx])) ⟨by simp, fun d hd => hd a (by simp)⟩ ⟨by simp, fun d hd => hd b (by simp)⟩
  refine ⟨z, hz, ?_, ?_, ?_⟩
  · have hnn : ∀ x y r, stdLcm x y = some r → 0 ≤ r.2 := by
      intro x y r hr
      unfold stdLcm at hr
      dsimp only at hr
      split at hr
      · obtain rfl := Option.some.inj hr; exact Int.natCast_nonneg _
      · simp at hr
    clear q1 q2 fz h hstep hm hall
    induction l generalizing a b with
    | nil => exact hnn _ _ _ (by simpa only [variadic] using hz)
    | cons c l ih =>
      match l with
      | [] =>
        simp only [variadic] at hz
        split at hz
        · exact hnn _ _ _ hz
        · simp at hz
      | [d] =>
        simp only [variadic] at hz
        split at hz
        · exact hnn _ _ _ hz
        · simp at hz
      | d :: e :: l =>
        simp only [variadic] at hz
        split at hz
        · exact ih _ _ hz
        · simp at hz
  · intro x hx
    obtain ⟨y, hy, rfl⟩ := List.mem_map.mp hx
    exact q1 y (by simpa using hy)
  · intro d hd
    exact q2 d (fun x hx => hd _ (List.mem_map.mpr ⟨x, by simpa using hx, rfl⟩))

example : variadic stdLcm (⟨32, true⟩, -4) (⟨8, false⟩, 6) [(⟨64, true⟩, 10), (⟨16, true⟩, 15)] = some (⟨64, true⟩, 60) ∧
    ∀ x ∈ [((⟨32, true⟩, -4) : Arg), (⟨8, false⟩, 6), (⟨64, true⟩, 10), (⟨16, true⟩, 15)], x.2 ∣ 60 ∧ 60 ≤ x.1.hi := by
  decide

/-- **C57 is violated**: lcm(a, b, 0) is 0, but the code first computes lcm(a, b), which overflows for large a and b -/
theorem C57_lcm_zero_violated (a b c : Arg) (h : (common a.1 b.1).hi < Int.lcm a.2 b.2) (hc : c.2 = 0) :
    variadic stdLcm a b [c] = none ∧ IsLcm ([a, b, c].map (·.2)) 0 := by
  constructor
  · simp only [variadic, stdLcm]
    rw [if_neg (by omega)]
  · refine ⟨Int.le_refl _, fun _ _ => Int.dvd_zero _, fun m hm => ?_⟩
    exact hc ▸ hm c.2 (by simp)

/-- a million and a million and one, as int -/
example : (common ⟨32, true⟩ ⟨32, true⟩).hi < Int.lcm 1000000 1000001 := by decide

/-- **C57 is violated**: with arguments of different types the least common multiple of the first two must be
    representable in *their* common type, although the result type is the common type of all: lcm(int, int, long long) -/
theorem C57_lcm_mixed_violated : variadic stdLcm (⟨32, true⟩, 1000000) (⟨32, true⟩, 1000001) [(⟨64, true⟩, 1)] = none ∧
    IsLcm [1000000, 1000001, 1] 1000001000000 ∧ (⟨64, true⟩ : Ty).Has 1000001000000 := by
  refine ⟨by decide, ⟨by decide, by decide, fun m hm => ?_⟩, by decide⟩
  have h1 := hm 1000000 (by simp)
  have h2 := hm 1000001 (by simp)
  have := Int.coe_lcm_dvd h1 h2
  have e : Int.lcm 1000000 1000001 = 1000001000000 := by decide
  rwa [e] at this

end Verif.Props
