import Verif.Proofs.FixedString
/-! C49 (fixed_string contents), C50 (fixed_string comparison). -/
namespace Verif.Props
open Verif.Spec.CInt Verif.Spec.FixedString Verif.Model.CInt Verif.Model.FixedString Verif.Proofs.FixedString

/-- the object holds `text`: its view is `text`, its length is that of `text`, and the character array is `text` with a
    null character behind it -/
def HoldsText (s : Str) (text : List Nat) : Prop :=
  s.view = text ∧ s.len = text.length ∧ s.chars.length = text.length + 1 ∧ s.chars[text.length]? = some 0

theorem holdsText_iff (s : Str) (t : List Nat) : HoldsText s t ↔ Holds s t := by
  constructor
  · rintro ⟨h1, h2, h3, h4⟩
    refine ⟨h2, ?_⟩
    unfold Str.view at h1
    rw [h2] at h1
    rw [← List.take_append_drop t.length s.chars, h1]
    congr 1
    rw [List.drop_eq_getElem_cons (by omega), List.drop_eq_nil_of_le (by omega)]
    rw [List.getElem?_eq_getElem (by omega)] at h4
    simpa using h4
  · intro h
    exact ⟨holds_view h, h.1, by rw [h.2]; simp, by rw [h.2]; simp⟩

/-- **C49** Every way to make a fixed_string gives a null-terminated string of the right text: from an array or view (cut
    or padded with nulls to the length), by filling, by copying to another length, and by concatenation -/
theorem C49_construct (L : Nat) (arr : List Nat) (c : Nat) (a b : Str) (s t : List Nat) (ha : HoldsText a s) (hb : HoldsText b t) :
    HoldsText (ofArray L arr) (arr.take L ++ List.replicate (L - arr.length) 0) ∧
    HoldsText (ofView L arr) (arr.take L ++ List.replicate (L - arr.length) 0) ∧
    HoldsText (fill L c) (List.replicate L c) ∧
    HoldsText (convert L a) (s.take L ++ List.replicate (L - s.length) 0) ∧
    (∃ r, concat a b = some r ∧ HoldsText r (s ++ t)) ∧
    (∃ r, appendChar a c = some r ∧ HoldsText r (s ++ [c])) ∧
    (∃ r, prependChar c a = some r ∧ HoldsText r (c :: s)) := by
  simp only [holdsText_iff] at ha hb ⊢
  refine ⟨?_, ?_, fill_holds L c, convert_holds ha L, concat_holds ha hb, append_holds ha c, prepend_holds ha c⟩
  · unfold ofArray
    split
    · have := ofIndices_holds L (min L arr.length) (fun i => arr.getD i 0) (by omega)
      rw [range_map_getD _ _ (by omega)] at this
      have e1 : arr.take (min L arr.length) = arr.take L := by
        rcases Nat.le_total L arr.length with h' | h'
        · rw [Nat.min_eq_left h']
        · rw [Nat.min_eq_right h', List.take_length, List.take_of_length_le h']
      rw [e1, show L - min L arr.length = L - arr.length by omega] at this
      exact this
    · rename_i hc
      have : arr.take L ++ List.replicate (L - arr.length) 0 = List.replicate L 0 := by
        rcases (by omega : arr.length = 0 ∨ L = 0) with h' | h'
        · have := List.length_eq_zero_iff.mp h'; subst this; simp
        · subst h'; simp
      rw [this]; exact zeros_holds L
  · unfold ofView
    split
    · have := ofIndices_holds L L (fun i => if i < arr.length then arr.getD i 0 else 0) (Nat.le_refl _)
      rw [Nat.sub_self] at this
      have e : (List.range L).map (fun i => if i < arr.length then arr.getD i 0 else 0) ++ List.replicate 0 0 =
          arr.take L ++ List.replicate (L - arr.length) 0 := by
        apply List.ext_getElem
        · simp; omega
        · intro i h1 h2
          simp only [List.replicate_zero, List.append_nil, List.length_map, List.length_range] at h1
          by_cases hi : i < arr.length
          · rw [List.getElem_append_left (by simpa using h1), List.getElem_append_left (by simp; omega)]
            simp [hi, List.getD_eq_getElem?_getD]
          · rw [List.getElem_append_left (by simpa using h1), List.getElem_append_right (by simp; omega)]
            simp [hi]
      rw [e] at this
      exact this
    · rename_i hc
      have h0 : L = 0 := by omega
      subst h0
      simpa using zeros_holds 0

example : HoldsText ⟨2, [104, 105, 0]⟩ [104, 105] ∧ (concat ⟨2, [104, 105, 0]⟩ ⟨1, [33, 0]⟩) = some ⟨3, [104, 105, 33, 0]⟩ :=
  ⟨⟨rfl, rfl, rfl, rfl⟩, by decide⟩

/-- **C49** substr and slice give the characters between the positions their indices mean (negative ones count from the
    end, out-of-range ones are the nearest end), for every index of every integer type of up to 64 bits, in a
    null-terminated string. Missing: the least value of a signed type narrow enough for the string to be longer than
    its absolute value (C49_lowest_violated). -/
theorem C49_substrings_partial (a : Str) (s : List Nat) (ha : HoldsText a s) (T U : Ty) (hT : T.bits ≤ 64) (hU : U.bits ≤ 64)
    (i j : Int) (hi : T.Has i) (hj : U.Has j) (len : Nat)
    (hlow : T.signed = true → i = T.lo → (s.length : Int) ≤ 2 ^ (T.bits - 1))
    (hlow' : U.signed = true → j = U.lo → (s.length : Int) ≤ 2 ^ (U.bits - 1)) :
    HoldsText (substr a T i len) (segment s (position s.length i) (position s.length i + len)) ∧
    HoldsText (slice a T i U j) (segment s (position s.length i) (position s.length j)) := by
  rw [holdsText_iff] at ha
  simp only [holdsText_iff]
  unfold substr slice
  rw [ha.1, clampIndex_spec _ T hT i hi hlow, clampIndex_spec _ U hU j hj hlow']
  refine ⟨?_, sliceImpl_holds ha _ _⟩
  have := substrImpl_holds ha (position s.length i) len
  unfold segment
  rw [List.drop_take, Nat.add_sub_cancel_left]
  exact this

example : slice ⟨5, [104, 101, 108, 108, 111, 0]⟩ ⟨32, true⟩ (-4) ⟨8, true⟩ (-1) = ⟨3, [101, 108, 108, 0]⟩ ∧
    (⟨32, true⟩ : Ty).Has (-4) := by decide

/-- **C49** the seam: cutting a concatenation where it was made gives the operands back -/
theorem C49_seam (a b : Str) (s t : List Nat) (ha : HoldsText a s) (hb : HoldsText b t) (hn : s.length < 2 ^ 63) :
    ∃ r, concat a b = some r ∧ (substr r ⟨64, false⟩ s.length (2 ^ 64 - 1)).view = t.take (2 ^ 64 - 1) ∧
      (slice r ⟨64, false⟩ 0 ⟨64, false⟩ s.length).view = s := by
  obtain ⟨_, _, _, _, ⟨r, hr, hrt⟩, _, _⟩ := C49_construct 0 [] 0 a b s t ha hb
  have hu : (⟨64, false⟩ : Ty).Has (s.length : Int) := by
    unfold Ty.Has Ty.lo Ty.hi; simp only [Bool.false_eq_true, if_false]; omega
  refine ⟨r, hr, ?_, ?_⟩
  · have h := (C49_substrings_partial r (s ++ t) hrt ⟨64, false⟩ ⟨64, false⟩ (by decide) (by decide) s.length 0 hu (by decide)
      (2 ^ 64 - 1) (by simp) (by simp)).1.1
    rw [h]
    unfold segment position
    rw [if_neg (by omega)]
    simp only [List.length_append, Int.toNat_natCast]
    rw [Nat.min_eq_right (by omega), List.drop_take]
    rw [List.drop_append_of_le_length (Nat.le_refl _), List.drop_length, List.nil_append]
    rw [Nat.add_sub_cancel_left]
  · have h := (C49_substrings_partial r (s ++ t) hrt ⟨64, false⟩ ⟨64, false⟩ (by decide) (by decide) 0 s.length (by decide) hu
      0 (by simp) (by simp)).2.1
    rw [h]
    unfold segment position
    rw [if_neg (by omega), if_neg (by omega)]
    simp only [List.length_append, Int.toNat_natCast]
    rw [Nat.min_eq_right (by omega)]
    simp

example : HoldsText ⟨2, [104, 105, 0]⟩ [104, 105] ∧ HoldsText ⟨1, [33, 0]⟩ [33] := ⟨⟨rfl, rfl, rfl, rfl⟩, ⟨rfl, rfl, rfl, rfl⟩⟩

/-- **C49 is violated**: the least value of a signed index type means position 0 in every string, also in one longer than
    its absolute value, e.g. int8_t{-128} in a string of 200 characters (which should be position 72) -/
theorem C49_lowest_violated (a : Str) (s : List Nat) (ha : HoldsText a s) (T : Ty) (hs : T.signed = true) (len : Nat) (hl : 0 < len)
    (hlong : 2 ^ (T.bits - 1) < s.length) (c d : Nat) (hc : s[0]? = some c)
    (hd : s[s.length - 2 ^ (T.bits - 1)]? = some d) (hcd : c ≠ d) :
    (substr a T T.lo len).view ≠ segment s (position s.length T.lo) (position s.length T.lo + len) := by
  have hlo : T.lo = -((2 ^ (T.bits - 1) : Nat) : Int) := by unfold Ty.lo; rw [hs]; simp
  have hpos := Nat.two_pow_pos (T.bits - 1)
  rw [holdsText_iff] at ha
  have e1 : substr a T T.lo len = substrImpl a 0 len := by
    unfold substr clampIndex
    rw [ha.1, if_neg (by omega), if_pos ⟨hs, by rw [hlo]; omega⟩, if_pos rfl]
  have e2 := holds_view (substrImpl_holds ha 0 len)
  rw [e1, e2]
  unfold segment position
  rw [if_pos (by rw [hlo]; omega), hlo, show ((s.length : Int) + -((2 ^ (T.bits - 1) : Nat) : Int)).toNat = s.length - 2 ^ (T.bits - 1) by omega,
    List.drop_take, Nat.add_sub_cancel_left]
  intro h
  have h0 := congrArg (fun l => l[0]?) h
  simp only [List.drop_zero] at h0
  rw [List.getElem?_take_of_lt hl, List.getElem?_take_of_lt hl, hc, List.getElem?_drop, Nat.add_zero, hd] at h0
  exact hcd (Option.some.inj h0)

/-- int4 (to keep the example small): index -8 in a string of ten characters -/
example : HoldsText ⟨10, [97, 98, 99, 100, 101, 102, 103, 104, 105, 106, 0]⟩ [97, 98, 99, 100, 101, 102, 103, 104, 105, 106] ∧
    substr ⟨10, [97, 98, 99, 100, 101, 102, 103, 104, 105, 106, 0]⟩ ⟨4, true⟩ (-8) 1 = ⟨1, [97, 0]⟩ ∧ position 10 (-8) = 2 :=
  ⟨⟨rfl, rfl, rfl, rfl⟩, by decide, by decide⟩

/-- int8_t{-128} in a string of 72 `a` and 128 `b` -/
example : (List.replicate 72 97 ++ List.replicate 128 98)[0]? = some 97 ∧ (List.replicate 72 97 ++ List.replicate 128 98)[72]? = some 98 ∧
    position 200 (-128) = 72 := ⟨rfl, rfl, rfl⟩

/-- **C50** Comparing two different objects: compare is negative, zero or positive as the one comes before, is equal to or
    comes after the other in lexicographic order of the (unsigned) code units, and == agrees.
    Missing: an object compared with itself (C50_self_violated), and the operators of C++20 (C50_cpp20_violated). -/
theorem C50_compare_partial (a b : Str) (s t : List Nat) (ha : HoldsText a s) (hb : HoldsText b t) :
    (compare false a b < 0 ↔ Before s t) ∧ (compare false a b = 0 ↔ s = t) ∧ (compare false a b > 0 ↔ Before t s) ∧
    (less17 false a b = true ↔ Before s t) ∧ (eq false a b = true ↔ s = t) ∧ (eq true a a = true) := by
  rw [holdsText_iff] at ha hb
  -- equality
  have heqLoop : ∀ n i, (eqLoop a b i n = true ↔ ∀ k, i ≤ k → k < i + n → a.chars.getD k 0 = b.chars.getD k 0) := by
    intro n
    induction n with
    | zero => intro i; simp only [eqLoop, true_iff]; intro k h1 h2; omega
    | succ n ih =>
      intro i
      rw [eqLoop]
      by_cases h : a.chars.getD i 0 = b.chars.getD i 0
      · rw [if_neg (by simpa using h), ih]
        constructor
        · intro hh k h1 h2
          rcases (by omega : k = i ∨ i + 1 ≤ k) with rfl | h3
          · exact h
          · exact hh k h3 (by omega)
        · intro hh k h1 h2; exact hh k (by omega) (by omega)
      · rw [if_pos h]
        simp only [Bool.false_eq_true, false_iff]
        intro hh; exact h (hh i (Nat.le_refl _) (by omega))
  have heq : eq false a b = true ↔ s = t := by
    unfold Verif.Model.FixedString.eq
    rw [ha.1, hb.1]
    by_cases hl : s.length = t.length
    · by_cases h0 : s.length > 0
      · rw [if_pos ⟨hl, h0⟩]
        simp only [Bool.false_eq_true, if_false]
        rw [heqLoop]
        constructor
        · intro h
          apply List.ext_getElem hl
          intro i h1 h2
          have := h i (Nat.zero_le _) (by omega)
          rw [ha.2, hb.2, List.getD_eq_getElem?_getD, List.getD_eq_getElem?_getD, List.getElem?_append_left h1, List.getElem?_append_left h2,
            List.getElem?_eq_getElem h1, List.getElem?_eq_getElem h2] at this
          simpa using this
        · rintro rfl k _ _
          rw [ha.2, hb.2]
      · rw [if_neg (by rintro ⟨_, h⟩; exact h0 h)]
        have h1 : s = [] := List.length_eq_zero_iff.mp (by omega)
        have h2 : t = [] := List.length_eq_zero_iff.mp (by omega)
        subst h1 h2; simp
    · rw [if_neg (by rintro ⟨h, _⟩; exact hl h)]
      simp only [decide_eq_true_eq]
      constructor
      · intro h; exact absurd h hl
      · rintro rfl; exact absurd rfl hl
  -- the order
  have prefix_of : ∀ p x a' (l : List Nat), l ++ [0] = p ++ x :: a' → p.length < l.length → ∃ a'', l = p ++ x :: a'' := by
    intro p x a' l h hp
    have := List.take_append_drop (p.length + 1) (l ++ [0])
    refine ⟨(l.drop (p.length + 1)), ?_⟩
    have e : l.take (p.length + 1) = p ++ [x] := by
      have := congrArg (List.take (p.length + 1)) h
      rw [List.take_append_of_le_length (by omega)] at this
      rw [this]
      rw [List.take_append, List.take_of_length_le (by omega)]
      simp
    rw [← List.take_append_drop (p.length + 1) l, e]; simp
  have main : (compare false a b < 0 ∧ Before s t ∧ s ≠ t ∧ ¬ Before t s) ∨ (compare false a b = 0 ∧ s = t) ∨
      (compare false a b > 0 ∧ Before t s ∧ s ≠ t ∧ ¬ Before s t) := by
    have asym : ∀ u v, Before u v → u ≠ v ∧ ¬ Before v u := before_asymm
    have wrap : (compare false a b < 0 ∧ Before s t) ∨ (compare false a b = 0 ∧ s = t) ∨ (compare false a b > 0 ∧ Before t s) := by
      unfold Verif.Model.FixedString.compare
      rw [ha.1, hb.1, ha.2, hb.2]
      have hmin : Model.CoreUtils.min2 (fun a b : Nat => decide (a < b)) s.length t.length = min s.length t.length := by
        unfold Model.CoreUtils.min2; simp only [decide_eq_true_eq]; split <;> omega
      by_cases hs : s.length = 0
      · rw [if_neg (by omega)]
        have h1 : s = [] := List.length_eq_zero_iff.mp hs
        by_cases ht : t.length = 0
        · have h2 : t = [] := List.length_eq_zero_iff.mp ht
          rw [if_pos (by omega)]; right; left; exact ⟨rfl, by rw [h1, h2]⟩
        · rw [if_neg (by omega), if_pos hs]
          left
          refine ⟨by decide, [], Or.inr ?_⟩
          cases t with
          | nil => simp at ht
          | cons y t => exact ⟨y, t, h1, rfl⟩
      · by_cases ht : t.length = 0
        · have h2 : t = [] := List.length_eq_zero_iff.mp ht
          rw [if_neg (by omega), if_neg (by omega), if_neg hs]
          right; right
          refine ⟨by decide, [], Or.inr ?_⟩
          cases s with
          | nil => simp at hs
          | cons y s => exact ⟨y, s, h2, rfl⟩
        · rw [if_pos ⟨hs, ht⟩]
          by_cases hl : s.length = t.length
          · rw [if_pos hl]
            simp only [Bool.false_eq_true, if_false]
            rcases traitsCompare_spec s.length (s ++ [0]) (t ++ [0]) (by simp) (by simp; omega) with ⟨h1, h2⟩ | ⟨p, x, y, a', b', e1, e2, e3, h⟩
            · right; left
              refine ⟨h1, ?_⟩
              rw [List.take_left, hl, List.take_left] at h2; exact h2
            · obtain ⟨s', hs'⟩ := prefix_of p x a' s e1 e3
              obtain ⟨t', ht'⟩ := prefix_of p y b' t e2 (by omega)
              rcases h with ⟨h1, h2⟩ | ⟨h1, h2⟩
              · left; exact ⟨by rw [h2]; decide, p, Or.inl ⟨x, y, s', t', hs', ht', h1⟩⟩
              · right; right; exact ⟨by rw [h2]; decide, p, Or.inl ⟨y, x, t', s', ht', hs', h1⟩⟩
          · rw [if_neg hl]
            simp only [hmin]
            rcases traitsCompare_spec (min s.length t.length) (s ++ [0]) (t ++ [0]) (by simp; omega) (by simp; omega) with ⟨h1, h2⟩ | ⟨p, x, y, a', b', e1, e2, e3, h⟩
            · rw [if_pos h1]
              rcases (by omega : s.length < t.length ∨ t.length < s.length) with h3 | h3
              · rw [if_pos h3]
                left
                rw [Nat.min_eq_left (by omega), List.take_left, List.take_append_of_le_length (by omega)] at h2
                refine ⟨by decide, s, Or.inr ⟨t[s.length], t.drop (s.length + 1), rfl, ?_⟩⟩
                rw [← List.drop_eq_getElem_cons h3]
                conv => rhs; lhs; rw [h2]
                exact (List.take_append_drop _ _).symm
              · rw [if_neg (by omega)]
                right; right
                rw [Nat.min_eq_right (by omega), List.take_left, List.take_append_of_le_length (by omega)] at h2
                refine ⟨by decide, t, Or.inr ⟨s[t.length], s.drop (t.length + 1), rfl, ?_⟩⟩
                rw [← List.drop_eq_getElem_cons h3]
                conv => rhs; lhs; rw [← h2]
                exact (List.take_append_drop _ _).symm
            · obtain ⟨s', hs'⟩ := prefix_of p x a' s e1 (by omega)
              obtain ⟨t', ht'⟩ := prefix_of p y b' t e2 (by omega)
              rcases h with ⟨h1, h2⟩ | ⟨h1, h2⟩
              · rw [h2, if_neg (by decide)]
                left; exact ⟨by decide, p, Or.inl ⟨x, y, s', t', hs', ht', h1⟩⟩
              · rw [h2, if_neg (by decide)]
                right; right; exact ⟨by decide, p, Or.inl ⟨y, x, t', s', ht', hs', h1⟩⟩
    rcases wrap with ⟨h1, h2⟩ | h | ⟨h1, h2⟩
    · exact Or.inl ⟨h1, h2, (asym _ _ h2).1, (asym _ _ h2).2⟩
    · exact Or.inr (Or.inl h)
    · exact Or.inr (Or.inr ⟨h1, h2, fun h => (asym _ _ h2).1 h.symm, (asym _ _ h2).2⟩)
  have self : eq true a a = true := by
    unfold Verif.Model.FixedString.eq
    split
    · simp
    · simp
  unfold less17
  rw [decide_eq_true_eq]
  generalize compare false a b = r at main ⊢
  rcases main with ⟨h1, h2, h3, h4⟩ | ⟨h1, h2⟩ | ⟨h1, h2, h3, h4⟩
  · exact ⟨⟨fun _ => h2, fun _ => h1⟩, ⟨fun h => by omega, fun h => absurd h h3⟩, ⟨fun h => by omega, fun h => absurd h h4⟩,
      ⟨fun _ => h2, fun _ => h1⟩, heq, self⟩
  · subst h2
    have hn := before_irrefl s
    exact ⟨⟨fun h => by omega, fun h => absurd h hn⟩, ⟨fun _ => rfl, fun _ => h1⟩, ⟨fun h => by omega, fun h => absurd h hn⟩,
      ⟨fun h => by omega, fun h => absurd h hn⟩, heq, self⟩
  · exact ⟨⟨fun h => by omega, fun h => absurd h h4⟩, ⟨fun h => by omega, fun h => absurd h h3⟩, ⟨fun _ => h2, fun _ => h1⟩,
      ⟨fun h => by omega, fun h => absurd h h4⟩, heq, self⟩

example : compare false ⟨2, [104, 105, 0]⟩ ⟨3, [104, 105, 33, 0]⟩ = -1 ∧ compare false ⟨1, [200, 0]⟩ ⟨1, [97, 0]⟩ = 1 := by decide

/-- **C50 is violated**: a non-empty string compared with itself, as the same object, is greater -/
theorem C50_self_violated (a : Str) (s : List Nat) (ha : HoldsText a s) (h : s ≠ []) :
    compare true a a > 0 ∧ eq true a a = true := by
  have hl : a.len ≠ 0 := by rw [ha.2.1]; exact fun h0 => h (List.length_eq_zero_iff.mp h0)
  unfold Verif.Model.FixedString.compare Verif.Model.FixedString.eq
  rw [if_pos ⟨hl, hl⟩, if_pos rfl, if_pos rfl, if_pos ⟨rfl, by omega⟩]
  exact ⟨by decide, rfl⟩

example : HoldsText ⟨2, [104, 105, 0]⟩ [104, 105] := ⟨rfl, rfl, rfl, rfl⟩

/-- **C50 is violated** in C++20 (signed char): for two strings of the same length whose first difference is between a
    code unit below 128 and one above, `<` is the opposite of compare -/
theorem C50_cpp20_violated (p a' b' : List Nat) (x y : Nat) (hx : x < 128) (hy : 128 ≤ y) (hy' : y < 256)
    (hl : a'.length = b'.length) (a b : Str) (ha : HoldsText a (p ++ x :: a')) (hb : HoldsText b (p ++ y :: b')) :
    compare false a b < 0 ∧ less20 false a b = false ∧ less20 false b a = true := by
  refine ⟨(C50_compare_partial a b _ _ ha hb).1.mpr ⟨p, Or.inl ⟨x, y, a', b', rfl, rfl, by omega⟩⟩, ?_⟩
  rw [holdsText_iff] at ha hb
  have hp : ∀ (p u v : List Nat), spaceship (p ++ u) (p ++ v) = spaceship u v := by
    intro p u v
    induction p with
    | nil => rfl
    | cons z p ih => simp [spaceship, ih]
  have hsx : signedChar x = x := by unfold signedChar; rw [if_neg (by omega)]
  have hsy : signedChar y < 0 := by unfold signedChar; rw [if_pos hy]; omega
  unfold less20
  have e : a.len = b.len := by rw [ha.1, hb.1]; simp [hl]
  rw [if_pos e, if_pos e.symm, ha.2, hb.2, List.append_assoc, List.append_assoc, hp, hp]
  simp only [List.cons_append, spaceship]
  rw [if_neg (by omega), if_pos (by omega), if_pos (by omega)]
  decide

/-- **C50 is violated** in C++20: `<` on strings of char is not transitive -/
theorem C50_cpp20_cycle_violated :
    ∃ a b c : Str, HoldsText a [128] ∧ HoldsText b [97] ∧ HoldsText c [97, 98] ∧
      less20 false a b = true ∧ less20 false b c = true ∧ less20 false c a = true :=
  ⟨⟨1, [128, 0]⟩, ⟨1, [97, 0]⟩, ⟨2, [97, 98, 0]⟩, ⟨rfl, rfl, rfl, rfl⟩, ⟨rfl, rfl, rfl, rfl⟩, ⟨rfl, rfl, rfl, rfl⟩,
    by decide, by decide, by decide⟩

end Verif.Props
