import Verif.Model.FixedString
import Verif.Spec.FixedString
import Verif.Proofs.CInt
namespace Verif.Proofs.FixedString
open Verif.Spec.CInt Verif.Spec.FixedString Verif.Model.CInt Verif.Model.CoreUtils Verif.Model.FixedString Verif.Proofs.CInt

/-- a proper object: `text` followed by the null character -/
def Holds (s : Str) (text : List Nat) : Prop := s.len = text.length ∧ s.chars = text ++ [0]

theorem holds_view {s : Str} {t : List Nat} (h : Holds s t) : s.view = t := by
  unfold Str.view; rw [h.2, h.1]; simp

theorem zeros_holds (L : Nat) : Holds (zeros L) (List.replicate L 0) := by
  refine ⟨by simp [zeros], ?_⟩
  simp only [zeros]
  rw [List.replicate_succ']

theorem ofIndices_holds (L n : Nat) (get : Nat → Nat) (h : n ≤ L) :
    Holds (ofIndices L n get) ((List.range n).map get ++ List.replicate (L - n) 0) := by
  refine ⟨by simp [ofIndices]; omega, ?_⟩
  simp only [ofIndices]
  rw [List.append_assoc, ← List.replicate_succ', show L + 1 - n = L - n + 1 by omega]

theorem range_map_getD (l : List Nat) (n : Nat) (h : n ≤ l.length) : (List.range n).map (fun i => l.getD i 0) = l.take n := by
  apply List.ext_getElem
  · simp; omega
  · intro i h1 h2
    simp at h1
    simp [List.getD_eq_getElem?_getD, List.getElem?_eq_getElem (show i < l.length by omega)]

theorem convert_holds {s : Str} {t : List Nat} (h : Holds s t) (L : Nat) :
    Holds (convert L s) (t.take L ++ List.replicate (L - t.length) 0) := by
  unfold convert
  split
  · rename_i hc
    have := ofIndices_holds L (min L s.len) (fun i => s.chars.getD i 0) (by omega)
    rw [range_map_getD _ _ (by rw [h.2, h.1]; simp; omega)] at this
    rw [h.2, h.1] at this
    have e1 : (t ++ [0]).take (min L t.length) = t.take L := by
      rw [List.take_append_of_le_length (by omega)]
      rcases Nat.le_total L t.length with h' | h'
      · rw [Nat.min_eq_left h']
      · rw [Nat.min_eq_right h', List.take_length, List.take_of_length_le h']
    rw [e1, show L - min L t.length = L - t.length by omega] at this
    rw [h.2, h.1]; exact this
  · rename_i hc
    rw [h.1] at hc
    have : t.take L ++ List.replicate (L - t.length) 0 = List.replicate L 0 := by
      rcases (by omega : t.length = 0 ∨ L = 0) with h' | h'
      · have := List.length_eq_zero_iff.mp h'; subst this; simp
      · subst h'; simp
    rw [this]; exact zeros_holds L

theorem set_holds {s : Str} {a b : List Nat} {x c : Nat} (h : Holds s (a ++ x :: b)) {i : Nat} (hi : i = a.length) :
    ∃ r, s.set i c = some r ∧ Holds r (a ++ c :: b) := by
  subst hi
  refine ⟨⟨s.len, s.chars.set a.length c⟩, ?_, ?_, ?_⟩
  · unfold Str.set
    rw [if_pos (by rw [h.1]; simp)]
  · simp only [h.1]; simp
  · simp only [h.2]
    rw [List.append_assoc, List.set_append_right _ _ (Nat.le_refl _)]
    simp

theorem copyLoop_holds {rhs : Str} {t : List Nat} (hr : Holds rhs t) :
    ∀ (rest done : List Nat) (result : Str) (a old tail : List Nat), t = done ++ rest → old.length = rest.length →
      Holds result (a ++ done ++ old ++ tail) →
      ∃ r, copyLoop result a.length rhs done.length rest.length = some r ∧ Holds r (a ++ t ++ tail) := by
  intro rest
  induction rest with
  | nil =>
    intro done result a old tail ht ho hres
    have : old = [] := List.length_eq_zero_iff.mp ho
    subst this
    simp only [List.append_nil] at ht hres
    subst ht
    exact ⟨result, rfl, hres⟩
  | cons x rest ih =>
    intro done result a old tail ht ho hres
    obtain ⟨o, old, rfl⟩ : ∃ o old', old = o :: old' := by
      cases old with
      | nil => simp at ho
      | cons o old => exact ⟨o, old, rfl⟩
    have hget : rhs.chars.getD done.length 0 = x := by
      rw [hr.2, ht, List.getD_eq_getElem?_getD]; simp
    obtain ⟨r, hset, hh⟩ := set_holds (s := result) (a := a ++ done) (b := old ++ tail) (x := o) (c := x)
      (by simpa using hres) (i := a.length + done.length) (by simp)
    obtain ⟨r', h1, h2⟩ := ih (done ++ [x]) r a old tail (by simp [ht]) (by simpa using ho) (by simpa using hh)
    refine ⟨r', ?_, h2⟩
    rw [List.length_cons, copyLoop, if_pos (by rw [hr.1, ht]; simp), hget, hset]
    simpa using h1

theorem fill_holds (L c : Nat) : Holds (fill L c) (List.replicate L c) := by
  have := ofIndices_holds L L (fun _ => c) (Nat.le_refl _)
  simp only [Nat.sub_self, List.replicate_zero, List.append_nil] at this
  have e : (List.range L).map (fun _ => c) = List.replicate L c := by
    apply List.ext_getElem <;> simp
  rw [e] at this
  exact this

theorem concat_holds {a b : Str} {s t : List Nat} (ha : Holds a s) (hb : Holds b t) :
    ∃ r, concat a b = some r ∧ Holds r (s ++ t) := by
  unfold concat
  rw [ha.1, hb.1]
  by_cases h1 : s.length = 0
  · have hs := List.length_eq_zero_iff.mp h1
    by_cases h2 : t.length = 0
    · have ht := List.length_eq_zero_iff.mp h2
      rw [if_pos ⟨h1, h2⟩]
      subst hs ht
      exact ⟨_, rfl, zeros_holds 0⟩
    · rw [if_neg (by omega), if_neg h2, if_pos h1]
      subst hs
      exact ⟨_, rfl, by simpa using hb⟩
  · by_cases h2 : t.length = 0
    · have ht := List.length_eq_zero_iff.mp h2
      rw [if_neg (by omega), if_pos h2]
      subst ht
      exact ⟨_, rfl, by simpa using ha⟩
    · rw [if_neg (by omega), if_neg h2, if_neg h1]
      have hc := convert_holds ha (s.length + t.length)
      rw [List.take_of_length_le (by omega), show s.length + t.length - s.length = t.length by omega] at hc
      obtain ⟨r, h1, h2⟩ := copyLoop_holds hb t [] (convert (s.length + t.length) a) s (List.replicate t.length 0) []
        (by simp) (by simp) (by simpa using hc)
      refine ⟨r, ?_, by simpa using h2⟩
      simpa using h1

theorem append_holds {a : Str} {s : List Nat} (ha : Holds a s) (c : Nat) :
    ∃ r, appendChar a c = some r ∧ Holds r (s ++ [c]) := by
  have hc := convert_holds ha (s.length + 1)
  rw [List.take_of_length_le (by omega), show s.length + 1 - s.length = 1 by omega] at hc
  unfold appendChar
  rw [ha.1]
  exact set_holds (by simpa using hc) rfl

theorem prepend_holds {a : Str} {s : List Nat} (ha : Holds a s) (c : Nat) :
    ∃ r, prependChar c a = some r ∧ Holds r (c :: s) := by
  unfold prependChar
  have hf := fill_holds (s.length + 1) c
  rw [ha.1]
  split
  · obtain ⟨r, h1, h2⟩ := copyLoop_holds ha s [] (fill (s.length + 1) c) [c] (List.replicate s.length c) []
      (by simp) (by simp) (by simpa [List.replicate_succ] using hf)
    exact ⟨r, by simpa using h1, by simpa using h2⟩
  · have : s = [] := List.length_eq_zero_iff.mp (by omega)
    subst this
    exact ⟨_, rfl, by simpa using hf⟩

theorem substrImpl_holds {s : Str} {t : List Nat} (h : Holds s t) (start len : Nat) :
    Holds (substrImpl s start len) ((t.drop start).take len) := by
  unfold substrImpl
  rw [h.1]
  by_cases h1 : t.length = 0 ∨ len = 0 ∨ start ≥ t.length
  · rw [if_pos h1]
    have : (t.drop start).take len = [] := by
      rcases h1 with h1 | h1 | h1
      · have := List.length_eq_zero_iff.mp h1; subst this; simp
      · subst h1; simp
      · rw [List.drop_eq_nil_of_le h1]; simp
    rw [this]; exact zeros_holds 0
  · rw [if_neg h1]
    have hmin : ∀ a b : Nat, min2 (fun a b : Nat => decide (a < b)) a b = min a b := by
      intro a b; unfold min2; simp only [decide_eq_true_eq]; split <;> omega
    simp only [hmin]
    have hn : min (start + min t.length len) t.length - start = min len (t.length - start) := by omega
    rw [hn]
    rw [if_neg (by omega)]
    by_cases h0 : start = 0
    · rw [if_pos h0]
      subst h0
      have hc := convert_holds h (min len (t.length - 0))
      rw [show min len (t.length - 0) - t.length = 0 by omega] at hc
      simp only [List.replicate_zero, List.append_nil, Nat.sub_zero] at hc
      simp only [List.drop_zero, Nat.sub_zero]
      rcases Nat.le_total len t.length with h' | h'
      · rw [Nat.min_eq_left h'] at hc ⊢; exact hc
      · rw [Nat.min_eq_right h'] at hc ⊢
        rw [List.take_of_length_le h']
        rw [List.take_length] at hc; exact hc
    · rw [if_neg h0]
      unfold ofPtr
      rw [if_pos ⟨by omega, by omega⟩, Nat.min_self]
      have hi := ofIndices_holds (min len (t.length - start)) (min len (t.length - start))
        (fun i => (s.chars.drop start).getD i 0) (Nat.le_refl _)
      rw [range_map_getD _ _ (by rw [h.2]; simp; omega), Nat.sub_self] at hi
      simp only [List.replicate_zero, List.append_nil] at hi
      have e : (s.chars.drop start).take (min len (t.length - start)) = (t.drop start).take len := by
        rw [h.2, List.drop_append_of_le_length (by omega), List.take_append_of_le_length (by simp; omega)]
        rcases Nat.le_total len (t.length - start) with h' | h'
        · rw [Nat.min_eq_left h']
        · rw [Nat.min_eq_right h', List.take_of_length_le (by simp), List.take_of_length_le (by simp; omega)]
      rw [e] at hi
      exact hi

theorem sliceImpl_holds {s : Str} {t : List Nat} (h : Holds s t) (i j : Nat) :
    Holds (sliceImpl s i j) (segment t i j) := by
  unfold sliceImpl segment
  by_cases hc : j ≤ i
  · rw [if_pos hc, List.drop_eq_nil_of_le (by simp; omega)]
    exact zeros_holds 0
  · rw [if_neg hc, List.drop_take]
    exact substrImpl_holds h i (j - i)

theorem clampIndex_spec (n : Nat) (t : Ty) (hb : t.bits ≤ 64) (idx : Int) (hi : t.Has idx)
    (hlow : t.signed = true → idx = t.lo → (n : Int) ≤ 2 ^ (t.bits - 1)) : clampIndex n t idx = position n idx := by
  have p1 : (2 : Int) ^ t.bits ≤ 2 ^ 64 := two_pow_mono hb
  have p2 : (2 : Int) ^ (t.bits - 1) ≤ 2 ^ 63 := two_pow_mono (by omega)
  obtain ⟨h1, h2⟩ := hi
  have hconv : ∀ x : Int, 0 ≤ x → x < 2 ^ 64 → conv ⟨64, false⟩ x = x := by
    intro x a b
    exact conv_has (by decide) (by unfold Ty.Has Ty.lo Ty.hi; simp only [Bool.false_eq_true, if_false]; omega)
  unfold clampIndex position
  by_cases h0 : n = 0
  · subst h0
    rw [if_pos rfl]
    split <;> omega
  rw [if_neg h0]
  by_cases hneg : idx < 0
  · have hs : t.signed = true := by
      cases hs : t.signed with
      | true => rfl
      | false => unfold Ty.lo at h1; rw [hs] at h1; simp at h1; omega
    rw [if_pos ⟨hs, hneg⟩, if_pos hneg]
    by_cases hl : idx = t.lo
    · rw [if_pos hl]
      have := hlow hs hl
      unfold Ty.lo at hl
      rw [hs] at hl
      simp only [if_true] at hl
      omega
    · rw [if_neg hl]
      unfold Ty.lo at h1
      rw [hs] at h1
      simp only [if_true] at h1
      rw [hconv (-idx) (by omega) (by omega)]
      simp only
      split <;> omega
  · rw [if_neg (by rintro ⟨_, h⟩; exact hneg h), if_neg hneg]
    have : idx < 2 ^ 64 := by
      unfold Ty.hi at h2
      split at h2 <;> omega
    rw [hconv idx (by omega) this]
    unfold clamp
    simp only [decide_eq_true_eq]
    rw [if_neg (by omega)]
    split <;> omega

/-- the traits comparison of `n` characters -/
theorem traitsCompare_spec : ∀ (n : Nat) (a b : List Nat), n ≤ a.length → n ≤ b.length →
    (traitsCompare a b n = 0 ∧ a.take n = b.take n) ∨
    (∃ p x y a' b', a = p ++ x :: a' ∧ b = p ++ y :: b' ∧ p.length < n ∧
      ((x < y ∧ traitsCompare a b n = -1) ∨ (y < x ∧ traitsCompare a b n = 1))) := by
  intro n
  induction n with
  | zero => intro a b _ _; left; simp [traitsCompare]
  | succ n ih =>
    intro a b ha hb
    cases a with
    | nil => simp at ha
    | cons x a =>
      cases b with
      | nil => simp at hb
      | cons y b =>
        simp only [traitsCompare]
        by_cases h1 : x < y
        · right; exact ⟨[], x, y, a, b, rfl, rfl, by simp, Or.inl ⟨h1, by simp [h1]⟩⟩
        · by_cases h2 : y < x
          · right; exact ⟨[], x, y, a, b, rfl, rfl, by simp, Or.inr ⟨h2, by simp [h1, h2]⟩⟩
          · have : x = y := by omega
            subst this
            simp only [h1, if_false]
            rcases ih a b (by simpa using ha) (by simpa using hb) with ⟨h3, h4⟩ | ⟨p, u, v, a', b', e1, e2, e3, h⟩
            · left; exact ⟨h3, by simp [h4]⟩
            · right
              exact ⟨x :: p, u, v, a', b', by simp [e1], by simp [e2], by simp; omega, h⟩

theorem before_irrefl (a : List Nat) : ¬ Before a a := by
  rintro ⟨p, ⟨x, y, a', b', h1, h2, h3⟩ | ⟨y, b', h1, h2⟩⟩
  · rw [h1] at h2
    have := List.append_cancel_left h2
    simp at this
    omega
  · rw [h1] at h2
    have := congrArg List.length h2
    simp at this

end Verif.Proofs.FixedString

namespace Verif.Proofs.FixedString
open Verif.Spec.FixedString

theorem before_cons (x : Nat) (a b : List Nat) : Before (x :: a) (x :: b) ↔ Before a b := by
  constructor
  · rintro ⟨p, ⟨u, v, a', b', h1, h2, h3⟩ | ⟨v, b', h1, h2⟩⟩
    · cases p with
      | nil => simp at h1 h2; omega
      | cons z p =>
        simp only [List.cons_append, List.cons.injEq] at h1 h2
        exact ⟨p, Or.inl ⟨u, v, a', b', h1.2, h2.2, h3⟩⟩
    · subst h1
      simp only [List.cons_append, List.cons.injEq, true_and] at h2
      exact ⟨a, Or.inr ⟨v, b', rfl, h2⟩⟩
  · rintro ⟨p, ⟨u, v, a', b', h1, h2, h3⟩ | ⟨v, b', h1, h2⟩⟩
    · exact ⟨x :: p, Or.inl ⟨u, v, a', b', by simp [h1], by simp [h2], h3⟩⟩
    · exact ⟨x :: p, Or.inr ⟨v, b', by simp [h1], by simp [h2]⟩⟩

theorem before_head {x y : Nat} {a b : List Nat} (h : Before (x :: a) (y :: b)) (hne : x ≠ y) : x < y := by
  obtain ⟨p, ⟨u, v, a', b', h1, h2, h3⟩ | ⟨v, b', h1, h2⟩⟩ := h
  · cases p with
    | nil => simp at h1 h2; omega
    | cons z p =>
      simp only [List.cons_append, List.cons.injEq] at h1 h2
      omega
  · subst h1
    simp only [List.cons_append, List.cons.injEq] at h2
    omega

theorem before_asymm (a b : List Nat) (h : Before a b) : a ≠ b ∧ ¬ Before b a := by
  refine ⟨fun e => ?_, ?_⟩
  · subst e; exact before_irrefl a h
  · induction a generalizing b with
    | nil =>
      intro h'
      obtain ⟨p, ⟨u, v, a', b', h1, h2, h3⟩ | ⟨v, b', h1, h2⟩⟩ := h' <;> simp at h2
    | cons x a ih =>
      intro h'
      cases b with
      | nil => obtain ⟨p, ⟨u, v, a', b', h1, h2, h3⟩ | ⟨v, b', h1, h2⟩⟩ := h <;> simp at h2
      | cons y b =>
        by_cases hxy : x = y
        · subst hxy
          exact ih b ((before_cons x a b).mp h) ((before_cons x b a).mp h')
        · have h1 := before_head h hxy
          have h2 := before_head h' (Ne.symm hxy)
          omega

end Verif.Proofs.FixedString
