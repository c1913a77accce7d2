import Verif.Proofs.Accumulator
/-! C45 (accumulator). -/
namespace Verif.Props
open Verif.Spec.CInt Verif.Model.CInt Verif.Model.CoreUtils Verif.Model.Accumulator Verif.Proofs.CInt Verif.Proofs.CoreUtils
open Verif.Proofs.Accumulator

/-- adding samples one by one: any number of them, in any order with a strict weak `<`; `S p s`: `s` is a right sum of `p` -/
theorem accumulate {α σ : Type} (o : Ops α σ) (asymm : ∀ a b, o.lt a b = true → o.lt b a = false)
    (trans : ∀ a b c, o.lt a b = false → o.lt b c = false → o.lt a c = false) (S : List α → σ → Prop) (xs : List α)
    (hlen : xs.length < 2 ^ 64) (hzero : S [] o.zeroSum) (hfirst : ∀ x, xs.head? = some x → S [x] (o.toSum x))
    (hnext : ∀ p x, p ≠ [] → (p ++ [x]) <+: xs → ∀ s, S p s → ∃ s', o.addSample s x = some s' ∧ S (p ++ [x]) s') :
    ∃ a, (empty o).addAll o xs = some a ∧ State o xs (S xs) a := by
  have key : ∀ n ≤ xs.length, ∃ a, (empty o).addAll o (xs.take n) = some a ∧ State o (xs.take n) (S (xs.take n)) a := by
    intro n
    induction n with
    | zero =>
      intro _
      exact ⟨empty o, rfl, rfl, fun _ => rfl, by simp, hzero⟩
    | succ n ih =>
      intro hn
      obtain ⟨a, h1, h2⟩ := ih (by omega)
      have hn' : n < xs.length := by omega
      have hsplit : xs.take (n + 1) = xs.take n ++ [xs[n]] := by rw [List.take_succ_eq_append_getElem hn']
      rw [hsplit]
      rw [addAll_snoc, h1]
      refine add_spec o asymm trans h2 _ (by simp; omega) ?_ ?_
      · intro he
        have hn0 : n = 0 := by
          have := congrArg List.length he
          simp at this
          rcases this with h | h
          · exact h
          · rw [h] at hn'; simp at hn'
        subst hn0
        rw [List.take_zero, List.nil_append]
        exact hfirst _ (by rw [List.head?_eq_getElem?, List.getElem?_eq_getElem hn'])
      · intro he
        exact hnext _ _ he (by rw [← hsplit]; exact List.take_prefix _ _)
  have := key xs.length (Nat.le_refl _)
  rwa [List.take_length] at this

/-- **C45** After adding any sequence of samples to an empty accumulator the number of samples is right, and the minimum
    and maximum are a sample than which no other is less, or greater; for every type with a strict weak `<` (integers,
    finite floating-point numbers) and every way to sum which does not fail. -/
theorem C45_min_max {α σ : Type} (o : Ops α σ) (asymm : ∀ a b, o.lt a b = true → o.lt b a = false)
    (trans : ∀ a b c, o.lt a b = false → o.lt b c = false → o.lt a c = false)
    (hsum : ∀ s x, ∃ s', o.addSample s x = some s') (xs : List α) (hlen : xs.length < 2 ^ 64) :
    ∃ a, (empty o).addAll o xs = some a ∧ a.count.toNat = xs.length ∧ (xs = [] → a.impl.min = o.zero ∧ a.impl.max = o.zero) ∧
      (xs ≠ [] → (a.impl.min ∈ xs ∧ ∀ x ∈ xs, o.lt x a.impl.min = false) ∧
        (a.impl.max ∈ xs ∧ ∀ x ∈ xs, o.lt a.impl.max x = false)) := by
  obtain ⟨a, h1, h2, h3, h4, _⟩ := accumulate o asymm trans (fun _ _ => True) xs hlen trivial (fun _ _ => trivial)
    (fun _ x _ _ s _ => by obtain ⟨s', h⟩ := hsum s x; exact ⟨s', h, trivial⟩)
  refine ⟨a, h1, h2, fun he => ?_, fun he => ?_⟩
  · rw [h3 he]; exact ⟨rfl, rfl⟩
  · obtain ⟨e1, e2, e3, e4⟩ := h4 he
    exact ⟨⟨e1, e2⟩, e3, e4⟩

/-- **C45** After adding any sequence of integer samples the accumulator reports their number, minimum, maximum and sum.
    The sum is computed in a type of at least 32 bits; for unsigned types modulo its size, for signed types if no
    partial sum overflows. -/
theorem C45_samples (t : Ty) (ht : 0 < t.bits) (xs : List Int) (hx : ∀ x ∈ xs, t.Has x) (hlen : xs.length < 2 ^ 64)
    (hsum : t.signed = true → ∀ p, p <+: xs → (sumTy t).Has p.sum) :
    ∃ a, (empty (intOps t)).addAll (intOps t) xs = some a ∧ a.count.toNat = xs.length ∧
      (xs = [] → a.impl.min = 0 ∧ a.impl.max = 0) ∧
      (xs ≠ [] → (a.impl.min ∈ xs ∧ ∀ x ∈ xs, a.impl.min ≤ x) ∧ (a.impl.max ∈ xs ∧ ∀ x ∈ xs, x ≤ a.impl.max)) ∧
      (t.signed = true → a.impl.sum = xs.sum) ∧
      (t.signed = false → a.impl.sum = xs.sum % 2 ^ (sumTy t).bits) ∧ 32 ≤ (sumTy t).bits := by
  obtain ⟨k1, k2, k3⟩ := sumTy_spec t ht
  have hhas : ∀ p x, (p ++ [x]) <+: xs → t.Has x := by
    intro p x hp
    exact hx x (hp.subset (by simp))
  obtain ⟨a, h1, h2, h3, h4, h5⟩ := accumulate (intOps t) (by simp [intOps]; omega) (by simp [intOps]; omega)
    (fun p s => s = conv (sumTy t) p.sum) xs hlen (by simp [intOps, conv]; intro h1 h2; exact absurd h2 (by have := two_pow_pos ((sumTy t).bits - 1); omega))
    (fun x _ => by simp [intOps]) (by
      intro p x hp hpre s hs
      subst hs
      refine ⟨conv (sumTy t) (p ++ [x]).sum, ?_, rfl⟩
      have := plus_spec (sumTy t) k2 p.sum x (fun hsig => by
        rw [k1] at hsig
        refine ⟨?_, ?_⟩
        · have := hsum hsig _ hpre
          simpa using this
        · exact hsum hsig p ((List.prefix_append _ _).trans hpre)) (k3 x (hhas p x hpre))
      simp only [intOps, this]
      simp)
  refine ⟨a, h1, h2, fun he => ?_, fun he => ?_, ?_, ?_, ?_⟩
  · rw [h3 he]; exact ⟨rfl, rfl⟩
  · obtain ⟨e1, e2, e3, e4⟩ := h4 he
    refine ⟨⟨e1, fun x hx => ?_⟩, e3, fun x hx => ?_⟩
    · have := e2 x hx; simp [intOps] at this; omega
    · have := e4 x hx; simp [intOps] at this; omega
  · intro hs
    rw [h5]
    exact conv_has k2 (hsum hs xs (List.prefix_refl _))
  · intro hs
    rw [h5, conv_mod _ (by rw [k1]; exact hs)]
  · obtain ⟨n, s⟩ := t
    unfold sumTy arith promote
    by_cases hn : n < 32 <;> cases s <;> simp [hn] <;> (try split) <;> (try simp) <;> omega

/-- three signed 8-bit samples, whose sum needs more than 8 bits -/
example : ∃ a, (empty (intOps ⟨8, true⟩)).addAll (intOps ⟨8, true⟩) [100, -3, 127] = some a ∧ a.impl.min = -3 ∧
    a.impl.max = 127 ∧ a.impl.sum = 224 ∧ a.count = 3#64 := ⟨_, rfl, by decide, by decide, by decide, by decide⟩

/-- **C45 is violated**: adding an accumulator with samples to one which already has samples throws these away: the
    result is a copy of the added accumulator, and reports too few samples -/
theorem C45_merge_violated {α σ : Type} (o : Ops α σ) (xs ys : List α) (hx : xs ≠ []) (hy : ys ≠ [])
    (hlen : xs.length + ys.length < 2 ^ 64) (a b : Acc α σ) (ha : (empty o).addAll o xs = some a)
    (hb : (empty o).addAll o ys = some b) :
    a.merge o b = some b ∧ b.count.toNat ≠ xs.length + ys.length := by
  -- the number of samples is right whatever the samples are
  have hcount : ∀ (zs : List α) (a c : Acc α σ), a.addAll o zs = some c → a.count.toNat + zs.length < 2 ^ 64 →
      c.count.toNat = a.count.toNat + zs.length := by
    intro zs
    induction zs with
    | nil => intro a c h _; simp only [Acc.addAll, Option.some.injEq] at h; subst h; simp
    | cons z zs ih =>
      intro a c h hl
      simp only [Acc.addAll] at h
      split at h
      · simp at h
      · rename_i d hd
        have hdc : d.count = a.count + 1#64 := by
          unfold Acc.add at hd
          split at hd
          · obtain rfl := Option.some.inj hd; rfl
          · split at hd
            · simp at hd
            · obtain rfl := Option.some.inj hd; rfl
        have hdn : d.count.toNat = a.count.toNat + 1 := by
          simp only [List.length_cons] at hl
          rw [hdc, BitVec.toNat_add]; simp; omega
        have := ih d c h (by simp only [List.length_cons] at hl; omega)
        simp only [List.length_cons]; omega
  have hxl : 0 < xs.length := List.length_pos_iff.mpr hx
  have hyl : 0 < ys.length := List.length_pos_iff.mpr hy
  have e0 : (empty o).count.toNat = 0 := rfl
  have ca := hcount xs _ a ha (by omega)
  have cb := hcount ys _ b hb (by omega)
  have na : a.count ≠ 0#64 := by intro e; rw [e] at ca; simp at ca; omega
  have nb : b.count ≠ 0#64 := by intro e; rw [e] at cb; simp at cb; omega
  refine ⟨?_, by omega⟩
  unfold Acc.merge
  rw [if_pos nb, if_neg na]

/-- **C45 is violated** too when adding to an empty accumulator: the zeros of the empty one take part, so that the
    minimum of samples which are all positive, and the maximum of samples which are all negative, is 0 -/
theorem C45_merge_empty_violated (t : Ty) (ht : 0 < t.bits) (ys : List Int) (hy : ys ≠ []) (hys : ∀ y ∈ ys, t.Has y)
    (hlen : ys.length < 2 ^ 64) (hsum : t.signed = true → ∀ p, p <+: ys → (sumTy t).Has p.sum) (b : Acc Int Int)
    (hb : (empty (intOps t)).addAll (intOps t) ys = some b) :
    ∃ c, (empty (intOps t)).merge (intOps t) b = some c ∧ c.count = b.count ∧ c.impl.sum = b.impl.sum ∧
      ((∀ y ∈ ys, 0 < y) → c.impl.min = 0 ∧ c.impl.min ∉ ys) ∧ ((∀ y ∈ ys, y < 0) → c.impl.max = 0 ∧ c.impl.max ∉ ys) ∧
      ((∃ y ∈ ys, y ≤ 0) → c.impl.min = b.impl.min) ∧ ((∃ y ∈ ys, 0 ≤ y) → c.impl.max = b.impl.max) := by
  obtain ⟨b', h1, h2, h3, h4, h5, h6, _⟩ := C45_samples t ht ys hys hlen hsum
  rw [hb] at h1
  obtain rfl := Option.some.inj h1
  obtain ⟨⟨m1, m2⟩, M1, M2⟩ := h4 hy
  obtain ⟨k1, k2, k3⟩ := sumTy_spec t ht
  have nb : ¬ b.count = 0#64 := by
    intro e; rw [e] at h2
    have : ys.length = 0 := by simpa using h2.symm
    exact hy (List.eq_nil_of_length_eq_zero this)
  have hp : plus (sumTy t) 0 b.impl.sum = some b.impl.sum := by
    unfold plus
    rw [Int.zero_add]
    cases hs : t.signed with
    | true =>
      have hh : (sumTy t).Has b.impl.sum := by rw [h5 hs]; exact hsum hs ys (List.prefix_refl _)
      rw [if_neg (by simp [hh]), conv_has k2 hh]
    | false =>
      rw [if_neg (by simp [k1, hs]), conv_mod _ (by rw [k1]; exact hs), h6 hs, Int.emod_emod_of_dvd _ (Int.dvd_refl _)]
  refine ⟨⟨⟨min2 (intOps t).lt b.impl.min 0, max2 (intOps t).lt b.impl.max 0, b.impl.sum⟩, 0#64 + b.count⟩, ?_, by simp, rfl, ?_, ?_, ?_, ?_⟩
  · unfold Acc.merge
    rw [if_pos nb, if_pos (by rfl)]
    simp only [Impl.merge, empty, show (intOps t).addSum = plus (sumTy t) from rfl, show (intOps t).zeroSum = 0 from rfl,
      show (intOps t).zero = 0 from rfl, hp]
  · intro h
    have := h _ m1
    simp only [min2, intOps, decide_eq_true_eq]
    rw [if_neg (by omega)]
    exact ⟨rfl, fun hm => by have := h 0 hm; omega⟩
  · intro h
    have := h _ M1
    simp only [max2, intOps, decide_eq_true_eq]
    rw [if_pos (by omega)]
    exact ⟨rfl, fun hm => by have := h 0 hm; omega⟩
  · rintro ⟨y, hy, hy0⟩
    have := m2 y hy
    simp only [min2, intOps, decide_eq_true_eq]
    split <;> omega
  · rintro ⟨y, hy, hy0⟩
    have := M2 y hy
    simp only [max2, intOps, decide_eq_true_eq]
    split <;> omega

/-- all samples positive -/
example : ∃ b c, (empty (intOps ⟨32, true⟩)).addAll (intOps ⟨32, true⟩) [5, 7] = some b ∧
    (empty (intOps ⟨32, true⟩)).merge (intOps ⟨32, true⟩) b = some c ∧ c.impl.min = 0 ∧ b.impl.min = 5 :=
  ⟨_, _, rfl, rfl, by decide, by decide⟩

/-- **C45** Adding an accumulator without samples changes nothing; adding one whose samples are on both sides of 0 (or
    include it) to an empty accumulator makes them equal.
    Missing: all other cases, in which the code is wrong. -/
theorem C45_merge_partial (t : Ty) (ht : 0 < t.bits) (ys : List Int) (hys : ∀ y ∈ ys, t.Has y) (hlen : ys.length < 2 ^ 64)
    (hsum : t.signed = true → ∀ p, p <+: ys → (sumTy t).Has p.sum) (b : Acc Int Int)
    (hb : (empty (intOps t)).addAll (intOps t) ys = some b) :
    (∀ a : Acc Int Int, a.merge (intOps t) (empty (intOps t)) = some a) ∧
    ((∃ y ∈ ys, y ≤ 0) → (∃ y ∈ ys, 0 ≤ y) → (empty (intOps t)).merge (intOps t) b = some b) := by
  refine ⟨fun a => by unfold Acc.merge; rw [if_neg (by simp [empty])], fun h1 h2 => ?_⟩
  have hne : ys ≠ [] := by rintro rfl; obtain ⟨y, hy, _⟩ := h1; simp at hy
  obtain ⟨c, g1, g2, g3, _, _, g4, g5⟩ := C45_merge_empty_violated t ht ys hne hys hlen hsum b hb
  rw [g1]
  obtain ⟨⟨cm, cM, cs⟩, cc⟩ := c
  simp only at g2 g3 g4 g5
  rw [g2, g3, g4 h1, g5 h2]

end Verif.Props
