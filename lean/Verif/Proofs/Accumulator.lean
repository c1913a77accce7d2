import Verif.Model.Accumulator
import Verif.Proofs.CoreUtils
/-! Lemmas about the model of accumulator. -/
namespace Verif.Proofs.Accumulator
open Verif.Spec.CInt Verif.Model.CInt Verif.Model.CoreUtils Verif.Model.Accumulator Verif.Proofs.CInt Verif.Proofs.CoreUtils

variable {α σ : Type} (o : Ops α σ)

/-- `m` is the least and `M` the greatest of the samples -/
def Ext (xs : List α) (m M : α) : Prop :=
  m ∈ xs ∧ (∀ x ∈ xs, o.lt x m = false) ∧ M ∈ xs ∧ ∀ x ∈ xs, o.lt M x = false

theorem ext_snoc (asymm : ∀ a b, o.lt a b = true → o.lt b a = false)
    (trans : ∀ a b c, o.lt a b = false → o.lt b c = false → o.lt a c = false) {xs : List α} {m M : α} (h : Ext o xs m M) (x : α) :
    Ext o (xs ++ [x]) (min2 o.lt x m) (max2 o.lt x M) := by
  obtain ⟨h1, h2, h3, h4⟩ := h
  obtain ⟨a1, a2, a3⟩ := min2_spec (lt := o.lt) asymm x m
  obtain ⟨b1, b2, b3⟩ := max2_spec (lt := o.lt) asymm x M
  refine ⟨?_, ?_, ?_, ?_⟩
  · rcases a1 with e | e <;> rw [e] <;> simp [h1]
  · intro y hy
    rcases List.mem_append.mp hy with hy | hy
    · exact trans _ _ _ (h2 y hy) a3
    · simp only [List.mem_singleton] at hy; subst hy; exact a2
  · rcases b1 with e | e <;> rw [e] <;> simp [h3]
  · intro y hy
    rcases List.mem_append.mp hy with hy | hy
    · exact trans _ _ _ b3 (h4 y hy)
    · simp only [List.mem_singleton] at hy; subst hy; exact b2

/-- the state after the samples `xs` -/
def State (xs : List α) (S : σ → Prop) (a : Acc α σ) : Prop :=
  a.count.toNat = xs.length ∧ (xs = [] → a = empty o) ∧ (xs ≠ [] → Ext o xs a.impl.min a.impl.max) ∧ S a.impl.sum

theorem add_spec (asymm : ∀ a b, o.lt a b = true → o.lt b a = false)
    (trans : ∀ a b c, o.lt a b = false → o.lt b c = false → o.lt a c = false) {xs : List α} {S S' : σ → Prop} {a : Acc α σ}
    (h : State o xs S a) (x : α) (hn : xs.length + 1 < 2 ^ 64)
    (h0 : xs = [] → S' (o.toSum x)) (h1 : xs ≠ [] → ∀ s, S s → ∃ s', o.addSample s x = some s' ∧ S' s') :
    ∃ b, a.add o x = some b ∧ State o (xs ++ [x]) S' b := by
  obtain ⟨c1, c2, c3, c4⟩ := h
  have hcnt : (a.count + 1#64).toNat = (xs ++ [x]).length := by
    rw [BitVec.toNat_add, c1]; simp; omega
  unfold Acc.add
  by_cases he : xs = []
  · subst he
    have : a.count = 0#64 := BitVec.eq_of_toNat_eq (by simpa using c1)
    rw [if_pos this]
    refine ⟨_, rfl, hcnt, by simp, fun _ => ?_, h0 rfl⟩
    have hirr := irrefl' (lt := o.lt) asymm x
    exact ⟨by simp [Impl.start], by simp [Impl.start, hirr], by simp [Impl.start], by simp [Impl.start, hirr]⟩
  · have hne : ¬ a.count = 0#64 := by
      intro e; rw [e] at c1
      have : xs.length = 0 := by simpa using c1.symm
      exact he (List.eq_nil_of_length_eq_zero this)
    obtain ⟨s', g1, g2⟩ := h1 he _ c4
    rw [if_neg hne]
    simp only [Impl.add, g1]
    exact ⟨_, rfl, hcnt, by simp, fun _ => ext_snoc o asymm trans (c3 he) x, g2⟩

/-- the type of sums is as signed as the type of samples, and holds them -/
theorem sumTy_spec (t : Ty) (h : 0 < t.bits) :
    (sumTy t).signed = t.signed ∧ 0 < (sumTy t).bits ∧ ∀ x, t.Has x → (sumTy t).Has x := by
  obtain ⟨n, s⟩ := t
  simp only at h
  by_cases hn : n < 32
  · have : sumTy ⟨n, s⟩ = ⟨32, s⟩ := by
      unfold sumTy arith promote
      cases s <;> simp [hn]
    rw [this]
    refine ⟨rfl, (by decide : 0 < 32), fun x hx => ?_⟩
    obtain ⟨h1, h2⟩ := hx
    unfold Ty.lo at h1
    unfold Ty.hi at h2
    have m1 : (2 : Int) ^ n ≤ 2 ^ 31 := two_pow_mono (by omega)
    have m2 : (2 : Int) ^ (n - 1) ≤ 2 ^ 31 := two_pow_mono (by omega)
    unfold Ty.Has Ty.lo Ty.hi
    cases s <;> simp only [Bool.false_eq_true, if_false, if_true] at * <;> omega
  · have : sumTy ⟨n, s⟩ = ⟨n, s⟩ := by
      unfold sumTy arith promote
      cases s <;> simp [hn] <;> omega
    rw [this]
    exact ⟨rfl, h, fun _ hx => hx⟩

theorem conv_mod (t : Ty) (hs : t.signed = false) (x : Int) : conv t x = x % 2 ^ t.bits := by
  unfold conv; simp [hs]

theorem plus_spec (t : Ty) (hb : 0 < t.bits) (a x : Int) (hsig : t.signed = true → t.Has (a + x) ∧ t.Has a) (hx : t.Has x) :
    plus t (conv t a) (conv t x) = some (conv t (a + x)) := by
  unfold plus
  rw [conv_has hb hx]
  cases hs : t.signed with
  | true =>
    obtain ⟨h1, h2⟩ := hsig hs
    rw [conv_has hb h2, if_neg (by simp [h1])]
  | false =>
    rw [if_neg (by simp), conv_mod t hs, conv_mod t hs, conv_mod t hs, Int.emod_add_emod]

theorem addAll_snoc (a : Acc α σ) (l : List α) (x : α) :
    a.addAll o (l ++ [x]) = match a.addAll o l with
      | none => none
      | some b => b.add o x := by
  induction l generalizing a with
  | nil =>
    simp only [List.nil_append, Acc.addAll]
    cases a.add o x <;> rfl
  | cons y l ih =>
    simp only [List.cons_append, Acc.addAll]
    cases a.add o y with
    | none => rfl
    | some b => exact ih b

end Verif.Proofs.Accumulator
