import Verif.Model.VectorEq
import Verif.Proofs.VectorStore
import Verif.Proofs.CInt
import Verif.Proofs.Float

/-! # Lemmas on equality of numbers of different types -/

namespace Verif.Proofs.VectorEq

open Verif.Spec.CInt Verif.Spec.Parts Verif.Model.VectorStore Verif.Model.VectorEq Verif.Proofs.VectorStore

theorem same_iff (x y : Num) : same x y = true ↔ x.Same y := by
  cases x <;> cases y <;> simp [same, Num.Same]

theorem cast_has {k : Kind} (hk : match k with | .int t => 0 < t.bits | .float p => 1 ≤ p) {x : Num} (h : k.Has x) : convertTo k x = x := by
  cases k with
  | int t =>
    cases x with
    | fin q =>
      obtain ⟨i, hi, rfl⟩ := h
      simp only [convertTo, Rat.num_intCast, Rat.den_intCast]
      simp [CInt.conv_has hk hi]
    | inf => rfl
    | nan => rfl
  | float p =>
    cases x with
    | fin q =>
      obtain ⟨m, k, hm, rfl⟩ := h
      simp only [convertTo]
      rw [Proofs.Float.rnd_exact p hk m k hm]
    | inf => rfl
    | nan => rfl

/-- A conversion takes equal numbers to equal numbers. -/
theorem cast_same (k : Kind) {x y : Num} (h : x.Same y) : (convertTo k x).Same (convertTo k y) := by
  cases x <;> cases y <;> simp_all [Num.Same] <;> cases k <;> simp [convertTo]

theorem float_mono {p q : ℕ} (h : p ≤ q) {x : Num} (hx : (Kind.float p).Has x) : (Kind.float q).Has x := by
  cases x with
  | fin r =>
    obtain ⟨m, k, hm, hr⟩ := hx
    exact ⟨m, k, hm.trans (pow_le_pow_right₀ (by norm_num) h), hr⟩
  | inf => trivial
  | nan => trivial

theorem highestRanked_comm (a b : Kind) : highestRanked a b = highestRanked b a := by
  unfold highestRanked
  by_cases h : a = b
  · subst h; rfl
  · rw [if_neg h, if_neg (Ne.symm h)]
    cases a with
    | int s =>
      cases b with
      | int t =>
        simp only [or_comm]
        have : Model.CInt.arith s t = Model.CInt.arith t s := by
          unfold Model.CInt.arith
          generalize Model.CInt.promote s = s
          generalize Model.CInt.promote t = t
          obtain ⟨sb, ss⟩ := s
          obtain ⟨tb, ts⟩ := t
          cases ss <;> cases ts <;> simp <;> split_ifs <;> simp <;> omega
        rw [this]
      | float p => rfl
    | float p =>
      cases b with
      | int t => rfl
      | float q => simp [max_comm]

theorem equalityType_comm (a b : Kind) : equalityType a b = equalityType b a := by
  unfold equalityType
  rw [highestRanked_comm a b]
  simp only [ne_comm]

theorem same_comm (x y : Num) : same x y = same y x := by
  rw [Bool.eq_iff_iff, same_iff, same_iff]
  cases x <;> cases y <;> simp [Num.Same, eq_comm]

theorem sameAs_comm (a b : Kind) (x y : Num) : sameAs a b x y = sameAs b a y x := by
  unfold sameAs
  by_cases h : a = b
  · subst h; simp [same_comm]
  · rw [if_neg h, if_neg (Ne.symm h), equalityType_comm a b, same_comm]

theorem zipWith_comm' {α β : Type} (f : α → β → Bool) (g : β → α → Bool) (h : ∀ x y, f x y = g y x) (l : List α) (m : List β) :
    List.zipWith f l m = List.zipWith g m l := by
  induction l generalizing m with
  | nil => simp
  | cons x l ih => cases m with
    | nil => simp
    | cons y m => simp [h, ih]

/-- All pairs of components satisfy a test. -/
theorem all_iff {n : ℕ} (f : Num → Num → Bool) (v w : Store Num n) :
    all f v w = true ↔ ∀ p ∈ (parts v).zip (parts w), f p.1 p.2 = true := by
  rw [all_parts, List.all_eq_true, List.zip]
  simp only [id]
  constructor
  · intro h p hp
    apply h
    rw [List.mem_iff_getElem] at hp ⊢
    obtain ⟨i, hi, rfl⟩ := hp
    exact ⟨i, by simpa using hi, by simp⟩
  · intro h b hb
    rw [List.mem_iff_getElem] at hb
    obtain ⟨i, hi, rfl⟩ := hb
    have := h ((List.zipWith Prod.mk (parts v) (parts w))[i]'(by simpa using hi)) (List.getElem_mem _)
    simpa using this

end Verif.Proofs.VectorEq
