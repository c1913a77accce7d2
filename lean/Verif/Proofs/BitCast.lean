import Verif.Model.BitCast
import Mathlib.Tactic.Common
import Mathlib.Tactic.Ring
import Mathlib.Tactic.Linarith
import Mathlib.Tactic.Positivity
import Mathlib.Tactic.SplitIfs
import Mathlib.Tactic.ByContra
/-! # Lemmas about bit casts -/
namespace Verif.Proofs.BitCast
open Verif.Model.BitCast Verif.Spec.ObjectBits

theorem encode_bits (t : Ty) (z : ℤ) : Bits (8 * t.bytes) z (encode t z) := by
  have hp : (0 : ℤ) < (2 ^ (8 * t.bytes) : ℕ) := by positivity
  have h0 := Int.emod_nonneg z hp.ne'
  have h1 := Int.emod_lt_of_pos z hp
  refine ⟨?_, z / (2 ^ (8 * t.bytes) : ℕ), ?_⟩
  · have : ((encode t z : ℕ) : ℤ) < (2 ^ (8 * t.bytes) : ℕ) := by
      unfold encode
      rwa [Int.toNat_of_nonneg h0]
    exact_mod_cast this
  · unfold encode
    rw [Int.toNat_of_nonneg h0]
    have := Int.emod_add_mul_ediv z (2 ^ (8 * t.bytes) : ℕ)
    push_cast at *
    linarith [mul_comm ((2 : ℤ) ^ (8 * t.bytes)) (z / 2 ^ (8 * t.bytes))]

theorem bits_unique (b : ℕ) (z : ℤ) (n m : ℕ) (hn : Bits b z n) (hm : Bits b z m) : n = m := by
  obtain ⟨h1, k, e1⟩ := hn
  obtain ⟨h2, l, e2⟩ := hm
  have hp : (0 : ℤ) < 2 ^ b := by positivity
  have h1' : (n : ℤ) < 2 ^ b := by exact_mod_cast h1
  have h2' : (m : ℤ) < 2 ^ b := by exact_mod_cast h2
  have e : (n : ℤ) - m = (l - k) * 2 ^ b := by rw [sub_mul]; linarith
  have hk : l - k = 0 := by
    by_contra hne
    rcases lt_or_gt_of_ne hne with h | h
    · nlinarith
    · nlinarith
  rw [hk] at e
  omega

theorem static_is_memcpy (to' from' : Ty) (z : ℤ) (hs : to'.bytes = from'.bytes) (hb : to'.kind = .bool → z = 0 ∨ z = 1) (h0 : 0 < to'.bytes)
    (ho : to'.kind ≠ .other) : staticCast to' z = memcpy to' from' z := by
  have hp : (0 : ℤ) < (2 ^ (8 * from'.bytes) : ℕ) := by positivity
  have h0' := Int.emod_nonneg z hp.ne'
  have hn : ((encode from' z : ℕ) : ℤ) = z % (2 ^ (8 * from'.bytes) : ℕ) := Int.toNat_of_nonneg h0'
  unfold staticCast memcpy decode
  rw [hs]
  rcases hk : to'.kind with _ | s | _
  · have h2 : (2 : ℤ) ≤ (2 ^ (8 * from'.bytes) : ℕ) := by
      have : 2 ^ 1 ≤ 2 ^ (8 * from'.bytes) := Nat.pow_le_pow_right (by decide) (by omega)
      exact_mod_cast this
    show (if z = 0 then (0 : ℤ) else 1) = ((encode from' z : ℕ) : ℤ)
    rw [hn]
    rcases hb hk with rfl | rfl
    · simp
    · rw [if_neg (by decide), Int.emod_eq_of_lt (by decide) (by omega)]
  · cases s
    · exact hn.symm
    · show (if 2 * (z % (2 ^ (8 * from'.bytes) : ℕ)) < (2 ^ (8 * from'.bytes) : ℕ) then _ else _) =
        if 2 * encode from' z < 2 ^ (8 * from'.bytes) then ((encode from' z : ℕ) : ℤ) else ((encode from' z : ℕ) : ℤ) - (2 ^ (8 * from'.bytes) : ℕ)
      rw [← hn]
      have : (2 * ((encode from' z : ℕ) : ℤ) < (2 ^ (8 * from'.bytes) : ℕ)) ↔ 2 * encode from' z < 2 ^ (8 * from'.bytes) := by
        exact_mod_cast Iff.rfl
      simp only [this]
  · exact absurd hk ho

theorem decode_has (t : Ty) (n : ℕ) (hn : n < 2 ^ (8 * t.bytes)) (hk : t.kind ≠ .bool) : HasValue t (decode t n) ∧ Bits (8 * t.bytes) (decode t n) n := by
  have h1 : (n : ℤ) < 2 ^ (8 * t.bytes) := by exact_mod_cast hn
  have hp : (0 : ℤ) < 2 ^ (8 * t.bytes) := by positivity
  unfold HasValue decode
  rcases hk' : t.kind with _ | s | _
  · exact absurd hk' hk
  · cases s
    · exact ⟨⟨Int.natCast_nonneg n, h1⟩, hn, 0, by simp⟩
    · show Has true _ (if 2 * n < 2 ^ (8 * t.bytes) then (n : ℤ) else (n : ℤ) - (2 ^ (8 * t.bytes) : ℕ)) ∧
        Bits _ (if 2 * n < 2 ^ (8 * t.bytes) then (n : ℤ) else (n : ℤ) - (2 ^ (8 * t.bytes) : ℕ)) n
      by_cases h : 2 * n < 2 ^ (8 * t.bytes)
      · have h' : 2 * (n : ℤ) < 2 ^ (8 * t.bytes) := by exact_mod_cast h
        simp only [h, if_true]
        exact ⟨⟨by omega, h'⟩, hn, 0, by simp⟩
      · have h' : 2 ^ (8 * t.bytes) ≤ 2 * (n : ℤ) := by exact_mod_cast not_lt.1 h
        simp only [h, if_false]
        push_cast
        exact ⟨⟨by linarith, by linarith⟩, hn, -1, by ring⟩
  · exact ⟨⟨Int.natCast_nonneg n, h1⟩, hn, 0, by simp⟩

theorem has_unique (s : Bool) (b : ℕ) (z y : ℤ) (n : ℕ) (hz : Has s b z) (hy : Has s b y) (bz : Bits b z n) (by' : Bits b y n) : z = y := by
  obtain ⟨h1, k, e1⟩ := bz
  obtain ⟨h2, l, e2⟩ := by'
  have hp : (0 : ℤ) < 2 ^ b := by positivity
  have e : z - y = (k - l) * 2 ^ b := by rw [sub_mul]; linarith
  have hlt : -(2 ^ b : ℤ) < z - y ∧ z - y < 2 ^ b := by
    unfold Has at hz hy
    split_ifs at hz hy
    · exact ⟨by linarith [hz.1, hz.2, hy.1, hy.2], by linarith [hz.1, hz.2, hy.1, hy.2]⟩
    · exact ⟨by linarith [hz.1, hz.2, hy.1, hy.2], by linarith [hz.1, hz.2, hy.1, hy.2]⟩
  have hk : k - l = 0 := by
    by_contra hne
    rcases lt_or_gt_of_ne hne with h | h
    · nlinarith
    · nlinarith
  rw [hk] at e
  linarith

/-- The bits determine the value. -/
theorem decode_encode (t : Ty) (z : ℤ) (hz : HasValue t z) : decode t (encode t z) = z := by
  have hb := encode_bits t z
  rcases hk : t.kind with _ | s | _
  · have hz' : 0 < t.bytes ∧ (z = 0 ∨ z = 1) := by
      unfold HasValue at hz
      rwa [hk] at hz
    have h2 : (2 : ℤ) ≤ (2 ^ (8 * t.bytes) : ℕ) := by
      have : 2 ^ 1 ≤ 2 ^ (8 * t.bytes) := Nat.pow_le_pow_right (by decide) (by omega)
      exact_mod_cast this
    unfold decode
    rw [hk]
    show ((encode t z : ℕ) : ℤ) = z
    unfold encode
    rcases hz'.2 with rfl | rfl
    · simp
    · rw [Int.emod_eq_of_lt (by decide) (by omega)]
      rfl
  · have hd := decode_has t _ hb.1 (by rw [hk]; simp)
    unfold HasValue at hz hd
    rw [hk] at hz hd
    exact has_unique s _ _ _ _ hd.1 hz hd.2 hb
  · have hd := decode_has t _ hb.1 (by rw [hk]; simp)
    unfold HasValue at hz hd
    rw [hk] at hz hd
    exact has_unique false _ _ _ _ hd.1 hz hd.2 hb

theorem zero_one (t : Ty) (z : ℤ) (hz : HasValue t z) (h0 : 0 < t.bytes) (hb : Bits (8 * t.bytes) z 0 ∨ Bits (8 * t.bytes) z 1) : z = 0 ∨ z = 1 := by
  rcases hk : t.kind with _ | s | _
  · unfold HasValue at hz
    rw [hk] at hz
    exact hz.2
  all_goals
    have h2 : (4 : ℤ) ≤ 2 ^ (8 * t.bytes) := by
      have : 2 ^ 2 ≤ 2 ^ (8 * t.bytes) := Nat.pow_le_pow_right (by decide) (by omega)
      exact_mod_cast this
    unfold HasValue at hz
    rw [hk] at hz
  · have a : ∀ n : ℤ, n = 0 ∨ n = 1 → Has s (8 * t.bytes) n := by
      intro n hn
      unfold Has
      split_ifs <;> rcases hn with rfl | rfl <;> constructor <;> linarith
    rcases hb with hb | hb
    · exact .inl (has_unique s _ z 0 0 hz (a 0 (.inl rfl)) hb ⟨hb.1, 0, by simp⟩)
    · exact .inr (has_unique s _ z 1 1 hz (a 1 (.inr rfl)) hb ⟨hb.1, 0, by simp⟩)
  · have a : ∀ n : ℤ, n = 0 ∨ n = 1 → Has false (8 * t.bytes) n := by
      intro n hn
      rcases hn with rfl | rfl <;> constructor <;> linarith
    rcases hb with hb | hb
    · exact .inl (has_unique false _ z 0 0 hz (a 0 (.inl rfl)) hb ⟨hb.1, 0, by simp⟩)
    · exact .inr (has_unique false _ z 1 1 hz (a 1 (.inr rfl)) hb ⟨hb.1, 0, by simp⟩)

theorem cast_memcpy (intrinsic : Bool) (to' from' : Ty) (z : ℤ) (hs : to'.bytes = from'.bytes) (hz : HasValue from' z) (h0 : 0 < from'.bytes)
    (hb : to'.kind = .bool → Bits (8 * from'.bytes) z 0 ∨ Bits (8 * from'.bytes) z 1) :
    bitCast intrinsic to' from' z = memcpy to' from' z := by
  unfold bitCast
  split_ifs with h1 h2 h3
  · rfl
  · subst h2
    exact (decode_encode _ z hz).symm
  · refine static_is_memcpy to' from' z hs (fun hk => zero_one from' z hz h0 (hb hk)) (by omega) ?_
    have := (Bool.and_eq_true _ _ ▸ h3).2
    simpa [isIntegral] using this
  · rfl
  · rfl

end Verif.Proofs.BitCast
