import Verif.Proofs.BitCast
/-! # Bit casts -/
namespace Verif.Props.BitCast
open Verif.Model.BitCast Verif.Spec.ObjectBits Verif.Proofs.BitCast

/-- C174: a bit cast gives an object of the new type with the same bits, with and without support of the compiler, and the two agree; casting back gives
the value that was cast. A `bool` is made only from bits that are those of a `bool`. -/
theorem C174_bits (intrinsic : Bool) (to' from' : Ty) (z : ℤ) (hs : to'.bytes = from'.bytes) (hz : HasValue from' z) (h0 : 0 < from'.bytes)
    (hb : to'.kind = .bool → Bits (8 * from'.bytes) z 0 ∨ Bits (8 * from'.bytes) z 1) :
    ∃ n, Bits (8 * from'.bytes) z n ∧ Bits (8 * from'.bytes) (bitCast intrinsic to' from' z) n ∧ HasValue to' (bitCast intrinsic to' from' z) ∧
      bitCast true to' from' z = bitCast false to' from' z ∧ bitCast intrinsic from' to' (bitCast intrinsic to' from' z) = z := by
  have cm := fun i => cast_memcpy i to' from' z hs hz h0 hb
  have eb := encode_bits from' z
  have hv : HasValue to' (memcpy to' from' z) ∧ Bits (8 * from'.bytes) (memcpy to' from' z) (encode from' z) := by
    by_cases hk : to'.kind = .bool
    · have hz1 : encode from' z = 0 ∨ encode from' z = 1 := by
        rcases hb hk with h | h
        · exact .inl (bits_unique _ z _ _ eb h)
        · exact .inr (bits_unique _ z _ _ eb h)
      have e : memcpy to' from' z = (encode from' z : ℕ) := by
        unfold memcpy decode
        rw [hk]
      rw [e]
      refine ⟨?_, eb.1, 0, by simp⟩
      unfold HasValue
      rw [hk]
      refine ⟨by omega, ?_⟩
      rcases hz1 with h | h <;> rw [h]
      · exact .inl rfl
      · exact .inr rfl
    · have := decode_has to' (encode from' z) (by rw [hs]; exact eb.1) hk
      rw [hs] at this
      exact this
  refine ⟨encode from' z, eb, by rw [cm]; exact hv.2, by rw [cm]; exact hv.1, by rw [cm, cm], ?_⟩
  rw [cm]
  have hback : from'.kind = .bool → Bits (8 * to'.bytes) (memcpy to' from' z) 0 ∨ Bits (8 * to'.bytes) (memcpy to' from' z) 1 := by
    intro hk
    have hz' : z = 0 ∨ z = 1 := by
      unfold HasValue at hz
      rw [hk] at hz
      exact hz.2
    have hp : 1 < 2 ^ (8 * from'.bytes) := Nat.one_lt_two_pow (by omega)
    rw [hs]
    rcases hz' with rfl | rfl
    · left
      rw [← bits_unique _ 0 _ 0 eb ⟨by omega, 0, by simp⟩]
      exact hv.2
    · right
      rw [← bits_unique _ 1 _ 1 eb ⟨hp, 0, by simp⟩]
      exact hv.2
  rw [cast_memcpy intrinsic from' to' _ hs.symm hv.1 (by omega) hback]
  unfold memcpy at *
  have : encode to' (decode to' (encode from' z)) = encode from' z := by
    refine bits_unique (8 * from'.bytes) _ _ _ ?_ hv.2
    rw [← hs]
    exact encode_bits to' _
  rw [this]
  exact decode_encode from' z hz

/-- From `signed char` to `unsigned char`: -1 becomes 255. -/
example : bitCast false ⟨1, .int false, 1, true⟩ ⟨0, .int true, 1, true⟩ (-1) = 255 ∧ HasValue ⟨0, .int true, 1, true⟩ (-1) := by
  refine ⟨by decide, ?_⟩
  simp [HasValue, Has]

end Verif.Props.BitCast
