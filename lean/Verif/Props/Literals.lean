import Verif.Model.Literals
/-!
# C162: literals of integers and sizes

A literal is written as a number `n` below 2^64, with a suffix.
-/
namespace Verif.Props.Literals
open Verif.Model.Literals

theorem toInt_setWidth {w : Nat} (hw : 1 ≤ w) (n : Nat) (hn : n < 2 ^ 64) (hle : w ≤ 64) :
    ((BitVec.ofNat 64 n).setWidth w).toInt = n ↔ n < 2 ^ (w - 1) := by
  have h2 : 2 ^ w = 2 * 2 ^ (w - 1) := by
    rw [← Nat.pow_succ']; congr 1; omega
  have e : ((BitVec.ofNat 64 n).setWidth w).toNat = n % 2 ^ w := by
    rw [BitVec.toNat_setWidth, BitVec.toNat_ofNat, Nat.mod_eq_of_lt hn]
  rw [BitVec.toInt_eq_toNat_cond, e]
  have hlt : n % 2 ^ w < 2 ^ w := Nat.mod_lt _ (Nat.two_pow_pos w)
  have hp := Nat.two_pow_pos (w - 1)
  constructor
  · intro h
    split at h
    · rename_i hc
      have : n % 2 ^ w = n := by omega
      omega
    · have : (n : Int) < 0 := by rw [← h]; omega
      omega
  · intro h
    have : n % 2 ^ w = n := Nat.mod_eq_of_lt (by omega)
    rw [this, if_pos (by omega)]

/-- **C162 (values).** A literal has the number written as its value exactly if its type can hold it. -/
theorem C162_values (n : Nat) (hn : n < 2 ^ 64) :
    ((u8 (BitVec.ofNat 64 n)).toNat = n ↔ n ≤ 255) ∧
    ((u16 (BitVec.ofNat 64 n)).toNat = n ↔ n ≤ 65535) ∧
    ((u32 (BitVec.ofNat 64 n)).toNat = n ↔ n ≤ 4294967295) ∧
    (u64 (BitVec.ofNat 64 n)).toNat = n ∧
    ((i8 (BitVec.ofNat 64 n)).toInt = n ↔ n ≤ 127) ∧
    ((i16 (BitVec.ofNat 64 n)).toInt = n ↔ n ≤ 32767) ∧
    ((i32 (BitVec.ofNat 64 n)).toInt = n ↔ n ≤ 2147483647) ∧
    ((i64 (BitVec.ofNat 64 n)).toInt = n ↔ n ≤ 9223372036854775807) ∧
    (i128 (BitVec.ofNat 64 n)).toInt = n ∧ (u128 (BitVec.ofNat 64 n)).toNat = n := by
  refine ⟨?_, ?_, ?_, ?_, ?_, ?_, ?_, ?_, ?_, ?_⟩
  · simp only [u8, BitVec.toNat_setWidth, BitVec.toNat_ofNat, Nat.mod_eq_of_lt hn]; omega
  · simp only [u16, BitVec.toNat_setWidth, BitVec.toNat_ofNat, Nat.mod_eq_of_lt hn]; omega
  · simp only [u32, BitVec.toNat_setWidth, BitVec.toNat_ofNat, Nat.mod_eq_of_lt hn]; omega
  · simp only [u64, BitVec.toNat_ofNat, Nat.mod_eq_of_lt hn]
  · rw [i8, toInt_setWidth (by omega) n hn (by omega)]; omega
  · rw [i16, toInt_setWidth (by omega) n hn (by omega)]; omega
  · rw [i32, toInt_setWidth (by omega) n hn (by omega)]; omega
  · have := toInt_setWidth (w := 64) (by omega) n hn (by omega)
    rw [BitVec.setWidth_eq] at this
    rw [i64, this]; omega
  · have e : ((BitVec.ofNat 64 n).setWidth 128).toNat = n := by
      rw [BitVec.toNat_setWidth, BitVec.toNat_ofNat, Nat.mod_eq_of_lt hn, Nat.mod_eq_of_lt (by omega)]
    rw [i128, BitVec.toInt_eq_toNat_cond, e, if_pos (by omega)]
  · rw [u128, BitVec.toNat_setWidth, BitVec.toNat_ofNat, Nat.mod_eq_of_lt hn, Nat.mod_eq_of_lt (by omega)]

example : (u8 200).toNat = 200 ∧ (i8 200).toInt = -56 ∧ (i64 200).toInt = 200 := by decide

/-- **C162 (sizes).** Literals of bytes, kilobytes, megabytes and gigabytes are the number written, and it times 1024, 1024^2 and 1024^3, exactly if that is below 2^64. -/
theorem C162_sizes (n : Nat) (hn : n < 2 ^ 64) :
    (sz (BitVec.ofNat 64 n)).toNat = n ∧
    ((kb (BitVec.ofNat 64 n)).toNat = n * 1024 ↔ n * 1024 < 2 ^ 64) ∧
    ((mb (BitVec.ofNat 64 n)).toNat = n * 1024 ^ 2 ↔ n * 1024 ^ 2 < 2 ^ 64) ∧
    ((gb (BitVec.ofNat 64 n)).toNat = n * 1024 ^ 3 ↔ n * 1024 ^ 3 < 2 ^ 64) := by
  refine ⟨?_, ?_, ?_, ?_⟩
  · simp only [sz, BitVec.toNat_ofNat, Nat.mod_eq_of_lt hn]
  · simp only [kb, BitVec.toNat_mul, BitVec.toNat_ofNat, Nat.mod_eq_of_lt hn, show BitVec.toNat (1024 : BitVec 64) = 1024 from rfl]; omega
  · simp only [mb, BitVec.toNat_mul, BitVec.toNat_ofNat, Nat.mod_eq_of_lt hn, show BitVec.toNat (1024 : BitVec 64) = 1024 from rfl]; omega
  · simp only [gb, BitVec.toNat_mul, BitVec.toNat_ofNat, Nat.mod_eq_of_lt hn, show BitVec.toNat (1024 : BitVec 64) = 1024 from rfl]; omega

example : (mb 42).toNat = 42 * 1024 * 1024 := by decide

/-- **C162 (too large, violated).** A literal too large for its type compiles and has another value. -/
theorem C162_range_violated :
    (u8 256).toNat = 0 ∧ (i8 128).toInt = -128 ∧ (i64 9223372036854775808).toInt = -9223372036854775808 ∧
    (gb 17179869184).toNat = 0 := by decide

/-- **C162 (minus).** A minus before a literal gives the opposite of the number written, if the type of the literal can hold the number. -/
theorem C162_minus_partial (n : Nat) :
    (n ≤ 127 → minus (i8 (BitVec.ofNat 64 n)) = some (-(n : Int))) ∧
    (n ≤ 32767 → minus (i16 (BitVec.ofNat 64 n)) = some (-(n : Int))) ∧
    (n ≤ 2147483647 → minus (i32 (BitVec.ofNat 64 n)) = some (-(n : Int))) ∧
    (n ≤ 9223372036854775807 → minus (i64 (BitVec.ofNat 64 n)) = some (-(n : Int))) := by
  refine ⟨fun h => ?_, fun h => ?_, fun h => ?_, fun h => ?_⟩
  · have := (C162_values n (by omega)).2.2.2.2.1.2 h
    rw [minus, this, if_pos]; simp; omega
  · have := (C162_values n (by omega)).2.2.2.2.2.1.2 h
    rw [minus, this, if_pos]; simp; omega
  · have := (C162_values n (by omega)).2.2.2.2.2.2.1.2 h
    rw [minus, this, if_pos]; simp; omega
  · have := (C162_values n (by omega)).2.2.2.2.2.2.2.1.2 h
    rw [minus, this, if_pos]; simp; omega

example : minus (i8 127) = some (-127) := by decide

/-- **C162 (least values, violated).** The least value of a signed type cannot be written: `-128_i8` and `-32768_i16` are positive, `-2147483648_i32` and `-9223372036854775808_i64` do not compile. -/
theorem C162_least_violated :
    minus (i8 128) = some 128 ∧ minus (i16 32768) = some 32768 ∧ minus (i32 2147483648) = none ∧
    minus (i64 9223372036854775808) = none := by decide

end Verif.Props.Literals
