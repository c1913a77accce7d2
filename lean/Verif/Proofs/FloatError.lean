import Verif.Proofs.FloatProducts
/-!
# How the errors of floating-point expressions grow
-/
namespace Verif.Proofs.FloatError
open Verif.Spec.IeeeArith Verif.Spec.FloatFormat Verif.Model.VectorStore Verif.Model.FloatVector Verif.Proofs.FloatVector
open Verif.Model.FloatProducts Verif.Proofs.FloatProducts

/-- `x` is finite and is `X`, whose magnitude is at most `M`, but for `k` roundings, relative to `M`, and underflow of at most `T` before them. -/
def Near (f : Format) (k : ℕ) (M T : ℚ) (x : Number) (X : ℚ) : Prop :=
  ∃ z, value x = some z ∧ |X| ≤ M ∧ 0 ≤ T ∧ |z - X| ≤ ((1 + f.u) ^ k - 1) * M + (1 + f.u) ^ k * T

theorem Near.exact (f : Format) {x : Number} {X : ℚ} (h : value x = some X) : Near f 0 |X| 0 x X := ⟨X, h, le_rfl, le_rfl, by simp⟩

theorem Near.mono {f : Format} {k k' : ℕ} {M T M' T' : ℚ} {x : Number} {X : ℚ} (h : Near f k M T x X) (hk : k ≤ k') (hM : M ≤ M') (hT : T ≤ T') :
    Near f k' M' T' x X := by
  obtain ⟨z, h1, h2, h3, h4⟩ := h
  have hu := u_pos f
  have M0 : 0 ≤ M := (abs_nonneg X).trans h2
  have p : (1 + f.u) ^ k ≤ (1 + f.u) ^ k' := pow_le_pow_right₀ (by linarith) hk
  have g1 := one_le f k'
  refine ⟨z, h1, h2.trans hM, h3.trans hT, h4.trans (add_le_add ?_ ?_)⟩
  · exact mul_le_mul (by linarith) hM M0 (by linarith)
  · exact mul_le_mul p hT h3 (by linarith)

theorem Near.mag {f : Format} {k : ℕ} {M T : ℚ} {x : Number} {X : ℚ} (h : Near f k M T x X) :
    ∃ z, value x = some z ∧ |z| ≤ (1 + f.u) ^ k * (M + T) := by
  obtain ⟨z, h1, h2, h3, h4⟩ := h
  refine ⟨z, h1, ?_⟩
  have := abs_add_le X (z - X)
  rw [add_sub_cancel] at this
  linarith

theorem Near.negate {f : Format} {k : ℕ} {M T : ℚ} {x : Number} {X : ℚ} (h : Near f k M T x X) : Near f k M T x.negate (-X) := by
  obtain ⟨z, h1, h2, h3, h4⟩ := h
  refine ⟨-z, value_negate h1, by rwa [abs_neg], h3, ?_⟩
  rw [show -z - -X = -(z - X) by ring, abs_neg]
  exact h4

theorem Near.add {f : Format} {k : ℕ} {M T M' T' : ℚ} {x y : Number} {X Y : ℚ} (h : Near f k M T x X) (h' : Near f k M' T' y Y) :
    Near f k (M + M') (T + T') (x.add y) (X + Y) := by
  obtain ⟨z, h1, h2, h3, h4⟩ := h
  obtain ⟨z', h1', h2', h3', h4'⟩ := h'
  refine ⟨z + z', value_add h1 h1', (abs_add_le _ _).trans (add_le_add h2 h2'), add_nonneg h3 h3', ?_⟩
  have := abs_add_le (z - X) (z' - Y)
  rw [show z + z' - (X + Y) = z - X + (z' - Y) by ring]
  linarith

theorem Near.sub {f : Format} {k : ℕ} {M T M' T' : ℚ} {x y : Number} {X Y : ℚ} (h : Near f k M T x X) (h' : Near f k M' T' y Y) :
    Near f k (M + M') (T + T') (x.sub y) (X - Y) := by
  rw [sub_eq_add_neg]
  exact h.add h'.negate

theorem Near.mul {f : Format} {k l : ℕ} {M T M' T' : ℚ} {x y : Number} {X Y : ℚ} (h : Near f k M T x X) (h' : Near f l M' T' y Y) :
    Near f (k + l) (M * M') (M * T' + M' * T + T * T') (x.mul y) (X * Y) := by
  obtain ⟨z, h1, h2, h3, h4⟩ := h
  obtain ⟨z', h1', h2', h3', h4'⟩ := h'
  have M0 : 0 ≤ M := (abs_nonneg X).trans h2
  have M0' : 0 ≤ M' := (abs_nonneg Y).trans h2'
  refine ⟨z * z', value_mul h1 h1', by rw [abs_mul]; exact mul_le_mul h2 h2' (abs_nonneg _) M0, by positivity, ?_⟩
  have e : z * z' - X * Y = (z - X) * Y + X * (z' - Y) + (z - X) * (z' - Y) := by ring
  have t1 := abs_add_le ((z - X) * Y + X * (z' - Y)) ((z - X) * (z' - Y))
  have t2 := abs_add_le ((z - X) * Y) (X * (z' - Y))
  rw [e]
  rw [abs_mul, abs_mul] at t2
  rw [abs_mul (z - X) (z' - Y)] at t1
  rw [pow_add]
  set a := (1 + f.u) ^ k
  set b := (1 + f.u) ^ l
  set e1 := |z - X|
  set e2 := |z' - Y|
  have e10 : 0 ≤ e1 := abs_nonneg _
  have e20 : 0 ≤ e2 := abs_nonneg _
  have s1 : e1 * |Y| ≤ ((a - 1) * M + a * T) * M' := mul_le_mul h4 h2' (abs_nonneg _) (e10.trans h4)
  have s2 : |X| * e2 ≤ M * ((b - 1) * M' + b * T') := mul_le_mul h2 h4' e20 M0
  have s3 : e1 * e2 ≤ ((a - 1) * M + a * T) * ((b - 1) * M' + b * T') := mul_le_mul h4 h4' e20 (e10.trans h4)
  linarith

theorem Near.round {f : Format} {k : ℕ} {M T : ℚ} {x : Number} {X : ℚ} (h : Near f k M T x X) (hg : (1 + f.u) ^ (k + 1) * (M + (T + f.tiny)) ≤ f.greatest) :
    Near f (k + 1) M (T + f.tiny) (f.round x) X := by
  obtain ⟨z, h1, h2, h3, h4⟩ := h
  have hu := u_pos f
  have ht := tiny_pos f
  have g0 := one_le f (k + 1)
  have hz : |z| ≤ M + (((1 + f.u) ^ k - 1) * M + (1 + f.u) ^ k * T) := by
    have := abs_add_le X (z - X)
    rw [add_sub_cancel] at this
    linarith
  have he : |rd f z - X| ≤ ((1 + f.u) ^ (k + 1) - 1) * M + (1 + f.u) ^ (k + 1) * (T + f.tiny) := by
    have e := err f z
    have t := abs_add_le (rd f z - z) (z - X)
    rw [sub_add_sub_cancel] at t
    have t2 : f.u * |z| ≤ f.u * (M + (((1 + f.u) ^ k - 1) * M + (1 + f.u) ^ k * T)) := mul_le_mul_of_nonneg_left hz hu.le
    have t3 : 1 * f.tiny ≤ (1 + f.u) ^ (k + 1) * f.tiny := mul_le_mul_of_nonneg_right g0 ht.le
    rw [pow_succ] at *
    linarith
  refine ⟨rd f z, value_round f h1 ?_, h2, by linarith, he⟩
  have := abs_add_le X (rd f z - X)
  rw [add_sub_cancel] at this
  linarith

/-- A product, contracted or not: half a unit of underflow at most, and a rounding at most. -/
theorem Near.product {f : Format} {k l : ℕ} {M T M' T' : ℚ} {x y : Number} {X Y : ℚ} (h : Near f k M T x X) (h' : Near f l M' T' y Y) (c : Bool)
    (hg : (1 + f.u) ^ (k + l + 1) * (M * M' + (M * T' + M' * T + T * T' + f.tiny)) ≤ f.greatest) :
    Near f (k + l + 1) (M * M') (M * T' + M' * T + T * T' + f.tiny) (product f (x, y) c) (X * Y) := by
  unfold Model.FloatVector.product
  cases c
  · exact (h.mul h').round hg
  · exact (h.mul h').mono (by omega) le_rfl (by have := tiny_pos f; linarith)

theorem grow {f : Format} {k l : ℕ} {A B G : ℚ} (hk : k ≤ l) (hA : A ≤ B) (hB : 0 ≤ B) (h : (1 + f.u) ^ l * B ≤ G) : (1 + f.u) ^ k * A ≤ G := by
  have hu := u_pos f
  have p : (1 + f.u) ^ k ≤ (1 + f.u) ^ l := pow_le_pow_right₀ (by linarith) hk
  have g := one_le f k
  exact ((mul_le_mul_of_nonneg_left hA (by linarith)).trans (mul_le_mul_of_nonneg_right p hB)).trans h

end Verif.Proofs.FloatError
