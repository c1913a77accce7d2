import Verif.Proofs.PackedUnit
/-!
# C59: packed unit vectors

`p` is the precision of the scalar type: 24 for `float` (and for smaller types, which are promoted), 53 for `double`. `n` is the size of
the integer type. The properties are proved of every vector with floating-point components that is not zero, normalised or not.
Unpacking is compared with the input through `(x, y, z) / (|x| + |y| + |z|)`, the vector of the same direction on the octahedron.
-/
namespace Verif.Props
open Verif.Spec.Float Verif.Model.PackedUnit Verif.Proofs.PackedUnit Verif.Proofs.Float

/-- `x` is a value of the floating-point type with `p` bits of precision -/
def IsFloat (p : ℕ) (x : ℚ) : Prop := rnd p x = x

/-- The pairs of integer type and scalar type for which packing in three dimensions works. -/
def Supported3 (n p : ℕ) : Prop := (n, p) ∈ [(8, 24), (16, 24), (32, 24), (8, 53), (16, 53), (32, 53), (64, 53)]
/-- The same for two dimensions. -/
def Supported2 (n p : ℕ) : Prop := (n, p) ∈ [(8, 24), (16, 24), (8, 53), (16, 53), (32, 53)]

private theorem size3 {n p : ℕ} (h : Supported3 n p) :
    Size n ∧ 5 ≤ p ∧ 7 ≤ xRange n 3 ∧ 18 * xRange n 3 ≤ 2 ^ p ∧ xRange n 3 < 2 ^ max n 32 := by
  unfold Supported3 at h
  simp only [List.mem_cons, Prod.mk.injEq, List.not_mem_nil, or_false] at h
  rcases h with ⟨rfl, rfl⟩ | ⟨rfl, rfl⟩ | ⟨rfl, rfl⟩ | ⟨rfl, rfl⟩ | ⟨rfl, rfl⟩ | ⟨rfl, rfl⟩ | ⟨rfl, rfl⟩ <;>
    exact ⟨by unfold Size; decide, by decide, by decide, by decide, by decide⟩

private theorem size2 {n p : ℕ} (h : Supported2 n p) :
    Size n ∧ 5 ≤ p ∧ 7 ≤ xRange n 2 ∧ 18 * xRange n 2 ≤ 2 ^ p ∧ xRange n 2 < 2 ^ max n 32 := by
  unfold Supported2 at h
  simp only [List.mem_cons, Prod.mk.injEq, List.not_mem_nil, or_false] at h
  rcases h with ⟨rfl, rfl⟩ | ⟨rfl, rfl⟩ | ⟨rfl, rfl⟩ | ⟨rfl, rfl⟩ | ⟨rfl, rfl⟩ <;>
    exact ⟨by unfold Size; decide, by decide, by decide, by decide, by decide⟩

private theorem magnitude_eq (v : ℚ) : magnitude v = |v| := by
  unfold magnitude
  split
  · next h => exact (abs_of_nonneg h).symm
  · next h => exact (abs_of_neg (by linarith)).symm

private theorem signOf_cases (n i : ℕ) (v : ℚ) : (signOf n i v = 0 ∨ signOf n i v = signBit n i) ∧
    decide (signOf n i v ≠ 0) = decide (v < 0) := by
  unfold signOf
  split
  · next h => exact ⟨Or.inl rfl, by simp [not_lt.2 h]⟩
  · next h =>
    refine ⟨Or.inr rfl, ?_⟩
    have : signBit n i ≠ 0 := by unfold signBit; positivity
    have h' : v < 0 := by linarith
    simp [this, h']

private theorem sign_mul {n i b : ℕ} {v : ℚ} (h : negative n i b = decide (v < 0)) : sign n i b * |v| = v := by
  unfold sign
  rw [h]
  by_cases hv : v < 0
  · simp [hv, abs_of_neg hv]
  · simp [hv, abs_of_nonneg (not_lt.1 hv)]

private theorem sign_abs {n i b : ℕ} (c : ℚ) {v s : ℚ} (h : negative n i b = decide (v < 0)) :
    |sign n i b * c * s - v| = abs (c * s - |v|) := by
  have e : sign n i b * c * s - v = sign n i b * (c * s - |v|) := by
    have := sign_mul h; rw [mul_sub, this, mul_assoc]
  rw [e, abs_mul]
  have : |sign n i b| = 1 := by unfold sign; split <;> simp
  rw [this, one_mul]

private theorem float_abs {p : ℕ} {x : ℚ} (h : IsFloat p x) : IsFloat p |x| := by
  unfold IsFloat at *
  rcases abs_choice x with e | e
  · rw [e]; exact h
  · rw [e, rnd_neg, h]

/-- **C59 (partial)** The integer coordinates of the packing: every pair on or below the diagonal `ix + iy = x_range` is read back exactly,
whatever the sign bits above it are - except for the half of the diagonal where `iy` is at least half the range. -/
theorem C59_pair_round_trip_partial (n ix iy : ℕ) (hn : n = 8 ∨ n = 16 ∨ n = 32 ∨ n = 64)
    (h : ix + iy < xRange n 3 ∨ (ix + iy = xRange n 3 ∧ 2 * iy < 2 ^ xBits n 3)) :
    ∃ v, encode3 n ix iy = some v ∧
      ∀ a b c, a ∈ [0, 2 ^ (n - 1)] → b ∈ [0, 2 ^ (n - 2)] → c ∈ [0, 2 ^ (n - 3)] → decode3 n (a ||| b ||| c ||| v) = (ix, iy) := by
  obtain ⟨v, h1, h2, h3⟩ := encode3_spec (ix := ix) (iy := iy) hn (by omega) (by omega)
  refine ⟨v, h1, ?_⟩
  intro a b c ha hb hc
  simp only [List.mem_cons, List.not_mem_nil, or_false] at ha hb hc
  exact (h3 _ (value_bits3 (n := n) (m := xBits n 3 + yBits n 3) (by have := bits3 hn; omega) h2 (by simpa [signBit] using ha)
    (by simpa [signBit, Nat.sub_sub] using hb) (by simpa [signBit, Nat.sub_sub] using hc)).1).1 h

/-- **C59 is violated** on that half of the diagonal: there every pair is read back with its coordinates exchanged. -/
theorem C59_pair_violated (n ix iy : ℕ) (hn : n = 8 ∨ n = 16 ∨ n = 32 ∨ n = 64) (h : ix + iy = xRange n 3)
    (hy : 2 ^ xBits n 3 ≤ 2 * iy) : ∃ v, encode3 n ix iy = some v ∧ decode3 n v = (iy, ix) ∧ ix ≠ iy := by
  obtain ⟨v, h1, h2, h3⟩ := encode3_spec (ix := ix) (iy := iy) hn (by omega) (by omega)
  refine ⟨v, h1, (h3 v (fun _ _ => rfl)).2 ⟨h, hy⟩, ?_⟩
  have : xRange n 3 = 2 ^ xBits n 3 - 1 := rfl
  have : 0 < 2 ^ xBits n 3 := by positivity
  omega

/-- what packing does in three dimensions -/
private theorem pack3_spec {n p : ℕ} (hnp : Supported3 n p) {x y z : ℚ} (hx : IsFloat p x) (hy : IsFloat p y) (hz : IsFloat p z)
    (h0 : ¬ (x = 0 ∧ y = 0 ∧ z = 0)) :
    ∃ b, pack3 n p x y z = some b ∧ b < 2 ^ n ∧ negative n 0 b = decide (x < 0) ∧ negative n 1 b = decide (y < 0) ∧
      negative n 2 b = decide (z < 0) ∧
      ((|y| ≤ |x| ∨ 10 * (|x| + |y| + |z|) < |z| * 2 ^ p) →
        |((decode3 n b).1 : ℚ) * (|x| + |y| + |z|) - |x| * xRange n 3| ≤ 2 * (|x| + |y| + |z|) ∧
        |((decode3 n b).2 : ℚ) * (|x| + |y| + |z|) - |y| * xRange n 3| ≤ 2 * (|x| + |y| + |z|)) := by
  obtain ⟨hn, hp, hR7, hU, hRn⟩ := size3 hnp
  have hs : 0 < |x| + |y| + |z| := by
    have a := abs_nonneg x; have b := abs_nonneg y; have c := abs_nonneg z
    apply lt_of_le_of_ne (by linarith)
    intro h
    exact h0 ⟨abs_eq_zero.1 (by linarith), abs_eq_zero.1 (by linarith), abs_eq_zero.1 (by linarith)⟩
  obtain ⟨sx, nx⟩ := signOf_cases n 0 x
  obtain ⟨sy, ny⟩ := signOf_cases n 1 y
  obtain ⟨sz, nz⟩ := signOf_cases n 2 z
  unfold pack3
  simp only [magnitude_eq]
  have fx := float_abs hx
  have fy := float_abs hy
  have fz := float_abs hz
  have hX := abs_nonneg x
  have hY := abs_nonneg y
  have hZ := abs_nonneg z
  generalize |x| = X at *
  generalize |y| = Y at *
  generalize |z| = Z at *
  have hp1 : 1 ≤ p := by omega
  have m1 : X ≤ rnd p (X + Y) := by have := rnd_mono p hp1 (show X ≤ X + Y by linarith); rwa [fx] at this
  have m2 : Y ≤ rnd p (X + Y) := by have := rnd_mono p hp1 (show Y ≤ X + Y by linarith); rwa [fy] at this
  have m3 : X ≤ rnd p (rnd p (X + Y) + Z) := by
    have := rnd_mono p hp1 (show X ≤ rnd p (X + Y) + Z by linarith); rwa [fx] at this
  have m4 : Y ≤ rnd p (rnd p (X + Y) + Z) := by
    have := rnd_mono p hp1 (show Y ≤ rnd p (X + Y) + Z by linarith); rwa [fy] at this
  obtain ⟨hS, ax1, ax2, ax3⟩ := project_spec hp hX hY hZ hs hX m3
  obtain ⟨_, ay1, ay2, ay3⟩ := project_spec hp hX hY hZ hs hY m4
  have hRp : xRange n 3 ≤ 2 ^ p := by omega
  obtain ⟨ix, qx1, qx2, qx3, qx4⟩ := quantize_spec (n := n) (d := 3) hp1 (by omega) hRp hRn ax1 ax2
  obtain ⟨iy, qy1, qy2, qy3, qy4⟩ := quantize_spec (n := n) (d := 3) hp1 (by omega) hRp hRn ay1 ay2
  have hUq : 18 * (xRange n 3 : ℚ) ≤ 2 ^ p := by exact_mod_cast hU
  obtain ⟨cx1, cx2⟩ := coord_spec (U := 2 ^ p) (by omega) hUq hs hX (by linarith) ax3 qx3 qx4
  obtain ⟨cy1, cy2⟩ := coord_spec (U := 2 ^ p) (by omega) hUq hs hY (by linarith) ay3 qy3 qy4
  obtain ⟨v, e1, e2, e3⟩ := encode3_spec hn qx2 qy2
  obtain ⟨v1, v2, v3, v4, v5⟩ := value_bits3 (m := xBits n 3 + yBits n 3) (by have := bits3 hn; omega) e2 sx sy sz
  refine ⟨signOf n 0 x ||| signOf n 1 y ||| signOf n 2 z ||| v, ?_, ?_, v2.trans nx, v3.trans ny, v4.trans nz, ?_⟩
  · rw [if_neg hS.ne', qx1, Option.bind_some, assume, if_pos qx2, qy1, Option.bind_some, assume, if_pos qy2, e1, Option.bind_some,
      assume, if_pos v5]
  · have : 0 < 2 ^ n := by positivity
    omega
  · intro hcond
    have hd : decode3 n (signOf n 0 x ||| signOf n 1 y ||| signOf n 2 z ||| v) = (ix, iy) := by
      apply (e3 _ v1).1
      have hUpos : (0 : ℚ) < 2 ^ p := by positivity
      have hR7q : (7 : ℚ) ≤ xRange n 3 := by exact_mod_cast hR7
      have hsU := mul_pos hs hUpos
      have hRs : 18 * ((xRange n 3 : ℚ) * (X + Y + Z)) ≤ 2 ^ p * (X + Y + Z) := by
        have := mul_le_mul_of_nonneg_right hUq hs.le; linarith
      have hsum : ix + iy ≤ xRange n 3 := by
        by_contra hlt
        have h1 : (xRange n 3 : ℚ) + 1 ≤ ix + iy := by exact_mod_cast (by omega : xRange n 3 + 1 ≤ ix + iy)
        have h2 := mul_le_mul_of_nonneg_right h1 (mul_pos hs hUpos).le
        have h3 : (X + Y) * (xRange n 3 - 1) ≤ (X + Y + Z) * (xRange n 3 - 1) := mul_le_mul_of_nonneg_right (by linarith) (by linarith)
        have h4 := mul_le_mul_of_nonneg_right h3 hUpos.le
        clear e1 e2 e3 v1 v2 v3 v4 v5 qx1 qx3 qx4 qy1 qy3 qy4 ax1 ax2 ax3 ay1 ay2 ay3 m1 m2 m3 m4 cx2 cy2
        linarith
      rcases hcond with hc | hc
      · -- `iy` is below half
        have hlow : 2 * iy < 2 ^ xBits n 3 := by
          by_contra hge
          have hRe : xRange n 3 + 1 = 2 ^ xBits n 3 := by
            have : 0 < 2 ^ xBits n 3 := by positivity
            unfold xRange; omega
          have h1 : (xRange n 3 : ℚ) + 1 ≤ 2 * iy := by exact_mod_cast (by omega : xRange n 3 + 1 ≤ 2 * iy)
          have h2 := mul_le_mul_of_nonneg_right h1 (mul_pos hs hUpos).le
          have h3 : (2 * Y) * (xRange n 3 - 1) ≤ (X + Y + Z) * (xRange n 3 - 1) := mul_le_mul_of_nonneg_right (by linarith) (by linarith)
          have h4 := mul_le_mul_of_nonneg_right h3 hUpos.le
          linarith
        rcases hsum.lt_or_eq with hh | hh
        · exact Or.inl hh
        · exact Or.inr ⟨hh, hlow⟩
      · left
        by_contra hge
        have h1 : (xRange n 3 : ℚ) ≤ ix + iy := by exact_mod_cast (by omega : xRange n 3 ≤ ix + iy)
        have h2 := mul_le_mul_of_nonneg_right h1 (mul_pos hs hUpos).le
        have hc1 := mul_lt_mul_of_pos_right hc (show (0 : ℚ) < xRange n 3 - 1 by linarith)
        have h3 : (X + Y) * (xRange n 3 - 1) ≤ (X + Y + Z) * (xRange n 3 - 1) := mul_le_mul_of_nonneg_right (by linarith) (by linarith)
        have h7 : 7 * (X + Y + Z) ≤ xRange n 3 * (X + Y + Z) := mul_le_mul_of_nonneg_right hR7q hs.le
        linarith
    rw [hd]
    exact ⟨cx2, cy2⟩

/-- **C59 (partial)** Packing in three dimensions is defined for every non-zero vector, fits the integer, and the sign bits are the
signs of the components. -/
theorem C59_pack3_signs_partial (n p : ℕ) (hnp : Supported3 n p) (x y z : ℚ) (hx : IsFloat p x) (hy : IsFloat p y) (hz : IsFloat p z)
    (h0 : ¬ (x = 0 ∧ y = 0 ∧ z = 0)) :
    ∃ b, pack3 n p x y z = some b ∧ b < 2 ^ n ∧
      negative n 0 b = decide (x < 0) ∧ negative n 1 b = decide (y < 0) ∧ negative n 2 b = decide (z < 0) := by
  obtain ⟨b, h1, h2, h3, h4, h5, _⟩ := pack3_spec hnp hx hy hz h0
  exact ⟨b, h1, h2, h3, h4, h5⟩

/-- **C59 (partial)** Unpacking gives the direction back up to two steps of the coordinate grid in x and y (four in z), if `|y| ≤ |x|`
or `z` is not negligible (as it is if `z` is zero). Missing: vectors in the plane of x and y with `|x| < |y|`, for which it is false. -/
theorem C59_unpack3_partial (n p : ℕ) (hnp : Supported3 n p) (x y z : ℚ) (hx : IsFloat p x) (hy : IsFloat p y) (hz : IsFloat p z)
    (h0 : ¬ (x = 0 ∧ y = 0 ∧ z = 0)) (hc : |y| ≤ |x| ∨ 10 * (|x| + |y| + |z|) < |z| * 2 ^ p) :
    ∃ b, pack3 n p x y z = some b ∧
      let s := |x| + |y| + |z|
      |(unpack3 n b).1 - x / s| ≤ 2 / (2 ^ xBits n 3 - 1) ∧ |(unpack3 n b).2.1 - y / s| ≤ 2 / (2 ^ xBits n 3 - 1) ∧
      |(unpack3 n b).2.2 - z / s| ≤ 4 / (2 ^ xBits n 3 - 1) := by
  obtain ⟨b, h1, h2, h3, h4, h5, h6⟩ := pack3_spec hnp hx hy hz h0
  obtain ⟨g1, g2⟩ := h6 hc
  refine ⟨b, h1, ?_⟩
  simp only
  obtain ⟨hn, hp, hR7, hU, hRn⟩ := size3 hnp
  have hs : 0 < |x| + |y| + |z| := by
    have a := abs_nonneg x; have b := abs_nonneg y; have c := abs_nonneg z
    apply lt_of_le_of_ne (by linarith)
    intro h
    exact h0 ⟨abs_eq_zero.1 (by linarith), abs_eq_zero.1 (by linarith), abs_eq_zero.1 (by linarith)⟩
  have hRe : (2 : ℚ) ^ xBits n 3 - 1 = xRange n 3 := by
    have : 1 ≤ 2 ^ xBits n 3 := Nat.one_le_two_pow
    unfold xRange
    push_cast [Nat.cast_sub this]; rfl
  rw [hRe]
  have hR : (0 : ℚ) < xRange n 3 := by exact_mod_cast (by omega : 0 < xRange n 3)
  have key : ∀ (i : ℕ) (c v k : ℚ), negative n i b = decide (v < 0) →
      |c * xRange n 3 * (|x| + |y| + |z|) - |v| * xRange n 3| ≤ k * (|x| + |y| + |z|) →
      |sign n i b * c - v / (|x| + |y| + |z|)| ≤ k / xRange n 3 := by
    intro i c v k hneg hk
    generalize |x| + |y| + |z| = s at *
    have e := sign_abs (n := n) (i := i) (b := b) c (s := s) hneg
    have e1 : sign n i b * c - v / s = (sign n i b * c * s - v) / s := by field_simp
    rw [e1, abs_div, abs_of_pos hs, e, div_le_div_iff₀ hs hR]
    have e2 : c * xRange n 3 * s - |v| * xRange n 3 = (c * s - |v|) * xRange n 3 := by ring
    rw [e2, abs_mul, abs_of_pos hR] at hk
    exact hk
  have hfx : ((decode3 n b).1 : ℚ) / xRange n 3 * xRange n 3 = (decode3 n b).1 := by field_simp
  have hfy : ((decode3 n b).2 : ℚ) / xRange n 3 * xRange n 3 = (decode3 n b).2 := by field_simp
  refine ⟨key 0 _ x 2 h3 (by rw [hfx]; exact g1), key 1 _ y 2 h4 (by rw [hfy]; exact g2), key 2 _ z 4 h5 ?_⟩
  have e : (1 - ((decode3 n b).1 : ℚ) / xRange n 3 - ((decode3 n b).2 : ℚ) / xRange n 3) * xRange n 3 * (|x| + |y| + |z|) - |z| * xRange n 3 =
      -((((decode3 n b).1 : ℚ) * (|x| + |y| + |z|) - |x| * xRange n 3) + (((decode3 n b).2 : ℚ) * (|x| + |y| + |z|) - |y| * xRange n 3)) := by
    field_simp; ring
  rw [e, abs_neg]
  refine (abs_add_le _ _).trans ?_
  linarith

/-- **C59 is violated**: the `float` vector (1.526e-05, 1, 0), packed into 32 bits and unpacked, points along x instead of y. -/
theorem C59_unpack3_violated :
    ∃ b, pack3 32 24 (65541 / 2 ^ 32) 1 0 = some b ∧ unpack3 32 b = (32766 / 32767, 1 / 32767, 0) ∧
      IsFloat 24 (65541 / 2 ^ 32) ∧ IsFloat 24 1 ∧ IsFloat 24 0 := by
  have f1 : rnd 24 (1 : ℚ) = 1 := by have := rnd_nat 24 (by norm_num) 1 (by norm_num); exact_mod_cast this
  have r1 : rnd 24 ((65541 / 2 ^ 32 : ℚ) + 1) = 65537 / 65536 := by
    rw [rnd_to _ 0 8388736 (by norm_num) (by norm_num) (by norm_num) (by norm_num)]; norm_num
  have r2 : rnd 24 ((65537 / 65536 : ℚ) + 0) = 65537 / 65536 := by
    rw [rnd_to _ 0 8388736 (by norm_num) (by norm_num) (by norm_num) (by norm_num)]; norm_num
  have r3 : rnd 24 (1 / (65537 / 65536 : ℚ)) = 65535 / 65536 := by
    rw [rnd_to _ (-1) 16776960 (by norm_num) (by norm_num) (by norm_num) (by norm_num)]; norm_num
  have r4 : rnd 24 ((65541 / 2 ^ 32 : ℚ) * (65535 / 65536)) = 65540 / 2 ^ 32 := by
    rw [rnd_to _ (-16) 8389120 (by norm_num) (by norm_num) (by norm_num) (by norm_num)]; norm_num
  have r5 : rnd 24 ((1 : ℚ) * (65535 / 65536)) = 65535 / 65536 := by
    rw [rnd_to _ (-1) 16776960 (by norm_num) (by norm_num) (by norm_num) (by norm_num)]; norm_num
  have hR : ((xRange 32 3 - 1 : ℕ) : ℚ) = 32766 := by
    have : xRange 32 3 - 1 = 32766 := by decide
    rw [this]; norm_num
  have r6 : rnd 24 (32766 : ℚ) = 32766 := by have := rnd_nat 24 (by norm_num) 32766 (by norm_num); exact_mod_cast this
  have q1 : quantize 32 3 24 (65540 / 2 ^ 32) = some 1 := by
    unfold quantize
    rw [hR, r6]
    have a1 : rnd 24 ((65540 / 2 ^ 32 : ℚ) * 32766) = 1 / 2 := by
      rw [rnd_to _ (-2) 16777216 (by norm_num) (by norm_num) (by norm_num) (by norm_num)]; norm_num
    rw [a1, show (1 / 2 + 1 / 2 : ℚ) = 1 by norm_num, f1]
    norm_num [toArith]
  have q2 : quantize 32 3 24 (65535 / 65536) = some 32766 := by
    unfold quantize
    rw [hR, r6]
    have a1 : rnd 24 ((65535 / 65536 : ℚ) * 32766) = 65531 / 2 := by
      rw [rnd_to _ 14 16775936 (by norm_num) (by norm_num) (by norm_num) (by norm_num)]; norm_num
    rw [a1, show (65531 / 2 + 1 / 2 : ℚ) = 32766 by norm_num, r6]
    norm_num [toArith]
  have hp : pack3 32 24 (65541 / 2 ^ 32) 1 0 = some ((32766 <<< 14) ||| 1) := by
    have s1 : signOf 32 0 (65541 / 2 ^ 32 : ℚ) = 0 := by norm_num [signOf]
    have s2 : signOf 32 1 (1 : ℚ) = 0 := by norm_num [signOf]
    have s3 : signOf 32 2 (0 : ℚ) = 0 := by norm_num [signOf]
    have m1 : magnitude (65541 / 2 ^ 32 : ℚ) = 65541 / 2 ^ 32 := by norm_num [magnitude]
    have m2 : magnitude (1 : ℚ) = 1 := by norm_num [magnitude]
    have m3 : magnitude (0 : ℚ) = 0 := by norm_num [magnitude]
    unfold pack3
    simp only [s1, s2, s3, m1, m2, m3, r1, r2, r3, r4, r5, q1, q2]
    rw [if_neg (by norm_num)]
    decide
  refine ⟨_, hp, ?_, ?_, f1, rnd_zero 24⟩
  · have hd : decode3 32 ((32766 <<< 14) ||| 1) = (32766, 1) := by decide
    have n0 : negative 32 0 ((32766 <<< 14) ||| 1) = false := by decide
    have n1 : negative 32 1 ((32766 <<< 14) ||| 1) = false := by decide
    have hx : xRange 32 3 = 32767 := by decide
    unfold unpack3 sign
    simp only [hd, n0, n1, hx]
    norm_num
  · show rnd 24 _ = _
    rw [rnd_to _ (-16) 8389248 (by norm_num) (by norm_num) (by norm_num) (by norm_num)]; norm_num

/-- The hypotheses of `C59_unpack3_partial` hold of the `float` vector (3/5 rounded, 0, -4/5 rounded) scaled to (3, 0, -4). -/
example : Supported3 32 24 ∧ IsFloat 24 3 ∧ IsFloat 24 0 ∧ IsFloat 24 (-4) ∧ |(0 : ℚ)| ≤ |3| := by
  refine ⟨by unfold Supported3; decide, ?_, rnd_zero 24, ?_, by norm_num⟩
  · have := rnd_nat 24 (by norm_num) 3 (by norm_num); exact_mod_cast this
  · have := rnd_nat 24 (by norm_num) 4 (by norm_num)
    unfold IsFloat
    rw [rnd_neg]; congr 1
example : encode3 32 12345 20000 = some ((20422 <<< 14) ||| 12767) ∧ decode3 32 ((20422 <<< 14) ||| 12767) = (12345, 20000) := by decide

/-- **C59 is violated** in the integer coordinates already at 8 bits: the pair (3, 4) is read back as (4, 3). -/
theorem C59_pair_example_violated : (encode3 8 3 4).map (decode3 8) = some (4, 3) := by decide

/-- **C59 (partial)** In two dimensions packing is defined for every non-zero vector, fits the integer, keeps the signs, and unpacking gives
the direction back up to two steps of the grid. Missing: `float` vectors in 32 or 64 bits and `double` vectors in 64 bits, for which it is false. -/
theorem C59_pack2_partial (n p : ℕ) (hnp : Supported2 n p) (x y : ℚ) (hx : IsFloat p x) (hy : IsFloat p y) (h0 : ¬ (x = 0 ∧ y = 0)) :
    ∃ b, (∀ assumes, pack2 assumes n p x y = some b) ∧ b < 2 ^ n ∧ negative n 0 b = decide (x < 0) ∧ negative n 1 b = decide (y < 0) ∧
      |(unpack2 n b).1 - x / (|x| + |y|)| ≤ 2 / (2 ^ (n - 2) - 1) ∧ |(unpack2 n b).2 - y / (|x| + |y|)| ≤ 2 / (2 ^ (n - 2) - 1) := by
  obtain ⟨hn, hp, hR7, hU, hRn⟩ := size2 hnp
  have hs : 0 < |x| + |y| := by
    have a := abs_nonneg x; have b := abs_nonneg y
    apply lt_of_le_of_ne (by linarith)
    intro h
    exact h0 ⟨abs_eq_zero.1 (by linarith), abs_eq_zero.1 (by linarith)⟩
  obtain ⟨sx, nx⟩ := signOf_cases n 0 x
  obtain ⟨sy, ny⟩ := signOf_cases n 1 y
  have hp1 : 1 ≤ p := by omega
  have m3 : |x| ≤ rnd p (|x| + |y|) := by
    have := rnd_mono p hp1 (show |x| ≤ |x| + |y| by have := abs_nonneg y; linarith)
    rwa [float_abs hx] at this
  obtain ⟨hS, ax1, ax2, ax3⟩ := project2_spec hp (abs_nonneg x) (abs_nonneg y) hs m3
  have hRp : xRange n 2 ≤ 2 ^ p := by omega
  obtain ⟨ix, qx1, qx2, qx3, qx4⟩ := quantize_spec (n := n) (d := 2) hp1 (by omega) hRp hRn ax1 ax2
  have hUq : 18 * (xRange n 2 : ℚ) ≤ 2 ^ p := by exact_mod_cast hU
  obtain ⟨_, cx2⟩ := coord_spec (U := 2 ^ p) (by omega) hUq hs (abs_nonneg x) (by have := abs_nonneg y; linarith) ax3 qx3 qx4
  have hb := (bits2 hn).1
  have hR0 : 0 < 2 ^ xBits n 2 := by positivity
  have hRd : xRange n 2 = 2 ^ xBits n 2 - 1 := rfl
  obtain ⟨v1, v2, v3, v5⟩ := value_bits2 (n := n) (v := ix) (m := xBits n 2) (by omega) (by omega) sx sy
  have hRe : (2 : ℚ) ^ (n - 2) - 1 = xRange n 2 := by
    have : 1 ≤ 2 ^ xBits n 2 := Nat.one_le_two_pow
    rw [show n - 2 = xBits n 2 by omega]
    unfold xRange
    push_cast [Nat.cast_sub this]; rfl
  have hR : (0 : ℚ) < xRange n 2 := by exact_mod_cast (by omega : 0 < xRange n 2)
  refine ⟨signOf n 0 x ||| signOf n 1 y ||| ix, ?_, ?_, v2.trans nx, v3.trans ny, ?_⟩
  · intro assumes
    unfold pack2
    simp only [magnitude_eq]
    rw [if_neg hS.ne', qx1, Option.bind_some, assume, if_pos (Or.inr qx2), assume, if_pos (Or.inr v5)]
  · have : 0 < 2 ^ n := by positivity
    omega
  · have key : ∀ (i : ℕ) (c v k : ℚ), negative n i (signOf n 0 x ||| signOf n 1 y ||| ix) = decide (v < 0) →
        |c * xRange n 2 * (|x| + |y|) - |v| * xRange n 2| ≤ k * (|x| + |y|) →
        |sign n i (signOf n 0 x ||| signOf n 1 y ||| ix) * c - v / (|x| + |y|)| ≤ k / xRange n 2 := by
      intro i c v k hneg hk
      generalize |x| + |y| = s at *
      have e := sign_abs (n := n) (i := i) (b := signOf n 0 x ||| signOf n 1 y ||| ix) c (s := s) hneg
      have e1 : sign n i (signOf n 0 x ||| signOf n 1 y ||| ix) * c - v / s = (sign n i (signOf n 0 x ||| signOf n 1 y ||| ix) * c * s - v) / s := by
        field_simp
      rw [e1, abs_div, abs_of_pos hs, e, div_le_div_iff₀ hs hR]
      have e2 : c * xRange n 2 * s - |v| * xRange n 2 = (c * s - |v|) * xRange n 2 := by ring
      rw [e2, abs_mul, abs_of_pos hR] at hk
      exact hk
    have hv1 : (signOf n 0 x ||| signOf n 1 y ||| ix) &&& xRange n 2 = ix := v1
    have hfx : (ix : ℚ) / xRange n 2 * xRange n 2 = ix := by field_simp
    unfold unpack2
    simp only [hv1, hRe]
    refine ⟨key 0 _ x 2 (v2.trans nx) (by rw [hfx]; exact cx2), key 1 _ y 2 (v3.trans ny) ?_⟩
    have e : (1 - (ix : ℚ) / xRange n 2) * xRange n 2 * (|x| + |y|) - |y| * xRange n 2 =
        -((ix : ℚ) * (|x| + |y|) - |x| * xRange n 2) := by
      field_simp; ring
    rw [e, abs_neg]
    exact cx2

/-- The hypotheses hold of the `double` vector (-3, 4) in 32 bits. -/
example : Supported2 32 53 ∧ IsFloat 53 (-3) ∧ IsFloat 53 4 ∧ ¬ ((-3 : ℚ) = 0 ∧ (4 : ℚ) = 0) := by
  refine ⟨by unfold Supported2; decide, ?_, ?_, by norm_num⟩
  · unfold IsFloat
    rw [rnd_neg]; congr 1
    have := rnd_nat 53 (by norm_num) 3 (by norm_num); exact_mod_cast this
  · have := rnd_nat 53 (by norm_num) 4 (by norm_num); exact_mod_cast this

/-- **C59 is violated** for `packed_unit_vector<uint32_t, 2>` (the default for a 2D `float` vector): packing the x axis makes a `MUU_ASSUME`
false, and where that has no effect the coordinate runs into the sign bit of y and the x axis is unpacked as the negative y axis. -/
theorem C59_pack2_violated : pack2 true 32 24 1 0 = none ∧
    ∃ b, pack2 false 32 24 1 0 = some b ∧ negative 32 1 b = true ∧ unpack2 32 b = (0, -1) := by
  have f1 : rnd 24 (1 : ℚ) = 1 := by have := rnd_nat 24 (by norm_num) 1 (by norm_num); exact_mod_cast this
  have hR : ((xRange 32 2 - 1 : ℕ) : ℚ) = 1073741822 := by
    have : xRange 32 2 - 1 = 1073741822 := by decide
    rw [this]; norm_num
  have r6 : rnd 24 (1073741822 : ℚ) = 1073741824 := by
    rw [rnd_to _ 29 16777216 (by norm_num) (by norm_num) (by norm_num) (by norm_num)]; norm_num
  have r7 : rnd 24 (1073741824 : ℚ) = 1073741824 := by
    rw [rnd_to _ 30 8388608 (by norm_num) (by norm_num) (by norm_num) (by norm_num)]; norm_num
  have r8 : rnd 24 (1073741824 + 1 / 2 : ℚ) = 1073741824 := by
    rw [rnd_to _ 30 8388608 (by norm_num) (by norm_num) (by norm_num) (by norm_num)]; norm_num
  have q1 : quantize 32 2 24 1 = some 1073741824 := by
    unfold quantize
    rw [hR, r6, one_mul, r7, r8]
    norm_num [toArith]
  have s1 : signOf 32 0 (1 : ℚ) = 0 := by norm_num [signOf]
  have s2 : signOf 32 1 (0 : ℚ) = 0 := by norm_num [signOf]
  have m2 : magnitude (1 : ℚ) = 1 := by norm_num [magnitude]
  have m3 : magnitude (0 : ℚ) = 0 := by norm_num [magnitude]
  have hx : xRange 32 2 = 1073741823 := by decide
  have hcalc : ∀ a, pack2 a 32 24 1 0 = assume (a = false ∨ 1073741824 ≤ 1073741823) (some 1073741824) := by
    intro a
    unfold pack2
    simp only [s1, s2, m2, m3, add_zero, f1, div_one, q1, hx]
    cases a <;> norm_num [assume]
  refine ⟨by rw [hcalc]; simp [assume], 1073741824, by rw [hcalc]; simp [assume], by decide, ?_⟩
  have n1 : negative 32 1 1073741824 = true := by decide
  have hand : 1073741824 &&& 1073741823 = 0 := by decide
  unfold unpack2 sign
  simp only [hx, hand, n1]
  norm_num

end Verif.Props
