import Verif.Proofs.FloatLength
import Verif.Proofs.Approx

/-! # C150: lengths, distances and normalization of vectors of floating-point numbers -/

namespace Verif.Props.FloatLength

open Verif.Spec.Parts Verif.Spec.IeeeArith Verif.Spec.FloatFormat Verif.Spec.FloatSqrt Verif.Spec.SmallFloat Verif.Model.VectorStore Verif.Model.FloatVector
  Verif.Model.FloatLength Verif.Proofs.FloatVector Verif.Proofs.VectorStore Verif.Proofs.FloatLength Verif.Props.FloatVector

theorem usual32 : Usual binary32 := ⟨by decide, by decide, by decide +kernel, by decide +kernel⟩
theorem usual64 : Usual binary64 := ⟨by decide, by decide, by decide +kernel, by decide +kernel⟩

theorem sq_eq (xs : List ℚ) : (xs.map (· ^ 2)).sum = sqSum xs := rfl

theorem pos_of_lo {f : Format} {Q : ℚ} (h : 2 ^ f.emin ≤ f.u * Q) : 0 < Q := by
  have hu := u_pos f
  have e0 : (0 : ℚ) < 2 ^ f.emin := by positivity
  by_contra h'
  have : f.u * Q ≤ 0 := mul_nonpos_of_nonneg_of_nonpos hu.le (not_lt.1 h')
  linarith

/-- The length of a vector of two or more dimensions has a relative error of about as many units of round-off as it has dimensions, and two, if its square is not
too large or small. -/
theorem C150_length_partial (f : Format) {n : ℕ} (h1 : n ≠ 1) (c : Store Bool n) (hc : Contraction c) (v : Store Number n) (xs : List ℚ)
    (hv : (parts v).map value = xs.map some) (hn : n * f.u ≤ 1) (hk : (1 + f.u) ^ (n + 1) < 2)
    (hlo : 2 ^ f.emin ≤ f.u * (xs.map (· ^ 2)).sum) (hg : (1 + f.u) ^ (n + 1) * (xs.map (· ^ 2)).sum ≤ f.greatest) :
    ∃ r y, length f c v = some r ∧ value r = some y ∧
      |(y : ℝ) - √((xs.map (· ^ 2)).sum : ℚ)| ≤ ((1 + f.u) ^ (n + 2) - 1) * √((xs.map (· ^ 2)).sum : ℚ) := by
  rw [sq_eq] at *
  obtain ⟨r, S, r1, r2, r3⟩ := lensq_rel f c hc v xs hv hn hlo hg
  have hQ := pos_of_lo hlo
  have S0 := pos_of_rel hQ hk r3
  refine ⟨.fin false (root f.p S), root f.p S, ?_, by simp [value, signed], root_rel f hQ S0 r3⟩
  unfold length
  rw [if_neg h1, r1, Option.map_some, sqrt_value f r2 S0]

example : (length binary32 (.three true false false) (.three (num 2) (num (-3)) (num 6))) = some (num 7) := by decide +kernel

example : ∃ r y, length binary64 (.two false true) (.two (num 1) (num 3)) = some r ∧ value r = some y ∧
    |(y : ℝ) - √((([1, 3] : List ℚ).map (· ^ 2)).sum : ℚ)| ≤ ((1 + binary64.u) ^ 4 - 1) * √((([1, 3] : List ℚ).map (· ^ 2)).sum : ℚ) :=
  C150_length_partial binary64 (by decide) _ (by simp [Contraction, parts]) _ _ (by decide +kernel) (by decide +kernel) (by decide +kernel)
    (by decide +kernel) (by decide +kernel)

/-- **Violated**: squares overflow and underflow long before lengths do, so that the length of a vector of floats can be infinite or zero although it is representable and not
zero; and in one dimension the length of a vector can be negative. -/
theorem C150_length_violated :
    length binary32 (.two false false) (.two (num (2 ^ 64)) (num 0)) = some (.inf false) ∧
    length binary32 (.two false false) (.two (num (2 ^ (-76 : ℤ))) (num 0)) = some (num 0) ∧
    binary32.Has (num (2 ^ 64)) ∧ binary32.Has (num (2 ^ (-76 : ℤ))) ∧
    length binary32 (.one false) (.one (num (-3))) = some (num (-3)) := by
  refine ⟨by decide +kernel, by decide +kernel, ?_, ?_, by decide +kernel⟩
  · exact ⟨⟨1, 64, by decide, by decide, by norm_num⟩, by decide +kernel⟩
  · refine ⟨⟨1, -76, by decide, by decide, ?_⟩, by decide +kernel⟩
    rw [abs_of_pos (by positivity)]; simp

/-- The distance of two points, in any dimension, has a relative error of about as many units of round-off as it has dimensions, and four, if its square is not too large or small. -/
theorem C150_distance_partial (f : Format) (hf : Usual f) {n : ℕ} (c : Store Bool n) (hc : Contraction c) (v w : Store Number n) (xs ys : List ℚ)
    (hv : (parts v).map value = xs.map some) (hw : (parts w).map value = ys.map some) (fv : ∀ x ∈ parts v, f.Has x) (fw : ∀ x ∈ parts w, f.Has x)
    (hn : n * f.u ≤ 1) (hk : (1 + f.u) ^ (n + 3) < 2)
    (hlo : 4 * 2 ^ f.emin ≤ f.u * (List.zipWith (fun x y => (y - x) ^ 2) xs ys).sum)
    (hg : (1 + f.u) ^ (n + 3) * (List.zipWith (fun x y => (y - x) ^ 2) xs ys).sum ≤ f.greatest) :
    ∃ r z, distance f c v w = some r ∧ value r = some z ∧
      |(z : ℝ) - √((List.zipWith (fun x y => (y - x) ^ 2) xs ys).sum : ℚ)| ≤
        ((1 + f.u) ^ (n + 4) - 1) * √((List.zipWith (fun x y => (y - x) ^ 2) xs ys).sum : ℚ) := by
  have hu := u_pos f
  have hu8 := u_le hf
  have hD : (List.zipWith (fun x y : ℚ => (y - x) ^ 2) xs ys).sum = sqSum (List.zipWith (fun x y => y - x) xs ys) := by
    unfold sqSum; rw [List.map_zipWith]
  rw [hD] at hlo hg ⊢
  set ds := List.zipWith (fun x y => y - x) xs ys with hds
  have e4 : (0 : ℚ) < 2 ^ f.emin := by positivity
  have D0 : 0 < sqSum ds := pos_of_lo (f := f) (by linarith)
  -- the differences
  have small : ∀ d ∈ ds, |rd f d| ≤ f.greatest ∨ ¬Mult f d := by
    intro d hd
    by_cases hm : Mult f d
    · left
      have h1 := err_mult f hm
      have h2 : |rd f d| ≤ (1 + f.u) * |d| := by
        have := abs_add_le d (rd f d - d)
        rw [add_sub_cancel] at this
        linarith
      have h3 : d ^ 2 ≤ sqSum ds :=
        List.single_le_sum (by simp only [List.mem_map]; rintro _ ⟨y, -, rfl⟩; positivity) _ (List.mem_map_of_mem hd)
      refine h2.trans ?_
      rcases le_or_gt |d| 1 with h | h
      · have : (1 + f.u) * |d| ≤ (1 + f.u) * 1 := mul_le_mul_of_nonneg_left h (by linarith)
        have := four_le hf
        linarith
      · have h4 : |d| ≤ d ^ 2 := by rw [← sq_abs]; nlinarith
        have h5 : (1 + f.u) ^ 1 ≤ (1 + f.u) ^ (n + 3) := pow_le_pow_right₀ (by linarith) (by omega)
        rw [pow_one] at h5
        exact (mul_le_mul h5 (h4.trans h3) (abs_nonneg d) (by positivity)).trans hg
    · right; exact hm
  obtain ⟨diff, d1, d2⟩ := construct_parts (fun a b => some (Op.sub.eval f a b)) (Op.sub.eval f · ·) w v (fun _ _ => rfl)
  have sub_value : ∀ {x y : Number} {X Y : ℚ}, value x = some X → value y = some Y → value (y.sub x) = some (Y - X) := by
    intro x y X Y hx hy
    have : value x.negate = some (-X) := by
      cases x with
      | nan => simp [value] at hx
      | inf s => simp [value] at hx
      | fin s a =>
        simp only [value, Option.some.injEq, Number.negate] at hx ⊢
        rw [← hx]
        cases s <;> simp [signed]
    rw [sub_eq_add_neg]
    exact value_add hy this
  have mult : ∀ (l m : List Number) (xs ys : List ℚ), l.map value = xs.map some → m.map value = ys.map some → (∀ x ∈ l, f.Has x) → (∀ x ∈ m, f.Has x) →
      (∀ d ∈ List.zipWith (fun x y => y - x) xs ys, |rd f d| ≤ f.greatest ∨ ¬Mult f d) →
      (List.zipWith (Op.sub.eval f · ·) m l).map value = ((List.zipWith (fun x y => y - x) xs ys).map (rd f)).map some ∧
      (1 - f.u) ^ 2 * sqSum (List.zipWith (fun x y => y - x) xs ys) ≤ sqSum ((List.zipWith (fun x y => y - x) xs ys).map (rd f)) ∧
      sqSum ((List.zipWith (fun x y => y - x) xs ys).map (rd f)) ≤ (1 + f.u) ^ 2 * sqSum (List.zipWith (fun x y => y - x) xs ys) := by
    intro l
    induction l with
    | nil => intro m xs ys h; cases xs with
      | nil => intros; simp [sqSum]
      | cons _ _ => simp at h
    | cons a l ih =>
      intro m xs ys h1 h2 f1 f2 hs
      cases xs with
      | nil => simp at h1
      | cons x xs =>
        cases m with
        | nil => cases ys with
          | nil => simp [sqSum]
          | cons _ _ => simp at h2
        | cons b m =>
          cases ys with
          | nil => simp at h2
          | cons y ys =>
            simp only [List.map_cons, List.cons.injEq] at h1 h2
            simp only [List.zipWith_cons_cons, List.mem_cons, forall_eq_or_imp] at hs
            obtain ⟨i1, i2, i3⟩ := ih m xs ys h1.2 h2.2 (fun x hx => f1 x (by simp [hx])) (fun x hx => f2 x (by simp [hx])) hs.2
            have mm : Mult f (y - x) := by
              rw [sub_eq_add_neg]
              refine mult_add f (has_mult f (f2 b (by simp)) h2.1) ?_
              obtain ⟨k, hk⟩ := has_mult f (f1 a (by simp)) h1.1
              exact ⟨-k, by rw [hk]; push_cast; ring⟩
            have er := err_mult f mm
            have e1 : ∀ (y : ℚ) (l : List ℚ), sqSum (y :: l) = y ^ 2 + sqSum l := fun _ _ => rfl
            simp only [List.zipWith_cons_cons, List.map_cons, e1]
            set d := y - x
            have a1 : |rd f d| ≤ (1 + f.u) * |d| := by
              have := abs_add_le d (rd f d - d)
              rw [add_sub_cancel] at this
              linarith
            have a2 : (1 - f.u) * |d| ≤ |rd f d| := by
              have e := abs_sub_abs_le_abs_sub d (rd f d)
              have e2 : |d - rd f d| = |rd f d - d| := abs_sub_comm _ _
              linarith
            have a3 : (rd f d) ^ 2 ≤ (1 + f.u) ^ 2 * d ^ 2 := by
              rw [← sq_abs, ← sq_abs d, ← mul_pow]; exact pow_le_pow_left₀ (abs_nonneg _) a1 2
            have a4 : (1 - f.u) ^ 2 * d ^ 2 ≤ (rd f d) ^ 2 := by
              rw [← sq_abs d, ← sq_abs (rd f d), ← mul_pow]; exact pow_le_pow_left₀ (mul_nonneg (by linarith) (abs_nonneg _)) a2 2
            refine ⟨?_, by linarith, by linarith⟩
            simp only [List.cons.injEq]
            exact ⟨value_round f (sub_value h1.1 h2.1) (hs.1.resolve_right (not_not.2 mm)), i1⟩
  obtain ⟨m1, m2, m3⟩ := mult _ _ xs ys hv hw fv fw small
  rw [← hds] at m1 m2 m3
  rw [← d2] at m1
  set es := ds.map (rd f) with hes
  have g0 : 1 ≤ (1 + f.u) ^ (n + 1) := one_le f _
  have gg : (1 + f.u) ^ (n + 3) = (1 + f.u) ^ (n + 1) * (1 + f.u) ^ 2 := by ring
  have k2 : 1 ≤ (1 + f.u) ^ 2 := one_le f 2
  obtain ⟨r, S, r1, r2, r3⟩ := lensq_rel f c hc diff es m1 hn (by
      have a1 : (7 / 8 : ℚ) ^ 2 ≤ (1 - f.u) ^ 2 := pow_le_pow_left₀ (by norm_num) (by linarith) 2
      have a2 : (7 / 8 : ℚ) ^ 2 * sqSum ds ≤ (1 - f.u) ^ 2 * sqSum ds := mul_le_mul_of_nonneg_right a1 D0.le
      have a3 : f.u * ((7 / 8 : ℚ) ^ 2 * sqSum ds) ≤ f.u * sqSum es := mul_le_mul_of_nonneg_left (a2.trans m2) hu.le
      linarith) (by
      refine le_trans ?_ hg
      rw [gg, mul_assoc]
      exact mul_le_mul_of_nonneg_left m3 (by positivity))
  have rel : |S - sqSum ds| ≤ ((1 + f.u) ^ (n + 3) - 1) * sqSum ds := by
    have t := abs_add_le (S - sqSum es) (sqSum es - sqSum ds)
    rw [sub_add_sub_cancel] at t
    have t2 : |sqSum es - sqSum ds| ≤ ((1 + f.u) ^ 2 - 1) * sqSum ds := by
      rw [abs_le]
      constructor
      · have : (1 - f.u) ^ 2 + (1 + f.u) ^ 2 = 2 + 2 * f.u ^ 2 := by ring
        have : 0 ≤ 2 * f.u ^ 2 * sqSum ds := by positivity
        linarith
      · linarith
    have t3 : ((1 + f.u) ^ (n + 1) - 1) * sqSum es ≤ ((1 + f.u) ^ (n + 1) - 1) * ((1 + f.u) ^ 2 * sqSum ds) := mul_le_mul_of_nonneg_left m3 (by linarith)
    rw [gg]
    linarith
  have S0 := pos_of_rel D0 hk rel
  refine ⟨.fin false (root f.p S), root f.p S, ?_, by simp [value, signed], root_rel f D0 S0 rel⟩
  unfold distance distanceSquared binary
  rw [d1, Option.bind_some, r1, Option.map_some, sqrt_value f r2 S0]

example : distance binary32 (.two false false) (.two (num 1) (num 2)) (.two (num 4) (num (-2))) = some (num 5) ∧
    distance binary32 (.one false) (.one (num 1)) (.one (num (-2))) = some (num 3) := by decide +kernel

/-- Normalizing a vector of two or more dimensions multiplies its components by one number, rounding each product once, and the square of that number is the reciprocal of the squared
length but for a relative error of a few units of round-off, if the squared length is not too large or small. -/
theorem C150_normalize_partial (f : Format) (hf : Usual f) {n : ℕ} (h1 : n ≠ 1) (c : Store Bool n) (hc : Contraction c) (v : Store Number n) (xs : List ℚ)
    (hv : (parts v).map value = xs.map some) (hn : n * f.u ≤ 1) (hk : (1 + f.u) ^ (n + 1) ≤ 3 / 2)
    (hlo : 2 ^ f.emin ≤ f.u * (xs.map (· ^ 2)).sum) (hg : (1 + f.u) ^ (n + 1) * (xs.map (· ^ 2)).sum ≤ f.greatest) :
    ∃ out w, Model.FloatLength.normalize f c v = some out ∧ 0 < w ∧ (parts out).map value = (xs.map fun x => some (rounded f.p f.emin (x * w))) ∧
      (1 - f.u) ^ 2 / (1 + f.u) ^ (n + 3) ≤ w ^ 2 * (xs.map (· ^ 2)).sum ∧
      w ^ 2 * (xs.map (· ^ 2)).sum ≤ (1 + f.u) ^ 2 / ((1 - f.u) ^ 2 * (2 - (1 + f.u) ^ (n + 1))) := by
  rw [sq_eq] at *
  have hu := u_pos f
  have hu8 := u_le hf
  obtain ⟨r, S, r1, r2, r3⟩ := lensq_rel f c hc v xs hv hn hlo hg
  have hQ := pos_of_lo hlo
  have S0 := pos_of_rel hQ (by linarith) r3
  obtain ⟨w, w0, w1, w2, w3⟩ := factor hf hk hlo hg r3
  have w4 : w ^ 2 * sqSum xs ≤ 4 := by
    refine w3.trans ?_
    have d0 : 0 < (1 - f.u) ^ 2 * (2 - (1 + f.u) ^ (n + 1)) := mul_pos (pow_pos (by linarith) 2) (by linarith)
    rw [div_le_iff₀ d0]
    have b1 : (1 + f.u) ^ 2 ≤ (9 / 8) ^ 2 := pow_le_pow_left₀ (by linarith) (by linarith) 2
    have b2 : (7 / 8 : ℚ) ^ 2 ≤ (1 - f.u) ^ 2 := pow_le_pow_left₀ (by norm_num) (by linarith) 2
    have b3 : (7 / 8 : ℚ) ^ 2 * (1 / 2) ≤ (1 - f.u) ^ 2 * (2 - (1 + f.u) ^ (n + 1)) := mul_le_mul b2 (by linarith) (by norm_num) (by positivity)
    norm_num at b1 b3
    linarith
  obtain ⟨out, o1, o2⟩ := scaled hf v xs hv w1 w4
  refine ⟨out, w, ?_, w0, ?_, w2, w3⟩
  · unfold Model.FloatLength.normalize length
    rw [if_neg h1, if_neg h1, r1, Option.map_some, sqrt_value f r2 S0, Option.bind_some, o1]
  · rw [o2, List.map_map]; rfl

example : (Model.FloatLength.normalize binary32 (.two false true) (.two (num 3) (num (-4)))).map parts =
    some [num (rounded 24 (-126) (3 * rounded 24 (-126) (1 / 5))), num (rounded 24 (-126) (-4 * rounded 24 (-126) (1 / 5)))] := by decide +kernel

/-- **Violated**: short vectors of floats normalize to infinities and NaN, long ones to zero; in one dimension all normalize to one. -/
theorem C150_normalize_violated :
    (Model.FloatLength.normalize binary32 (.two false false) (.two (num (2 ^ (-76 : ℤ))) (num 0))).map parts = some [.inf false, .nan] ∧
    (Model.FloatLength.normalize binary32 (.two false false) (.two (num (2 ^ 64)) (num 0))).map parts = some [num 0, num 0] ∧
    (Model.FloatLength.normalize binary32 (.one false) (.one (num (-3)))).map parts = some [num 1] := by decide +kernel

theorem epsilon32 : value (epsilon binary32) = some (8796093 / 2 ^ 43) := by decide +kernel
theorem epsilon64 : value (epsilon binary64) = some (7737125245533627 / 2 ^ 86) := by decide +kernel

/-- What has been multiplied by such a factor has a squared length that is near enough to one. -/
theorem accepted_core {f : Format} (hf : Usual f) {n : ℕ} (xs : List ℚ) (hlen : xs.length = n) (hk : (1 + f.u) ^ (n + 1) ≤ 3 / 2) {w : ℚ}
    (w2 : (1 - f.u) ^ 2 / (1 + f.u) ^ (n + 3) ≤ w ^ 2 * sqSum xs)
    (w3 : w ^ 2 * sqSum xs ≤ (1 + f.u) ^ 2 / ((1 - f.u) ^ 2 * (2 - (1 + f.u) ^ (n + 1))))
    {E : ℚ} (hE : value (epsilon f) = some E) (E1 : (1 + f.u) * E ≤ 1 / 8)
    (hhi : (1 + f.u) * ((1 + f.u) ^ (n + 1) * ((1 + f.u) ^ 4 / ((1 - f.u) ^ 2 * (2 - (1 + f.u) ^ (n + 1))) + 6 * n * f.tiny) - 1) + f.tiny < E)
    (hlw : (1 + f.u) * (1 - (2 - (1 + f.u) ^ (n + 1)) * ((1 - 2 * f.u - f.u ^ 2) * ((1 - f.u) ^ 2 / (1 + f.u) ^ (n + 3)) - 6 * n * f.tiny)) + f.tiny < E) :
    2 ^ f.emin ≤ f.u * sqSum (xs.map fun x => rd f (x * w)) ∧ (1 + f.u) ^ (n + 1) * sqSum (xs.map fun x => rd f (x * w)) ≤ f.greatest ∧
    ∀ r S, value r = some S → |S - sqSum (xs.map fun x => rd f (x * w))| ≤ ((1 + f.u) ^ (n + 1) - 1) * sqSum (xs.map fun x => rd f (x * w)) →
      Model.Kahan.less (Model.Kahan.abs (Op.sub.eval f (.fin false 1) r)) (epsilon f) = true := by
  have hu := u_pos f
  have hu8 := u_le hf
  have ht := tiny_pos f
  have g1 : 1 ≤ (1 + f.u) ^ (n + 1) := one_le f _
  set T := w ^ 2 * sqSum xs with hT
  have T0 : 0 ≤ T := mul_nonneg (sq_nonneg w) (sqSum_nonneg xs)
  have T4 : T ≤ 4 := by
    refine w3.trans ?_
    have d0 : 0 < (1 - f.u) ^ 2 * (2 - (1 + f.u) ^ (n + 1)) := mul_pos (pow_pos (by linarith) 2) (by linarith)
    rw [div_le_iff₀ d0]
    have b1 : (1 + f.u) ^ 2 ≤ (9 / 8) ^ 2 := pow_le_pow_left₀ (by linarith) (by linarith) 2
    have b2 : (7 / 8 : ℚ) ^ 2 ≤ (1 - f.u) ^ 2 := pow_le_pow_left₀ (by norm_num) (by linarith) 2
    have b3 : (7 / 8 : ℚ) ^ 2 * (1 / 2) ≤ (1 - f.u) ^ 2 * (2 - (1 + f.u) ^ (n + 1)) := mul_le_mul b2 (by linarith) (by norm_num) (by positivity)
    norm_num at b1 b3
    linarith
  have sc := scaled_sq hf xs (w := w) T4
  rw [← hT, hlen] at sc
  set ys := xs.map fun x => rd f (x * w) with hys
  set g := (1 + f.u) ^ (n + 1) with hg'
  clear_value g
  set H := (1 + f.u) ^ 4 / ((1 - f.u) ^ 2 * (2 - g)) + 6 * n * f.tiny with hH
  set L := (1 - 2 * f.u - f.u ^ 2) * ((1 - f.u) ^ 2 / (1 + f.u) ^ (n + 3)) - 6 * n * f.tiny with hL
  have uu : f.u ^ 2 ≤ 1 / 64 := by nlinarith
  have Y1 : sqSum ys ≤ H := by
    have a1 := (abs_le.1 sc).2
    have a2 : (1 + f.u) ^ 2 * T ≤ (1 + f.u) ^ 2 * ((1 + f.u) ^ 2 / ((1 - f.u) ^ 2 * (2 - g))) := mul_le_mul_of_nonneg_left w3 (by positivity)
    have a3 : (1 + f.u) ^ 2 * ((1 + f.u) ^ 2 / ((1 - f.u) ^ 2 * (2 - g))) = (1 + f.u) ^ 4 / ((1 - f.u) ^ 2 * (2 - g)) := by ring
    rw [hH]
    linarith
  have Y2 : L ≤ sqSum ys := by
    have a1 := (abs_le.1 sc).1
    have a2 : (1 - 2 * f.u - f.u ^ 2) * ((1 - f.u) ^ 2 / (1 + f.u) ^ (n + 3)) ≤ (1 - 2 * f.u - f.u ^ 2) * T := mul_le_mul_of_nonneg_left w2 (by linarith)
    rw [hL]
    linarith
  clear_value H L
  have l1 : 7 / 8 ≤ (2 - g) * L := by
    by_contra h
    have : 1 * (1 / 8) ≤ (1 + f.u) * (1 - (2 - g) * L) := mul_le_mul (by linarith) (by linarith) (by norm_num) (by linarith)
    have : 1 * E ≤ (1 + f.u) * E := mul_le_mul_of_nonneg_right (by linarith) (by linarith)
    linarith
  have l2 : 7 / 8 ≤ L := by
    have : 0 < L := by
      by_contra h
      have : (2 - g) * L ≤ 0 := mul_nonpos_of_nonneg_of_nonpos (by linarith) (not_lt.1 h)
      linarith
    have : (2 - g) * L ≤ 1 * L := mul_le_mul_of_nonneg_right (by linarith) this.le
    linarith
  have l3 : g * H ≤ 9 / 8 := by
    by_contra h
    have : 1 * (1 / 8) ≤ (1 + f.u) * (g * H - 1) := mul_le_mul (by linarith) (by linarith) (by norm_num) (by linarith)
    have : 1 * E ≤ (1 + f.u) * E := mul_le_mul_of_nonneg_right (by linarith) (by linarith)
    linarith
  have gY : g * sqSum ys ≤ g * H := mul_le_mul_of_nonneg_left Y1 (by linarith)
  have gL : (2 - g) * L ≤ (2 - g) * sqSum ys := mul_le_mul_of_nonneg_left Y2 (by linarith)
  refine ⟨?_, ?_, ?_⟩
  · have a1 : (2 : ℚ) ^ f.emin ≤ 2 ^ (-(f.p : ℤ) - 1) := zpow_le_zpow_right₀ (by norm_num) hf.least
    have a2 : (2 : ℚ) ^ (-(f.p : ℤ) - 1) = f.u * (1 / 2) := by
      unfold Format.u
      rw [zpow_sub₀ (by norm_num), zpow_neg, zpow_natCast]
      ring
    have a3 : f.u * (1 / 2) ≤ f.u * sqSum ys := mul_le_mul_of_nonneg_left (by linarith) hu.le
    linarith
  · have := four_le hf; linarith
  intro r S r2 r3
  obtain ⟨s1, s2⟩ := abs_le.1 r3
  have hz : value ((Number.fin false 1).sub r) = some (1 - S) := by
    have h1 : value r.negate = some (-S) := by
      cases r with
      | nan => simp [value] at r2
      | inf s => simp [value] at r2
      | fin s a =>
        simp only [value, Option.some.injEq, Number.negate] at r2 ⊢
        rw [← r2]
        cases s <;> simp [signed]
    rw [sub_eq_add_neg]
    exact value_add (by simp [value, signed]) h1
  have e1 := err f (1 - S)
  have e2 : |rd f (1 - S)| ≤ (1 + f.u) * |1 - S| + f.tiny := by
    have := abs_add_le (1 - S) (rd f (1 - S) - (1 - S))
    rw [add_sub_cancel] at this
    linarith
  have e3 : (1 + f.u) * |1 - S| + f.tiny < E := by
    rcases abs_cases (1 - S) with ⟨h, -⟩ | ⟨h, -⟩ <;> rw [h]
    · refine lt_of_le_of_lt (add_le_add_left (mul_le_mul_of_nonneg_left ?_ (by linarith)) _) hlw
      linarith
    · refine lt_of_le_of_lt (add_le_add_left (mul_le_mul_of_nonneg_left ?_ (by linarith)) _) hhi
      linarith
  have e4 : value (Op.sub.eval f (.fin false 1) r) = some (rd f (1 - S)) := by
    refine value_round f hz ?_
    have : 1 * E ≤ (1 + f.u) * E := mul_le_mul_of_nonneg_right (by linarith) (by have := abs_nonneg (rd f (1 - S)); linarith)
    have := four_le hf
    linarith
  exact abs_less e4 hE (by linarith)

/-- What has been normalized is recognized as normalized. -/
theorem accepted {f : Format} (hf : Usual f) {n : ℕ} (c c' : Store Bool n) (hc : Contraction c) (hc' : Contraction c')
    (v : Store Number n) (xs : List ℚ) (h1 : n ≠ 1) (hv : (parts v).map value = xs.map some) (hn : n * f.u ≤ 1) (hk : (1 + f.u) ^ (n + 1) ≤ 3 / 2)
    (hlo : 2 ^ f.emin ≤ f.u * (xs.map (· ^ 2)).sum) (hg : (1 + f.u) ^ (n + 1) * (xs.map (· ^ 2)).sum ≤ f.greatest)
    {E : ℚ} (hE : value (epsilon f) = some E) (E1 : (1 + f.u) * E ≤ 1 / 8)
    (hhi : (1 + f.u) * ((1 + f.u) ^ (n + 1) * ((1 + f.u) ^ 4 / ((1 - f.u) ^ 2 * (2 - (1 + f.u) ^ (n + 1))) + 6 * n * f.tiny) - 1) + f.tiny < E)
    (hlw : (1 + f.u) * (1 - (2 - (1 + f.u) ^ (n + 1)) * ((1 - 2 * f.u - f.u ^ 2) * ((1 - f.u) ^ 2 / (1 + f.u) ^ (n + 3)) - 6 * n * f.tiny)) + f.tiny < E) :
    ∃ out, Model.FloatLength.normalize f c v = some out ∧ normalized f c' out = some true := by
  obtain ⟨out, w, o1, w0, o2, w2, w3⟩ := C150_normalize_partial f hf h1 c hc v xs hv hn hk hlo hg
  rw [sq_eq] at *
  have hlen : xs.length = n := by
    have := congrArg List.length hv
    rw [List.length_map, List.length_map, parts_length] at this
    exact this.symm
  obtain ⟨l1, l2, l3⟩ := accepted_core hf xs hlen hk w2 w3 hE E1 hhi hlw
  obtain ⟨r, S, r1, r2, r3⟩ := lensq_rel f c' hc' out _ (by rw [o2, List.map_map]; rfl) hn l1 l2
  refine ⟨out, o1, ?_⟩
  unfold normalized
  rw [r1, Option.map_some, l3 r S r2 r3]

/-- What has been normalized is recognized as normalized: vectors of up to four dimensions of floats and doubles, whatever products and additions the compiler contracts. -/
theorem C150_normalized {n : ℕ} (h1 : n ≠ 1) (h4 : n ≤ 4) (f : Format) (hf : f = binary32 ∨ f = binary64) (c c' : Store Bool n) (hc : Contraction c)
    (hc' : Contraction c') (v : Store Number n) (xs : List ℚ) (hv : (parts v).map value = xs.map some)
    (hlo : 2 ^ f.emin ≤ f.u * (xs.map (· ^ 2)).sum) (hg : (1 + f.u) ^ (n + 1) * (xs.map (· ^ 2)).sum ≤ f.greatest) :
    ∃ out, Model.FloatLength.normalize f c v = some out ∧ normalized f c' out = some true := by
  have hp := pos v
  rcases hf with rfl | rfl
  · interval_cases n
    · exact absurd rfl h1
    all_goals
      exact accepted usual32 c c' hc hc' v xs (by decide) hv (by decide +kernel) (by decide +kernel) hlo hg epsilon32 (by decide +kernel) (by decide +kernel)
        (by decide +kernel)
  · interval_cases n
    · exact absurd rfl h1
    all_goals
      exact accepted usual64 c c' hc hc' v xs (by decide) hv (by decide +kernel) (by decide +kernel) hlo hg epsilon64 (by decide +kernel) (by decide +kernel)
        (by decide +kernel)

example : ∃ out, Model.FloatLength.normalize binary32 (.three false true false) (.three (num 1) (num (-2)) (num 7)) = some out ∧
    normalized binary32 (.three true false false) out = some true :=
  C150_normalized (by decide) (by decide) binary32 (.inl rfl) _ _ (by simp [Contraction, parts]) (by simp [Contraction, parts]) _ [1, -2, 7] (by decide +kernel)
    (by decide +kernel) (by decide +kernel)

/-- The tolerance of `normalized`: a millionth for floats, a ten-billionth for doubles. -/
theorem tolerance {f : Format} {tol : ℚ} (hf : f = binary32 ∧ tol = 1 / 10 ^ 6 ∨ f = binary64 ∧ tol = 1 / 10 ^ 10) :
    ∃ E, value (epsilon f) = some E ∧ E ≤ (1 + f.u) * tol ∧ (1 - f.u) * tol ≤ E ∧ E ≤ f.greatest ∧ f.Has (epsilon f) ∧ 1 ≤ f.p := by
  rcases hf with ⟨rfl, rfl⟩ | ⟨rfl, rfl⟩
  · exact ⟨_, epsilon32, by decide +kernel, by decide +kernel, by decide +kernel,
      by
        rw [show epsilon binary32 = .fin false (8796093 / 2 ^ 43) by decide +kernel]
        exact ⟨⟨8796093, -43, by decide, by decide, by norm_num [zpow_neg]⟩, by decide +kernel⟩, by decide⟩
  · exact ⟨_, epsilon64, by decide +kernel, by decide +kernel, by decide +kernel,
      by
        rw [show epsilon binary64 = .fin false (7737125245533627 / 2 ^ 86) by decide +kernel]
        exact ⟨⟨7737125245533627, -86, by decide, by decide, by norm_num [zpow_neg]⟩, by decide +kernel⟩, by decide⟩

/-- What is reported as normalized is nearly so: the square of its length differs from one by less than the tolerance and the rounding errors. -/
theorem C150_normalized_sound {n : ℕ} (f : Format) (tol : ℚ) (hf : f = binary32 ∧ tol = 1 / 10 ^ 6 ∨ f = binary64 ∧ tol = 1 / 10 ^ 10)
    (c : Store Bool n) (hc : Contraction c) (v : Store Number n) (xs : List ℚ) (hv : (parts v).map value = xs.map some)
    (hg : (1 + f.u) ^ n * (xs.map (· ^ 2)).sum + n * f.tiny * (1 + f.u) ^ (n - 1) ≤ f.greatest) (h : normalized f c v = some true) :
    |(xs.map (· ^ 2)).sum - 1| < (1 + f.u) * tol + ((1 + f.u) ^ n - 1) * (xs.map (· ^ 2)).sum + n * f.tiny * (1 + f.u) ^ (n - 1) := by
  obtain ⟨E, e1, e2, -, -, e4, e5⟩ := tolerance hf
  obtain ⟨r, z, r1, r2, r3⟩ := C148_length_squared f c hc v xs hv hg
  unfold normalized at h
  rw [r1, Option.map_some, Option.some.injEq] at h
  have h' : Verif.Proofs.Approx.test f (epsilon f) r (.fin false 1) = true := h
  obtain ⟨X, Y, x1, y1, h2⟩ := Verif.Proofs.Approx.test_sound e5 e4 h'
  rw [r2, Option.some.injEq] at x1
  simp only [value, signed, Option.some.injEq, Bool.false_eq_true, if_false] at y1
  subst x1 y1
  rcases h2 with h2 | ⟨E', e6, h2⟩
  · rw [h2] at e1; simp [value] at e1
  · rw [e1, Option.some.injEq] at e6
    subst e6
    have := abs_sub_le (xs.map (· ^ 2)).sum z 1
    rw [abs_sub_comm _ z, abs_sub_comm z 1] at this
    linarith

/-- What is normalized well enough is reported as normalized. -/
theorem C150_normalized_complete {n : ℕ} (f : Format) (tol : ℚ) (hf : f = binary32 ∧ tol = 1 / 10 ^ 6 ∨ f = binary64 ∧ tol = 1 / 10 ^ 10)
    (c : Store Bool n) (hc : Contraction c) (v : Store Number n) (xs : List ℚ) (hv : (parts v).map value = xs.map some)
    (hg : (1 + f.u) ^ n * (xs.map (· ^ 2)).sum + n * f.tiny * (1 + f.u) ^ (n - 1) ≤ f.greatest)
    (h : (1 + f.u) * (|(xs.map (· ^ 2)).sum - 1| + ((1 + f.u) ^ n - 1) * (xs.map (· ^ 2)).sum + n * f.tiny * (1 + f.u) ^ (n - 1)) + f.tiny < (1 - f.u) * tol) :
    normalized f c v = some true := by
  obtain ⟨E, e1, -, e3, e4, -, -⟩ := tolerance hf
  obtain ⟨r, z, r1, r2, r3⟩ := C148_length_squared f c hc v xs hv hg
  have hu := u_pos f
  have h3 : |1 - z| ≤ |(xs.map (· ^ 2)).sum - 1| + ((1 + f.u) ^ n - 1) * (xs.map (· ^ 2)).sum + n * f.tiny * (1 + f.u) ^ (n - 1) := by
    have := abs_sub_le 1 (xs.map (· ^ 2)).sum z
    rw [abs_sub_comm 1 (xs.map (· ^ 2)).sum, abs_sub_comm (xs.map (· ^ 2)).sum z] at this
    linarith
  have h4 : (1 + f.u) * |1 - z| + f.tiny < E := by
    have := mul_le_mul_of_nonneg_left h3 (by linarith : 0 ≤ 1 + f.u)
    linarith
  have h5 : value (Number.sub (.fin false 1) r) = some (1 - z) := Verif.Proofs.Approx.value_sub (by rfl) r2
  have h6 : |rd f (1 - z)| ≤ (1 + f.u) * |1 - z| + f.tiny := by
    have e := err f (1 - z)
    have := abs_add_le (1 - z) (rd f (1 - z) - (1 - z))
    rw [add_sub_cancel] at this
    linarith
  unfold normalized
  rw [r1, Option.map_some]
  exact congrArg some (abs_less (value_round f h5 (by linarith)) e1 (by linarith))

example : normalized binary32 (.two true false) (.two (num (3 / 4)) (num (-1 / 2))) = some false ∧
    normalized binary64 (.two true false) (.two (num 0) (num (-1))) = some true :=
  ⟨by decide +kernel, C150_normalized_complete binary64 _ (.inr ⟨rfl, rfl⟩) _ (by simp [Contraction, parts]) _ [0, -1] (by decide +kernel)
    (by decide +kernel) (by decide +kernel)⟩

example : |(([1 - 1 / 2 ^ 24, 0].map (· ^ 2)).sum : ℚ) - 1| <
    (1 + binary32.u) * (1 / 10 ^ 6) + ((1 + binary32.u) ^ 2 - 1) * (([1 - 1 / 2 ^ 24, 0].map (· ^ 2)).sum : ℚ) + (2 : ℕ) * binary32.tiny * (1 + binary32.u) ^ (2 - 1) :=
  C150_normalized_sound binary32 _ (.inl ⟨rfl, rfl⟩) (.two true false) (by simp [Contraction, parts]) (.two (num (1 - 1 / 2 ^ 24)) (num 0)) [1 - 1 / 2 ^ 24, 0]
    (by decide +kernel) (by decide +kernel) (by decide +kernel)

end Verif.Props.FloatLength
