import Verif.Proofs.FloatVector

/-! # C147 and C148: arithmetic of vectors of floating-point numbers -/

namespace Verif.Props.FloatVector

open Verif.Spec.Parts Verif.Spec.IeeeArith Verif.Spec.FloatFormat Verif.Model.VectorStore Verif.Model.FloatVector Verif.Proofs.VectorStore
  Verif.Proofs.IntVector Verif.Proofs.FloatVector

/-- The operation as if with unbounded precision. -/
def exact : Op → Number → Number → Number
  | .add => Number.add
  | .sub => Number.sub
  | .mul => Number.mul
  | .div => Number.div

/-- A rational number, for examples. -/
def num (q : ℚ) : Number := .fin (decide (q < 0)) |q|

/-- Adding, subtracting, multiplying and dividing two vectors: each component of the result is the exact result for the components of the
operands, rounded once, with infinities, NaN and signed zeros as IEEE 754 has them. Compound assignment gives the same, also if a vector is
assigned to from itself. -/
theorem C147_componentwise (f : Format) (o : Op) {n : ℕ} (v w : Store Number n) :
    ∃ r, binary o f v w = some r ∧ parts r = List.zipWith (fun a b => f.round (exact o a b)) (parts v) (parts w) ∧
      binaryAssign o f v (.other w) = some r ∧ (w = v → binaryAssign o f v .itself = some r) := by
  obtain ⟨r, h1, h2⟩ := construct_parts (fun a b => some (o.eval f a b)) (fun a b => f.round (exact o a b)) v w
    (fun p _ => by cases o <;> rfl)
  exact ⟨r, h1, h2, assign_eq _ v w r _ (Or.inl rfl) h1, fun e => assign_eq _ v w r _ (Or.inr ⟨rfl, e⟩) h1⟩

example : (binary .div binary32 (.three (num 1) (num 0) (num (-6))) (.three (num 0) (num 0) (num 4))).map parts =
    some [.inf false, .nan, num (-3 / 2)] := by decide +kernel

/-- A vector times a number, and the opposite of a vector. -/
theorem C147_scale (f : Format) {n : ℕ} (v : Store Number n) (k : Number) :
    (∃ r, scale f v k = some r ∧ parts r = (parts v).map (fun a => f.round (a.mul k)) ∧ scaleAssign f v k = some r) ∧
    (∃ r, negate v = some r ∧ parts r = (parts v).map Number.negate) := by
  obtain ⟨r, h1, h2⟩ := construct1_parts (fun a => some (Op.mul.eval f a k)) (fun a => f.round (a.mul k)) v (fun _ _ => rfl)
  obtain ⟨s, h3, h4⟩ := assign1_parts (fun a => some (Op.mul.eval f a k)) (fun a => f.round (a.mul k)) v (fun _ _ => rfl)
  refine ⟨⟨r, h1, h2, ?_⟩, construct1_parts _ _ v (fun _ _ => rfl)⟩
  rw [parts_inj (h2.trans h4.symm)]
  exact h3

example : (scale binary32 (.two (num 3) (.inf true)) (num (1 / 2))).map parts = some [num (3 / 2), .inf true] ∧
    (negate (.two (num 3) (num 0))).map parts = some [num (-3), .fin true 0] := by decide +kernel

theorem divide_parts (f : Format) {n : ℕ} (v : Store Number n) (k : Number) :
    ∃ r, divide f v k = some r ∧ parts r = (parts v).map (fun a => f.round (a.mul (f.round ((Number.fin false 1).div k)))) ∧
      divideAssign f v k = some r := (C147_scale f v _).1

/-- A vector divided by a number: `q` is close to the exact quotient, by about one unit in the last place (twice the unit round-off, and half of
the least number if it underflows), if the divisor's reciprocal is neither subnormal nor too great and the quotient is not too great. A
correctly rounded quotient would be closer: see `C147_divide_violated`. -/
theorem C147_divide_partial (f : Format) {n : ℕ} (v : Store Number n) (k : Number) (xs : List ℚ) (K : ℚ)
    (hv : (parts v).map value = xs.map some) (hk : value k = some K) (hK : K ≠ 0) (hn : 2 ^ f.emin ≤ |1 / K|)
    (hr : (1 + f.u) * |1 / K| ≤ f.greatest) (hg : ∀ x ∈ xs, (1 + f.u) ^ 2 * |x / K| + f.tiny ≤ f.greatest) :
    ∃ r ys, divide f v k = some r ∧ divideAssign f v k = some r ∧ (parts r).map value = ys.map some ∧
      List.Forall₂ (fun x y => |y - x / K| ≤ (2 * f.u + f.u ^ 2) * |x / K| + f.tiny) xs ys := by
  obtain ⟨r, h1, h2, h3⟩ := divide_parts f v k
  have hu := u_pos f
  set R := rd f (1 / K) with hR
  have eR : |R - 1 / K| ≤ f.u * |1 / K| := err_normal f hn
  have bR : |R| ≤ (1 + f.u) * |1 / K| := by
    have := abs_add_le (R - 1 / K) (1 / K)
    rw [sub_add_cancel] at this
    linarith
  have vR : value (f.round ((Number.fin false 1).div k)) = some R :=
    value_round f (value_div (X := 1) rfl hk hK) (bR.trans hr)
  refine ⟨r, xs.map fun x => rd f (x * R), h1, h3, ?_, ?_⟩
  · rw [h2]
    clear h1 h2 h3
    generalize parts v = l at hv
    induction xs generalizing l with
    | nil => cases l <;> simp_all
    | cons x xs ih =>
      cases l with
      | nil => simp at hv
      | cons a l =>
        simp only [List.map_cons, List.cons.injEq] at hv ⊢
        refine ⟨value_round f (value_mul hv.1 vR) ?_, ih (fun x hx => hg x (by simp [hx])) l hv.2⟩
        have e := err f (x * R)
        have h := abs_add_le (rd f (x * R) - x * R) (x * R)
        rw [sub_add_cancel] at h
        have hx : |x * R| ≤ (1 + f.u) * |x / K| := by
          rw [abs_mul, div_eq_mul_one_div, abs_mul x]
          calc |x| * |R| ≤ |x| * ((1 + f.u) * |1 / K|) := mul_le_mul_of_nonneg_left bR (abs_nonneg x)
            _ = _ := by ring
        have := hg x (by simp)
        nlinarith
  · rw [List.forall₂_map_right_iff, List.forall₂_same]
    intro x _
    have e := err f (x * R)
    have hx : |x * R - x / K| ≤ f.u * |x / K| := by
      rw [div_eq_mul_one_div, ← mul_sub, abs_mul, abs_mul x]
      calc |x| * |R - 1 / K| ≤ |x| * (f.u * |1 / K|) := mul_le_mul_of_nonneg_left eR (abs_nonneg x)
        _ = _ := by ring
    have hx2 : |x * R| ≤ |x / K| + f.u * |x / K| := by
      have := abs_add_le (x * R - x / K) (x / K)
      rw [sub_add_cancel] at this
      linarith
    have h := abs_add_le (rd f (x * R) - x * R) (x * R - x / K)
    rw [sub_add_sub_cancel] at h
    nlinarith

example : ∃ r ys, divide binary32 (.two (num 5) (num (-6))) (num 3) = some r ∧ divideAssign binary32 (.two (num 5) (num (-6))) (num 3) = some r ∧
    (parts r).map value = ys.map some ∧
    List.Forall₂ (fun x y => |y - x / 3| ≤ (2 * binary32.u + binary32.u ^ 2) * |x / 3| + binary32.tiny) [5, -6] ys := by
  refine C147_divide_partial binary32 _ (num 3) [5, -6] 3 (by decide +kernel) (by decide +kernel) (by norm_num) ?_ ?_ ?_ <;> decide +kernel

/-- Division by a power of two whose reciprocal is a number of the format is division, rounded once. -/
theorem C147_divide_power (f : Format) (hp : 1 ≤ f.p) {n : ℕ} (v : Store Number n) (s : Bool) (k : ℤ) (hk : f.emin - f.p + 1 ≤ -k)
    (hg : 2 ^ (-k) ≤ f.greatest) :
    ∃ r, divide f v (.fin s (2 ^ k)) = some r ∧ parts r = (parts v).map (fun a => f.round (a.div (.fin s (2 ^ k)))) := by
  obtain ⟨r, h1, h2, -⟩ := divide_parts f v (.fin s (2 ^ k))
  refine ⟨r, h1, h2.trans (List.map_congr_left fun a _ => ?_)⟩
  have h0 : (2 : ℚ) ^ k ≠ 0 := by positivity
  have hR : f.round ((Number.fin false 1).div (.fin s (2 ^ k))) = .fin s (2 ^ (-k)) := by
    have e : rd f (2 ^ (-k)) = 2 ^ (-k) := by
      have := rd_exact f hp 1 (-k) (by rw [abs_one]; exact one_le_pow₀ (by norm_num)) hk
      simpa using this
    unfold rd at e
    simp only [Number.div, if_neg h0, Format.round, Number.round]
    rw [one_div, ← zpow_neg, e, if_neg (not_lt.2 hg)]
    simp
  rw [hR]
  have hi : (2 : ℚ) ^ (-k) ≠ 0 := by positivity
  cases a with
  | nan => rfl
  | inf t => simp only [Number.mul, Number.div, if_neg hi]
  | fin t a => simp only [Number.mul, Number.div, if_neg h0]; rw [zpow_neg, div_eq_mul_inv]

example : (divide binary32 (.three (num 5) (num (-6)) (.inf true)) (num 4)).map parts = some [num (5 / 4), num (-3 / 2), .inf true] := by
  decide +kernel

/-- Dividing a vector by a number does not divide its components. With `float`, the first component of (5, 5) / 3 is not the `float` nearest to
five thirds, the one that dividing by the vector (3, 3) gives; a number divided by itself can be less than one; and if the
divisor is subnormal, a number divided by itself can be infinite, and zero divided by it NaN. -/
theorem C147_divide_violated :
    (∃ a b, (divide binary32 (.one (num 5)) (num 3)).map parts = some [a] ∧
      (binary .div binary32 (.one (num 5)) (.one (num 3))).map parts = some [b] ∧ a = num (13981014 / 2 ^ 23) ∧ b = num (13981013 / 2 ^ 23)) ∧
    (divide binary32 (.one (num binary32.greatest)) (num binary32.greatest)).map parts = some [num (1 - 1 / 2 ^ 24)] ∧
    (divide binary32 (.two (num (1 / 2 ^ 140)) (num 0)) (num (1 / 2 ^ 140))).map parts = some [.inf false, .nan] := by
  refine ⟨⟨_, _, ?_, ?_, rfl, rfl⟩, ?_, ?_⟩ <;> decide +kernel

/-- The sum of the components: its error is at most the sum of their magnitudes times `(1 + u) ^ (n - 1) - 1`, where `u` is the unit round-off, if
nothing overflows. -/
theorem C148_sum (f : Format) {n : ℕ} (v : Store Number n) (xs : List ℚ) (hv : (parts v).map value = xs.map some)
    (hf : ∀ x ∈ parts v, f.Has x) (hg : (1 + f.u) ^ (n - 1) * (xs.map abs).sum ≤ f.greatest) :
    ∃ r y, sum f v = some r ∧ value r = some y ∧ |y - xs.sum| ≤ ((1 + f.u) ^ (n - 1) - 1) * (xs.map abs).sum := by
  have hl := parts_length v
  have hn := pos v
  have hm : ∀ x ∈ parts v, ∀ X, value x = some X → Mult f X := fun x hx X hX => has_mult f (hf x hx) hX
  cases hp : parts v with
  | nil => rw [hp] at hl; simp at hl; omega
  | cons a l =>
    rw [hp] at hv hl hm
    cases xs with
    | nil => simp at hv
    | cons x xs =>
      simp only [List.map_cons, List.cons.injEq] at hv
      have hlen : xs.length = n - 1 := by
        have := congrArg List.length hv.2
        simp only [List.length_map] at this
        simp only [List.length_cons] at hl
        omega
      simp only [List.map_cons, List.sum_cons] at hg ⊢
      have hq : ∀ q ∈ xs, Mult f q := by
        intro q hq
        have h1 : some q ∈ l.map value := by rw [hv.2]; exact List.mem_map_of_mem hq
        obtain ⟨t, ht, e⟩ := List.mem_map.1 h1
        exact hm t (by simp [ht]) q e
      have := sum_err f l xs hv.2 hq a x x |x| 0 hv.1 (hm a (by simp) x hv.1) (by simp) le_rfl (by rw [Nat.zero_add, hlen]; exact hg)
      obtain ⟨y, hy, e⟩ := this
      refine ⟨_, y, ?_, hy, ?_⟩
      · unfold sum
        rw [accumulate_parts _ v a l hp]
        exact foldlM_some _ _ _
      · rw [Nat.zero_add, hlen] at e; exact e

example : ∃ r y, sum binary32 (.three (num 16777216) (num 1) (num (-3))) = some r ∧ value r = some y ∧
    |y - ([16777216, 1, -3] : List ℚ).sum| ≤ ((1 + binary32.u) ^ 2 - 1) * (([16777216, 1, -3] : List ℚ).map abs).sum := by
  refine C148_sum binary32 _ [16777216, 1, -3] (by decide +kernel) ?_ (by decide +kernel)
  intro x hx
  simp only [parts, List.mem_cons, List.not_mem_nil, or_false] at hx
  rcases hx with rfl | rfl | rfl
  · exact ⟨⟨1, 24, by norm_num [binary32], by norm_num [binary32], by norm_num⟩, by norm_num [binary32]⟩
  · exact ⟨⟨1, 0, by norm_num [binary32], by norm_num [binary32], by norm_num⟩, by norm_num [binary32]⟩
  · exact ⟨⟨3, 0, by norm_num [binary32], by norm_num [binary32], by norm_num⟩, by norm_num [binary32]⟩

theorem product_term (f : Format) (c : Bool) {a b : Number} {X Y : ℚ} (ha : value a = some X) (hb : value b = some Y)
    (hg : (1 + f.u) * |X * Y| + f.tiny ≤ f.greatest) :
    ∃ T, value (product f (a, b) c) = some T ∧ (c = true → T = X * Y) ∧ (c = false → |T - X * Y| ≤ f.u * |X * Y| + f.tiny ∧ Mult f T) := by
  unfold product
  cases c with
  | true => exact ⟨X * Y, value_mul ha hb, fun _ => rfl, by simp⟩
  | false =>
    refine ⟨rd f (X * Y), value_round f (value_mul ha hb) ?_, by simp, fun _ => ⟨err f _, rd_mult f _⟩⟩
    have e := err f (X * Y)
    have h := abs_add_le (rd f (X * Y) - X * Y) (X * Y)
    rw [sub_add_cancel] at h
    linarith

/-- The dot product: whichever products are contracted with additions, its error is at most the sum of the magnitudes of the products
times `(1 + u) ^ n - 1`, and, for underflow, half of the least number for each product, if nothing overflows. -/
theorem C148_dot (f : Format) {n : ℕ} (c : Store Bool n) (hc : Contraction c) (v w : Store Number n) (xs ys : List ℚ)
    (hv : (parts v).map value = xs.map some) (hw : (parts w).map value = ys.map some)
    (hg : (1 + f.u) ^ n * (List.zipWith (fun x y => |x * y|) xs ys).sum + n * f.tiny * (1 + f.u) ^ (n - 1) ≤ f.greatest) :
    ∃ r z, dot f c v w = some r ∧ value r = some z ∧
      |z - (List.zipWith (· * ·) xs ys).sum| ≤
        ((1 + f.u) ^ n - 1) * (List.zipWith (fun x y => |x * y|) xs ys).sum + n * f.tiny * (1 + f.u) ^ (n - 1) := by
  have hu := u_pos f
  have ht := tiny_pos f
  obtain ⟨pairs, p1, p2⟩ := construct_parts (fun a b => some (a, b)) (fun a b => (a, b)) v w (fun _ _ => rfl)
  obtain ⟨prods, q1, q2⟩ := construct_parts (fun p c => some (product f p c)) (product f) pairs c (fun _ _ => rfl)
  set qs : List ℚ := List.zipWith (· * ·) xs ys with hqs
  have habs : List.zipWith (fun x y => |x * y|) xs ys = qs.map abs := by rw [hqs, List.map_zipWith]
  rw [habs] at hg ⊢
  -- the terms
  have hterm : ∀ (l m : List Number) (cs : List Bool) (xs ys : List ℚ), l.map value = xs.map some → m.map value = ys.map some →
      cs.length = l.length → m.length = l.length → (∀ q ∈ List.zipWith (· * ·) xs ys, (1 + f.u) * |q| + f.tiny ≤ f.greatest) →
      List.Forall₂ (fun (tc : Number × Bool) q => ∃ T, value tc.1 = some T ∧ (tc.2 = true → T = q) ∧
        (tc.2 = false → |T - q| ≤ f.u * |q| + f.tiny ∧ Mult f T))
        (List.zipWith (fun p c => (product f p c, c)) (List.zipWith (fun a b => (a, b)) l m) cs) (List.zipWith (· * ·) xs ys) := by
    intro l
    induction l with
    | nil => intro m cs xs ys h1 h2 h3 h4 _; cases xs <;> simp_all
    | cons a l ih =>
      intro m cs xs ys h1 h2 h3 h4 h5
      cases m with
      | nil => simp at h4
      | cons b m =>
        cases cs with
        | nil => simp at h3
        | cons c cs =>
          cases xs with
          | nil => simp at h1
          | cons x xs =>
            cases ys with
            | nil => simp at h2
            | cons y ys =>
              simp only [List.map_cons, List.cons.injEq] at h1 h2
              simp only [List.zipWith_cons_cons, List.forall₂_cons]
              exact ⟨product_term f c h1.1 h2.1 (h5 _ (by simp)),
                ih m cs xs ys h1.2 h2.2 (by simpa using h3) (by simpa using h4) (fun q hq => h5 q (by simp [hq]))⟩
  have hn := pos v
  have hfit : ∀ q ∈ qs, (1 + f.u) * |q| + f.tiny ≤ f.greatest := by
    intro q hq
    refine le_trans ?_ hg
    have h1 : |q| ≤ (qs.map abs).sum :=
      List.single_le_sum (fun x hx => by obtain ⟨y, -, rfl⟩ := List.mem_map.1 hx; exact abs_nonneg y) _ (List.mem_map_of_mem hq)
    have h2 : (1 + f.u) ≤ (1 + f.u) ^ n := by
      calc 1 + f.u = (1 + f.u) ^ 1 := (pow_one _).symm
        _ ≤ _ := pow_le_pow_right₀ (by linarith) hn
    have h3 : (1 + f.u) * |q| ≤ (1 + f.u) ^ n * (qs.map abs).sum := mul_le_mul h2 h1 (abs_nonneg _) (by positivity)
    have h4 := one_le f (n - 1)
    have h5 : (1 : ℚ) ≤ n := by exact_mod_cast hn
    have h6 : f.tiny ≤ n * f.tiny := by nlinarith
    nlinarith
  have T := hterm (parts v) (parts w) (parts c) xs ys hv hw (by rw [parts_length, parts_length]) (by rw [parts_length, parts_length]) hfit
  rw [← p2] at T
  have hql : qs.length = n := by
    have h1 := congrArg List.length hv
    have h2 := congrArg List.length hw
    simp only [List.length_map, parts_length] at h1 h2
    rw [hqs, List.length_zipWith]; omega
  rw [← hqs] at T
  clear_value qs
  have hdot : ∀ a l, parts prods = a :: l → dot f c v w = some (l.foldl (fun a b => Op.add.eval f a b) a) := by
    intro a l h
    unfold dot
    rw [p1]
    simp only [Option.bind_eq_bind, Option.bind_some]
    rw [q1]
    simp only [Option.bind_some]
    rw [accumulate_parts _ prods a l h]
    exact foldlM_some _ _ _
  have lp := parts_length pairs
  have lc := parts_length c
  have weaken : ∀ (ps : List (Number × Number)) (cs : List Bool) (qs : List ℚ),
      List.Forall₂ (fun (tc : Number × Bool) q => ∃ T, value tc.1 = some T ∧ (tc.2 = true → T = q) ∧
        (tc.2 = false → |T - q| ≤ f.u * |q| + f.tiny ∧ Mult f T)) (List.zipWith (fun p c => (product f p c, c)) ps cs) qs →
      List.Forall₂ (Term f) (List.zipWith (product f) ps cs) qs := by
    intro ps cs qs h
    have e : List.zipWith (product f) ps cs = (List.zipWith (fun p c => (product f p c, c)) ps cs).map Prod.fst := by
      rw [List.map_zipWith]
    rw [e, List.forall₂_map_left_iff]
    refine h.imp ?_
    rintro ⟨t, c⟩ q ⟨T, h1, h2, h3⟩
    refine ⟨T, h1, ?_⟩
    cases c
    · exact Or.inr (h3 rfl)
    · exact Or.inl (h2 rfl)
  unfold Contraction at hc
  cases hps : parts pairs with
  | nil => rw [hps] at lp; simp at lp; omega
  | cons p0 ps =>
    cases hcs : parts c with
    | nil => rw [hcs] at lc; simp at lc; omega
    | cons c0 cs =>
      rw [hps, hcs] at T q2
      rw [hcs] at hc
      rw [hps] at lp
      rw [hcs] at lc
      cases qs with
      | nil => simp at hql; omega
      | cons r0 qs =>
        simp only [List.zipWith_cons_cons, List.forall₂_cons] at T q2
        obtain ⟨⟨T0, v0, x0, y0⟩, T⟩ := T
        simp only [List.length_cons] at hql lp lc
        simp only [List.map_cons, List.sum_cons] at hg ⊢
        cases hb : c0 with
        | false =>
          obtain ⟨e0, m0⟩ := y0 hb
          subst hb
          have := dot_err f _ _ (weaken ps cs qs T) _ T0 r0 |r0| 1 le_rfl v0 m0 (by unfold bound; simpa using e0) le_rfl (by
            rw [Nat.add_comm, hql]
            unfold bound
            linarith)
          obtain ⟨Y, hY, eY⟩ := this
          refine ⟨_, Y, hdot _ _ q2, hY, ?_⟩
          rw [Nat.add_comm, hql] at eY
          exact eY
        | true =>
          have e0 := x0 hb
          subst hb
          subst e0
          cases cs with
          | nil => simp at hc
          | cons c1 cs =>
            cases ps with
            | nil => simp at lp lc; omega
            | cons p1' ps =>
              cases qs with
              | nil => simp at hql lp lc; omega
              | cons r1 qs =>
                simp only [List.zipWith_cons_cons, List.forall₂_cons] at T q2
                obtain ⟨⟨T1, v1, -, y1⟩, T⟩ := T
                have c1f : c1 = false := by
                  cases c1
                  · rfl
                  · exact absurd ⟨rfl, rfl⟩ hc
                obtain ⟨e1, m1⟩ := y1 c1f
                simp only [List.length_cons] at hql
                simp only [List.map_cons, List.sum_cons] at hg ⊢
                have hr0 := abs_nonneg T0
                have hr1 := abs_nonneg r1
                have hrs := abs_sum_le qs
                have eb : |rd f (T0 + T1) - (T0 + r1)| ≤ bound f 2 (|T0| + |r1|) := by
                  have k1 := err f (T0 + T1)
                  have k2 := abs_add_le (rd f (T0 + T1) - (T0 + T1)) (T1 - r1)
                  rw [show rd f (T0 + T1) - (T0 + T1) + (T1 - r1) = rd f (T0 + T1) - (T0 + r1) by ring] at k2
                  have k3 : |T0 + T1| ≤ |T0| + |r1| + |T1 - r1| := by
                    have a1 := abs_add_le (T0 + r1) (T1 - r1)
                    have a2 := abs_add_le T0 r1
                    rw [show T0 + r1 + (T1 - r1) = T0 + T1 by ring] at a1
                    linarith
                  have k4 : f.u * |T0 + T1| ≤ f.u * (|T0| + |r1| + (f.u * |r1| + f.tiny)) :=
                    mul_le_mul_of_nonneg_left (by linarith) hu.le
                  have k5 : 0 ≤ f.u * |T0| := by positivity
                  have k6 : 0 ≤ f.u * (f.u * |T0|) := by positivity
                  have k7 : 0 ≤ f.u * f.tiny := by positivity
                  unfold bound
                  push_cast
                  norm_num
                  nlinarith
                have hz : |rd f (T0 + T1)| ≤ f.greatest := by
                  have x1 := abs_add_le (rd f (T0 + T1) - (T0 + r1)) (T0 + r1)
                  rw [sub_add_cancel] at x1
                  have x3 := abs_add_le T0 r1
                  have x2 := bound_mono f (k := 2) (l := n) (P := |T0| + |r1|) (Q := |T0| + (|r1| + (qs.map abs).sum)) (by omega)
                    (by linarith) (by linarith)
                  unfold bound at x2 eb
                  linarith
                have := dot_err f _ _ (weaken ps cs qs T) _ (rd f (T0 + T1)) (T0 + r1) (|T0| + |r1|) 2 (by omega)
                  (value_round f (value_add v0 v1) hz) (rd_mult f _) eb (abs_add_le _ _) (by
                    rw [Nat.add_comm, show qs.length + 2 = n by omega, show |T0| + |r1| + (qs.map abs).sum = |T0| + (|r1| + (qs.map abs).sum) by ring]
                    unfold bound
                    linarith)
                obtain ⟨Y, hY, eY⟩ := this
                refine ⟨_, Y, hdot _ _ q2, hY, ?_⟩
                rw [Nat.add_comm, show qs.length + 2 = n by omega, show |T0| + |r1| + (qs.map abs).sum = |T0| + (|r1| + (qs.map abs).sum) by ring,
                  show T0 + r1 + qs.sum = T0 + (r1 + qs.sum) by ring] at eY
                exact eY

example : ∃ r z, dot binary32 (.three true false true) (.three (num 1) (num 2) (num 3)) (.three (num 4) (num (-5)) (num 6)) = some r ∧
    value r = some z ∧ |z - 12| ≤ ((1 + binary32.u) ^ 3 - 1) * 32 + (3 : ℕ) * binary32.tiny * (1 + binary32.u) ^ 2 := by
  have := C148_dot binary32 (.three true false true) (by simp [Contraction, parts]) (.three (num 1) (num 2) (num 3))
    (.three (num 4) (num (-5)) (num 6)) [1, 2, 3] [4, -5, 6] (by decide +kernel) (by decide +kernel) (by decide +kernel)
  norm_num at this ⊢
  exact this

/-- The squared length: its error is at most its exact value times `(1 + u) ^ n - 1`, and, for underflow, half of the least number for each
component, if nothing overflows. -/
theorem C148_length_squared (f : Format) {n : ℕ} (c : Store Bool n) (hc : Contraction c) (v : Store Number n) (xs : List ℚ)
    (hv : (parts v).map value = xs.map some) (hg : (1 + f.u) ^ n * (xs.map (· ^ 2)).sum + n * f.tiny * (1 + f.u) ^ (n - 1) ≤ f.greatest) :
    ∃ r z, lengthSquared f c v = some r ∧ value r = some z ∧
      |z - (xs.map (· ^ 2)).sum| ≤ ((1 + f.u) ^ n - 1) * (xs.map (· ^ 2)).sum + n * f.tiny * (1 + f.u) ^ (n - 1) := by
  have e1 : List.zipWith (fun x y : ℚ => |x * y|) xs xs = xs.map (· ^ 2) := by
    rw [List.zipWith_self]
    exact List.map_congr_left fun x _ => by rw [abs_mul_self, sq]
  have e2 : List.zipWith (· * ·) xs xs = xs.map (· ^ 2) := by
    rw [List.zipWith_self]
    exact List.map_congr_left fun x _ => (sq x).symm
  have := C148_dot f c hc v v xs xs hv hv (by rw [e1]; exact hg)
  rw [e1, e2] at this
  exact this

example : ∃ r z, lengthSquared binary32 (.two false true) (.two (num 3) (num (-1 / 2 ^ 80))) = some r ∧ value r = some z ∧
    |z - (9 + (1 / 2 ^ 80) ^ 2)| ≤ ((1 + binary32.u) ^ 2 - 1) * (9 + (1 / 2 ^ 80) ^ 2) + (2 : ℕ) * binary32.tiny * (1 + binary32.u) := by
  have := C148_length_squared binary32 (.two false true) (by simp [Contraction, parts]) (.two (num 3) (num (-1 / 2 ^ 80)))
    [3, -1 / 2 ^ 80] (by decide +kernel) (by decide +kernel)
  norm_num at this ⊢
  exact this

end Verif.Props.FloatVector
