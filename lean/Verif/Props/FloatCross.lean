import Verif.Proofs.FloatProducts
import Mathlib.LinearAlgebra.CrossProduct
import Mathlib.Tactic.FinCases
import Mathlib.Tactic.NormNum
/-!
# C153: cross products, orthogonal vectors and interpolation of floating-point vectors
-/
namespace Verif.Props.FloatCross
open Verif.Spec.Parts Verif.Spec.IeeeArith Verif.Spec.FloatFormat Verif.Spec.Representable Verif.Model.VectorStore Verif.Model.FloatVector
open Verif.Model.FloatProducts Verif.Proofs.VectorStore Verif.Proofs.FloatVector Verif.Proofs.FloatProducts
open Verif.Props.FloatVector (num)

theorem are3 {v : Store Number 3} {x y z : ℚ} (h : Are (parts v) [x, y, z]) :
    ∃ a b c, v = .three a b c ∧ value a = some x ∧ value b = some y ∧ value c = some z := by
  cases v with
  | three a b c =>
    simp only [Are, parts, List.map_cons, List.map_nil, List.cons.injEq, and_true] at h
    exact ⟨a, b, c, rfl, h.1, h.2.1, h.2.2⟩

theorem are_three {a b c : Number} {x y z : ℚ} (h1 : value a = some x) (h2 : value b = some y) (h3 : value c = some z) :
    Are (parts (.three a b c)) [x, y, z] := by simp [Are, parts, h1, h2, h3]

/-- The error of each component of the cross product is at most the sum of the magnitudes of its two products times `(1 + u) ^ 2 - 1`, and
twice half of the least number (times `1 + u`) for underflow, whichever products are contracted, if nothing overflows. -/
theorem C153_cross (f : Format) (k1 k2 k3 : Bool × Bool) (hk1 : Once k1) (hk2 : Once k2) (hk3 : Once k3) (v w : Store Number 3)
    (x y z x' y' z' : ℚ) (hv : Are (parts v) [x, y, z]) (hw : Are (parts w) [x', y', z'])
    (hs : ∀ s ∈ [|y * z'| + |z * y'|, |z * x'| + |x * z'|, |x * y'| + |y * x'|], (1 + f.u) ^ 2 * s + 2 * f.tiny * (1 + f.u) ≤ f.greatest) :
    ∃ a b c, Are (parts (cross f k1 k2 k3 v w)) [a, b, c] ∧
      |a - (y * z' - z * y')| ≤ ((1 + f.u) ^ 2 - 1) * (|y * z'| + |z * y'|) + 2 * f.tiny * (1 + f.u) ∧
      |b - (z * x' - x * z')| ≤ ((1 + f.u) ^ 2 - 1) * (|z * x'| + |x * z'|) + 2 * f.tiny * (1 + f.u) ∧
      |c - (x * y' - y * x')| ≤ ((1 + f.u) ^ 2 - 1) * (|x * y'| + |y * x'|) + 2 * f.tiny * (1 + f.u) := by
  obtain ⟨a, b, c, rfl, ha, hb, hc⟩ := are3 hv
  obtain ⟨a', b', c', rfl, ha', hb', hc'⟩ := are3 hw
  obtain ⟨r1, v1, e1⟩ := difference_err f k1 hk1 hb hc' hc hb' (hs _ (by simp))
  obtain ⟨r2, v2, e2⟩ := difference_err f k2 hk2 hc ha' ha hc' (hs _ (by simp))
  obtain ⟨r3, v3, e3⟩ := difference_err f k3 hk3 ha hb' hb ha' (hs _ (by simp))
  exact ⟨r1, r2, r3, are_three v1 v2 v3, e1, e2, e3⟩

example : ∃ a b c, Are (parts (cross binary32 (false, true) (true, false) (false, false) (.three (num 1) (num 2) (num 3)) (.three (num 4) (num (-5)) (num 6))))
    [a, b, c] ∧ |a - 27| ≤ ((1 + binary32.u) ^ 2 - 1) * 27 + 2 * binary32.tiny * (1 + binary32.u) := by
  obtain ⟨a, b, c, h, h1, -⟩ := C153_cross binary32 (false, true) (true, false) (false, false) (by simp [Once]) (by simp [Once]) (by simp [Once])
    (.three (num 1) (num 2) (num 3)) (.three (num 4) (num (-5)) (num 6)) 1 2 3 4 (-5) 6 (by decide +kernel) (by decide +kernel) (by decide +kernel)
  exact ⟨a, b, c, h, by norm_num at h1 ⊢; exact h1⟩

theorem mul_comm' (a b : Number) : a.mul b = b.mul a := by
  have e : ∀ s t : Bool, (s != t) = (t != s) := by decide
  cases a <;> cases b <;> simp only [Number.mul] <;> (try rw [e]) <;> (try rw [mul_comm])

theorem product_comm (f : Format) (a b : Number) (k : Bool) : product f (a, b) k = product f (b, a) k := by
  unfold product
  simp only [Op.eval, mul_comm' a b]

theorem round_sub (f : Format) (hp : 1 ≤ f.p) (a b : Number) : value (f.round (a.sub b)) = (value (f.round (b.sub a))).map (- ·) := by
  have r0 : Spec.SmallFloat.rounded f.p f.emin 0 = 0 := Proofs.Kahan.rd_zero hp
  cases a with
  | nan => cases b <;> rfl
  | inf s =>
    cases b with
    | nan => rfl
    | inf t => cases s <;> cases t <;> rfl
    | fin t b => rfl
  | fin s a =>
    cases b with
    | nan => rfl
    | inf t => rfl
    | fin t b =>
      have e : ∀ s t : Bool, ∀ a b : ℚ, signed s a + signed (!t) b = signed s a - signed t b := by
        intro s t a b; cases t <;> simp [signed, sub_eq_add_neg]
      simp only [Number.sub, Number.negate, Number.add]
      rw [e, e]
      set p := signed s a
      set q := signed t b
      clear_value p q
      by_cases h : p = q
      · subst h
        simp only [sub_self, if_true, Format.round, Number.round, r0]
        split_ifs
        · rfl
        · cases s <;> cases t <;> simp [value, signed]
      · rw [if_neg (sub_ne_zero.2 h), if_neg (sub_ne_zero.2 (Ne.symm h))]
        simp only [Format.round, Number.round]
        rw [abs_sub_comm q p]
        split_ifs
        · rfl
        · rcases lt_or_gt_of_ne h with h | h
          · simp [value, signed, h, h.le]
          · simp [value, signed, h, h.le]

theorem difference_swap (f : Format) (hp : 1 ≤ f.p) (k : Bool × Bool) (a b c d : Number) :
    value (difference f k.swap (a, b) (c, d)) = (value (difference f k (d, c) (b, a))).map (- ·) := by
  unfold difference
  simp only [Op.eval, Prod.fst_swap, Prod.snd_swap]
  rw [round_sub f hp, product_comm f d c, product_comm f b a]

/-- Exchanging the vectors changes exactly the signs (of the numbers; a zero can keep its sign), if the compiler contracts the same
products or none. -/
theorem C153_antisymmetric (f : Format) (hp : 1 ≤ f.p) (k1 k2 k3 : Bool × Bool) (v w : Store Number 3) :
    (parts (cross f k1.swap k2.swap k3.swap w v)).map value = (parts (cross f k1 k2 k3 v w)).map fun x => (value x).map (- ·) := by
  cases v with
  | three x y z =>
    cases w with
    | three x' y' z' =>
      simp only [cross, parts, List.map_cons, List.map_nil, difference_swap f hp]

example : (parts (cross binary32 (false, false) (false, false) (false, false) (.three (num 4) (num (-5)) (num 6)) (.three (num 1) (num 2) (num 3)))).map value =
    [some (-27), some (-6), some 13] := by
  refine (C153_antisymmetric binary32 (by decide) (false, false) (false, false) (false, false) (.three (num 1) (num 2) (num 3)) (.three (num 4) (num (-5)) (num 6))).trans ?_
  decide +kernel

/-- The cross product of a vector and itself is zero, if no products are contracted.
Missing: if one is, it may not be (`C153_self_violated`). -/
theorem C153_self_partial (f : Format) (hp : 1 ≤ f.p) (v : Store Number 3) (x y z : ℚ) (hv : Are (parts v) [x, y, z])
    (hs : ∀ s ∈ [y * z, z * x, x * y], (1 + f.u) * |s| + f.tiny ≤ f.greatest) :
    Are (parts (cross f (false, false) (false, false) (false, false) v v)) [0, 0, 0] := by
  obtain ⟨a, b, c, rfl, ha, hb, hc⟩ := are3 hv
  have key : ∀ {a b : Number} {A B : ℚ}, value a = some A → value b = some B → (1 + f.u) * |A * B| + f.tiny ≤ f.greatest →
      value (difference f (false, false) (a, b) (b, a)) = some 0 := by
    intro a b A B ha hb h
    obtain ⟨T, hT, -⟩ := Props.FloatVector.product_term f false ha hb h
    unfold difference
    simp only
    rw [product_comm f b a]
    have r0 := Proofs.Kahan.rd_zero (f := f) hp
    have := value_round f (Proofs.Approx.value_sub hT hT) (by
      rw [sub_self, r0, abs_zero]
      have := tiny_pos f
      have := u_pos f
      have : 0 ≤ (1 + f.u) * |A * B| := by positivity
      linarith)
    rw [sub_self, r0] at this
    exact this
  exact are_three (key hb hc (hs _ (by simp))) (key hc ha (hs _ (by simp))) (key ha hb (hs _ (by simp)))

example : Are (parts (cross binary32 (false, false) (false, false) (false, false) (.three (num 1) (num (-1 / 3)) (num 7)) (.three (num 1) (num (-1 / 3)) (num 7))))
    [0, 0, 0] := C153_self_partial binary32 (by decide) _ 1 (-1 / 3) 7 (by decide +kernel) (by decide +kernel)

/-- With the contractions that the code asks for (MUU_FMA_BLOCK), the cross product of a vector of `float` and itself is not zero: the rounding
error of the product that is not contracted remains. -/
theorem C153_self_violated : ∃ v : Store Number 3, (∀ x ∈ parts v, binary32.Has x) ∧ ∃ k, Once k ∧ ∃ a b c : ℚ,
    Are (parts (cross binary32 k k k v v)) [a, b, c] ∧ a ≠ 0 := by
  refine ⟨.three (.fin false 0) (.fin false (1 + 1 / 2 ^ 23)) (.fin false (1 + 1 / 2 ^ 23)), ?_, (true, false), by simp [Once], 1 / 2 ^ 46, 0, 0,
    by decide +kernel, by norm_num⟩
  intro x hx
  simp only [parts, List.mem_cons, List.not_mem_nil, or_false] at hx
  rcases hx with rfl | rfl | rfl
  · exact ⟨⟨0, 0, by decide, by decide, by norm_num⟩, by unfold binary32; norm_num⟩
  · exact ⟨⟨2 ^ 23 + 1, -23, by decide, by decide, by norm_num⟩, by unfold binary32; norm_num⟩
  · exact ⟨⟨2 ^ 23 + 1, -23, by decide, by decide, by norm_num⟩, by unfold binary32; norm_num⟩

/-- The cross products of a vector and an axis, in either order, are exact. -/
theorem C153_axis (v : Store Number 3) (x y z : ℚ) (hv : Are (parts v) [x, y, z]) (i : Fin 3) :
    (∃ r, crossAxis v i = some r ∧ Are (parts r) (List.ofFn (crossProduct ![x, y, z] (Pi.single i 1)))) ∧
    ∃ r, axisCross i v = some r ∧ Are (parts r) (List.ofFn (crossProduct (Pi.single i 1) ![x, y, z])) := by
  obtain ⟨a, b, c, rfl, ha, hb, hc⟩ := are3 hv
  have h0 : value (.fin false 0) = some 0 := by simp [value, signed]
  fin_cases i
  · exact ⟨⟨_, rfl, by simp [Are, parts, crossProduct, h0, hc, value_negate hb]⟩, _, rfl, by simp [Are, parts, crossProduct, h0, hb, value_negate hc]⟩
  · exact ⟨⟨_, rfl, by simp [Are, parts, crossProduct, h0, ha, value_negate hc]⟩, _, rfl, by simp [Are, parts, crossProduct, h0, hc, value_negate ha]⟩
  · exact ⟨⟨_, rfl, by simp [Are, parts, crossProduct, h0, hb, value_negate ha]⟩, _, rfl, by simp [Are, parts, crossProduct, h0, ha, value_negate hb]⟩

example : ∃ r, crossAxis (.three (num 1) (num 2) (num 3)) 1 = some r ∧ Are (parts r) (List.ofFn (crossProduct ![(1 : ℚ), 2, 3] (Pi.single 1 1))) :=
  (C153_axis _ 1 2 3 (by decide +kernel) 1).1

/-- A vector given as an axis makes no difference: the products with it are exact too, for finite vectors of the format. -/
theorem C153_axis_vector (f : Format) (hp : 1 ≤ f.p) (k1 k2 k3 : Bool × Bool) (v : Store Number 3) (hf : ∀ a ∈ parts v, f.Has a) (x y z : ℚ)
    (hv : Are (parts v) [x, y, z]) (i : Fin 3) :
    Are (parts (cross f k1 k2 k3 v (axis i))) (List.ofFn (crossProduct ![x, y, z] (Pi.single i 1))) := by
  obtain ⟨a, b, c, rfl, ha, hb, hc⟩ := are3 hv
  have h0 : value (.fin false 0) = some 0 := by simp [value, signed]
  have h1 : value (.fin false 1) = some 1 := by simp [value, signed]
  have fx : Representable f x := ⟨a, hf a (by simp [parts]), ha⟩
  have fy : Representable f y := ⟨b, hf b (by simp [parts]), hb⟩
  have fz : Representable f z := ⟨c, hf c (by simp [parts]), hc⟩
  have f0 : Representable f 0 := rep_zero f (le_trans (abs_nonneg x) (rep hp fx).2)
  have d00 : ∀ k {a b : Number} {A B : ℚ}, value a = some A → value b = some B →
      value (difference f k (a, .fin false 0) (b, .fin false 0)) = some 0 := by
    intro k a b A B ha hb
    have := exact_difference hp ha h0 hb h0 (by rw [mul_zero]; exact f0) (by rw [mul_zero]; exact f0) (by simpa using f0) k
    simpa using this
  have d10 : ∀ k {a b : Number} {A B : ℚ}, value a = some A → value b = some B → Representable f A →
      value (difference f k (a, .fin false 1) (b, .fin false 0)) = some A := by
    intro k a b A B ha hb fA
    have := exact_difference hp ha h1 hb h0 (by rw [mul_one]; exact fA) (by rw [mul_zero]; exact f0) (by simpa using fA) k
    simpa using this
  have d01 : ∀ k {a b : Number} {A B : ℚ}, value a = some A → value b = some B → Representable f B →
      value (difference f k (a, .fin false 0) (b, .fin false 1)) = some (-B) := by
    intro k a b A B ha hb fB
    have := exact_difference hp ha h0 hb h1 (by rw [mul_zero]; exact f0) (by rw [mul_one]; exact fB) (by simpa using rep_neg fB) k
    simpa using this
  fin_cases i
  · have := are_three (d00 k1 hb hc) (d10 k2 hc ha fz) (d01 k3 ha hb fy)
    simp only [Are] at this ⊢
    exact this.trans (by simp [crossProduct])
  · have := are_three (d01 k1 hb hc fz) (d00 k2 hc ha) (d10 k3 ha hb fx)
    simp only [Are] at this ⊢
    exact this.trans (by simp [crossProduct])
  · have := are_three (d10 k1 hb hc fy) (d01 k2 hc ha fx) (d00 k3 ha hb)
    simp only [Are] at this ⊢
    exact this.trans (by simp [crossProduct])

theorem abs_value {f : Format} {a : Number} {A : ℚ} (h : f.Has a) (ha : value a = some A) : value (Model.Kahan.abs a) = some |A| := by
  obtain ⟨s, m, rfl, hm, rfl, -⟩ := Proofs.Kahan.fl_has h ha
  cases s <;> simp [Model.Kahan.abs, value, signed, abs_of_nonneg hm]

/-- `orthogonal` gives a vector exactly orthogonal to the vector given, not longer, and not shorter than the square root of two thirds of its
length; so it is zero only if that is. For finite vectors of the format, whatever is contracted. -/
theorem C153_orthogonal (f : Format) (hp : 1 ≤ f.p) (k1 k2 k3 : Bool × Bool) (v : Store Number 3) (hf : ∀ a ∈ parts v, f.Has a) (x y z : ℚ)
    (hv : Are (parts v) [x, y, z]) :
    ∃ a b c, Are (parts (orthogonal f k1 k2 k3 v)) [a, b, c] ∧ a * x + b * y + c * z = 0 ∧
      2 * (x ^ 2 + y ^ 2 + z ^ 2) ≤ 3 * (a ^ 2 + b ^ 2 + c ^ 2) ∧ a ^ 2 + b ^ 2 + c ^ 2 ≤ x ^ 2 + y ^ 2 + z ^ 2 := by
  have hx := C153_axis_vector f hp k1 k2 k3 v hf x y z hv
  obtain ⟨a, b, c, rfl, ha, hb, hc⟩ := are3 hv
  have ea := abs_value (hf a (by simp [parts])) ha
  have eb := abs_value (hf b (by simp [parts])) hb
  have ec := abs_value (hf c (by simp [parts])) hc
  have x0 : List.ofFn (crossProduct ![x, y, z] (Pi.single (0 : Fin 3) 1)) = [0, z, -y] := by simp [crossProduct]
  have x1 : List.ofFn (crossProduct ![x, y, z] (Pi.single (1 : Fin 3) 1)) = [-z, 0, x] := by simp [crossProduct]
  have x2 : List.ofFn (crossProduct ![x, y, z] (Pi.single (2 : Fin 3) 1)) = [y, -x, 0] := by simp [crossProduct]
  have sq : ∀ {p q : ℚ}, |p| ≤ |q| → p ^ 2 ≤ q ^ 2 := fun h => sq_le_sq.2 h
  unfold orthogonal
  simp only
  rw [Proofs.Kahan.less_value ea eb, Proofs.Kahan.less_value ea ec, Proofs.Kahan.less_value eb ec]
  simp only [decide_eq_true_eq]
  split_ifs with h1 h2 h3
  · have := sq h1.le
    have := sq h2.le
    exact ⟨0, z, -y, by rw [← x0]; exact hx 0, by ring, by nlinarith, by nlinarith [sq_nonneg x]⟩
  · have := sq h1.le
    have := sq (not_lt.1 h2)
    exact ⟨y, -x, 0, by rw [← x2]; exact hx 2, by ring, by nlinarith, by nlinarith [sq_nonneg z]⟩
  · have := sq (not_lt.1 h1)
    have := sq h3.le
    exact ⟨-z, 0, x, by rw [← x1]; exact hx 1, by ring, by nlinarith, by nlinarith [sq_nonneg y]⟩
  · have := sq (not_lt.1 h1)
    have := sq (not_lt.1 h3)
    exact ⟨y, -x, 0, by rw [← x2]; exact hx 2, by ring, by nlinarith, by nlinarith [sq_nonneg z]⟩

example : Are (parts (orthogonal binary32 (true, false) (true, false) (false, true) (.three (num 3) (num (-1)) (num 2)))) [-2, 0, 3] := by
  decide +kernel

/-- What the components of a vector are. -/
def Values {n : ℕ} (v : Store Number n) (q : Fin n → ℚ) : Prop := ∀ i : Fin n, (component v i).bind value = some (q i)

theorem lerp_component (f : Format) {n : ℕ} (k : Store (Bool × Bool) n) (s e : Store Number n) (alpha : Number) :
    ∃ r, lerp f k s e alpha = some r ∧ ∀ i : Fin n, ∃ a b c, component s i = some a ∧ component e i = some b ∧ component k i = some c ∧
      component r i = some (combination f c (a, Op.sub.eval f (.fin false 1) alpha) (b, alpha)) := by
  obtain ⟨pairs, p1, p2⟩ := construct_parts (fun a b => some (a, b)) (fun a b => (a, b)) s e (fun _ _ => rfl)
  obtain ⟨r, q1, q2⟩ := construct_parts (fun (p : Number × Number) k => some (combination f k (p.1, Op.sub.eval f (.fin false 1) alpha) (p.2, alpha)))
    (fun p k => combination f k (p.1, Op.sub.eval f (.fin false 1) alpha) (p.2, alpha)) pairs k (fun _ _ => rfl)
  refine ⟨r, ?_, fun i => ?_⟩
  · unfold lerp
    rw [p1]
    exact q1
  · have h1 : i.val < (parts s).length := by rw [parts_length]; exact i.2
    have h2 : i.val < (parts e).length := by rw [parts_length]; exact i.2
    have h3 : i.val < (parts k).length := by rw [parts_length]; exact i.2
    refine ⟨(parts s)[i.val], (parts e)[i.val], (parts k)[i.val], ?_, ?_, ?_, ?_⟩
    · rw [component_parts]; simp
    · rw [component_parts]; simp
    · rw [component_parts]; simp
    · rw [component_parts, q2, p2]; rw [List.getElem?_zipWith, List.getElem?_zipWith, List.getElem?_eq_getElem h1, List.getElem?_eq_getElem h2, List.getElem?_eq_getElem h3]

theorem one_rep (f : Format) (hp : 1 ≤ f.p) (he : f.emin - f.p + 1 ≤ 0) (hg : 1 ≤ f.greatest) : Representable f 1 :=
  ⟨.fin false 1, ⟨⟨1, 0, by
    have : 2 ^ 1 ≤ 2 ^ f.p := Nat.pow_le_pow_right (by omega) hp
    omega, he, by norm_num⟩, hg⟩, by simp [value, signed]⟩

/-- `lerp` to 0 is exactly the start and to 1 exactly the finish (for finite vectors of the format, whatever is contracted). -/
theorem C153_lerp_ends (f : Format) (hp : 1 ≤ f.p) (he : f.emin - f.p + 1 ≤ 0) (hg : 1 ≤ f.greatest) {n : ℕ} (k : Store (Bool × Bool) n)
    (s e : Store Number n) (hs : ∀ a ∈ parts s, f.Has a) (hf : ∀ a ∈ parts e, f.Has a) (S E : Fin n → ℚ) (vs : Values s S) (ve : Values e E) :
    (∀ alpha, value alpha = some 0 → ∃ r, lerp f k s e alpha = some r ∧ Values r S) ∧
    ∀ alpha, value alpha = some 1 → ∃ r, lerp f k s e alpha = some r ∧ Values r E := by
  have h1 : value (.fin false 1) = some 1 := by simp [value, signed]
  have f1 := one_rep f hp he hg
  have f0 := rep_zero f (by linarith)
  have mem : ∀ {v : Store Number n} {i : Fin n} {a : Number}, component v i = some a → a ∈ parts v := by
    intro v i a h
    rw [component_parts] at h
    exact List.mem_of_getElem? h
  constructor
  · intro alpha h0
    obtain ⟨r, hr, hc⟩ := lerp_component f k s e alpha
    refine ⟨r, hr, fun i => ?_⟩
    obtain ⟨a, b, c, ha, hb, -, h⟩ := hc i
    have va := vs i
    have vb := ve i
    rw [ha, Option.bind_some] at va
    rw [hb, Option.bind_some] at vb
    have fa : Representable f (S i) := ⟨a, hs a (mem ha), va⟩
    have inv : value (Op.sub.eval f (.fin false 1) alpha) = some 1 := by
      have := exact_round (f := f) hp (by simpa using f1) (Proofs.Approx.value_sub h1 h0)
      simpa [Op.eval] using this
    have := exact_combination hp va inv vb h0 (by simpa using fa) (by simpa using f0) (by simpa using fa) c
    rw [h, Option.bind_some, this]
    simp
  · intro alpha h0
    obtain ⟨r, hr, hc⟩ := lerp_component f k s e alpha
    refine ⟨r, hr, fun i => ?_⟩
    obtain ⟨a, b, c, ha, hb, -, h⟩ := hc i
    have va := vs i
    have vb := ve i
    rw [ha, Option.bind_some] at va
    rw [hb, Option.bind_some] at vb
    have fb : Representable f (E i) := ⟨b, hf b (mem hb), vb⟩
    have inv : value (Op.sub.eval f (.fin false 1) alpha) = some 0 := by
      have := exact_round (f := f) hp (by simpa using f0) (Proofs.Approx.value_sub h1 h0)
      simpa [Op.eval] using this
    have := exact_combination hp va inv vb h0 (by simpa using f0) (by simpa using fb) (by simpa using fb) c
    rw [h, Option.bind_some, this]
    simp

example : ∃ r, lerp binary32 (.two (false, false) (true, false)) (.two (num 3) (num (-1))) (.two (num 7) (num 5)) (num 1) = some r ∧
    Values r ![7, 5] := by
  have has : ∀ m : ℕ, m < 10 → ∀ s, binary32.Has (.fin s m) := fun m hm s =>
    ⟨⟨m, 0, hm.trans (by decide), by decide, by norm_num⟩, by
      have : (m : ℚ) < 10 := by exact_mod_cast hm
      unfold binary32
      norm_num
      linarith⟩
  refine (C153_lerp_ends binary32 (by decide) (by decide) (by unfold binary32; norm_num) _ _ _ ?_ ?_ ![3, -1] ![7, 5] ?_ ?_).2 (num 1) (by decide +kernel)
  · intro a ha
    simp only [parts, List.mem_cons, List.not_mem_nil, or_false, num] at ha
    rcases ha with rfl | rfl
    · simpa using has 3 (by omega) (decide ((3 : ℚ) < 0))
    · simpa using has 1 (by omega) (decide ((-1 : ℚ) < 0))
  · intro a ha
    simp only [parts, List.mem_cons, List.not_mem_nil, or_false, num] at ha
    rcases ha with rfl | rfl
    · simpa using has 7 (by omega) (decide ((7 : ℚ) < 0))
    · simpa using has 5 (by omega) (decide ((5 : ℚ) < 0))
  · intro i; fin_cases i <;> decide +kernel
  · intro i; fin_cases i <;> decide +kernel

/-- Between (and beyond) them the error of each component is at most the sum of the magnitudes of its two terms times `(1 + u) ^ 3 - 1`, and
twice half of the least number (times `1 + u`) for underflow, if nothing overflows. -/
theorem C153_lerp (f : Format) (hp : 1 ≤ f.p) (he : f.emin - f.p + 1 ≤ 0) (hg : 1 ≤ f.greatest) {n : ℕ} (k : Store (Bool × Bool) n)
    (hk : ∀ c ∈ parts k, Once c) (s e : Store Number n) (S E : Fin n → ℚ) (vs : Values s S) (ve : Values e E) (alpha : Number) (t : ℚ)
    (hf : f.Has alpha) (ht : value alpha = some t) (h1 : (1 + f.u) * |1 - t| ≤ f.greatest)
    (h2 : ∀ i, (1 + f.u) ^ 3 * (|S i * (1 - t)| + |E i * t|) + 2 * f.tiny * (1 + f.u) ≤ f.greatest) :
    ∃ r q, lerp f k s e alpha = some r ∧ Values r q ∧ ∀ i, |q i - (S i * (1 - t) + E i * t)| ≤
      ((1 + f.u) ^ 3 - 1) * (|S i * (1 - t)| + |E i * t|) + 2 * f.tiny * (1 + f.u) := by
  have hu := u_pos f
  have htp := tiny_pos f
  have v1 : value (.fin false 1) = some 1 := by simp [value, signed]
  have m1 : Mult f 1 := by
    obtain ⟨x, hx, hv⟩ := one_rep f hp he hg
    exact has_mult f hx hv
  have m2 : Mult f (1 - t) := by
    rw [sub_eq_add_neg]
    refine mult_add f m1 ?_
    obtain ⟨n, hn⟩ := has_mult f hf ht
    exact ⟨-n, by rw [hn]; push_cast; ring⟩
  have eI := err_mult f m2
  set I := rd f (1 - t) with hI
  clear_value I
  have aI : |I| ≤ (1 + f.u) * |1 - t| := by
    have := abs_add_le (I - (1 - t)) (1 - t)
    rw [sub_add_cancel] at this
    linarith
  have inv : value (Op.sub.eval f (.fin false 1) alpha) = some I := by
    have := value_round f (Proofs.Approx.value_sub v1 ht) (by rw [← hI]; linarith)
    rw [← hI] at this
    exact this
  obtain ⟨r, hr, hc⟩ := lerp_component f k s e alpha
  have key : ∀ i : Fin n, ∃ q, (component r i).bind value = some q ∧ |q - (S i * (1 - t) + E i * t)| ≤
      ((1 + f.u) ^ 3 - 1) * (|S i * (1 - t)| + |E i * t|) + 2 * f.tiny * (1 + f.u) := by
    intro i
    obtain ⟨a, b, c, ha, hb, hcc, h⟩ := hc i
    have va := vs i
    have vb := ve i
    rw [ha, Option.bind_some] at va
    rw [hb, Option.bind_some] at vb
    have hk' : Once c := hk c (by rw [component_parts] at hcc; exact List.mem_of_getElem? hcc)
    have p1 : |S i * I| ≤ (1 + f.u) * |S i * (1 - t)| := by
      rw [abs_mul, abs_mul]
      have := mul_le_mul_of_nonneg_left aI (abs_nonneg (S i))
      linarith
    have p2 : |S i * I - S i * (1 - t)| ≤ f.u * |S i * (1 - t)| := by
      rw [← mul_sub, abs_mul, abs_mul]
      have := mul_le_mul_of_nonneg_left eI (abs_nonneg (S i))
      linarith
    have n1 := abs_nonneg (S i * (1 - t))
    have n2 := abs_nonneg (E i * t)
    set P := |S i * (1 - t)| with hP
    set Q := |E i * t| with hQ
    have b1 : (1 + f.u) ^ 2 * (|S i * I| + Q) ≤ (1 + f.u) ^ 3 * (P + Q) := by
      have x1 : (1 + f.u) ^ 2 * |S i * I| ≤ (1 + f.u) ^ 2 * ((1 + f.u) * P) := mul_le_mul_of_nonneg_left p1 (by positivity)
      have x2 : (1 + f.u) ^ 2 * Q ≤ (1 + f.u) ^ 3 * Q := mul_le_mul_of_nonneg_right (pow_le_pow_right₀ (by linarith) (by omega)) n2
      nlinarith
    obtain ⟨q, hq, eq⟩ := combination_err f c hk' va inv vb ht (by have := h2 i; rw [← hQ]; linarith)
    refine ⟨q, by rw [h]; exact hq, ?_⟩
    have tri := abs_add_le (q - (S i * I + E i * t)) (S i * I - S i * (1 - t))
    rw [show q - (S i * I + E i * t) + (S i * I - S i * (1 - t)) = q - (S i * (1 - t) + E i * t) by ring] at tri
    have x1 : ((1 + f.u) ^ 2 - 1) * |S i * I| ≤ ((1 + f.u) ^ 2 - 1) * ((1 + f.u) * P) :=
      mul_le_mul_of_nonneg_left p1 (by nlinarith)
    have x2 : ((1 + f.u) ^ 2 - 1) * Q ≤ ((1 + f.u) ^ 3 - 1) * Q :=
      mul_le_mul_of_nonneg_right (by have := pow_le_pow_right₀ (by linarith : (1 : ℚ) ≤ 1 + f.u) (by omega : 2 ≤ 3); linarith) n2
    rw [← hQ] at eq
    have x3 : ((1 + f.u) ^ 2 - 1) * ((1 + f.u) * P) + f.u * P = ((1 + f.u) ^ 3 - 1) * P := by ring
    linarith
  choose q h3 h4 using key
  exact ⟨r, q, hr, h3, h4⟩

example : ∃ r q, lerp binary32 (.two (false, false) (true, false)) (.two (num 3) (num (-1))) (.two (num 7) (num 5)) (num (1 / 4)) = some r ∧
    Values r q ∧ ∀ i, |q i - (![3, -1] i * (1 - 1 / 4) + ![7, 5] i * (1 / 4))| ≤
      ((1 + binary32.u) ^ 3 - 1) * (|![3, -1] i * (1 - 1 / 4)| + |![7, 5] i * (1 / 4)|) + 2 * binary32.tiny * (1 + binary32.u) := by
  refine C153_lerp binary32 (by decide) (by decide) (by unfold binary32; norm_num) _ ?_ _ _ ![3, -1] ![7, 5] ?_ ?_ (num (1 / 4)) (1 / 4) ?_ (by decide +kernel)
    (by decide +kernel) ?_
  · intro c hc; simp only [parts, List.mem_cons, List.not_mem_nil, or_false] at hc; rcases hc with rfl | rfl <;> simp [Once]
  · intro i; fin_cases i <;> decide +kernel
  · intro i; fin_cases i <;> decide +kernel
  · exact ⟨⟨1, -2, by decide, by decide, by norm_num⟩, by unfold binary32; norm_num⟩
  · decide +kernel

end Verif.Props.FloatCross
