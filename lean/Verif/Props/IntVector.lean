import Verif.Proofs.IntVector
import Mathlib.Algebra.BigOperators.Group.List.Basic

/-! # C139: arithmetic of vectors of integers -/

namespace Verif.Props.IntVector

open Verif.Spec.CInt Verif.Spec.Parts Verif.Model.VectorStore Verif.Model.IntVector Verif.Proofs.VectorStore Verif.Proofs.IntVector

/-- The operations of whole numbers; division discards the fraction and the remainder has the sign of the dividend. -/
def exact : Op → ℤ → ℤ → ℤ
  | .add, a, b => a + b
  | .sub, a, b => a - b
  | .mul, a, b => a * b
  | .div, a, b => a.tdiv b
  | .mod, a, b => a.tmod b

/-- Nothing is divided by zero, and the result (of a remainder, also the quotient) is a value of the type. -/
def Fits (t : Ty) (o : Op) (a b : ℤ) : Prop :=
  t.Has (exact o a b) ∧ (o = .div ∨ o = .mod → b ≠ 0 ∧ t.Has (a.tdiv b))

/-- The components are values of the type. -/
def Of (t : Ty) {n : ℕ} (v : Store ℤ n) : Prop := ∀ x ∈ parts v, t.Has x

/-- The components of `r` are those of `l`, reduced to the type. -/
def AreReduced (t : Ty) (l r : List ℤ) : Prop := List.Forall₂ (Reduced t) l r

theorem lane_exact (t : Ty) (ht : 0 < t.bits) (o : Op) (a b : ℤ) (h : Fits t o a b) : lane o t a b = some (exact o a b) := by
  obtain ⟨h1, h2⟩ := h
  have e : o.eval (Model.CInt.promote t) a b = some (exact o a b) := by
    have r1 := result_has (promote_bits ht) (promote_has ht h1)
    cases o with
    | add => exact r1
    | sub => exact r1
    | mul => exact r1
    | div => simp only [Op.eval]; rw [if_neg (h2 (Or.inl rfl)).1]; exact r1
    | mod =>
      simp only [Op.eval]
      rw [if_neg (h2 (Or.inr rfl)).1, result_has (promote_bits ht) (promote_has ht (h2 (Or.inr rfl)).2)]
      exact r1
  unfold lane
  rw [e]
  exact congrArg some (Proofs.CInt.conv_has ht h1)

/-- Adding, subtracting, multiplying and dividing vectors of integers, and the remainder, by components: if the exact results are
values of the scalar type, they are the components of the result. -/
theorem C139_exact (t : Ty) (ht : 0 < t.bits) (o : Op) {n : ℕ} (v w : Store ℤ n)
    (h : ∀ p ∈ (parts v).zip (parts w), Fits t o p.1 p.2) :
    ∃ r, binary o t v w = some r ∧ parts r = List.zipWith (exact o) (parts v) (parts w) :=
  construct_parts _ _ v w fun p hp => lane_exact t ht o p.1 p.2 (h p hp)

example : (binary .mul ⟨16, false⟩ (.two 200 3) (.two 300 4)).map parts = some [60000, 12] ∧
    (binary .div ⟨32, true⟩ (.two (-7) 7) (.two 2 (-2))).map parts = some [-3, -3] ∧
    (binary .mod ⟨8, true⟩ (.two (-7) 7) (.two 2 (-2))).map parts = some [-1, 1] := by
  decide

/-- The same with a scalar on the right. -/
theorem C139_scalar (t : Ty) (ht : 0 < t.bits) (o : Op) {n : ℕ} (v : Store ℤ n) (k : ℤ) (h : ∀ a ∈ parts v, Fits t o a k) :
    ∃ r, scalar o t v k = some r ∧ parts r = (parts v).map (fun a => exact o a k) ∧ scalarAssign o t v k = some r := by
  have hl : ∀ x ∈ parts v, lane o t x k = some (exact o x k) := fun x hx => lane_exact t ht o x k (h x hx)
  obtain ⟨r, h1, h2⟩ := construct1_parts (fun a => lane o t a k) (fun a => exact o a k) v hl
  obtain ⟨s, h3, h4⟩ := assign1_parts (fun a => lane o t a k) (fun a => exact o a k) v hl
  refine ⟨r, h1, h2, ?_⟩
  rw [parts_inj (h2.trans h4.symm)]
  exact h3

example : (scalar .div ⟨8, true⟩ (.three 100 (-100) 5) 7).map parts = some [14, -14, 0] := by decide

/-- Compound assignment gives what the operator gives, also if a vector is assigned to from itself. -/
theorem C139_assign (t : Ty) (o : Op) {n : ℕ} (v w r : Store ℤ n) (h : binary o t v w = some r) :
    binaryAssign o t v (.other w) = some r ∧ (w = v → binaryAssign o t v .itself = some r) :=
  ⟨assign_eq _ v w r _ (Or.inl rfl) h, fun e => assign_eq _ v w r _ (Or.inr ⟨rfl, e⟩) h⟩

example : (binaryAssign .mul ⟨32, true⟩ (.three 2 3 4) .itself).map parts = some [4, 9, 16] := by
  have := (C139_assign ⟨32, true⟩ .mul (.three 2 3 4) (.three 2 3 4) (.three 4 9 16) rfl).2 rfl
  rw [this]; rfl

theorem hi_lt {t : Ty} (h : 0 < t.bits) {x : ℤ} (hx : t.Has x) : x < 2 ^ t.bits ∧ -(2 ^ (t.bits - 1)) ≤ x ∧ (t.signed = true → x < 2 ^ (t.bits - 1)) := by
  have h2 := Proofs.CInt.two_pow_pred h
  have h3 := Proofs.CInt.two_pow_pos (t.bits - 1)
  obtain ⟨a, b⟩ := hx
  unfold Ty.lo at a
  unfold Ty.hi at b
  cases hs : t.signed <;> simp only [hs, if_true, Bool.false_eq_true, if_false] at a b <;>
    exact ⟨by omega, by omega, by simp <;> omega⟩

/-- The operations of one type for which nothing is undefined: those of unsigned types not smaller than `int`, and those of smaller types
except for the multiplication of unsigned numbers of 16 bits. -/
def Wraps (t : Ty) (o : Op) : Prop :=
  (o = .add ∨ o = .sub ∨ o = .mul) ∧ ((32 ≤ t.bits ∧ t.signed = false) ∨ (t.bits ≤ 16 ∧ (o = .mul → t.bits ≤ 15 ∨ t.signed = true)))

theorem int_has {x : ℤ} (h1 : -2 ^ 31 ≤ x) (h2 : x ≤ 2 ^ 31 - 1) : (⟨32, true⟩ : Ty).Has x := ⟨h1, h2⟩

theorem lane_reduced (t : Ty) (ht : 0 < t.bits) (o : Op) (hw : Wraps t o) (a b : ℤ) (ha : t.Has a) (hb : t.Has b) :
    ∃ r, lane o t a b = some r ∧ Reduced t (exact o a b) r := by
  obtain ⟨ho, hw⟩ := hw
  have hev : o.eval (Model.CInt.promote t) a b = result (Model.CInt.promote t) (exact o a b) := by
    rcases ho with rfl | rfl | rfl <;> rfl
  have hx : (Model.CInt.promote t).signed = false ∨ (Model.CInt.promote t).Has (exact o a b) := by
    rcases hw with ⟨h1, h2⟩ | ⟨h1, h2⟩
    · left
      unfold Model.CInt.promote
      rw [if_neg (by omega)]
      exact h2
    · right
      unfold Model.CInt.promote
      rw [if_pos (by omega)]
      obtain ⟨a1, a2, a3⟩ := hi_lt ht ha
      obtain ⟨b1, b2, b3⟩ := hi_lt ht hb
      have p1 : (2 : ℤ) ^ t.bits ≤ 2 ^ 16 := Proofs.CInt.two_pow_mono h1
      have p2 : (2 : ℤ) ^ (t.bits - 1) ≤ 2 ^ 15 := Proofs.CInt.two_pow_mono (by omega)
      have l : ∀ {x : ℤ} {m : ℤ}, x < m → -m ≤ x → |x| ≤ m := fun h1 h2 => abs_le.2 ⟨h2, h1.le⟩
      rcases ho with rfl | rfl | rfl
      · apply int_has <;> simp only [exact] <;> omega
      · apply int_has <;> simp only [exact] <;> omega
      · have bound : |a| ≤ 2 ^ 15 ∧ |b| ≤ 2 ^ 15 := by
          rcases h2 rfl with h | h
          · have p3 : (2 : ℤ) ^ t.bits ≤ 2 ^ 15 := Proofs.CInt.two_pow_mono h
            exact ⟨abs_le.2 ⟨by omega, by omega⟩, abs_le.2 ⟨by omega, by omega⟩⟩
          · have := a3 h
            have := b3 h
            exact ⟨abs_le.2 ⟨by omega, by omega⟩, abs_le.2 ⟨by omega, by omega⟩⟩
        have : |a * b| ≤ 2 ^ 15 * 2 ^ 15 := by
          rw [abs_mul]
          exact mul_le_mul bound.1 bound.2 (abs_nonneg _) (by norm_num)
        have := abs_le.1 this
        apply int_has <;> simp only [exact] <;> omega
  obtain ⟨y, h1, h2⟩ := result_reduced (promote_bits ht) hx
  refine ⟨Model.CInt.conv t y, ?_, reduced_trans (promote_le t) h2 (conv_reduced ht y)⟩
  unfold lane
  rw [hev, h1]
  rfl

/-- Where the exact result is not a value of the type, the component is that result modulo `2^bits`: so it is for the sum, the difference
and the product of unsigned types and of types smaller than `int`, except for the product of unsigned numbers of 16 bits. -/
theorem C139_wraps_partial (t : Ty) (ht : 0 < t.bits) (o : Op) (hw : Wraps t o) {n : ℕ} (v w : Store ℤ n) (hv : Of t v) (hww : Of t w) :
    ∃ r, binary o t v w = some r ∧ AreReduced t (List.zipWith (exact o) (parts v) (parts w)) (parts r) := by
  have hl : ∀ p ∈ (parts v).zip (parts w), ∃ r, lane o t p.1 p.2 = some r ∧ Reduced t (exact o p.1 p.2) r := by
    intro p hp
    obtain ⟨h1, h2⟩ := List.of_mem_zip (a := p.1) (b := p.2) hp
    exact lane_reduced t ht o hw _ _ (hv _ h1) (hww _ h2)
  obtain ⟨r, h1, h2⟩ := construct_parts (lane o t) (fun a b => (lane o t a b).getD 0) v w (by
    intro p hp
    obtain ⟨r, hr, _⟩ := hl p hp
    rw [hr]; rfl)
  refine ⟨r, h1, ?_⟩
  unfold AreReduced
  rw [h2, List.forall₂_iff_get]
  refine ⟨by simp, fun i h1 h2 => ?_⟩
  have := hl (((parts v).zip (parts w))[i]'(by simpa using h1)) (List.getElem_mem _)
  simp only [List.getElem_zip] at this
  obtain ⟨r, hr, hr'⟩ := this
  simp only [List.get_eq_getElem, List.getElem_zipWith]
  rw [hr]
  exact hr'

example : (binary .add ⟨8, false⟩ (.two 200 1) (.two 100 2)).map parts = some [44, 3] ∧
    (binary .mul ⟨32, false⟩ (.two 65536 5) (.two 65536 5)).map parts = some [0, 25] := by
  decide

/-- The product of vectors of unsigned numbers of 16 bits is undefined if it does not fit into `int`, although that of unsigned numbers
should be taken modulo `2^16`: 65535 times 65535. -/
theorem C139_short_product_violated : Of ⟨16, false⟩ (.two 65535 1) ∧ binary .mul ⟨16, false⟩ (.two 65535 1) (.two 65535 1) = none := by
  refine ⟨?_, by decide⟩
  rintro x hx
  simp [parts] at hx
  rcases hx with rfl | rfl <;> decide

/-- Negation. -/
theorem C139_negate (t : Ty) (ht : 0 < t.bits) {n : ℕ} (v : Store ℤ n) (h : ∀ x ∈ parts v, t.Has (-x)) :
    ∃ r, negate t v = some r ∧ parts r = (parts v).map (fun x => -x) := by
  refine construct1_parts _ _ v fun x hx => ?_
  rw [result_has (promote_bits ht) (promote_has ht (h x hx))]
  exact congrArg some (Proofs.CInt.conv_has ht (h x hx))

example : (negate ⟨8, true⟩ (.two 127 (-5))).map parts = some [-127, 5] := by decide

theorem fold_spec (t : Ty) (ht : 0 < t.bits) (o : Op) (op : ℤ → ℤ → ℤ) (hop : ∀ p a b, o.eval p a b = result p (op a b))
    (hcong : ∀ (m a a' b : ℤ), m ∣ a - a' → m ∣ op a b - op a' b) {n : ℕ} (v : Store ℤ n) (hv : Of t v) (a : ℤ) (l : List ℤ)
    (hl : parts v = a :: l)
    (h : (Model.CInt.promote t).signed = false ∨ ∀ k ≤ l.length, (Model.CInt.promote t).Has ((l.take k).foldl op a)) :
    ∃ r, fold o t v = some r ∧ Reduced t (l.foldl op a) r := by
  have ha : t.Has a := hv a (by simp [hl])
  have hp := promote_bits ht
  obtain ⟨r, h1, h2⟩ := fold_reduced (Model.CInt.promote t) o op (hop _) hp (fun a a' b => hcong _ a a' b) l a a
    (reduced_self (promote_has ht ha)) h
  have acc := accumulate_parts (fun a b => o.eval (Model.CInt.promote t) a b) v a l hl
  unfold fold
  split_ifs with h3 h4
  · have : l = [] := by
      have := parts_length v
      rw [hl, h3] at this
      simpa using this
    subst this
    exact ⟨a, by rw [acc]; rfl, reduced_self ha⟩
  · obtain ⟨w, hw1, hw2⟩ := construct1_parts (fun a => some (Model.CInt.conv (Model.CInt.promote t) a)) id v (fun x hx => by
      rw [Proofs.CInt.conv_has hp (promote_has ht (hv x hx))]; rfl)
    have hw : w = v := parts_inj (by simpa using hw2)
    rw [hw1, hw]
    refine ⟨Model.CInt.conv t r, ?_, reduced_trans (promote_le t) h2 (conv_reduced ht r)⟩
    simp only [Option.bind_eq_bind, Option.bind_some]
    rw [acc, h1]
    rfl
  · simp only [ne_eq, not_not] at h4
    rw [h4] at acc h1 h2
    exact ⟨r, by rw [acc, h1], h2⟩

theorem foldl_sum (l : List ℤ) : ∀ a, l.foldl (· + ·) a = a + l.sum := by
  induction l with
  | nil => simp
  | cons b l ih => intro a; simp [ih, add_assoc]

theorem foldl_prod (l : List ℤ) : ∀ a, l.foldl (· * ·) a = a * l.prod := by
  induction l with
  | nil => simp
  | cons b l ih => intro a; simp [ih, mul_assoc]

/-- `sum` is the sum of the components modulo `2^bits`, and the sum itself where it is a value of the type, provided arithmetic in the
promoted type is unsigned or the partial sums fit into it. -/
theorem C139_sum (t : Ty) (ht : 0 < t.bits) {n : ℕ} (v : Store ℤ n) (hv : Of t v)
    (h : (Model.CInt.promote t).signed = false ∨ ∀ k, 1 ≤ k → (Model.CInt.promote t).Has ((parts v).take k).sum) :
    ∃ r, fold .add t v = some r ∧ Reduced t (parts v).sum r ∧ (t.Has (parts v).sum → r = (parts v).sum) := by
  obtain ⟨a, l, hl⟩ : ∃ a l, parts v = a :: l := by
    have := parts_length v
    have hn := pos v
    cases h : parts v with
    | nil => rw [h] at this; simp at this; omega
    | cons a l => exact ⟨a, l, rfl⟩
  obtain ⟨r, h1, h2⟩ := fold_spec t ht .add (· + ·) (fun _ _ _ => rfl) (fun m a a' b hd => by
    rwa [show a + b - (a' + b) = a - a' by ring]) v hv a l hl (by
      rcases h with h | h
      · exact Or.inl h
      · right
        intro k _
        have := h (k + 1) (by omega)
        rw [hl] at this
        rw [foldl_sum]
        simpa using this)
  rw [foldl_sum] at h2
  have e : (parts v).sum = a + l.sum := by rw [hl]; simp
  rw [e]
  exact ⟨r, h1, h2, fun hh => reduced_unique ht h2 (reduced_self hh)⟩

example : fold .add ⟨8, false⟩ (.three 200 100 1) = some 45 ∧ fold .add ⟨32, true⟩ (.three 200 (-100) 1) = some 101 := by decide

/-- The same of `product`. -/
theorem C139_product (t : Ty) (ht : 0 < t.bits) {n : ℕ} (v : Store ℤ n) (hv : Of t v)
    (h : (Model.CInt.promote t).signed = false ∨ ∀ k, 1 ≤ k → (Model.CInt.promote t).Has ((parts v).take k).prod) :
    ∃ r, fold .mul t v = some r ∧ Reduced t (parts v).prod r ∧ (t.Has (parts v).prod → r = (parts v).prod) := by
  obtain ⟨a, l, hl⟩ : ∃ a l, parts v = a :: l := by
    have := parts_length v
    have hn := pos v
    cases h : parts v with
    | nil => rw [h] at this; simp at this; omega
    | cons a l => exact ⟨a, l, rfl⟩
  obtain ⟨r, h1, h2⟩ := fold_spec t ht .mul (· * ·) (fun _ _ _ => rfl) (fun m a a' b hd => by
    rw [show a * b - a' * b = (a - a') * b by ring]; exact Dvd.dvd.mul_right hd b) v hv a l hl (by
      rcases h with h | h
      · exact Or.inl h
      · right
        intro k _
        have := h (k + 1) (by omega)
        rw [hl] at this
        rw [foldl_prod]
        simpa using this)
  rw [foldl_prod] at h2
  have e : (parts v).prod = a * l.prod := by rw [hl]; simp
  rw [e]
  exact ⟨r, h1, h2, fun hh => reduced_unique ht h2 (reduced_self hh)⟩

example : fold .mul ⟨8, false⟩ (.three 10 10 3) = some 44 ∧ fold .mul ⟨32, true⟩ (.two 7 (-6)) = some (-42) := by decide

theorem promoted_same (t : Ty) {n : ℕ} (v : Store ℤ n) (hv : Of (productType t) v) : promoted t v = some v := by
  unfold promoted
  split_ifs
  · rfl
  · have hb : 0 < (productType t).bits := by simp [productType]
    obtain ⟨w, h1, h2⟩ := construct1_parts (fun a => some (Model.CInt.conv (productType t) a)) id v (fun x hx => by
      rw [Proofs.CInt.conv_has hb (hv x hx)]; rfl)
    rw [h1, show w = v from parts_inj (h2.trans (by simp))]

/-- `dot` is the inner product of the components, provided they, the products and the partial sums are values of the type of the result,
a signed type as wide as the scalar type but not smaller than `int`. -/
theorem C139_dot_partial (t : Ty) {n : ℕ} (v w : Store ℤ n) (hv : Of (productType t) v) (hw : Of (productType t) w)
    (hp : ∀ x ∈ List.zipWith (· * ·) (parts v) (parts w), (productType t).Has x)
    (hs : ∀ k, 1 ≤ k → (productType t).Has ((List.zipWith (· * ·) (parts v) (parts w)).take k).sum) :
    dot t v w = some (List.zipWith (· * ·) (parts v) (parts w)).sum := by
  have hb : 0 < (productType t).bits := by simp [productType]
  obtain ⟨m, h1, h2⟩ := construct_parts (fun a b => Op.mul.eval (productType t) a b) (· * ·) v w (by
    intro p hpm
    refine result_has hb (hp _ ?_)
    obtain ⟨i, hi, rfl⟩ := List.mem_iff_getElem.1 hpm
    rw [List.mem_iff_getElem]
    exact ⟨i, by simpa using hi, by simp⟩)
  unfold dot
  rw [promoted_same t v hv, promoted_same t w hw]
  simp only [Option.bind_eq_bind, Option.bind_some, h1]
  rw [← h2] at hs ⊢
  obtain ⟨a, l, hl⟩ : ∃ a l, parts m = a :: l := by
    have := parts_length m
    have hn := pos m
    cases h : parts m with
    | nil => rw [h] at this; simp at this; omega
    | cons a l => exact ⟨a, l, rfl⟩
  rw [accumulate_parts _ m a l hl]
  have hs1 : (productType t).Has a := by have := hs 1 le_rfl; rw [hl] at this; simpa using this
  obtain ⟨r, h3, h4⟩ := fold_reduced (productType t) .add (· + ·) (fun _ _ => rfl) hb (fun a a' b hd => by
    rwa [show a + b - (a' + b) = a - a' by ring]) l a a (reduced_self hs1) (by
      right
      intro k _
      have := hs (k + 1) (by omega)
      rw [hl] at this
      rw [foldl_sum]
      simpa using this)
  rw [h3, hl]
  rw [foldl_sum] at h4
  have hall : (productType t).Has (a + l.sum) := by
    have := hs (l.length + 1) (by omega)
    rw [hl] at this
    simpa using this
  rw [reduced_unique hb h4 (reduced_self hall)]
  simp

example : dot ⟨8, false⟩ (.three 255 255 255) (.three 255 255 2) = some 130560 := by decide

/-- The inner product of the unsigned vectors (3000000000, 0) and (1, 0) is -1294967296. -/
theorem C139_dot_violated : Of ⟨32, false⟩ (.two 3000000000 0) ∧ dot ⟨32, false⟩ (.two 3000000000 0) (.two 1 0) = some (-1294967296) := by
  refine ⟨?_, by decide +kernel⟩
  rintro x hx
  simp [parts] at hx
  rcases hx with rfl | rfl <;> decide

/-- `cross` is the cross product, provided the components, the products and the differences are values of the type of the result. -/
theorem C139_cross_partial (t : Ty) (x y z x' y' z' : ℤ) (h : ∀ a ∈ [x, y, z, x', y', z', y * z', z * y', z * x', x * z', x * y', y * x',
      y * z' - z * y', z * x' - x * z', x * y' - y * x'], (productType t).Has a) :
    cross t (.three x y z) (.three x' y' z') = some (.three (y * z' - z * y') (z * x' - x * z') (x * y' - y * x')) := by
  have hb : 0 < (productType t).bits := by simp [productType]
  simp only [List.mem_cons, List.not_mem_nil, or_false, forall_eq_or_imp, forall_eq] at h
  obtain ⟨a1, a2, a3, a4, a5, a6, a7, a8, a9, a10, a11, a12, a13, a14, a15⟩ := h
  unfold cross
  rw [promoted_same t (.three x y z) (by rintro q hq; simp [parts] at hq; rcases hq with rfl | rfl | rfl <;> assumption),
    promoted_same t (.three x' y' z') (by rintro q hq; simp [parts] at hq; rcases hq with rfl | rfl | rfl <;> assumption)]
  simp only [Op.eval, Option.bind_eq_bind, Option.bind_some, result_has hb a7, result_has hb a8, result_has hb a9, result_has hb a10,
    result_has hb a11, result_has hb a12, result_has hb a13, result_has hb a14, result_has hb a15]

example : cross ⟨16, true⟩ (.three 1 2 3) (.three 4 5 6) = some (.three (-3) 6 (-3)) :=
  C139_cross_partial ⟨16, true⟩ 1 2 3 4 5 6 (by decide)

/-- Shifting to the left multiplies by a power of two, modulo `2^bits`: for components that are not negative, if the product needs no more
bits than the type of the arithmetic has. -/
theorem C139_shift_left_partial (t : Ty) (ht : 0 < t.bits) {n : ℕ} (v : Store ℤ n) (k : ℕ) (hv : Of (productType t) v) (hk : k < max t.bits 32)
    (h : ∀ a ∈ parts v, 0 ≤ a ∧ a * 2 ^ k < 2 ^ max t.bits 32) :
    ∃ r, shiftLeft t v k = some r ∧ AreReduced t ((parts v).map (· * 2 ^ k)) (parts r) := by
  have hl : ∀ x ∈ parts v, (do some (Model.CInt.conv t (← shl (productType t) x k))) =
      some (Model.CInt.conv t (Model.CInt.conv (productType t) (x * 2 ^ k))) := by
    intro x hx
    obtain ⟨h1, h2⟩ := h x hx
    unfold shl
    rw [if_pos ⟨by omega, by simp only [productType]; exact_mod_cast hk, h1, by simp only [productType, Int.toNat_natCast]; omega⟩]
    rfl
  obtain ⟨r, h1, h2⟩ := construct1_parts (fun x => do some (Model.CInt.conv t (← shl (productType t) x k)))
    (fun x => Model.CInt.conv t (Model.CInt.conv (productType t) (x * 2 ^ k))) v hl
  refine ⟨r, ?_, ?_⟩
  · unfold shiftLeft
    rw [promoted_same t v hv]
    exact h1
  · unfold AreReduced
    rw [h2, List.forall₂_map_left_iff, List.forall₂_map_right_iff, List.forall₂_same]
    intro x _
    exact reduced_trans (p := productType t) (by simp [productType]) (conv_reduced (by simp [productType]) _) (conv_reduced ht _)

example : (shiftLeft ⟨8, false⟩ (.two 129 3) 1).map parts = some [2, 6] ∧ (shiftLeft ⟨32, true⟩ (.two 5 3) 4).map parts = some [80, 48] := by
  decide

/-- Shifting to the right divides by a power of two, rounding down, provided the components are values of the signed type. -/
theorem C139_shift_right_partial (t : Ty) (ht : 0 < t.bits) {n : ℕ} (v : Store ℤ n) (k : ℕ) (hv : Of t v) (hv' : Of (productType t) v)
    (hk : k < max t.bits 32) :
    ∃ r, shiftRight t v k = some r ∧ parts r = (parts v).map (fun a => a / 2 ^ k) := by
  unfold shiftRight
  rw [promoted_same t v hv']
  refine construct1_parts _ _ v fun x hx => ?_
  unfold shr
  rw [if_pos ⟨by omega, by simp only [productType]; exact_mod_cast hk⟩]
  have hd : t.Has (x / 2 ^ k) := by
    obtain ⟨a, b⟩ := hv x hx
    have hp : (0 : ℤ) < 2 ^ k := by positivity
    have hlo : t.lo ≤ 0 := by
      unfold Ty.lo
      have := Proofs.CInt.two_pow_pos (t.bits - 1)
      split <;> omega
    have hhi := Proofs.CInt.hi_nonneg t
    constructor
    · rw [Int.le_ediv_iff_mul_le hp]
      nlinarith
    · by_cases hx0 : 0 ≤ x
      · exact (Int.ediv_le_self _ hx0).trans b
      · have := Int.ediv_neg_of_neg_of_pos (by omega : x < 0) hp
        omega
  exact congrArg some (Proofs.CInt.conv_has ht hd)

example : (shiftRight ⟨8, true⟩ (.two (-128) 7) 1).map parts = some [-64, 3] := by decide

/-- Of an unsigned vector with 2147483648 the shift to the right by one gives 3221225472, not 1073741824; the shift to the left by one is
undefined, not 0. -/
theorem C139_shift_violated : Of ⟨32, false⟩ (.two 2147483648 0) ∧
    (shiftRight ⟨32, false⟩ (.two 2147483648 0) 1).map parts = some [3221225472, 0] ∧ shiftLeft ⟨32, false⟩ (.two 2147483648 0) 1 = none := by
  refine ⟨?_, by decide +kernel, by decide +kernel⟩
  rintro x hx
  simp [parts] at hx
  rcases hx with rfl | rfl <;> decide

end Verif.Props.IntVector
