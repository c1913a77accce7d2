import Verif.Model.FloatProducts
import Verif.Spec.Representable
import Verif.Proofs.Kahan
import Verif.Proofs.FloatVector
import Verif.Proofs.Approx
import Verif.Proofs.IntMatrix
import Verif.Props.FloatVector
import Mathlib.Tactic.Linarith
import Mathlib.Tactic.Ring
import Mathlib.Tactic.Positivity
import Mathlib.Algebra.BigOperators.Fin

/-! Lemmas about sums of products of floating-point numbers. -/

namespace Verif.Proofs.FloatProducts
open Verif.Spec.Parts Verif.Spec.IeeeArith Verif.Spec.FloatFormat Verif.Model.VectorStore Verif.Model.MatrixStore Verif.Model.FloatVector
open Verif.Model.FloatProducts Verif.Proofs.VectorStore Verif.Proofs.FloatVector Verif.Proofs.MatrixStore
open Verif.Spec.Representable

theorem zipWith_ofFn {α β γ : Type} {n : ℕ} (f : α → β → γ) (a : Fin n → α) (b : Fin n → β) :
    List.zipWith f (List.ofFn a) (List.ofFn b) = List.ofFn fun i => f (a i) (b i) := by
  apply List.ext_getElem
  · simp
  · intro i h1 h2; simp

theorem store {α : Type} {n : ℕ} (hn : 0 < n) (a : Fin n → α) : ∃ v : Store α n, parts v = List.ofFn a := by
  obtain ⟨v, -, h⟩ := init_parts (a ⟨0, hn⟩) n (List.ofFn a) (by simp; omega) (by simp)
  exact ⟨v, by rw [h]; simp [padded]⟩

theorem dot_fold (f : Format) {n : ℕ} (c : Store Bool n) (v w : Store Number n) (a : Number) (l : List Number)
    (h : List.zipWith (product f) (List.zipWith (fun a b => (a, b)) (parts v) (parts w)) (parts c) = a :: l) :
    dot f c v w = some (l.foldl (fun a b => Op.add.eval f a b) a) := by
  obtain ⟨pairs, p1, p2⟩ := construct_parts (fun a b => some (a, b)) (fun a b => (a, b)) v w (fun _ _ => rfl)
  obtain ⟨prods, q1, q2⟩ := construct_parts (fun p c => some (product f p c)) (product f) pairs c (fun _ _ => rfl)
  unfold dot
  rw [p1]
  simp only [Option.bind_eq_bind, Option.bind_some]
  rw [q1]
  simp only [Option.bind_some]
  rw [accumulate_parts _ prods a l (by rw [q2, p2]; exact h)]
  exact foldlM_some _ _ _

theorem range_fold {β : Type} (F : β → ℕ → Option β) (G : β → ℕ → β) (m : ℕ) : ∀ (s : ℕ) (b : β), (∀ b, ∀ i < m, F b (s + i) = some (G b (s + i))) →
    (List.range' s m).foldlM F b = some ((List.range' s m).foldl G b) := by
  induction m with
  | zero => intro s b _; rfl
  | succ m ih =>
    intro s b h
    rw [List.range'_succ, List.foldlM_cons, List.foldl_cons]
    have := h b 0 (by omega)
    rw [Nat.add_zero] at this
    rw [this]
    simp only [Option.bind_eq_bind, Option.bind_some]
    exact ih (s + 1) _ fun b i hi => by rw [show s + 1 + i = s + (i + 1) by ring]; exact h b (i + 1) (by omega)

theorem sum_dot (f : Format) {n : ℕ} (hn : 0 < n) (k : ℕ → Bool) (g h : ℕ → Option Number) (a b : Fin n → Number)
    (hg : ∀ i : Fin n, g i = some (a i)) (hh : ∀ i : Fin n, h i = some (b i)) (v w : Store Number n) (c : Store Bool n)
    (hv : parts v = List.ofFn a) (hw : parts w = List.ofFn b) (hc : parts c = List.ofFn fun i : Fin n => k i) :
    sumOfProducts f n k g h = dot f c v w := by
  obtain ⟨m, rfl⟩ : ∃ m, n = m + 1 := ⟨n - 1, by omega⟩
  rw [dot_fold f c v w (product f (a 0, b 0) (k 0)) (List.ofFn fun i : Fin m => product f (a i.succ, b i.succ) (k (i + 1))) (by
    rw [hv, hw, hc, zipWith_ofFn, zipWith_ofFn, List.ofFn_succ]; rfl)]
  have g0 := hg 0
  have h0 := hh 0
  simp only [Fin.val_zero] at g0 h0
  unfold sumOfProducts
  rw [g0, h0]
  simp only [Option.bind_eq_bind, Option.bind_some, Nat.add_sub_cancel]
  set G : Number → ℕ → Number := fun val i =>
    if hi : i < m + 1 then Op.add.eval f val (product f (a ⟨i, hi⟩, b ⟨i, hi⟩) (k i)) else val with hG
  rw [range_fold _ G m 1 _ (by
    intro val i hi
    have e1 := hg ⟨1 + i, by omega⟩
    have e2 := hh ⟨1 + i, by omega⟩
    simp only at e1 e2
    rw [e1, e2, hG]
    simp only [Option.bind_some]
    rw [dif_pos (by omega)])]
  congr 1
  have e : List.range' 1 m = List.ofFn fun i : Fin m => i.val + 1 := by
    apply List.ext_getElem
    · simp
    · intro i h1 h2; simp; omega
  have e2 : (List.ofFn fun i : Fin m => product f (a i.succ, b i.succ) (k (i + 1))) =
      (List.finRange m).map fun i : Fin m => product f (a i.succ, b i.succ) (k (i + 1)) := by rw [List.ofFn_eq_map]
  rw [e, e2, List.ofFn_eq_map, List.foldl_map, List.foldl_map]
  congr 1
  funext val i
  rw [hG]
  simp only
  rw [dif_pos (by omega)]
  rfl

/-- The error of a sum of `n` products. -/
theorem sum_err (f : Format) {n : ℕ} (hn : 0 < n) (k : ℕ → Bool) (hk : Chosen n k) (g h : ℕ → Option Number) (A B : Fin n → ℚ)
    (hg : ∀ i : Fin n, (g i).bind value = some (A i)) (hh : ∀ i : Fin n, (h i).bind value = some (B i))
    (hs : (1 + f.u) ^ n * ∑ i, |A i * B i| + n * f.tiny * (1 + f.u) ^ (n - 1) ≤ f.greatest) :
    ∃ r z, sumOfProducts f n k g h = some r ∧ value r = some z ∧
      |z - ∑ i, A i * B i| ≤ ((1 + f.u) ^ n - 1) * ∑ i, |A i * B i| + n * f.tiny * (1 + f.u) ^ (n - 1) := by
  have e : ∀ (g : ℕ → Option Number) (A : Fin n → ℚ), (∀ i : Fin n, (g i).bind value = some (A i)) →
      ∃ a : Fin n → Number, (∀ i : Fin n, g i = some (a i)) ∧ ∀ i, value (a i) = some (A i) := by
    intro g A hg
    have := fun i : Fin n => Option.bind_eq_some_iff.1 (hg i)
    choose a h1 h2 using this
    exact ⟨a, h1, h2⟩
  obtain ⟨a, a1, a2⟩ := e g A hg
  obtain ⟨b, b1, b2⟩ := e h B hh
  obtain ⟨v, hv⟩ := store hn a
  obtain ⟨w, hw⟩ := store hn b
  obtain ⟨c, hc⟩ := store hn fun i : Fin n => k i
  rw [sum_dot f hn k g h a b a1 b1 v w c hv hw hc]
  have := Props.FloatVector.C148_dot f c (by
    unfold Contraction
    rw [hc]
    match n, hk with
    | 0, _ => trivial
    | 1, hk => simpa using hk.1 rfl
    | n + 2, hk => simpa using hk.2) v w (List.ofFn A) (List.ofFn B)
    (by rw [hv, List.map_ofFn, List.map_ofFn]; congr 1; funext i; exact a2 i)
    (by rw [hw, List.map_ofFn, List.map_ofFn]; congr 1; funext i; exact b2 i)
    (by rw [zipWith_ofFn, List.sum_ofFn]; exact hs)
  rw [zipWith_ofFn, zipWith_ofFn, List.sum_ofFn, List.sum_ofFn] at this
  exact this

theorem combination_err (f : Format) (k : Bool × Bool) (hk : Once k) {a b c d : Number} {A B C D : ℚ} (ha : value a = some A)
    (hb : value b = some B) (hc : value c = some C) (hd : value d = some D)
    (hs : (1 + f.u) ^ 2 * (|A * B| + |C * D|) + 2 * f.tiny * (1 + f.u) ≤ f.greatest) :
    ∃ z, value (combination f k (a, b) (c, d)) = some z ∧
      |z - (A * B + C * D)| ≤ ((1 + f.u) ^ 2 - 1) * (|A * B| + |C * D|) + 2 * f.tiny * (1 + f.u) := by
  obtain ⟨r, z, h1, h2, h3⟩ := Props.FloatVector.C148_dot f (.two k.1 k.2) hk (.two a c) (.two b d) [A, C] [B, D]
    (by simp [parts, ha, hc]) (by simp [parts, hb, hd]) (by simpa using hs)
  have e : dot f (.two k.1 k.2) (.two a c) (.two b d) = some (combination f k (a, b) (c, d)) := rfl
  rw [e] at h1
  cases h1
  exact ⟨z, h2, by simpa using h3⟩

theorem negate_mul (a b : Number) : (a.mul b).negate = a.negate.mul b := by
  cases a <;> cases b <;> simp only [Number.mul, Number.negate] <;> (try split_ifs) <;> simp_all

theorem negate_round (f : Format) (a : Number) : (f.round a).negate = f.round a.negate := by
  cases a with
  | nan => rfl
  | inf s => rfl
  | fin s a =>
    simp only [Format.round, Number.round, Number.negate]
    split_ifs <;> rfl

theorem product_negate (f : Format) (a b : Number) (k : Bool) : (product f (a, b) k).negate = product f (a.negate, b) k := by
  unfold product
  cases k
  · simp only [Op.eval]
    rw [if_neg (by simp), if_neg (by simp), negate_round, negate_mul]
  · rw [if_pos rfl, if_pos rfl, negate_mul]

theorem value_negate {y : Number} {Y : ℚ} (hy : value y = some Y) : value y.negate = some (-Y) := by
  cases y with
  | nan => simp [value] at hy
  | inf s => simp [value] at hy
  | fin s a =>
    simp only [value, Option.some.injEq] at hy
    subst hy
    cases s <;> simp [Number.negate, value, signed]

theorem difference_combination (f : Format) (k : Bool × Bool) (a b c d : Number) :
    difference f k (a, b) (c, d) = combination f k (a, b) (c.negate, d) := by
  unfold difference combination
  simp only [Op.eval, Number.sub]
  rw [product_negate]

theorem difference_err (f : Format) (k : Bool × Bool) (hk : Once k) {a b c d : Number} {A B C D : ℚ} (ha : value a = some A)
    (hb : value b = some B) (hc : value c = some C) (hd : value d = some D)
    (hs : (1 + f.u) ^ 2 * (|A * B| + |C * D|) + 2 * f.tiny * (1 + f.u) ≤ f.greatest) :
    ∃ z, value (difference f k (a, b) (c, d)) = some z ∧
      |z - (A * B - C * D)| ≤ ((1 + f.u) ^ 2 - 1) * (|A * B| + |C * D|) + 2 * f.tiny * (1 + f.u) := by
  rw [difference_combination]
  have := combination_err f k hk ha hb (value_negate hc) hd (by rw [neg_mul, abs_neg]; exact hs)
  rw [neg_mul, abs_neg, ← sub_eq_add_neg] at this
  exact this

theorem tabulate_at {n : ℕ} (hn : 0 < n) (f : ℕ → Option Number) (g : Fin n → Number) (h : ∀ i : Fin n, f i = some (g i)) :
    ∃ v, tabulate n f = some v ∧ ∀ i, at_ v i = g i := by
  obtain ⟨v, h1, h2⟩ := init_parts (Number.fin false 0) n (List.ofFn g) (by simp; omega) (by simp)
  refine ⟨v, ?_, fun i => ?_⟩
  · unfold tabulate
    rw [mapM_range f g h]
    exact h1
  · rw [at_of v i h2 (by rw [← h2, parts_length]; exact i.2)]
    simp [padded]

theorem rep {f : Format} (hp : 1 ≤ f.p) {q : ℚ} (h : Representable f q) : rd f q = q ∧ |q| ≤ f.greatest := by
  obtain ⟨x, h1, h2⟩ := h
  obtain ⟨h3, h4⟩ := Approx.has_R h1 h2
  exact ⟨Kahan.rd_R hp h3, h4⟩

theorem exact_round {f : Format} (hp : 1 ≤ f.p) {x : Number} {q : ℚ} (h : Representable f q) (hx : value x = some q) :
    value (f.round x) = some q := by
  obtain ⟨h1, h2⟩ := rep hp h
  have := value_round f hx (by rw [h1]; exact h2)
  rwa [h1] at this

theorem exact_product {f : Format} (hp : 1 ≤ f.p) {a b : Number} {A B : ℚ} (ha : value a = some A) (hb : value b = some B)
    (h : Representable f (A * B)) (k : Bool) : value (product f (a, b) k) = some (A * B) := by
  unfold product
  cases k
  · exact exact_round hp h (value_mul ha hb)
  · exact value_mul ha hb

theorem exact_combination {f : Format} (hp : 1 ≤ f.p) {a b c d : Number} {A B C D : ℚ} (ha : value a = some A) (hb : value b = some B)
    (hc : value c = some C) (hd : value d = some D) (h1 : Representable f (A * B)) (h2 : Representable f (C * D))
    (h3 : Representable f (A * B + C * D)) (k : Bool × Bool) : value (combination f k (a, b) (c, d)) = some (A * B + C * D) :=
  exact_round hp h3 (value_add (exact_product hp ha hb h1 _) (exact_product hp hc hd h2 _))

theorem exact_difference {f : Format} (hp : 1 ≤ f.p) {a b c d : Number} {A B C D : ℚ} (ha : value a = some A) (hb : value b = some B)
    (hc : value c = some C) (hd : value d = some D) (h1 : Representable f (A * B)) (h2 : Representable f (C * D))
    (h3 : Representable f (A * B - C * D)) (k : Bool × Bool) : value (difference f k (a, b) (c, d)) = some (A * B - C * D) :=
  exact_round hp h3 (Approx.value_sub (exact_product hp ha hb h1 _) (exact_product hp hc hd h2 _))

theorem rep_zero (f : Format) (hg : 0 ≤ f.greatest) : Representable f 0 :=
  ⟨.fin false 0, ⟨⟨0, f.emin - f.p + 1, by positivity, le_rfl, by simp⟩, hg⟩, by simp [value, signed]⟩

theorem rep_neg {f : Format} {q : ℚ} (h : Representable f q) : Representable f (-q) := by
  obtain ⟨x, h1, h2⟩ := h
  refine ⟨x.negate, ?_, value_negate h2⟩
  cases x <;> exact h1

theorem exact_sum_aux {f : Format} (hp : 1 ≤ f.p) (n : ℕ) (k : ℕ → Bool) (g h : ℕ → Option Number) (A B : ℕ → ℚ)
    (hg : ∀ i < n, (g i).bind value = some (A i)) (hh : ∀ i < n, (h i).bind value = some (B i))
    (h1 : ∀ i < n, Representable f (A i * B i)) (h2 : ∀ j ≤ n, Representable f (∑ i ∈ Finset.range j, A i * B i)) (m : ℕ) :
    ∀ (s : ℕ) (acc : Number), value acc = some (∑ i ∈ Finset.range s, A i * B i) → s + m ≤ n →
      ∃ r, (List.range' s m).foldlM (fun val i => do some (Op.add.eval f val (product f (← g i, ← h i) (k i)))) acc = some r ∧
        value r = some (∑ i ∈ Finset.range (s + m), A i * B i) := by
  induction m with
  | zero => intro s acc ha _; exact ⟨acc, rfl, ha⟩
  | succ m ih =>
    intro s acc ha hs
    obtain ⟨a, a1, a2⟩ := Option.bind_eq_some_iff.1 (hg s (by omega))
    obtain ⟨b, b1, b2⟩ := Option.bind_eq_some_iff.1 (hh s (by omega))
    rw [List.range'_succ, List.foldlM_cons, a1, b1]
    simp only [Option.bind_eq_bind, Option.bind_some]
    have := ih (s + 1) (Op.add.eval f acc (product f (a, b) (k s))) (by
      rw [Finset.sum_range_succ]
      refine exact_round hp ?_ (value_add ha (exact_product hp a2 b2 (h1 s (by omega)) _))
      rw [← Finset.sum_range_succ]
      exact h2 _ (by omega)) (by omega)
    rw [show s + 1 + m = s + (m + 1) by ring] at this
    exact this

theorem exact_sum {f : Format} (hp : 1 ≤ f.p) {n : ℕ} (hn : 0 < n) (k : ℕ → Bool) (g h : ℕ → Option Number) (A B : ℕ → ℚ)
    (hg : ∀ i < n, (g i).bind value = some (A i)) (hh : ∀ i < n, (h i).bind value = some (B i))
    (h1 : ∀ i < n, Representable f (A i * B i)) (h2 : ∀ j ≤ n, Representable f (∑ i ∈ Finset.range j, A i * B i)) :
    ∃ r, sumOfProducts f n k g h = some r ∧ value r = some (∑ i ∈ Finset.range n, A i * B i) := by
  obtain ⟨a, a1, a2⟩ := Option.bind_eq_some_iff.1 (hg 0 hn)
  obtain ⟨b, b1, b2⟩ := Option.bind_eq_some_iff.1 (hh 0 hn)
  have := exact_sum_aux hp n k g h A B hg hh h1 h2 (n - 1) 1 (product f (a, b) (k 0)) (by
    rw [Finset.sum_range_one]
    exact exact_product hp a2 b2 (h1 0 hn) _) (by omega)
  rw [show 1 + (n - 1) = n by omega] at this
  unfold sumOfProducts
  rw [a1, b1]
  exact this

end Verif.Proofs.FloatProducts
