import Verif.Proofs.MatrixStore
import Mathlib.Data.Fin.VecNotation
import Mathlib.Tactic.Tauto

/-! # C143: construction, access, equality of matrices; element-wise arithmetic of matrices of integers -/

namespace Verif.Props.MatrixStore

open Verif.Spec.CInt Verif.Spec.Parts Verif.Model.VectorStore Verif.Model.MatrixStore Verif.Proofs.VectorStore Verif.Proofs.MatrixStore
open Verif.Props.IntVector (exact Fits Wraps)

variable {α β : Type}

/-- The scalar in row `r` and column `c`: what `m.get<r, c>()` gives, by `C143_access`. -/
def entry {R C : ℕ} (m : Mat α R C) (r : Fin R) (c : Fin C) : α := at_ (m c) r

/-- `get` and the call operator give the same scalar, which lies at `c * R + r` in memory: columns one after the other; there are
`R * C` scalars, and they determine the matrix. -/
theorem C143_access {R C : ℕ} (m : Mat α R C) :
    (∀ (r : Fin R) (c : Fin C), get m r c = some (entry m r c) ∧ lookup m r c = some (entry m r c) ∧
      (memory m)[c.val * R + r.val]? = some (entry m r c)) ∧
    (memory m).length = R * C ∧ ∀ w : Mat α R C, (∀ r c, entry m r c = entry w r c) → m = w := by
  refine ⟨fun r c => ⟨?_, ?_, ?_⟩, ?_, fun w h => funext fun c => at_ext fun r => h r c⟩
  · unfold Model.MatrixStore.get
    rw [dif_pos ⟨r.2, c.2⟩, component_parts, List.getElem?_eq_getElem (by rw [parts_length]; exact r.2)]
    rfl
  · unfold lookup
    rw [dif_pos ⟨r.2, c.2⟩, index_parts _ _ r.2, List.getElem?_eq_getElem (by rw [parts_length]; exact r.2)]
    rfl
  · exact memory_get m r c
  · rw [memory_length, Nat.mul_comm]

example : memory (R := 2) (C := 3) (fun c => .two (10 * c.val) (10 * c.val + 1)) = [0, 1, 10, 11, 20, 21] := by decide

/-- Assigning to one entry changes that and no other. -/
theorem C143_assign {R C : ℕ} (m : Mat α R C) (r : Fin R) (c : Fin C) (a : α) :
    ∃ w, set m r c a = some w ∧ entry w r c = a ∧ ∀ r' c', (r', c') ≠ (r, c) → entry w r' c' = entry m r' c' := by
  obtain ⟨col, h1, h2⟩ := setComponent_parts (m c) r a r.2
  refine ⟨Function.update m c col, ?_, ?_, ?_⟩
  · unfold Model.MatrixStore.set
    rw [dif_pos ⟨r.2, c.2⟩, h1]
    rfl
  · unfold entry
    rw [Function.update_self, at_of col r h2 (by simp [parts_length])]
    simp
  · intro r' c' hne
    unfold entry
    by_cases hc : c' = c
    · subst hc
      have hr : r.val ≠ r'.val := fun e => hne (by rw [Fin.ext e])
      rw [Function.update_self, at_of col r' h2 (by simp [parts_length])]
      rw [List.getElem_set_ne hr]
      rfl
    · rw [Function.update_of_ne hc]

/-- All entries of a matrix made from one scalar are that scalar. -/
theorem C143_broadcast (zero a : α) (R C : ℕ) (hR : 0 < R) : ∃ m, broadcast zero a R C = some m ∧ ∀ r c, entry m r c = a := by
  obtain ⟨v, h1, h2⟩ := broadcast_at a hR
  have hm : (List.range C).mapM (fun _ => Model.VectorStore.broadcast a R) = some ((List.range C).map fun _ => v) :=
    mapM_some _ (fun _ => v) _ (fun _ _ => h1)
  obtain ⟨m, h3, h4, -⟩ := initColumns_some zero (C := C) hR ((List.range C).map fun _ => v) (by simp)
  refine ⟨m, ?_, fun r c => ?_⟩
  · unfold Model.MatrixStore.broadcast
    rw [hm]
    exact h3
  · unfold entry
    rw [h4 c (by simp)]
    simp [h2]

/-- A matrix made from columns has them, converted, cut off or filled up with zeros, and then columns of zeros. -/
theorem C143_columns (zero : α) (cast : β → α) (R C : ℕ) (hR : 0 < R) (cols : List (Σ d, Store β d)) (h2 : 2 ≤ cols.length)
    (hC : cols.length ≤ C) :
    ∃ m, ofColumns zero cast R C cols = some m ∧ ∀ (r : Fin R) (c : Fin C), entry m r c =
      if hc : c.val < cols.length then (((parts cols[c.val].2)[r.val]?).map cast).getD zero else zero := by
  have key : ∀ col : Σ d, Store β d, ∃ v, Model.VectorStore.convert zero cast R col.2 = some v ∧
      ∀ i : Fin R, at_ v i = (((parts col.2)[i.val]?).map cast).getD zero := by
    intro col
    obtain ⟨v, h1, h3⟩ := convert_at zero cast hR col.2
    refine ⟨v, h1, fun i => ?_⟩
    rw [h3]
    split_ifs with h
    · rw [List.getElem?_eq_getElem (by rw [parts_length]; exact h)]; rfl
    · rw [List.getElem?_eq_none (by rw [parts_length]; omega)]; rfl
  choose f hf1 hf2 using key
  have hm : cols.mapM (fun col => Model.VectorStore.convert zero cast R col.2) = some (cols.map f) := mapM_some _ f _ fun x _ => hf1 x
  obtain ⟨m, h3, h4, h5⟩ := initColumns_some zero (C := C) hR (cols.map f) (by simpa using hC)
  refine ⟨m, ?_, fun r c => ?_⟩
  · unfold ofColumns
    rw [if_pos ⟨h2, hC⟩, hm]
    exact h3
  · unfold entry
    split_ifs with hc
    · rw [h4 c (by simpa using hc)]
      simp [hf2]
    · exact h5 c r (by simpa using hc)

/-- A matrix made from a matrix of another size or type has its entries, converted, where it has any, and else zeros. -/
theorem C143_convert (zero : α) (cast : β → α) (R C R' C' : ℕ) (hR : 0 < R) (mat : Mat β R' C') :
    ∃ m, convert zero cast R C mat = some m ∧ ∀ (r : Fin R) (c : Fin C), entry m r c =
      if h : r.val < R' ∧ c.val < C' then cast (entry mat ⟨r, h.1⟩ ⟨c, h.2⟩) else zero := by
  have key : ∀ c : Fin C', ∃ v, Model.VectorStore.convert zero cast R (mat c) = some v ∧
      ∀ i : Fin R, at_ v i = if h : i.val < R' then cast (at_ (mat c) ⟨i, h⟩) else zero := fun c => convert_at zero cast hR (mat c)
  choose f hf1 hf2 using key
  have hm : (List.range (if C' < C then C' else C)).mapM (fun c => if h : c < C' then Model.VectorStore.convert zero cast R (mat ⟨c, h⟩) else none) =
      some (List.ofFn fun c : Fin (min C C') => f ⟨c.val, by omega⟩) := by
    rw [show (if C' < C then C' else C) = min C C' by split_ifs <;> omega]
    exact mapM_range _ _ fun c => by rw [dif_pos (by omega), hf1]
  obtain ⟨m, h3, h4, h5⟩ := initColumns_some zero (C := C) hR (List.ofFn fun c : Fin (min C C') => f ⟨c.val, by omega⟩) (by simp)
  refine ⟨m, ?_, fun r c => ?_⟩
  · unfold Model.MatrixStore.convert
    rw [hm]
    exact h3
  · unfold entry
    by_cases hc : c.val < C'
    · rw [h4 c (by simp; omega), List.getElem_ofFn, hf2]
      simp only [hc, and_true]
    · rw [h5 c r (by simp; omega), dif_neg (fun h => hc h.2)]

example : (convert 0 Int.toNat 3 2 (R' := 2) (C' := 3) (fun c => .two (10 * c.val) (-5))).map memory = some [0, 0, 0, 10, 0, 0] ∧
    (ofColumns 0 Int.toNat 2 3 [⟨3, .three 7 8 9⟩, ⟨1, .one 6⟩]).map memory = some [7, 8, 6, 0, 0, 0] ∧
    (broadcast 0 5 2 2).map memory = some [5, 5, 5, 5] := by decide

/-- Matrices are equal exactly if all their columns are (claim C138), in particular, for the same type and for floating-point types, if
all their entries are the same numbers; `!=` says the opposite. -/
theorem C143_equal (a b : Kind) {R C : ℕ} (m w : Mat Num R C) :
    (equal a b m w = true ↔ ∀ c, Model.VectorEq.equal a b (m c) (w c) = true) ∧
    (a = b → (equal a b m w = true ↔ ∀ r c, (entry m r c).Same (entry w r c))) ∧
    (∀ p q, 1 ≤ p → a = .float p → b = .float q → (∀ r c, a.Has (entry m r c)) → (∀ r c, b.Has (entry w r c)) →
      (equal a b m w = true ↔ ∀ r c, (entry m r c).Same (entry w r c))) ∧
    (notEqual a b m w = true ↔ ¬equal a b m w = true) := by
  have h1 : equal a b m w = true ↔ ∀ c, Model.VectorEq.equal a b (m c) (w c) = true := by
    simp [equal, Model.VectorEq.notEqual]
  have h2 : ∀ c, VectorEq.SameParts (m c) (w c) ↔ ∀ r, (entry m r c).Same (entry w r c) := by
    intro c
    rw [VectorEq.sameParts_iff]
    constructor
    · intro h r
      refine h (entry m r c, entry w r c) ?_
      have l1 : r.val < (parts (m c)).length := by rw [parts_length]; exact r.2
      have l2 : r.val < (parts (w c)).length := by rw [parts_length]; exact r.2
      rw [List.mem_iff_getElem]
      exact ⟨r.val, by simp [parts_length], by simp [entry, at_]⟩
    · intro h p hp
      obtain ⟨i, e1, e2⟩ := zip_at _ _ p hp
      rw [e1, e2]
      exact h i
  have h3 : (∀ c, VectorEq.SameParts (m c) (w c)) ↔ ∀ r c, (entry m r c).Same (entry w r c) :=
    ⟨fun h r c => (h2 c).1 (h c) r, fun h c => (h2 c).2 fun r => h r c⟩
  refine ⟨h1, ?_, ?_, ?_⟩
  · rintro rfl
    rw [h1, ← h3]
    exact forall_congr' fun c => VectorEq.C138_same a _ _
  · rintro p q hp rfl rfl hm hw
    rw [h1, ← h3]
    refine forall_congr' fun c => VectorEq.C138_floats p q hp _ _ (fun x hx => ?_) (fun x hx => ?_)
    · obtain ⟨i, rfl⟩ := mem_at _ _ hx
      exact hm i c
    · obtain ⟨i, rfl⟩ := mem_at _ _ hx
      exact hw i c
  · simp [notEqual]

/-- `zero` holds if every entry is zero; `infinity_or_nan` if some entry is an infinity or not a number. -/
theorem C143_zero {R C : ℕ} (m : Mat Num R C) :
    (zero m = true ↔ ∀ r c, entry m r c = .fin 0) ∧
    ∀ k : Kind, (∀ r c, k.Has (entry m r c)) →
      (infinityOrNan k m = true ↔ ∃ r c, (∃ s, entry m r c = .inf s) ∨ entry m r c = .nan) := by
  constructor
  · have h1 : zero m = true ↔ ∀ c, Model.VectorEq.zero (m c) = true := by simp [zero]
    rw [h1]
    constructor
    · intro h r c
      exact (VectorEq.C138_zero (m c)).1.1 (h c) _ (at_mem _ _)
    · intro h c
      refine (VectorEq.C138_zero (m c)).1.2 fun x hx => ?_
      obtain ⟨i, rfl⟩ := mem_at _ _ hx
      exact h i c
  · intro k hk
    have ho : ∀ c, VectorEq.Of k (m c) := by
      intro c x hx
      obtain ⟨i, rfl⟩ := mem_at _ _ hx
      exact hk i c
    have h1 : infinityOrNan k m = true ↔ ∃ c, Model.VectorEq.infinityOrNan k (m c) = true := by
      cases k with
      | int t => simp [infinityOrNan, Model.VectorEq.infinityOrNan, Model.VectorEq.isFloat]
      | float p => simp [infinityOrNan, Model.VectorEq.isFloat]
    rw [h1]
    constructor
    · rintro ⟨c, h⟩
      obtain ⟨x, hx, h⟩ := ((VectorEq.C138_zero (m c)).2 k (ho c)).1 h
      obtain ⟨i, rfl⟩ := mem_at _ _ hx
      exact ⟨i, c, h⟩
    · rintro ⟨r, c, h⟩
      exact ⟨c, ((VectorEq.C138_zero (m c)).2 k (ho c)).2 ⟨_, at_mem _ _, h⟩⟩

example : equal (.float 24) (.float 53) (R := 1) (C := 2) ![.one (.fin 1), .one (.fin 2)] ![.one (.fin 1), .one (.fin 3)] = false ∧
    zero (R := 1) (C := 2) ![.one (.fin 0), .one (.fin 2)] = false ∧
    infinityOrNan (.float 24) (R := 1) (C := 2) ![.one (.fin 0), .one .nan] = true := by
  refine ⟨?_, by decide +kernel, by decide +kernel⟩
  decide +kernel

/-- Adding and subtracting matrices of integers, and multiplying and dividing them by a scalar: if the exact results are values of the
scalar type, they are the entries of the result. Compound assignment gives the same, also if a matrix is added to itself. -/
theorem C143_arithmetic (t : Ty) (ht : 0 < t.bits) (o : Model.IntVector.Op) {R C : ℕ} (m w : Mat ℤ R C) (k : ℤ) :
    ((∀ r c, Fits t o (entry m r c) (entry w r c)) →
      ∃ s, binary o t m w = some s ∧ (∀ r c, entry s r c = exact o (entry m r c) (entry w r c)) ∧
        binaryAssign o t m (.other w) = some s ∧ (w = m → binaryAssign o t m .itself = some s)) ∧
    ((∀ r c, Fits t o (entry m r c) k) →
      ∃ s, scalar o t m k = some s ∧ (∀ r c, entry s r c = exact o (entry m r c) k) ∧ scalarAssign o t m k = some s) ∧
    ((∀ r c, t.Has (-entry m r c)) → ∃ s, negate t m = some s ∧ ∀ r c, entry s r c = -entry m r c) := by
  refine ⟨fun h => ?_, fun h => ?_, fun h => ?_⟩
  · have key : ∀ c, ∃ v, Model.IntVector.binary o t (m c) (w c) = some v ∧ ∀ r, at_ v r = exact o (entry m r c) (entry w r c) := by
      intro c
      obtain ⟨v, h1, h2⟩ := IntVector.C139_exact t ht o (m c) (w c) fun p hp => by
        obtain ⟨i, e1, e2⟩ := zip_at _ _ p hp
        rw [e1, e2]
        exact h i c
      exact ⟨v, h1, fun r => by rw [at_of v r h2 (by rw [← h2, parts_length]; exact r.2)]; simp [entry, at_]⟩
    choose s h1 h2 using key
    refine ⟨s, loop _ _ _ fun i x hx => ?_, fun r c => h2 c r, loop _ _ _ fun i x hx => ?_, fun e => loop _ _ _ fun i x hx => ?_⟩
    · rw [hx]; exact (IntVector.C139_assign t o _ _ _ (h1 i)).1
    · dsimp only; rw [hx]; exact (IntVector.C139_assign t o _ _ _ (h1 i)).1
    · dsimp only; rw [hx]; exact (IntVector.C139_assign t o _ _ _ (h1 i)).2 (by rw [e])
  · have key : ∀ c, ∃ v, Model.IntVector.scalarAssign o t (m c) k = some v ∧ ∀ r, at_ v r = exact o (entry m r c) k := by
      intro c
      obtain ⟨v, -, h2, h1⟩ := IntVector.C139_scalar t ht o (m c) k fun x hx => by
        obtain ⟨i, rfl⟩ := mem_at _ _ hx
        exact h i c
      exact ⟨v, h1, fun r => by rw [at_of v r h2 (by rw [← h2, parts_length]; exact r.2)]; simp [entry, at_]⟩
    choose s h1 h2 using key
    have hs : scalarAssign o t m k = some s := loop _ _ _ fun i x hx => by rw [hx]; exact h1 i
    exact ⟨s, hs, fun r c => h2 c r, hs⟩
  · have key : ∀ c, ∃ v, Model.IntVector.negate t (m c) = some v ∧ ∀ r, at_ v r = -entry m r c := by
      intro c
      obtain ⟨v, h1, h2⟩ := IntVector.C139_negate t ht (m c) fun x hx => by
        obtain ⟨i, rfl⟩ := mem_at _ _ hx
        exact h i c
      exact ⟨v, h1, fun r => by rw [at_of v r h2 (by rw [← h2, parts_length]; exact r.2)]; simp [entry, at_]⟩
    choose s h1 h2 using key
    exact ⟨s, loop _ _ _ fun i x hx => by rw [hx]; exact h1 i, fun r c => h2 c r⟩

/-- Where the exact result is not a value of the type, the entry is that result modulo `2^bits`, for sums and differences of unsigned
types and of types smaller than `int`. -/
theorem C143_wraps (t : Ty) (ht : 0 < t.bits) (o : Model.IntVector.Op) (ho : o = .add ∨ o = .sub)
    (hw : t.bits ≤ 16 ∨ (32 ≤ t.bits ∧ t.signed = false)) {R C : ℕ} (m w : Mat ℤ R C) (hm : ∀ r c, t.Has (entry m r c))
    (hww : ∀ r c, t.Has (entry w r c)) :
    ∃ s, binary o t m w = some s ∧ (∀ r c, Reduced t (exact o (entry m r c) (entry w r c)) (entry s r c)) ∧
      binaryAssign o t m (.other w) = some s ∧ (w = m → binaryAssign o t m .itself = some s) := by
  have hW : Wraps t o := by
    refine ⟨by tauto, ?_⟩
    rcases hw with h | h
    · exact Or.inr ⟨h, by rintro rfl; simp at ho⟩
    · exact Or.inl h
  have key : ∀ c, ∃ v, Model.IntVector.binary o t (m c) (w c) = some v ∧
      ∀ r, Reduced t (exact o (entry m r c) (entry w r c)) (at_ v r) := by
    intro c
    obtain ⟨v, h1, h2⟩ := IntVector.C139_wraps_partial t ht o hW (m c) (w c)
      (fun x hx => by obtain ⟨i, rfl⟩ := mem_at _ _ hx; exact hm i c) (fun x hx => by obtain ⟨i, rfl⟩ := mem_at _ _ hx; exact hww i c)
    refine ⟨v, h1, fun r => ?_⟩
    have := (List.forall₂_iff_get.1 h2).2 r.val (by simp [parts_length]) (by rw [parts_length]; exact r.2)
    simpa [entry, at_] using this
  choose s h1 h2 using key
  refine ⟨s, loop _ _ _ fun i x hx => ?_, fun r c => h2 c r, loop _ _ _ fun i x hx => ?_, fun e => loop _ _ _ fun i x hx => ?_⟩
  · rw [hx]; exact (IntVector.C139_assign t o _ _ _ (h1 i)).1
  · dsimp only; rw [hx]; exact (IntVector.C139_assign t o _ _ _ (h1 i)).1
  · dsimp only; rw [hx]; exact (IntVector.C139_assign t o _ _ _ (h1 i)).2 (by rw [e])

example : (binaryAssign .add ⟨8, false⟩ (R := 2) (C := 2) ![.two 200 1, .two 3 4] .itself).map memory = some [144, 2, 6, 8] ∧
    (scalar .div ⟨8, true⟩ (R := 2) (C := 2) ![.two 100 (-100), .two 3 4] 7).map memory = some [14, -14, 0, 0] ∧
    (binary .sub ⟨32, true⟩ (R := 2) (C := 2) ![.two 1 2, .two 3 4] ![.two 1 1, .two 1 10]).map memory = some [0, 1, 2, -6] ∧
    (negate ⟨8, true⟩ (R := 2) (C := 1) ![.two 127 (-5)]).map memory = some [-127, 5] := by
  decide +kernel

end Verif.Props.MatrixStore
