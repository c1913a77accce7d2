import Verif.Model.StaticArray
/-! C48 (static_array). -/
namespace Verif.Props
open Verif.Model.StaticArray

/-- **C48** == is element-wise equality, size the number of elements, front and back the first and last of them.
    Missing: empty (C48_empty_violated) and the order (C48_less_violated), which are wrong for every array. -/
theorem C48_equal_partial {α : Type} [DecidableEq α] (a b : List α) (ha : a ≠ []) :
    (isEqual a b = true ↔ a.length = b.length ∧ ∀ i : Nat, a[i]? = b[i]?) ∧ size a = a.length ∧
    front a = a.head? ∧ back a = a.getLast? := by
  refine ⟨?_, rfl, ?_, ?_⟩
  · simp only [isEqual, decide_eq_true_eq]
    constructor
    · rintro rfl; exact ⟨rfl, fun _ => rfl⟩
    · rintro ⟨_, h⟩; exact List.ext_getElem? h
  · cases a with
    | nil => exact absurd rfl ha
    | cons => rfl
  · unfold back; rw [List.getLast?_eq_getElem?]

example : isEqual [1, 2] [1, 2] = true ∧ isEqual [1, 2] [1] = false ∧ back [1, 2, 3] = some 3 := by decide

/-- **C48 is violated**: empty() is true for every static_array, although each has an element -/
theorem C48_empty_violated {α : Type} (a : List α) (ha : a ≠ []) : empty a = true ∧ size a ≠ 0 := by
  have := List.length_pos_iff.mpr ha
  simp [empty, size, this, ha]

example : ([1] : List Nat) ≠ [] := by decide

/-- **C48 is violated**: `a < b` does not compile for any two different static_arrays -/
theorem C48_less_violated {α : Type} [DecidableEq α] (lt : α → α → Bool) (a b : List α) (hb : b ≠ [])
    (hne : a ≠ b) : isLess lt a b = none := by
  have := List.length_pos_iff.mpr hb
  unfold isLess isEqual
  rw [if_neg (by simpa using hne)]
  simp only
  rw [if_pos (by omega)]

example : isLess (fun x y : Nat => decide (x < y)) [1] [2] = none := by decide

end Verif.Props
