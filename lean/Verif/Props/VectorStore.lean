import Verif.Proofs.VectorStore

/-! # C137: construction and components of vectors -/

namespace Verif.Props.VectorStore

open Verif.Spec.Parts Verif.Model.VectorStore Verif.Proofs.VectorStore

variable {α β γ : Type}

/-- A vector made of two or more scalars has these as its first components and zeros after them. -/
theorem C137_scalars (zero : α) (n : ℕ) (l : List α) (h2 : 2 ≤ l.length) (hn : l.length ≤ n) :
    ∃ v, ofScalars zero n l = some v ∧ parts v = padded zero n l := by
  unfold ofScalars
  rw [if_pos h2]
  exact init_parts zero n l (by omega) hn

example : (ofScalars 0 4 [7, 8]).map parts = some [7, 8, 0, 0] ∧ (ofScalars 0 6 [1, 2, 3, 4, 5]).map parts = some [1, 2, 3, 4, 5, 0] := by
  decide

/-- A vector made of one scalar has it in every component. -/
theorem C137_broadcast (a : α) (n : ℕ) (hn : 0 < n) : ∃ v, broadcast a n = some v ∧ parts v = List.replicate n a := by
  match n with
  | 1 => exact ⟨_, rfl, rfl⟩
  | 2 => exact ⟨_, rfl, rfl⟩
  | 3 => exact ⟨_, rfl, rfl⟩
  | 4 => exact ⟨_, rfl, rfl⟩
  | n + 5 => exact ⟨_, rfl, by simp only [parts, List.ofFn_const]⟩

example : (broadcast 3 5).map parts = some [3, 3, 3, 3, 3] := by decide

/-- A vector made of an array, a tuple or a span of known length has its elements, converted, and zeros after them. -/
theorem C137_array (zero : α) (cast : β → α) (n : ℕ) (arr : List β) (h1 : 1 ≤ arr.length) (hn : arr.length ≤ n) :
    ∃ v, ofArray zero cast n arr = some v ∧ parts v = padded zero n (arr.map cast) := by
  unfold ofArray
  rw [if_pos hn]
  exact init_parts zero n _ (by simpa using h1) (by simpa using hn)

example : (ofArray 0 Int.toNat 3 [4, -5]).map parts = some [4, 0, 0] := by decide

/-- A vector made of another of any dimensions and type has as many of its components, converted, as there is room for, and zeros
after them. -/
theorem C137_convert (zero : α) (cast : β → α) (n d : ℕ) (hn : 0 < n) (vec : Store β d) :
    ∃ v, convert zero cast n vec = some v ∧ parts v = padded zero n (((parts vec).take n).map cast) := by
  have hd := pos vec
  have e : (if d < n then d else n) ≤ d := by split_ifs <;> omega
  have t : (parts vec).take (if d < n then d else n) = (parts vec).take n := by
    split_ifs with h
    · rw [List.take_of_length_le (by rw [parts_length]), List.take_of_length_le (by rw [parts_length]; omega)]
    · rfl
  unfold convert
  rw [mapM_parts vec _ e, t]
  have l : (((parts vec).take n).map cast).length = min n d := by simp [parts_length]
  exact init_parts zero n _ (by rw [l]; omega) (by rw [l]; omega)

example : (convert 0 id 2 (.three 1 2 3)).map parts = some [1, 2] ∧ (convert 0 id 4 (.three 1 2 3)).map parts = some [1, 2, 3, 0] := by
  decide

/-- A vector made of two others has the components of the first, of the second, and zeros after them. -/
theorem C137_concat (zero : α) (cast1 : β → α) (cast2 : γ → α) (n d1 d2 : ℕ) (vec1 : Store β d1) (vec2 : Store γ d2) (h : d1 + d2 ≤ n) :
    ∃ v, concat zero cast1 cast2 n vec1 vec2 = some v ∧
      parts v = padded zero n ((parts vec1).map cast1 ++ (parts vec2).map cast2) := by
  have h1 := pos vec1
  have h2 := pos vec2
  unfold concat
  rw [if_pos ⟨h, by omega⟩, mapM_parts vec1 d1 le_rfl, mapM_parts vec2 d2 le_rfl,
    List.take_of_length_le (by rw [parts_length]), List.take_of_length_le (by rw [parts_length])]
  have l : ((parts vec1).map cast1 ++ (parts vec2).map cast2).length = d1 + d2 := by simp [parts_length]
  exact init_parts zero n _ (by rw [l]; omega) (by rw [l]; omega)

example : (concat 0 id id 5 (.two 1 2) (.two 10 15)).map parts = some [1, 2, 10, 15, 0] := by decide

/-- A vector made of another and scalars has the components of the other, the scalars, and zeros after them. -/
theorem C137_append (zero : α) (cast1 : β → α) (cast2 : γ → α) (n d : ℕ) (vec : Store β d) (vals : List γ) (h : d + vals.length ≤ n)
    (hn : 2 ≤ n) :
    ∃ v, append zero cast1 cast2 n vec vals = some v ∧ parts v = padded zero n ((parts vec).map cast1 ++ vals.map cast2) := by
  have h1 := pos vec
  unfold append
  rw [if_pos ⟨h, hn⟩, mapM_parts vec d le_rfl, List.take_of_length_le (by rw [parts_length])]
  have l : ((parts vec).map cast1 ++ vals.map cast2).length = d + vals.length := by simp [parts_length]
  exact init_parts zero n _ (by rw [l]; omega) (by rw [l]; omega)

example : (append 0 id id 4 (.two 1 2) [10]).map parts = some [1, 2, 10, 0] := by decide

/-- A vector made of a pointer to `num` scalars has these, converted, and zeros after them; none of its components is left
uninitialised. -/
theorem C137_pointer (zero : α) (cast : β → α) (n : ℕ) (hn : 0 < n) (vals : List β) (num : ℕ) (h1 : num ≤ n) (h2 : num ≤ vals.length) :
    ∃ v, ofPointer zero cast n (some vals) num = some v ∧ parts v = padded zero n ((vals.take num).map cast) :=
  ofPointer_parts zero cast n vals num hn h1 h2

example : (ofPointer 0 id 4 (some [5, 6, 7]) 2).map parts = some [5, 6, 0, 0] ∧ (ofPointer 0 id 3 (some [5, 6, 7]) 3).map parts = some [5, 6, 7] := by
  decide

/-- A vector made of a pointer alone has the scalars it points to. -/
theorem C137_pointer_alone (zero : α) (cast : β → α) (n : ℕ) (hn : 0 < n) (vals : List β) (h : n ≤ vals.length) :
    ∃ v, ofPointerAlone zero cast n vals = some v ∧ parts v = (vals.take n).map cast := by
  unfold ofPointerAlone
  rw [mapM_get vals n h]
  have l : ((vals.take n).map cast).length = n := by simp [h]
  obtain ⟨v, h1, h2⟩ := init_parts zero n ((vals.take n).map cast) (by omega) (by omega)
  refine ⟨v, h1, ?_⟩
  rw [h2, padded, l]
  simp

example : (ofPointerAlone 0 id 3 [5, 6, 7, 8]).map parts = some [5, 6, 7] := by decide

/-- A vector made of a span that is not empty has its elements, converted, and zeros after them. -/
theorem C137_span_partial (zero : α) (cast : β → α) (n : ℕ) (vals : List β) (h1 : 1 ≤ vals.length) (h2 : vals.length ≤ n) :
    ∃ v, ofSpan zero cast n (some vals) vals.length = some v ∧ parts v = padded zero n (vals.map cast) := by
  have := ofPointer_parts zero cast n vals vals.length (by omega) h2 le_rfl
  rwa [List.take_length] at this

example : (ofSpan 0 id 3 (some [5, 6]) 2).map parts = some [5, 6, 0] := by decide

/-- An empty span, as it is made by default, has no elements, and its data is a null pointer. Then "any scalar components not covered
... are initialized to zero" fails: the constructor assumes that the pointer is not null. -/
theorem C137_empty_span_violated (zero : α) (cast : β → α) (n : ℕ) :
    ¬∃ v, ofSpan zero cast n none 0 = some v ∧ parts v = padded zero n [] := by
  rintro ⟨v, h, _⟩
  cases h

/-- `get`, the index operator (at compile time and at run time) and the iterators give the same components. -/
theorem C137_access {n : ℕ} (v : Store α n) (i : ℕ) (h : i < n) :
    ∃ a, (parts v)[i]? = some a ∧ component v i = some a ∧ index v i = some a ∧ indexConst v i = some a := by
  have hl : i < (parts v).length := by rw [parts_length]; exact h
  refine ⟨(parts v)[i], List.getElem?_eq_getElem hl, ?_, ?_, ?_⟩
  · rw [component_parts, List.getElem?_eq_getElem hl]
  · rw [index_parts v i h, List.getElem?_eq_getElem hl]
  · rw [indexConst_parts v i h, List.getElem?_eq_getElem hl]

example : index (.three 7 8 9) 1 = some 8 := by
  obtain ⟨a, h1, _, h2, _⟩ := C137_access (.three 7 8 9) 1 (by omega)
  rw [h2, ← h1]; decide

/-- Assigning to a component changes that component and no other. -/
theorem C137_assign {n : ℕ} (v : Store α n) (i : ℕ) (a : α) (h : i < n) :
    ∃ w, setComponent v i a = some w ∧ component w i = some a ∧ ∀ k, k ≠ i → component w k = component v k := by
  obtain ⟨w, h1, h2⟩ := setComponent_parts v i a h
  refine ⟨w, h1, ?_, ?_⟩
  · rw [component_parts, h2]
    simp [parts_length, h]
  · intro k hk
    rw [component_parts, component_parts, h2]
    simp [Ne.symm hk]

example : (setComponent (.three 7 8 9) 1 0).map parts = some [7, 0, 9] := by decide

/-- Two vectors with the same components are the same, and every vector has as many as its dimensions. -/
theorem C137_components {n : ℕ} (v w : Store α n) : (parts v).length = n ∧ (v = w ↔ ∀ i < n, component v i = component w i) := by
  refine ⟨parts_length v, fun h _ _ => by rw [h], fun h => parts_inj (List.ext_getElem? fun i => ?_)⟩
  by_cases hi : i < n
  · rw [← component_parts, ← component_parts, h i hi]
  · rw [List.getElem?_eq_none (by rw [parts_length]; omega), List.getElem?_eq_none (by rw [parts_length]; omega)]

end Verif.Props.VectorStore
