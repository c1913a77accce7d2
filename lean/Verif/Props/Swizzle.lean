import Verif.Model.Swizzle
import Verif.Proofs.VectorStore
/-!
# Swizzles of vectors
-/
namespace Verif.Props.Swizzle
open Verif.Spec.Parts Verif.Model.VectorStore Verif.Model.Swizzle Verif.Proofs.VectorStore

variable {α : Type}

theorem get_some {n : ℕ} (v : Store α n) (i : ℕ) (h : i < n) : ∃ a, (parts v)[i]? = some a ∧ component v i = some a :=
  ⟨(parts v)[i]'(by rw [parts_length]; exact h), by simp, by rw [component_parts]; simp⟩

/-- A swizzle has the components that the indices name, in their order, as often as they name them; it can be written exactly if there is an
index and the vector has all those components. -/
theorem C152_swizzle (zero : α) {n : ℕ} (v : Store α n) (indices : List ℕ) :
    ((swizzle zero v indices).isSome ↔ indices ≠ [] ∧ ∀ i ∈ indices, i < n) ∧
    ∀ w, swizzle zero v indices = some w → (parts w).map some = indices.map fun i => (parts v)[i]? := by
  by_cases h : indices ≠ [] ∧ ∀ i ∈ indices, i < n
  · have hl : 0 < indices.length := List.length_pos_iff.2 h.1
    have hm : indices.mapM (component v) = some (indices.map fun i => ((parts v)[i]?).getD zero) := by
      apply mapM_some
      intro i hi
      obtain ⟨a, h1, h2⟩ := get_some v i (h.2 i hi)
      rw [h2, h1, Option.getD_some]
    obtain ⟨w, h1, h2⟩ := init_parts zero indices.length (indices.map fun i => ((parts v)[i]?).getD zero) (by simp; omega) (by simp)
    have e : swizzle zero v indices = some w := by
      unfold swizzle
      rw [if_pos ⟨hl, by simpa using h.2⟩, hm]
      exact h1
    rw [e]
    refine ⟨⟨fun _ => h, fun _ => rfl⟩, fun w' hw' => ?_⟩
    cases hw'
    rw [h2, padded]
    simp only [List.length_map, Nat.sub_self, List.replicate_zero, List.append_nil, List.map_map]
    apply List.map_congr_left
    intro i hi
    obtain ⟨a, h1, -⟩ := get_some v i (h.2 i hi)
    simp [h1]
  · have e : swizzle zero v indices = none := by
      unfold swizzle
      rw [if_neg]
      intro ⟨h1, h2⟩
      exact h ⟨List.length_pos_iff.1 h1, by simpa using h2⟩
    rw [e]
    exact ⟨by simp [h], by simp⟩

example : swizzle (0 : ℤ) (.four 10 7 5 9) [3, 2, 3] = some (.three 9 5 9) ∧ swizzle (0 : ℤ) (.four 10 7 5 9) [4] = none ∧
    swizzle (0 : ℤ) (.four 10 7 5 9) [0] = some (.one 10) := ⟨rfl, rfl, rfl⟩

/-- A swizzle of a swizzle is one swizzle, of the indices that the second selects from the first. -/
theorem C152_compose (zero : α) {n : ℕ} (v : Store α n) (i j : List ℕ) (w : Store α i.length) (hw : swizzle zero v i = some w)
    (x : Store α j.length) (hx : swizzle zero w j = some x) (k : List ℕ) (hk : k.map some = j.map fun a => i[a]?) :
    ∃ y, swizzle zero v k = some y ∧ parts y = parts x := by
  obtain ⟨s1, p1⟩ := C152_swizzle zero v i
  obtain ⟨s2, p2⟩ := C152_swizzle zero w j
  obtain ⟨s3, p3⟩ := C152_swizzle zero v k
  have g1 := s1.1 (by rw [hw]; rfl)
  have g2 := s2.1 (by rw [hx]; rfl)
  have q1 := p1 w hw
  have q2 := p2 x hx
  have hne : k ≠ [] := by
    rintro rfl
    simp at hk
    exact g2.1 hk
  have hall : ∀ a ∈ k, a < n := by
    intro a ha
    have : some a ∈ k.map some := List.mem_map_of_mem ha
    rw [hk] at this
    obtain ⟨b, -, hb⟩ := List.mem_map.1 this
    exact g1.2 a (List.mem_of_getElem? hb)
  obtain ⟨y, hy⟩ := Option.isSome_iff_exists.1 (s3.2 ⟨hne, hall⟩)
  refine ⟨y, hy, ?_⟩
  have q3 := p3 y hy
  refine List.map_injective_iff.2 (Option.some_injective α) (?_ : _ = _)
  rw [q3, q2]
  have e : ∀ a : ℕ, (parts w)[a]? = (i[a]?).bind fun b => (parts v)[b]? := by
    intro a
    have := congrArg (fun l => l[a]?) q1
    simp only [List.getElem?_map] at this
    cases h : i[a]? with
    | none => rw [h] at this; simpa using this
    | some b =>
      rw [h] at this
      simp only [Option.map_some, Option.bind_some] at this ⊢
      cases h' : (parts w)[a]? with
      | none => rw [h'] at this; simp at this
      | some c => rw [h'] at this; simpa using this
  have : (k.map some).map (fun o => o.bind fun b => (parts v)[b]?) = (j.map fun a => i[a]?).map (fun o => o.bind fun b => (parts v)[b]?) := by
    rw [hk]
  simp only [List.map_map] at this
  calc k.map (fun i => (parts v)[i]?) = _ := List.map_congr_left fun _ _ => rfl
    _ = _ := this
    _ = _ := List.map_congr_left fun a _ => (e a).symm

example : ∃ y, swizzle (0 : ℤ) (.four 10 7 5 9) [9 - 7, 3] = some y ∧ parts y = [5, 9] :=
  C152_compose (0 : ℤ) (.four 10 7 5 9) [3, 2, 3] [1, 0] (.three 9 5 9) rfl (.two 5 9) rfl [2, 3] rfl

/-- The swizzle of all indices in order is the vector itself. -/
theorem C152_identity (zero : α) {n : ℕ} (v : Store α n) : ∃ w, swizzle zero v (List.range n) = some w ∧ parts w = parts v := by
  obtain ⟨s, p⟩ := C152_swizzle zero v (List.range n)
  have hn := pos v
  obtain ⟨w, hw⟩ := Option.isSome_iff_exists.1 (s.2 ⟨by simp; omega, by simp⟩)
  refine ⟨w, hw, ?_⟩
  refine List.map_injective_iff.2 (Option.some_injective α) (?_ : _ = _)
  rw [p w hw]
  apply List.ext_getElem
  · simp [parts_length]
  · intro i h1 h2
    simp at h1
    simp

example : ∃ w, swizzle (0 : ℤ) (.three 1 2 3) [0, 1, 2] = some w ∧ parts w = [1, 2, 3] := C152_identity 0 (.three 1 2 3)

/-- The named swizzles are those of their letters, and exist if the vector has the components; `xyz1` and `xyz0` have a one or a zero
after them, so that (in exact arithmetic) they are the homogeneous coordinates of a position and of a direction. -/
theorem C152_named (zero one : α) {n : ℕ} (v : Store α n) (x y : α) (l : List α) (hv : parts v = x :: y :: l) :
    (∃ w, xy zero v = some w ∧ parts w = [x, y]) ∧ (∃ w, yx zero v = some w ∧ parts w = [y, x]) ∧
    (∀ z l', l = z :: l' → (∃ w, xz zero v = some w ∧ parts w = [x, z]) ∧ (∃ w, xyz zero v = some w ∧ parts w = [x, y, z]) ∧
      (∃ w, xyz1 zero one v = some w ∧ parts w = [x, y, z, one]) ∧ ∃ w, xyz0 zero v = some w ∧ parts w = [x, y, z, zero]) ∧
    (l = [] → xz zero v = none ∧ xyz zero v = none ∧ xyz1 zero one v = none ∧ xyz0 zero v = none) := by
  have hn : n = l.length + 2 := by rw [← parts_length v, hv]; rfl
  have c0 : component v 0 = some x := by rw [component_parts, hv]; rfl
  have c1 : component v 1 = some y := by rw [component_parts, hv]; rfl
  refine ⟨⟨.two x y, ?_, rfl⟩, ⟨.two y x, ?_, rfl⟩, ?_, ?_⟩
  · rw [xy, if_pos (by omega), c0, c1]; rfl
  · rw [yx, if_pos (by omega), c0, c1]; rfl
  · rintro z l' rfl
    have h3 : 3 ≤ n := by simp at hn; omega
    have c2 : component v 2 = some z := by rw [component_parts, hv]; rfl
    refine ⟨⟨.two x z, ?_, rfl⟩, ⟨.three x y z, ?_, rfl⟩, ⟨.four x y z one, ?_, rfl⟩, ⟨.four x y z zero, ?_, rfl⟩⟩
    · rw [xz, if_pos h3, c0, c2]; rfl
    · rw [xyz, if_pos h3, c0, c1, c2]; rfl
    · rw [xyz1, if_pos h3, c0, c1, c2]; rfl
    · rw [xyz0, if_pos h3, c0, c1, c2]; rfl
  · rintro rfl
    have h3 : ¬3 ≤ n := by simp at hn; omega
    exact ⟨by rw [xz, if_neg h3], by rw [xyz, if_neg h3], by rw [xyz1, if_neg h3], by rw [xyz0, if_neg h3]⟩

example : ∃ w, xyz1 (0 : ℤ) 1 (.four 5 6 7 8) = some w ∧ parts w = [5, 6, 7, 1] :=
  ((C152_named (0 : ℤ) 1 (.four 5 6 7 8) 5 6 [7, 8] rfl).2.2.1 7 [8] rfl).2.2.1

end Verif.Props.Swizzle
