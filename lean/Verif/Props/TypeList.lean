import Verif.Proofs.TypeList

/-!
# C109-C111: lists of types
-/

namespace Verif.Props.TypeList

open Verif.Model.TypeList Verif.Spec.TypeList Verif.Proofs.TypeList

variable {α : Type}

/-- C109.  For every page size the header accepts, with or without jumbo pages and the compiler builtin,
`slice<Start, Length>` of a list of any length compiles exactly when `Start` is past the end (and is then empty) or the
list has `Length` elements from `Start` on, and is then those elements.  The compiler must allow nested instantiations
twice as deep as the list is long. -/
theorem C109_slice (c : Config) (user : Option ℕ) (hp : pageSize user = some c.page) (depth : ℕ) (l : List α)
    (start len : ℕ) (hl : l.length < 2 ^ 64) (hd : 2 * l.length + 2 ≤ depth) (r : List α) :
    slice c depth l start len = some r ↔ (l.length ≤ start ∧ r = []) ∨ Piece l start len r := by
  rw [slice_eq c (paged_of hp) depth l start len (by omega) (by split_ifs <;> omega), want_piece]

/-- C109.  `slice<Start>` is the rest of the list from `Start` on. -/
theorem C109_slice_rest (c : Config) (user : Option ℕ) (hp : pageSize user = some c.page) (depth : ℕ) (l : List α)
    (start : ℕ) (hl : l.length < 2 ^ 64) (hs : start < 2 ^ 64) (hd : 2 * l.length + 2 ≤ depth) :
    sliceFrom c depth l start = some (l.drop start) := by
  rw [sliceFrom, C109_slice c user hp depth l start _ hl hd]
  by_cases h : l.length ≤ start
  · exact Or.inl ⟨h, List.drop_eq_nil_of_le h⟩
  · have e : (l.length + 2 ^ 64 - start) % 2 ^ 64 = l.length - start := by omega
    rw [e]
    exact Or.inr ⟨l.take start, [], by simp, by simp; omega, by simp⟩

/-- C109.  `select<Index>` compiles exactly when the list has that many elements, and is the one at that position. -/
theorem C109_select (c : Config) (user : Option ℕ) (hp : pageSize user = some c.page) (depth : ℕ) (l : List α)
    (n : ℕ) (hl : l.length < 2 ^ 64) (hd : 2 * l.length + 2 ≤ depth) (a : α) :
    select c depth l n = some a ↔ ∃ before after, l = before ++ a :: after ∧ before.length = n := by
  rw [select, select_eq c (paged_of hp) _ l
    (fun k => slice_eq c (paged_of hp) depth l k 1 (by omega) (by rw [if_pos rfl]; omega)) n]
  constructor
  · intro h
    obtain ⟨hn, rfl⟩ := List.getElem?_eq_some_iff.mp h
    exact ⟨l.take n, l.drop (n + 1), by rw [← List.drop_eq_getElem_cons hn, List.take_append_drop], by simp; omega⟩
  · rintro ⟨b, f, rfl, rfl⟩
    simp

/-- C109.  The page size is accepted exactly when it is one of the five supported ones after clamping to `[8, 64]`, and
is 32 when the user did not define it. -/
theorem C109_page_size (user : Option ℕ) (p : ℕ) :
    pageSize user = some p ↔
      p ∈ [8, 16, 32, 48, 64] ∧ p = min 64 (max 8 (user.getD 32)) := by
  have h : pageSize user = if min 64 (max 8 (user.getD 32)) ∈ [8, 16, 32, 48, 64]
      then some (min 64 (max 8 (user.getD 32))) else none := by
    have e : ∀ a : ℕ, (if (if a < 8 then 8 else a) > 64 then 64 else (if a < 8 then 8 else a)) = min 64 (max 8 a) := by
      intro a
      split_ifs <;> omega
    cases user with
    | none => simp [pageSize]
    | some u =>
      simp only [pageSize, Option.getD_some, e]
      simp
  rw [h]
  constructor
  · intro h
    split_ifs at h with h1
    injection h with h
    subst h
    exact ⟨h1, rfl⟩
  · rintro ⟨h1, rfl⟩
    rw [if_pos h1]

/-- The default configuration with a compiler that has no builtin. -/
def gcc : Config := ⟨32, true, false⟩

example : pageSize none = some gcc.page := by rfl
example : pageSize (some 100) = some 64 ∧ pageSize (some 20) = none := by decide
/-- A list of 300 elements: a slice that starts beyond two jumbo pages. -/
example : slice gcc 602 (List.range 300) 290 4 = some [290, 291, 292, 293] := by
  rw [C109_slice gcc none rfl 602 _ _ _ (by simp) (by simp)]
  refine Or.inr ⟨List.range 290, [294, 295, 296, 297, 298, 299], ?_, by simp, by simp⟩
  decide +kernel
example : slice gcc 602 (List.range 300) 298 4 = none := by decide +kernel
example : select gcc 602 (List.range 300) 299 = some 299 := by decide +kernel

/-! ## Flattening -/

mutual
/-- How a type is written down. -/
def written : Ty → List Token
  | .atom n => [.name n]
  | .list ts => .open :: (writtenAll ts ++ [.close])
/-- How types are written down one after the other. -/
def writtenAll : List Ty → List Token
  | [] => []
  | t :: ts => written t ++ writtenAll ts
end

mutual
theorem flattenOne_written : (t : Ty) → writtenAll (flattenOne t) = (written t).filter Token.isName
  | .atom n => by
    rw [flattenOne, writtenAll, writtenAll, written]
    rfl
  | .list ts => by
    rw [flattenOne, written, concatenate_eq, flattenEach_written ts]
    simp [Token.isName]
theorem flattenEach_written : (ts : List Ty) →
    writtenAll (flattenEach ts).flatten = (writtenAll ts).filter Token.isName
  | [] => by simp [flattenEach, writtenAll]
  | t :: ts => by
    have ap : ∀ a b : List Ty, writtenAll (a ++ b) = writtenAll a ++ writtenAll b := by
      intro a b
      induction a with
      | nil => simp [writtenAll]
      | cons x a ih => simp [writtenAll, ih]
    rw [flattenEach, writtenAll, List.flatten_cons, ap, flattenOne_written t, flattenEach_written ts, List.filter_append]
end

mutual
theorem flattenOne_atoms : (t : Ty) → ∀ u ∈ flattenOne t, ∃ n, u = .atom n
  | .atom n => by simp [flattenOne]
  | .list ts => by
    rw [flattenOne, concatenate_eq]
    exact flattenEach_atoms ts
theorem flattenEach_atoms : (ts : List Ty) → ∀ u ∈ (flattenEach ts).flatten, ∃ n, u = .atom n
  | [] => by simp [flattenEach]
  | t :: ts => by
    intro u hu
    rw [flattenEach, List.flatten_cons, List.mem_append] at hu
    rcases hu with hu | hu
    · exact flattenOne_atoms t u hu
    · exact flattenEach_atoms ts u hu
end

/-- C110.  `flatten` leaves no list inside the list, and what is written between the outer brackets is what was
written there before with the inner brackets removed. -/
theorem C110_flatten (ts : List Ty) :
    (∀ t ∈ flatten ts, ∃ n, t = .atom n) ∧ writtenAll (flatten ts) = (writtenAll ts).filter Token.isName := by
  rw [flatten, concatenate_eq]
  exact ⟨flattenEach_atoms ts, flattenEach_written ts⟩

example : writtenAll [.list [.atom 1, .list []], .list [.list [.atom 2], .atom 3]]
    = [.open, .name 1, .open, .close, .close, .open, .open, .name 2, .close, .name 3, .close] := by
  simp [writtenAll, written]
example : flatten [.list [.atom 1, .list []], .list [.list [.atom 2], .atom 3]] = [.atom 1, .atom 2, .atom 3] := by
  simp [flatten, flattenEach, flattenOne, concatenate]

/-- C110.  `remove<U>` keeps exactly the other elements, in order. -/
theorem C110_remove [DecidableEq α] (ts : List α) (r : α) : remove ts r = ts.filter (fun t => t ≠ r) := remove_eq ts r

example : remove [1, 2, 1, 3] 1 = [2, 3] := by rw [C110_remove]; decide

/-- C110.  `index_of<U>` of a list that is not empty compiles exactly when `U` is in it, and is the position of its first
appearance. -/
theorem C110_index_of [DecidableEq α] (l : List α) (u : α) (hl : l ≠ []) (k : ℕ) :
    indexOf l u = some k ↔ ∃ before after, l = before ++ u :: after ∧ u ∉ before ∧ before.length = k := by
  have e : indexOf l u = indexOfType u 0 l := by
    cases l with
    | nil => exact absurd rfl hl
    | cons t ts => rfl
  rw [e, indexOfType_eq]
  simp only [Nat.zero_add, eq_comm]

/-- C110.  `index_of<U>` of the empty list is the largest `size_t`. -/
theorem C110_index_of_empty [DecidableEq α] (u : α) : indexOf [] u = some (2 ^ 64 - 1) := rfl

example : indexOf [7, 8, 9, 8] 8 = some 1 ∧ indexOf [7, 9] 8 = none := by decide

/-- C110.  `contains<U>` is true exactly when `U` is one of the elements. -/
theorem C110_contains [DecidableEq α] (l : List α) (u : α) : contains l u = true ↔ u ∈ l := by
  match l with
  | [] => simp [contains]
  | [t] => simp [contains]
  | t :: s :: ts =>
    rw [contains, foldl_or]
    · simp
    · simp

example : contains [7, 8, 9] 9 = true ∧ contains [7, 8, 9] 6 = false := by decide

/-- C110.  `append` and `prepend` put the new types after and before the old ones: every position of the result is the
one expected. -/
theorem C110_append_prepend (l u : List α) (n : ℕ) :
    (append l u)[n]? = (if n < l.length then l[n]? else u[n - l.length]?) ∧
    (prepend l u)[n]? = (if n < u.length then u[n]? else l[n - u.length]?) := by
  simp only [append, prepend, List.getElem?_append]
  exact ⟨trivial, trivial⟩

example : append [1, 2] [3] = [1, 2, 3] ∧ prepend [1, 2] [3] = [3, 1, 2] := by decide

/-! ## The metafunctions of `meta.h` -/

/-- C111.  `largest` is the first type in the list whose size no other exceeds, `smallest` the first whose size is not
above any other. -/
theorem C111_size (size : α → ℕ) (l : List α) (a : α) :
    (largest size l = some a ↔ FirstBest (fun x y => size x < size y) l a) ∧
    (smallest size l = some a ↔ FirstBest (fun x y => size x > size y) l a) :=
  ⟨largest_iff size l a, smallest_iff size l a⟩

/-- C111.  `most_aligned` and `least_aligned` do the same for the alignment. -/
theorem C111_alignment (alignment : α → ℕ) (l : List α) (a : α) :
    (mostAligned alignment l = some a ↔ FirstBest (fun x y => alignment x < alignment y) l a) ∧
    (leastAligned alignment l = some a ↔ FirstBest (fun x y => alignment x > alignment y) l a) := by
  rw [most_largest, least_smallest]
  exact ⟨largest_iff alignment l a, smallest_iff alignment l a⟩

/-- C111.  All four exist for every list that is not empty. -/
theorem C111_exists (f : α → ℕ) (l : List α) (hl : l ≠ []) :
    (largest f l).isSome ∧ (smallest f l).isSome ∧ (mostAligned f l).isSome ∧ (leastAligned f l).isSome := by
  rw [most_largest, least_smallest, largest_pick, smallest_pick]
  obtain ⟨a, ha⟩ := pick_some (fun u t => decide (f u > f t)) l hl
  obtain ⟨b, hb⟩ := pick_some (fun u t => decide (f u < f t)) l hl
  rw [ha, hb]
  simp

example : largest (fun p : ℕ × ℕ => p.2) [(0, 4), (1, 8), (2, 8), (3, 1)] = some (1, 8) := by decide
example : smallest (fun p : ℕ × ℕ => p.2) [(0, 4), (1, 2), (2, 8), (3, 2)] = some (1, 2) := by decide

/-- C111.  `total_size` is the sum of the sizes; `any_same` holds when one of the other types is the first, `all_same`
when all are; `type_at_index` is the type at that position. -/
theorem C111_other [DecidableEq α] (size : α → ℕ) (t : α) (l : List α) (n : ℕ) :
    totalSize size l = (l.map size).sum ∧
    (anySame t l = true ↔ t ∈ l) ∧
    (allSame t l = true ↔ ∀ u ∈ l, u = t) ∧
    typeAtIndex n l = l[n]? := by
  refine ⟨by rw [totalSize, foldl_sum]; simp, ?_, ?_, typeAt_eq n l⟩
  · rw [anySame, foldl_or]; simp
  · rw [allSame, foldl_and]
    simp only [true_and, eq_comm]

example : totalSize id [1, 2, 3] = 6 ∧ anySame 2 [1, 2] = true ∧ allSame 2 [2, 1] = false ∧ typeAtIndex 1 [5, 6] = some 6 := by
  decide

end Verif.Props.TypeList
