import Mathlib.Data.List.Basic

/-!
# Model of `muu::type_list` and the type-list metafunctions of `meta.h`
(`include/muu/type_list.h`, `include/muu/meta.h` 205-295, 845-913)

Template metaprograms are functional programs over types.  `none` stands for a program that does not compile.
The partial specialisations that exist are modelled as tables, and the depth of nested instantiations a compiler
allows is a parameter.
-/

namespace Verif.Model.TypeList

/-- The page size: `type_list.h` 15-31, from the value the user defined, if any; `none` is `#error`. -/
def pageSize (user : Option ℕ) : Option ℕ :=
  let a := match user with
    | none => 32
    | some u => u
  let b := if a < 8 then 8 else a
  let c := if b > 64 then 64 else b
  if c = 8 ∨ c = 16 ∨ c = 32 ∨ c = 48 ∨ c = 64 then some c else none

/-- The compile-time settings: `type_list.h` 33-40, 79-85. -/
structure Config where
  /-- `type_list_page_size` -/
  page : ℕ
  /-- `MUU_TYPE_LIST_HAS_JUMBO_PAGES` -/
  hasJumbo : Bool
  /-- `MUU_HAS_TYPE_PACK_ELEMENT` -/
  builtin : Bool

/-- `type_list_jumbo_page_size`: `type_list.h` 81-85. -/
def Config.jumbo (c : Config) : ℕ := if c.hasJumbo then 128 else 2 ^ 64 - 1

/-- The low indices for which a selector exists: `type_list.h` 159-234. -/
def hasSelector (page n : ℕ) : Bool :=
  1 ≤ n && (n ≤ 7 || (page ≥ 16 && n ≤ 15) || (page ≥ 32 && n ≤ 31) || (page ≥ 48 && n ≤ 47) || (page ≥ 64 && n ≤ 63))

/-- The low indices for which a single-element slicer exists: `type_list.h` 395-470. -/
def hasSingle (page n : ℕ) : Bool :=
  1 ≤ n && (n ≤ 7 || (page ≥ 16 && n ≤ 15) || (page ≥ 32 && n ≤ 31) || (page ≥ 48 && n ≤ 47) || (page ≥ 64 && n ≤ 63))

/-- The lengths for which a prefix slicer exists: `type_list.h` 487-562. -/
def hasPrefix (page n : ℕ) : Bool :=
  2 ≤ n && (n ≤ 8 || (page ≥ 16 && n ≤ 16) || (page ≥ 32 && n ≤ 32) || (page ≥ 48 && n ≤ 48) || (page ≥ 64 && n ≤ 64))

/-- The counts for which a skip slicer exists: `type_list.h` 581-662. -/
def hasSkip (page n : ℕ) : Bool :=
  1 ≤ n && (n ≤ 8 || (page ≥ 16 && n ≤ 16) || (page ≥ 32 && n ≤ 32) || (page ≥ 48 && n ≤ 48) || (page ≥ 64 && n ≤ 64))

/-- `type_list_slicer_spec`: `type_list.h` 240-252. -/
inductive SlicerSpec where
  | empty | first | all | skipFirstN | skipJumboPages | skipPages | prefix | singleLowIndex | singleBuiltin
  | arbitraryRange

/-- The choice of slicer: `type_list.h` 257-270. -/
def slicerSpec (c : Config) (length start len : ℕ) : SlicerSpec :=
  if length = 0 ∨ len = 0 ∨ start ≥ length then .empty
  else if len = 1 ∧ c.builtin then .singleBuiltin
  else if start = 0 ∧ len = 1 then .first
  else if start = 0 ∧ length = len then .all
  else if start ≥ c.jumbo then .skipJumboPages
  else if c.builtin then .arbitraryRange
  else if start ≥ c.page then .skipPages
  else if len = 1 then .singleLowIndex
  else if start = 0 ∧ len ≤ c.page then .prefix
  else if start > 0 then .skipFirstN
  else .arbitraryRange

variable {α : Type}

/-- The expansion `type_list<select<Start + Seq>...>` over `0, 1, …, n - 1`: `type_list.h` 283-293.
`Start + Seq` does not wrap around before an index that is out of range makes the program ill-formed. -/
def collect (f : ℕ → Option α) (start : ℕ) : ℕ → Option (List α)
  | 0 => some []
  | n + 1 => (f start).bind fun a => (collect f (start + 1) n).map (a :: ·)

/-- `type_list_selector_`: `type_list.h` 110-234; `slice` is the slicer it may call.
`__type_pack_element` rejects an index out of range; so do the partial specialisations, by not matching. -/
def selectWith (c : Config) (slice : List α → ℕ → ℕ → Option (List α)) (l : List α) (n : ℕ) : Option α :=
  if c.builtin then l[n]?
  else if n = 0 then l.head?
  else if n ≥ c.jumbo then (slice l n 1).bind List.head?
  else if n ≥ c.page then (slice l n 1).bind List.head?
  else if hasSelector c.page n then l[n]? else none

/-- `slice<Start, Length>`: `type_list.h` 251-662, 751-752, 788-789, 824-825, with nested instantiations up to the given
depth.  The slice of an empty list is empty by definition (752), which the slicer agrees with. -/
def slice (c : Config) : ℕ → List α → ℕ → ℕ → Option (List α)
  | 0, _, _, _ => none
  | depth + 1, l, start, len =>
    let skipFirstN (l : List α) (start len : ℕ) : Option (List α) :=
      if hasSkip c.page start ∧ start < l.length then slice c depth (l.drop start) 0 len else none
    match slicerSpec c l.length start len with
    | .empty => some []
    | .singleBuiltin => l[start]?.map fun a => [a]
    | .first => l.head?.map fun a => [a]
    | .all => some l
    | .skipJumboPages =>
      if c.hasJumbo ∧ 128 ≤ l.length then slice c depth (l.drop 128) (start - c.jumbo) len else none
    | .skipPages =>
      (skipFirstN l c.page (l.length - c.page)).bind fun r => slice c depth r (start - c.page) len
    | .singleLowIndex =>
      if hasSingle c.page start ∧ start < l.length then l[start]?.map fun a => [a] else none
    | .prefix => if hasPrefix c.page len ∧ len ≤ l.length then some (l.take len) else none
    | .skipFirstN => skipFirstN l start len
    | .arbitraryRange => collect (selectWith c (slice c depth) l) start len

/-- `select<Index>`: `type_list.h` 747-748, 780-786, 816-822. -/
def select (c : Config) (depth : ℕ) (l : List α) (n : ℕ) : Option α := selectWith c (slice c depth) l n

/-- `slice<Start>`, whose default length is `length - Start` in `size_t`: `type_list.h` 751, 788, 824. -/
def sliceFrom (c : Config) (depth : ℕ) (l : List α) (start : ℕ) : Option (List α) :=
  slice c depth l start ((l.length + 2 ^ 64 - start) % 2 ^ 64)

/-- `type_list_concatenate_`: `type_list.h` 673-699. -/
def concatenate : List (List α) → List α
  | [] => []
  | [a] => a
  | a :: b :: v => concatenate ((a ++ b) :: v)
termination_by v => v.length

/-- C++ types, as far as `type_list` can tell them apart: other types, and `type_list`s. -/
inductive Ty where
  | atom (n : ℕ)
  | list (ts : List Ty)

mutual
/-- `type_list_flatten_`: `type_list.h` 702-718. -/
def flattenOne : Ty → List Ty
  | .atom n => [.atom n]
  | .list ts => concatenate (flattenEach ts)
/-- The expansion `typename type_list_flatten_<T>::types...`: `type_list.h` 717, 721. -/
def flattenEach : List Ty → List (List Ty)
  | [] => []
  | t :: ts => flattenOne t :: flattenEach ts
end

/-- `flatten`: `type_list.h` 720-721, 760, 797, 833. -/
def flatten (ts : List Ty) : List Ty := concatenate (flattenEach ts)

/-- `type_list_remove_`: `type_list.h` 725-735. -/
def removeOne [DecidableEq α] (r t : α) : List α := if r = t then [] else [t]

/-- `remove`: `type_list.h` 737-738, 762-763, 799-800, 835-836. -/
def remove [DecidableEq α] (ts : List α) (r : α) : List α := concatenate (ts.map (removeOne r))

/-- `index_of_type_`: `meta.h` 859-874; the empty pack trips the `static_assert`. -/
def indexOfType [DecidableEq α] (t : α) (i : ℕ) : List α → Option ℕ
  | [] => none
  | u :: us => if t = u then some i else indexOfType t (i + 1) us

/-- `index_of`: `type_list.h` 754-755, 791-792, 827-828. -/
def indexOf [DecidableEq α] (l : List α) (u : α) : Option ℕ :=
  match l with
  | [] => some (2 ^ 64 - 1)
  | _ => indexOfType u 0 l

/-- `contains`: `type_list.h` 757-758, 794-795, 830-831. -/
def contains [DecidableEq α] : List α → α → Bool
  | [], _ => false
  | [t], u => decide (u = t)
  | t :: ts, u => ts.foldl (fun acc s => acc || decide (u = s)) (decide (u = t))

/-- `append`: `type_list.h` 765-766, 802-803, 838-839. -/
def append (l u : List α) : List α := l ++ u

/-- `prepend`: `type_list.h` 768-769, 805-806, 841-842. -/
def prepend (l u : List α) : List α := u ++ l

/-- `type_at_index_`: `meta.h` 893-905, without the compiler builtin. -/
def typeAtIndex : ℕ → List α → Option α
  | _, [] => none
  | 0, t :: _ => some t
  | i + 1, _ :: us => typeAtIndex i us

/-- `largest_`: `meta.h` 208-224; `size` is `size_of_`. -/
def largest (size : α → ℕ) : List α → Option α
  | [] => none
  | [t] => some t
  | t :: us => (largest size us).map fun u => if size u > size t then u else t

/-- `smallest_`: `meta.h` 228-244. -/
def smallest (size : α → ℕ) : List α → Option α
  | [] => none
  | [t] => some t
  | t :: us => (smallest size us).map fun u => if size u < size t then u else t

/-- `most_aligned_`: `meta.h` 257-273; `alignment` is `alignment_of_`. -/
def mostAligned (alignment : α → ℕ) : List α → Option α
  | [] => none
  | [t] => some t
  | t :: us => (mostAligned alignment us).map fun u => if alignment u > alignment t then u else t

/-- `least_aligned_`: `meta.h` 277-293. -/
def leastAligned (alignment : α → ℕ) : List α → Option α
  | [] => none
  | [t] => some t
  | t :: us => (leastAligned alignment us).map fun u => if alignment u < alignment t then u else t

/-- `total_size`: `meta.h` 826-828. -/
def totalSize (size : α → ℕ) (l : List α) : ℕ := l.foldl (fun acc t => acc + size t) 0

/-- `any_same`: `meta.h` 846-848. -/
def anySame [DecidableEq α] (t : α) (us : List α) : Bool := us.foldl (fun acc u => acc || decide (t = u)) false

/-- `all_same`: `meta.h` 850-853. -/
def allSame [DecidableEq α] (t : α) (us : List α) : Bool := us.foldl (fun acc u => acc && decide (t = u)) true

end Verif.Model.TypeList
