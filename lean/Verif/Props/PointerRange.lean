import Verif.Model.PointerRange
import Mathlib.Tactic.Linarith
/-!
# C158: ranges of pointers into an array
-/
namespace Verif.Props.PointerRange
open Verif.Spec.ArrayPointers Verif.Model.PointerRange

/-- The range of the elements `i`, ..., `j - 1` of the array `a`. -/
def slice (a i j : ℕ) : Range := ⟨.elem a i, .elem a j⟩

/-- It is one of elements of the array. -/
def Within (mem : Memory) (a i j : ℕ) : Prop := i ≤ j ∧ j ≤ mem a ∧ mem a < 2 ^ 63

/-- Its elements. -/
def Holds (a i j : ℕ) (p : Ptr) : Prop := ∃ k, p = .elem a k ∧ i ≤ k ∧ k < j

/-- The query answers, without undefined behaviour, and its answer is whether `P`. -/
def Says (answer : Option Bool) (P : Prop) : Prop := ∃ b, answer = some b ∧ (b = true ↔ P)

/-- A loop over a range of pointers visits exactly the elements, in order, without undefined behaviour. -/
theorem C158_loop (mem : Memory) (a i j fuel : ℕ) (h : Within mem a i j) (hf : j - i < fuel) :
    iterate mem (slice a i j).e fuel (slice a i j).s = some ((List.range' i (j - i)).map (.elem a)) := by
  obtain ⟨h1, h2, -⟩ := h
  show iterate mem (.elem a j) fuel (.elem a i) = _
  induction fuel generalizing i with
  | zero => omega
  | succ n ih =>
    unfold iterate
    rcases h1.eq_or_lt with rfl | h
    · simp
    · have hne : ¬(Ptr.elem a i = Ptr.elem a j) := by simp; omega
      rw [if_neg hne]
      have hinc : inc mem (.elem a i) = some (.elem a (i + 1)) := by
        have : (0 : ℤ) ≤ i + 1 ∧ (i + 1 : ℤ) ≤ mem a := by omega
        simp only [inc, add, this, and_self, if_true, Option.some.injEq, Ptr.elem.injEq, true_and]
        omega
      rw [hinc]
      have := ih (i + 1) (by omega) (by omega)
      simp only [Option.bind_eq_bind, Option.bind_some, this]
      rw [show j - i = (j - (i + 1)) + 1 by omega, List.range'_succ]
      simp

example : iterate (fun _ => 7) (.elem 3 6) 10 (.elem 3 4) = some [.elem 3 4, .elem 3 5] := by decide

/-- A range of pointers can be made from its ends; it contains exactly its elements, among the pointers into its array; its size is their number; it is empty if there are none; the
first and the last element are the first and the last. -/
theorem C158_elements (mem : Memory) (a i j : ℕ) (h : Within mem a i j) :
    make (.elem a i) (.elem a j) = some (slice a i j) ∧
    (∀ k, Says (contains (slice a i j) (.elem a k)) (Holds a i j (.elem a k))) ∧
    size (slice a i j) = some (j - i) ∧
    (empty (slice a i j) = true ↔ ∀ p, ¬Holds a i j p) ∧ toBool (slice a i j) = some (!empty (slice a i j)) ∧
    (i < j → first (slice a i j) = .elem a i ∧ last mem (slice a i j) = some (.elem a (j - 1))) := by
  obtain ⟨h1, h2, h3⟩ := h
  have hh : ∀ k, Holds a i j (.elem a k) ↔ i ≤ k ∧ k < j := by
    intro k
    constructor
    · rintro ⟨k', h, h'⟩
      simp only [Ptr.elem.injEq, true_and] at h
      subst h
      exact h'
    · intro h
      exact ⟨k, rfl, h⟩
  refine ⟨?_, ?_, ?_, ?_, ?_, ?_⟩
  · have : ¬ j < i := by omega
    simp [make, less, slice, this]
  · intro k
    refine ⟨decide (i ≤ k ∧ k < j), ?_, by rw [hh, decide_eq_true_eq]⟩
    simp only [contains, slice, less, if_true, Option.bind_eq_bind, Option.bind_some]
    rcases lt_or_ge k i with h | h
    · simp [not_le.2 h, h]
    · simp [h, not_lt.2 h]
  · simp only [size, slice, diff]
    rw [if_pos (by refine ⟨trivial, ?_, ?_⟩ <;> omega)]
    simp only [Option.bind_eq_bind, Option.bind_some, Option.some.injEq]
    rw [Int.emod_eq_of_lt (by omega) (by omega)]
    omega
  · simp only [empty, slice, Ptr.elem.injEq, true_and, decide_eq_true_eq]
    constructor
    · rintro h p ⟨k, -, h4, h5⟩
      omega
    · intro h
      have := h (.elem a i)
      rw [hh] at this
      omega
  · simp only [Model.PointerRange.toBool, empty, slice, less, if_true, Ptr.elem.injEq, true_and, Option.some.injEq]
    by_cases h : i < j
    · simp [h]; omega
    · simp [h]; omega
  · intro h
    refine ⟨rfl, ?_⟩
    simp only [last, slice, less, if_true, h, decide_true, Option.bind_eq_bind, Option.bind_some, add]
    rw [if_pos (by omega)]
    simp; omega

example : Within (fun _ => 7) 3 4 6 ∧ size ⟨.elem 3 4, .elem 3 6⟩ = some 2 ∧ contains ⟨.elem 3 4, .elem 3 6⟩ (.elem 3 6) = some false := by
  refine ⟨by unfold Within; decide, by decide, by decide⟩

/-- Two ranges of the same array that are not empty: one contains the other exactly if it has all its elements, they intersect exactly if there is an element in both, they are adjacent
exactly if one ends where the other starts; the union of ranges that intersect or are adjacent has exactly the elements of both. -/
theorem C158_pairs (mem : Memory) (a i j k l : ℕ) (h : Within mem a i j) (h' : Within mem a k l) (hi : i < j) (hk : k < l) :
    Says (containsRange (slice a i j) (slice a k l)) (∀ p, Holds a k l p → Holds a i j p) ∧
    Says (intersects (slice a i j) (slice a k l)) (∃ p, Holds a i j p ∧ Holds a k l p) ∧
    (adjacent (slice a i j) (slice a k l) = true ↔ i = l ∨ k = j) ∧
    Says (intersectsOrAdjacent (slice a i j) (slice a k l)) ((∃ p, Holds a i j p ∧ Holds a k l p) ∨ i = l ∨ k = j) ∧
    ∃ m n, unionWith (slice a i j) (slice a k l) = some (slice a m n) ∧ Within mem a m n ∧ m ≤ i ∧ m ≤ k ∧ j ≤ n ∧ l ≤ n ∧
      (intersectsOrAdjacent (slice a i j) (slice a k l) = some true → ∀ p, Holds a m n p ↔ Holds a i j p ∨ Holds a k l p) := by
  obtain ⟨h1, h2, h3⟩ := h
  obtain ⟨h1', h2', h3'⟩ := h'
  have hint : (∃ p, Holds a i j p ∧ Holds a k l p) ↔ k < j ∧ i < l := by
    constructor
    · rintro ⟨p, ⟨x, rfl, h⟩, ⟨y, h', h''⟩⟩
      simp only [Ptr.elem.injEq, true_and] at h'
      omega
    · intro h
      exact ⟨.elem a (max i k), ⟨_, rfl, by omega⟩, ⟨_, rfl, by omega⟩⟩
  have hsub : (∀ p, Holds a k l p → Holds a i j p) ↔ i ≤ k ∧ l ≤ j := by
    constructor
    · intro h
      obtain ⟨x, h4, h5⟩ := h (.elem a k) ⟨k, rfl, by omega⟩
      obtain ⟨y, h6, h7⟩ := h (.elem a (l - 1)) ⟨l - 1, rfl, by omega⟩
      simp only [Ptr.elem.injEq, true_and] at h4 h6
      omega
    · rintro h p ⟨x, rfl, h'⟩
      exact ⟨x, rfl, by omega⟩
  have hioa : intersectsOrAdjacent (slice a i j) (slice a k l) = some (decide (k ≤ j ∧ i ≤ l)) := by
    simp only [intersectsOrAdjacent, slice, less, if_true, Option.bind_eq_bind, Option.bind_some, decide_eq_true_eq]
    by_cases c : j < k
    · rw [if_pos c]; simp only [Option.some.injEq]; symm; rw [decide_eq_false_iff_not]; omega
    · rw [if_neg c]; simp only [Option.some.injEq, ← decide_not, decide_eq_decide]; omega
  refine ⟨?_, ?_, ?_, ?_, ?_⟩
  · refine ⟨decide (i ≤ k ∧ l ≤ j), ?_, by rw [hsub, decide_eq_true_eq]⟩
    simp only [containsRange, slice, less, if_true, Option.bind_eq_bind, Option.bind_some, decide_eq_true_eq]
    by_cases c : k < i
    · rw [if_pos c]; simp only [Option.some.injEq]; symm; rw [decide_eq_false_iff_not]; omega
    · rw [if_neg c]; simp only [Option.some.injEq, ← decide_not, decide_eq_decide]; omega
  · refine ⟨decide (k < j ∧ i < l), ?_, by rw [hint, decide_eq_true_eq]⟩
    simp only [intersects, slice, less, if_true, Option.bind_eq_bind, Option.bind_some, decide_eq_true_eq]
    by_cases c : k < j
    · rw [if_pos c]; simp [c]
    · rw [if_neg c]; simp [c]
  · simp [adjacent, slice]
  · refine ⟨_, hioa, ?_⟩
    rw [hint, decide_eq_true_eq]
    omega
  · refine ⟨min i k, max j l, ?_, ⟨by omega, by omega, h3⟩, by omega, by omega, by omega, by omega, ?_⟩
    · simp only [unionWith, slice, less, if_true, Option.bind_eq_bind, Option.bind_some, decide_eq_true_eq, make]
      have e1 : (if i < k then Ptr.elem a i else Ptr.elem a k) = .elem a (min i k) := by split <;> congr <;> omega
      have e2 : (if j < l then Ptr.elem a l else Ptr.elem a j) = .elem a (max j l) := by split <;> congr <;> omega
      rw [e1, e2]
      have : ¬ max j l < min i k := by omega
      simp only [less, if_true, Option.bind_some, decide_eq_true_eq]
      rw [if_neg this]
    · rw [hioa]
      simp only [Option.some.injEq, decide_eq_true_eq]
      intro h p
      constructor
      · rintro ⟨x, rfl, h'⟩
        by_cases c : i ≤ x ∧ x < j
        · exact .inl ⟨x, rfl, c⟩
        · exact .inr ⟨x, rfl, by omega⟩
      · rintro (⟨x, rfl, h'⟩ | ⟨x, rfl, h'⟩)
        · exact ⟨x, rfl, by omega⟩
        · exact ⟨x, rfl, by omega⟩

example : unionWith ⟨.elem 3 1, .elem 3 4⟩ ⟨.elem 3 3, .elem 3 6⟩ = some ⟨.elem 3 1, .elem 3 6⟩ ∧ Within (fun _ => 7) 3 3 6 := by
  refine ⟨by decide, by unfold Within; decide⟩

/-- Moving an iterator by an offset, forwards or backwards, reaches the element that far away, and back; there is no other way to move it out of the array but undefined behaviour. -/
theorem C158_moves (mem : Memory) (a i : ℕ) (hi : i ≤ mem a) (n : ℤ) :
    (∀ p, advance mem (.elem a i) n = some p ↔ ∃ k : ℕ, p = .elem a k ∧ (k : ℤ) = i + n ∧ k ≤ mem a) ∧
    (∀ p, advance mem (.elem a i) n = some p → retreat mem p n = some (.elem a i)) ∧
    retreat mem (.elem a i) n = advance mem (.elem a i) (-n) ∧
    (i < mem a → ∃ p, inc mem (.elem a i) = some p ∧ dec mem p = some (.elem a i)) := by
  have key : ∀ (i : ℕ) (n : ℤ) p, advance mem (.elem a i) n = some p ↔ ∃ k : ℕ, p = .elem a k ∧ (k : ℤ) = i + n ∧ k ≤ mem a := by
    intro i n p
    simp only [advance, add]
    constructor
    · intro h
      split at h
      · rename_i h'
        exact ⟨_, (Option.some.inj h).symm, by omega, by omega⟩
      · simp at h
    · rintro ⟨k, rfl, h1, h2⟩
      rw [if_pos (by omega)]
      simp only [Option.some.injEq, Ptr.elem.injEq, true_and]
      omega
  refine ⟨key i n, ?_, rfl, ?_⟩
  · intro p hp
    obtain ⟨k, rfl, h1, h2⟩ := (key i n p).1 hp
    exact (key k (-n) _).2 ⟨i, rfl, by omega, hi⟩
  · intro h
    refine ⟨_, (key i 1 (.elem a (i + 1))).2 ⟨i + 1, rfl, by omega, by omega⟩, ?_⟩
    exact (key (i + 1) (-1) _).2 ⟨i, rfl, by omega, hi⟩

example : advance (fun _ => 7) (.elem 3 5) (-2) = some (.elem 3 3) ∧ retreat (fun _ => 7) (.elem 3 5) (-2) = some (.elem 3 7) ∧
    advance (fun _ => 7) (.elem 3 5) 3 = none := by decide

/-- **Violated**: the constructor with one argument, which is documented to make the range `[0, end)`, makes a range from the null pointer: its assertion and size are not specified and
undefined for any other pointer, and so is what it contains. -/
theorem C158_from_end_violated (a i : ℕ) :
    fromEnd (.elem a i) = none ∧ size ⟨.null, .elem a i⟩ = none ∧ Model.PointerRange.toBool ⟨.null, .elem a i⟩ = none ∧
    (∀ p, contains ⟨.null, .elem a i⟩ p = none) ∧ ∀ mem fuel, iterate mem (.elem a i) fuel .null = none := by
  refine ⟨rfl, rfl, rfl, ?_, ?_⟩
  · intro p
    cases p <;> rfl
  · intro mem fuel
    cases fuel with
    | zero => rfl
    | succ n => unfold iterate; rw [if_neg (by simp)]; rfl

end Verif.Props.PointerRange
