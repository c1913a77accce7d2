import Verif.Model.CompressedPair
/-!
# C164: the elements of compressed pairs
-/
namespace Verif.Props.CompressedPair
open Verif.Model.Sequences Verif.Model.CompressedPair

variable {F S : Type}

/-- `p` is the pair of `f` and `s`, by all its accessors. -/
def Is (a b : CType) (p : Pair F S) (f : F) (s : S) : Prop :=
  first a b p = some f ∧ second a b p = some s ∧
  Model.CompressedPair.get a b 0 p = some (.inl f) ∧ Model.CompressedPair.get a b 1 p = some (.inr s)

/-- **C164 (construction).** Whichever elements take no storage, a pair constructed from two values holds each of them as the element of its place, and `get` agrees with `first` and `second`; each is initialised once. -/
theorem C164_construct (a b : CType) (f : F) (s : S) :
    Is a b (construct a b f s).2 f s ∧ (construct a b f s).1.Perm [.first, .second] := by
  cases ha : a.canBeBase <;> cases hb : b.canBeBase <;>
    simp [Is, construct, first, second, Model.CompressedPair.get, ha, hb, List.Perm.swap]

/-- **C164 (order).** The first element is initialised before the second, unless just the second is empty and not final. -/
theorem C164_order (a b : CType) (f : F) (s : S) :
    (construct a b f s).1 = [.first, .second] ↔ ¬((b.isEmpty ∧ ¬b.isFinal) ∧ ¬(a.isEmpty ∧ ¬a.isFinal)) := by
  rcases a with ⟨i, p, q, _⟩
  rcases b with ⟨j, r, t, _⟩
  cases p <;> cases q <;> cases r <;> cases t <;> simp [construct, CType.canBeBase]

/-- **C164 (assignment).** Writing to one element gives it the new value and leaves the other as it is. -/
theorem C164_write (a b : CType) (p : Pair F S) (f f' : F) (s s' : S) (h : Is a b p f s) :
    Is a b (setFirst a b p (some f')) f' s ∧ Is a b (setSecond a b p (some s')) f s' := by
  cases ha : a.canBeBase <;> cases hb : b.canBeBase <;>
    simp_all [Is, setFirst, setSecond, first, second, Model.CompressedPair.get]

/-- **C164 (swap).** -/
theorem C164_swap (a b : CType) (p q : Pair F S) (f f' : F) (s s' : S) (hp : Is a b p f s) (hq : Is a b q f' s') :
    Is a b (swap a b p q).1 f' s' ∧ Is a b (swap a b p q).2 f s := by
  cases ha : a.canBeBase <;> cases hb : b.canBeBase <;>
    simp_all [Is, swap, setFirst, setSecond, first, second, Model.CompressedPair.get]

/-- **C164 (indices).** `get` and `std::tuple_element` are for the indices 0 and 1 only, and agree on the type of the element. -/
theorem C164_indices (a b : CType) (p : Pair F S) (f : F) (s : S) (h : Is a b p f s) (i : ℕ) :
    (Model.CompressedPair.get a b i p = none ↔ 2 ≤ i) ∧ (tupleElement i = none ↔ 2 ≤ i) ∧
    ∀ t, tupleElement i = some t → ∃ x, Model.CompressedPair.get a b i p = some x ∧ (x.isRight = t) := by
  obtain ⟨h1, h2, h3, h4⟩ := h
  rcases i with _ | _ | i
  · simp [h3, tupleElement]
  · simp [h4, tupleElement]
  · simp [Model.CompressedPair.get, tupleElement]

/-- A pair of an integer and an empty class. -/
example : Is (F := ℕ) (S := Unit) ⟨0, false, false, []⟩ ⟨1, true, false, []⟩
    (construct ⟨0, false, false, []⟩ ⟨1, true, false, []⟩ 5 ()).2 5 () ∧
    (construct (F := ℕ) (S := Unit) ⟨0, false, false, []⟩ ⟨1, true, false, []⟩ 5 ()).1 = [.second, .first] :=
  ⟨(C164_construct _ _ _ _).1, rfl⟩

end Verif.Props.CompressedPair
