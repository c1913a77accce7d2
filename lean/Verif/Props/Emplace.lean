import Verif.Proofs.Emplace
/-! C44 (emplacement_array). -/
namespace Verif.Props
open Verif.Spec.Emplace Verif.Model.Emplace Verif.Proofs.Emplace

/-- **C44** Every history of operations on any number of emplacement_arrays which never adds an element to a full array
    runs without undefined behaviour. Afterwards every array has the expected elements, at the expected indices, and
    capacity; its size does not exceed its capacity; elements were made and destroyed exactly as the specification says
    (arrays destroy their elements last one first). Every element is made once, and destroyed at most once and only
    after it was made; the elements not destroyed are exactly those in some array, and no element is in two places.
    Memory not belonging to an array has been freed. -/
theorem C44_emplacement_array (ops : List Op) (s : State) (h : run State.init ops = some s) :
    ∃ w, World.init.run ops = some w ∧ w.log = s.log ∧ (∀ i, w.arr i = none ↔ s.arr i = none) ∧
      (∀ i x, s.arr i = some x → ∃ a, w.arr i = some a ∧ a.count = x.elems.length ∧ a.capacity = x.cap ∧
        a.count ≤ a.capacity ∧ ∀ k (hk : k < x.elems.length), w.get i k = some x.elems[k]) ∧
      Proper w.log ∧
      (∀ e, .made e ∈ w.log ↔ e < w.made) ∧
      (∀ e, .gone e ∈ w.log ↔ .made e ∈ w.log ∧ ¬ ∃ i x, s.arr i = some x ∧ e ∈ x.elems) ∧
      (∀ i x, s.arr i = some x → x.elems.Nodup) ∧
      (∀ i j x y e, s.arr i = some x → s.arr j = some y → e ∈ x.elems → e ∈ y.elems → i = j) ∧
      (∀ p, w.block p ≠ none → ∃ i a, w.arr i = some a ∧ a.storage = some p) := by
  obtain ⟨w, h1, h2⟩ := run_spec R_init ops h
  have hi := inv_run inv_init ops h
  refine ⟨w, h1, h2.log, h2.mem.dom, ?_, by rw [h2.log]; exact hi.proper, ?_, ?_, hi.nodup, hi.disj, h2.mem.live⟩
  · intro i x hx
    obtain ⟨a, ha⟩ : ∃ a, w.arr i = some a := by
      cases hb : w.arr i with
      | none => rw [(h2.mem.dom i).mp hb] at hx; simp at hx
      | some c => exact ⟨c, rfl⟩
    obtain ⟨o1, o2, o3, o4⟩ := h2.mem.own i a x ha hx
    refine ⟨a, ha, o1, o2, by omega, fun k hk => ?_⟩
    rcases o4 with o4 | ⟨o4, p, o5, o6⟩
    · omega
    · unfold World.get
      simp only [ha, o5, o6]
      rw [List.getElem?_append_left (by simpa using hk), List.getElem?_map, List.getElem?_eq_getElem hk]
      rfl
  · intro e; rw [h2.log, h2.made]; exact hi.made e
  · intro e; rw [h2.log, hi.gone e, hi.made e]; rfl

/-- two arrays; one element fails to construct; a move assignment destroys [0, 1] in reverse; a self-move and the
    destructors destroy the rest -/
example : (run State.init [.construct 0 2, .emplace 0 false, .emplace 0 true, .emplace 0 false, .construct 1 3,
    .emplace 1 false, .moveAssign 0 1, .emplace 0 false, .moveAssign 0 0, .destroy 0, .destroy 1]).map (·.log) =
    some [.made 0, .made 1, .made 2, .gone 1, .gone 0, .made 3, .gone 3, .gone 2] := by decide

end Verif.Props
