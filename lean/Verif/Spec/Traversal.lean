/-!
# Going through a sequence with iterators

An iterator is a position; `next` takes it to the next position, `value` is what it refers to.
-/
namespace Verif.Spec.Traversal

/-- A loop from `b` to `e` visits the positions `l`, in this order, and then ends. -/
inductive Visits {P : Type} (next : P → P) : P → P → List P → Prop
  | done (e : P) : Visits next e e []
  | step (b e : P) (l : List P) : b ≠ e → Visits next (next b) e l → Visits next b e (b :: l)

end Verif.Spec.Traversal
