/-!
# Views of a contiguous array, by the addresses of their elements

A view is the list of the addresses of its elements, in order; taking a part of a view is taking a part of that list.
-/
namespace Verif.Spec.Span

/-- taking the first `n`, the last `n`, or `n` elements from `off` on, or all elements from `off` on -/
inductive Part where
  | first (n : Nat)
  | last (n : Nat)
  | mid (off n : Nat)
  | from (off : Nat)

/-- the part does not reach beyond a view of `len` elements; the elements taken from the middle start inside -/
def Part.Fits (len : Nat) : Part → Prop
  | .first n => n ≤ len
  | .last n => n ≤ len
  | .mid off n => off < len ∧ off + n ≤ len
  | .from off => off < len

/-- the elements of the part -/
def Part.apply (v : List Nat) : Part → List Nat
  | .first n => v.take n
  | .last n => v.drop (v.length - n)
  | .mid off n => (v.drop off).take n
  | .from off => v.drop off

/-- the addresses of the bytes of elements of `size` bytes -/
def bytes (size : Nat) (v : List Nat) : List Nat := v.flatMap (fun a => (List.range size).map (a + ·))

/-- the addresses of the elements of an array: `n` elements of `size` bytes at address `p` -/
def array (p n size : Nat) : List Nat := (List.range n).map (fun i => p + i * size)

/-- const and volatile -/
structure Quals where
  c : Bool
  v : Bool
deriving DecidableEq, Repr

/-- converting from a pointer to `a` things to a pointer to `b` things drops no qualifier -/
def Quals.Keeps (a b : Quals) : Prop := (a.c = true → b.c = true) ∧ (a.v = true → b.v = true)

end Verif.Spec.Span

namespace Verif.Spec.Span

/-- a view of elements of `esize` bytes -/
structure View where
  esize : Nat
  addrs : List Nat

/-- one step of a chain of views: a part, the bytes, or the same elements seen as a view of a fixed number `n` -/
inductive Step where
  | part (p : Part)
  | bytes
  | exactly (n : Nat)
  | same

instance (len : Nat) (p : Part) : Decidable (p.Fits len) := by cases p <;> (simp only [Part.Fits]; infer_instance)

/-- the view after a chain of steps; `none` as soon as one of them does not fit -/
def View.run : View → List Step → Option View
  | v, [] => some v
  | v, .part p :: l => if p.Fits v.addrs.length then View.run ⟨v.esize, p.apply v.addrs⟩ l else none
  | v, .bytes :: l => View.run ⟨1, Span.bytes v.esize v.addrs⟩ l
  | v, .exactly n :: l => if v.addrs.length = n then v.run l else none
  | v, .same :: l => v.run l

end Verif.Spec.Span
