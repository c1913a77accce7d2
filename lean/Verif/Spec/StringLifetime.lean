import Verif.Spec.StringParam
/-!
# What the users of `string_param` must do, and what they may see (C178)

Characters a parameter is made from are *sources*: arrays of characters that belong to the user and live until they are
freed.  A parameter is non-owning if it was made from a source; it then *borrows* the source, until it is asked for its text in
another character type.  Moving a parameter moves what it borrows.  A parameter made from a string by moving it in borrows nothing.

The user's duty: name only sources and parameters that are alive, and free no source that is borrowed.  Parameters are numbered in
the order of their construction, sources too.
-/
namespace Verif.Spec.StringLifetime
open Verif.Spec.StringParam

inductive Op
  /-- new characters of the user: the text in a character type -/
  | source (e : Enc) (t : Text)
  | free (k : Nat)
  | default
  /-- a parameter from (a view of) source `k` -/
  | fromView (k : Nat)
  /-- a parameter from a string that is moved in -/
  | fromString (e : Enc) (t : Text)
  | moveConstruct (j : Nat)
  | moveAssign (i j : Nat)
  | view (i : Nat) (e : Enc)
  | toString (i : Nat) (e : Enc)
  | trim (i : Nat)
  | isEmpty (i : Nat)
  | destroy (i : Nat)

/-- what the user knows: their sources (`alive` or freed), and for each parameter that is not destroyed what it borrows -/
structure Known where
  sources : List (Enc × Text × Bool)
  params : List (Option (Option Nat))

def Known.init : Known := ⟨[], []⟩

/-- an operation by a careful user; `none`: the duty is violated -/
def Known.step (c : Known) : Op → Option Known
  | .source e t => some { c with sources := c.sources ++ [(e, t, true)] }
  | .free k => match c.sources[k]? with
    | some (e, t, true) =>
      if some (some k) ∈ c.params then none else some { c with sources := c.sources.set k (e, t, false) }
    | _ => none
  | .default => some { c with params := c.params ++ [some none] }
  | .fromView k => match c.sources[k]? with
    | some (_, _, true) => some { c with params := c.params ++ [some (some k)] }
    | _ => none
  | .fromString _ _ => some { c with params := c.params ++ [some none] }
  | .moveConstruct j => match c.params[j]? with
    | some (some b) => some { c with params := c.params.set j (some none) ++ [some b] }
    | _ => none
  | .moveAssign i j => match c.params[i]?, c.params[j]? with
    | some (some _), some (some b) =>
      if i = j then some c else some { c with params := (c.params.set i (some b)).set j (some none) }
    | _, _ => none
  | .view i e => match c.params[i]? with
    | some (some (some k)) => match c.sources[k]? with
      | some (e', _, _) => if e' = e then some c else some { c with params := c.params.set i (some none) }
      | none => none
    | some (some none) => some c
    | _ => none
  | .toString i _ | .trim i | .isEmpty i => match c.params[i]? with
    | some (some _) => some c
    | _ => none
  | .destroy i => match c.params[i]? with
    | some (some _) => some { c with params := c.params.set i none }
    | _ => none

/-- the operation as far as texts are concerned: sources, and the end of lifetimes, do not matter -/
def Known.plain (c : Known) : Op → Option StringParam.Op
  | .source .. | .free _ | .destroy _ => none
  | .default => some .default
  | .fromView k => (c.sources[k]?).map fun (e, t, _) => .construct e false t
  | .fromString e t => some (.construct e true t)
  | .moveConstruct j => some (.moveConstruct j)
  | .moveAssign i j => some (.moveAssign i j)
  | .view i e => some (.view i e)
  | .toString i e => some (.toString i e)
  | .trim i => some (.trim i)
  | .isEmpty i => some (.isEmpty i)

/-- the history of a careful user, and the same as far as texts are concerned -/
def Known.run (c : Known) : List Op → Option (Known × List StringParam.Op)
  | [] => some (c, [])
  | o :: os => (c.step o).bind fun c' => (c'.run os).map fun (c'', ps) => (c'', (c.plain o).toList ++ ps)

/-- what is seen at each operation, from what is seen at those that matter to texts; nothing is seen at the others -/
def spread : List Op → List Obs → List Obs
  | .source .. :: ops, os | .free _ :: ops, os | .destroy _ :: ops, os => .nothing :: spread ops os
  | _ :: ops, o :: os => o :: spread ops os
  | _, _ => []

/-- the operation leaves a view of parameter `i` in character type `e` alone: it is not on `i`, or asks for the same view again -/
def Op.leaves (i : Nat) (e : Enc) : Op → Prop
  | .moveConstruct j | .toString j _ | .trim j | .destroy j => j ≠ i
  | .moveAssign j k => j ≠ i ∧ k ≠ i
  | .view j e' => j ≠ i ∨ e' = e
  | .source .. | .free _ | .default | .fromView _ | .fromString .. | .isEmpty _ => True

end Verif.Spec.StringLifetime
