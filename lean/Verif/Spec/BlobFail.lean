import Verif.Spec.Blob
/-! Blobs when the allocator may fail: a vector of bytes which may have lost its memory. -/
namespace Verif.Spec.BlobFail
open Verif.Spec.Blob

/-- a vector as its user sees it: how many bytes it claims to have, the bytes (`none`: there is no memory for them), and
    the alignment it claims to have -/
structure Vec where
  size : Nat
  bytes : Option Bytes
  align : Nat
  deriving DecidableEq

/-- a vector of `n` bytes for which new memory is asked, unless there is nothing to store -/
def fresh (ok : Bool) (n : Nat) (l : Bytes) (a : Nat) : Vec := ⟨n, if n = 0 ∨ ok then some l else none, a⟩

/-- `n` bytes of the source; a null pointer (also that of a vector without memory) specifies nothing -/
def bytesOf (v : Nat → Option Vec) (n : Nat) : Source → Bytes
  | .null => List.replicate n none
  | .memory l => (l.take n).map some
  | .blob j off => match v j with
    | none => []
    | some x => match x.bytes with
      | none => List.replicate n none
      | some l => (l.drop off).take n

/-- the vector `x` after `n` bytes of a source were assigned to it -/
def assigned (ok : Bool) (x : Vec) (n : Nat) (l : Bytes) (a : Nat) : Vec :=
  if atLeast n a ≤ x.align then
    (if n = x.size then { x with bytes := x.bytes.map fun _ => l } else fresh ok n l x.align)
  else fresh ok n l (atLeast n a)

/-- the vector `x` after a change of its size -/
def resized (ok : Bool) (x : Vec) (n : Nat) : Vec :=
  if n = x.size then x
  else fresh ok n ((x.bytes.getD []).take n ++ List.replicate (n - x.size) none) x.align

/-- the effect of an operation during which the allocator (if it is asked) succeeds or fails; `none` if a variable which
    does not hold a blob is used, or one which does is constructed -/
def apply (v : Nat → Option Vec) (o : Op) (ok : Bool) : Option (Nat → Option Vec) := match o with
  | .empty i => match v i with
    | none => some (put v i (some ⟨0, some [], 16⟩))
    | some _ => none
  | .construct i n src a => match v i with
    | none => some (put v i (some (fresh ok n (bytesOf v n src) (atLeast n a))))
    | some _ => none
  | .copy i j => match v i, v j with
    | none, some y => some (put v i (some (fresh ok y.size (bytesOf v y.size (.blob j 0)) (atLeast y.size y.align))))
    | _, _ => none
  | .copyAligned i j a => match v i, v j with
    | none, some y => some (put v i (some (fresh ok y.size (bytesOf v y.size (.blob j 0))
        (atLeast y.size (if a = 0 then y.align else a)))))
    | _, _ => none
  | .move i j => match v i, v j with
    | none, some y => some (put (put v i (some y)) j (some ⟨0, some [], 16⟩))
    | _, _ => none
  | .destroy i => match v i with
    | none => none
    | some _ => some (put v i none)
  | .assign i n src a => match v i with
    | none => none
    | some x => some (put v i (some (assigned ok x n (bytesOf v n src) a)))
  | .copyAssign i j => match v i, v j with
    | some x, some y => some (put v i (some (assigned ok x y.size (bytesOf v y.size (.blob j 0)) y.align)))
    | _, _ => none
  | .moveAssign i j => match v i, v j with
    | some _, some y => if i = j then some v else some (put (put v i (some y)) j (some ⟨0, some [], 16⟩))
    | _, _ => none
  | .resize i n => match v i with
    | none => none
    | some x => some (put v i (some (resized ok x n)))

/-- the source has (at least) `n` bytes and is not part of blob `i` itself; the data() of a blob without memory is a
    null pointer, which may be passed as it is -/
def SourceOk (v : Nat → Option Vec) (i n : Nat) : Source → Prop
  | .null => True
  | .memory l => n ≤ l.length
  | .blob j off => j ≠ i ∧ ∃ x, v j = some x ∧
      ((x.bytes = none ∧ off = 0) ∨ ∃ l, x.bytes = some l ∧ off + n ≤ l.length)

/-- what the caller has to respect -/
def Ok (v : Nat → Option Vec) : Op → Prop
  | .construct i n src a => AlignOk a ∧ SourceOk v i n src
  | .copyAligned _ _ a => AlignOk a
  | .assign i n src a => AlignOk a ∧ SourceOk v i n src
  | _ => True

/-- moving the bytes of a non-empty vector to memory of another (non-zero) size, when it has no bytes or there is no
    such memory -/
def BadMove (x : Vec) (n : Nat) (ok : Bool) : Prop :=
  x.size ≠ 0 ∧ n ≠ 0 ∧ n ≠ x.size ∧ (x.bytes = none ∨ ok = false)

/-- the operations which are not safe: those which move bytes as above, and the self-assignment which needs a stricter
    alignment -/
def Hazard (v : Nat → Option Vec) (o : Op) (ok : Bool) : Prop := match o with
  | .resize i n => ∃ x, v i = some x ∧ BadMove x n ok
  | .assign i n _ a => ∃ x, v i = some x ∧ atLeast n a ≤ x.align ∧ BadMove x n ok
  | .copyAssign i j => ∃ x y, v i = some x ∧ v j = some y ∧
      ((atLeast y.size y.align ≤ x.align ∧ BadMove x y.size ok) ∨
        (i = j ∧ x.align < atLeast x.size x.align ∧ x.bytes ≠ none ∧ x.size ≠ 0 ∧ ok = true))
  | _ => False

/-- a history of operations, each with the answer of the allocator: the caller respects the rules and no operation is
    hazardous -/
inductive Runs : (Nat → Option Vec) → List (Op × Bool) → (Nat → Option Vec) → Prop
  | nil (v) : Runs v [] v
  | cons {v v' v'' o ok l} (rules : Ok v o) (safe : ¬ Hazard v o ok) (step : apply v o ok = some v')
      (rest : Runs v' l v'') : Runs v ((o, ok) :: l) v''

end Verif.Spec.BlobFail
