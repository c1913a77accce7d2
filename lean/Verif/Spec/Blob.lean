/-! A blob as a plain vector of bytes. -/
namespace Verif.Spec.Blob

/-- the bytes of a vector; `none` is a byte whose value is not specified -/
abbrev Bytes := List (Option (BitVec 8))

/-- the actual bytes agree with the specified ones wherever these are specified -/
def Agree (spec actual : Bytes) : Prop :=
  spec.length = actual.length ∧ ∀ (i : Nat) (b : BitVec 8), spec[i]? = some (some b) → actual[i]? = some (some b)

/-- a vector and the alignment its bytes have at least -/
structure Vec where
  bytes : Bytes
  align : Nat

/-- where an operation takes its source bytes from -/
inductive Source
  /-- a null pointer -/
  | null
  /-- memory outside of all blobs -/
  | memory (l : List (BitVec 8))
  /-- the bytes of blob `j`, from offset `off` -/
  | blob (j off : Nat)

/-- `n` bytes of the source -/
def Source.bytes (v : Nat → Option Vec) (n : Nat) : Source → Bytes
  | .null => List.replicate n none
  | .memory l => (l.take n).map some
  | .blob j off => match v j with
    | none => []
    | some x => (x.bytes.drop off).take n

/-- what can be done with blobs; the numbers `i`, `j` name variables -/
inductive Op
  | empty (i : Nat)
  | construct (i size : Nat) (src : Source) (align : Nat)
  | copy (i j : Nat)
  | copyAligned (i j align : Nat)
  | move (i j : Nat)
  | destroy (i : Nat)
  | assign (i size : Nat) (src : Source) (align : Nat)
  | copyAssign (i j : Nat)
  | moveAssign (i j : Nat)
  | resize (i size : Nat)

/-- the alignment to be had by asking for `a` for `n` bytes: at least 16, and 64 from 2048 bytes on -/
def atLeast (n a : Nat) : Nat := max a (if n < 2048 then 16 else 64)

/-- sets one variable -/
def put {α : Type} (v : Nat → Option α) (i : Nat) (x : Option α) : Nat → Option α := fun k => if k = i then x else v k

/-- the effect on vectors; `none` if a variable which does not hold a blob is used, or one which does is constructed -/
def Op.apply (v : Nat → Option Vec) : Op → Option (Nat → Option Vec)
  | .empty i => match v i with
    | none => some (put v i (some ⟨[], 16⟩))
    | some _ => none
  | .construct i n src a => match v i with
    | none => some (put v i (some ⟨src.bytes v n, atLeast n a⟩))
    | some _ => none
  | .copy i j => match v i, v j with
    | none, some y => some (put v i (some ⟨y.bytes, atLeast y.bytes.length y.align⟩))
    | _, _ => none
  | .copyAligned i j a => match v i, v j with
    | none, some y => some (put v i (some ⟨y.bytes, atLeast y.bytes.length (if a = 0 then y.align else a)⟩))
    | _, _ => none
  | .move i j => match v i, v j with
    | none, some y => some (put (put v i (some y)) j (some ⟨[], 16⟩))
    | _, _ => none
  | .destroy i => match v i with
    | none => none
    | some _ => some (put v i none)
  | .assign i n src a => match v i with
    | none => none
    | some _ => some (put v i (some ⟨src.bytes v n, atLeast n a⟩))
  | .copyAssign i j => match v i, v j with
    | some _, some y => some (put v i (some ⟨y.bytes, atLeast y.bytes.length y.align⟩))
    | _, _ => none
  | .moveAssign i j => match v i, v j with
    | some _, some y => if i = j then some v else some (put (put v i (some y)) j (some ⟨[], 16⟩))
    | _, _ => none
  | .resize i n => match v i with
    | none => none
    | some x => some (put v i (some ⟨x.bytes.take n ++ List.replicate (n - x.bytes.length) none, x.align⟩))

/-- an alignment that may be asked for: zero (the default) or a power of two -/
def AlignOk (a : Nat) : Prop := a = 0 ∨ ∃ k, a = 2 ^ k

/-- the source has (at least) `n` bytes, and is not part of blob `i` itself -/
def Source.Ok (v : Nat → Option Vec) (i n : Nat) : Source → Prop
  | .null => True
  | .memory l => n ≤ l.length
  | .blob j off => j ≠ i ∧ ∃ x, v j = some x ∧ off + n ≤ x.bytes.length

/-- what the caller has to respect -/
def Op.Ok (v : Nat → Option Vec) : Op → Prop
  | .construct i n src a => AlignOk a ∧ src.Ok v i n
  | .copyAligned _ _ a => AlignOk a
  | .assign i n src a => AlignOk a ∧ src.Ok v i n
  | _ => True

end Verif.Spec.Blob
