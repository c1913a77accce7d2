/-!
# Bit-level notions, stated with `BitVec.getLsbD` (bit i, counted from the least significant) and
`BitVec.getMsbD` (bit i, counted from the most significant) only.
-/
namespace Verif.Spec

/-- `n` is the length of the maximal run of bits equal to `b` at the most significant end of `x` -/
def LeadingRun {w : Nat} (b : Bool) (x : BitVec w) (n : Nat) : Prop :=
  n ≤ w ∧ (∀ i < n, x.getMsbD i = b) ∧ (n < w → x.getMsbD n = !b)

/-- `n` is the length of the maximal run of bits equal to `b` at the least significant end of `x` -/
def TrailingRun {w : Nat} (b : Bool) (x : BitVec w) (n : Nat) : Prop :=
  n ≤ w ∧ (∀ i < n, x.getLsbD i = b) ∧ (n < w → x.getLsbD n = !b)

/-- the number of set bits -/
def numOnes {w : Nat} (x : BitVec w) : Nat := (List.range w).countP fun i => x.getLsbD i

/-- byte `i`, counted from the least significant -/
def byteAt {w : Nat} (x : BitVec w) (i : Nat) : BitVec 8 := (x >>> (8 * i)).setWidth 8

/-- `p` is a power of two -/
def IsPow2 (p : Nat) : Prop := ∃ k, p = 2 ^ k

end Verif.Spec
