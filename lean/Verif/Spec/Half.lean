/-!
# IEEE 754 binary interchange formats

A format has a sign bit, `ebits` bits of exponent and `fbits` bits of fraction. The magnitude of a finite number is counted
in units of its smallest positive number (2^-24 for binary16, 2^-149 for binary32).
-/
namespace Verif.Spec.Half

inductive Value where
  | nan
  | inf (neg : Bool)
  | fin (neg : Bool) (mag : Nat)
deriving DecidableEq, Repr

/-- the value encoded by `n` -/
def decode (ebits fbits n : Nat) : Value :=
  let frac := n % 2 ^ fbits
  let exp := n / 2 ^ fbits % 2 ^ ebits
  let neg := decide (n / 2 ^ (ebits + fbits) % 2 = 1)
  if exp = 2 ^ ebits - 1 then if frac = 0 then .inf neg else .nan
  else if exp = 0 then .fin neg frac
  else .fin neg ((2 ^ fbits + frac) * 2 ^ (exp - 1))

/-- binary16 -/
def half (b : BitVec 16) : Value := decode 5 10 b.toNat

/-- binary32 -/
def single (b : BitVec 32) : Value := decode 8 23 b.toNat

/-- the same number with its magnitude counted in the unit of binary32 instead of that of binary16 -/
def Value.toSingleUnits : Value → Value
  | .nan => .nan
  | .inf s => .inf s
  | .fin s m => .fin s (m * 2 ^ 125)

/-- the number, if finite -/
def Value.num : Value → Option Int
  | .fin s m => some (if s then -m else m)
  | _ => none

/-- IEEE 754 comparison: `none` is unordered -/
def Value.cmp : Value → Value → Option Ordering
  | .nan, _ | _, .nan => none
  | .inf true, .inf true | .inf false, .inf false => some .eq
  | .inf true, _ | _, .inf false => some .lt
  | .inf false, _ | _, .inf true => some .gt
  | .fin s m, .fin s' m' => some (compare (if s then -(m : Int) else m) (if s' then -(m' : Int) else m'))

end Verif.Spec.Half
