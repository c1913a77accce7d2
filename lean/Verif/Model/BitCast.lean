import Verif.Spec.ObjectBits
import Mathlib.Data.Int.Notation
import Mathlib.Data.Nat.Notation
/-!
# Bit casts

`/repo/include/muu/bit_cast.h`. The bytes of an object are taken together as one number, in whatever order the platform has them; an object of a type that
is not integral is known by this number only. Integral types have no padding, and enumerations are cast as their underlying types (remove_enum, C168).
-/
namespace Verif.Model.BitCast
open Verif.Spec.ObjectBits

/-- Types, as far as the function distinguishes them; `id` tells types of the same kind apart. -/
inductive Kind where
  | bool
  | int (signed : Bool)
  | other
  deriving DecidableEq

/-- A trivially copyable type of `bytes` bytes; `defaultConstructible`: std::is_nothrow_default_constructible_v. -/
structure Ty where
  id : ℕ
  kind : Kind
  bytes : ℕ
  defaultConstructible : Bool
  deriving DecidableEq

/-- The values of a type ([basic.fundamental]). -/
def HasValue (t : Ty) (z : ℤ) : Prop :=
  match t.kind with
  | .bool => 0 < t.bytes ∧ (z = 0 ∨ z = 1)
  | .int s => Has s (8 * t.bytes) z
  | .other => Has false (8 * t.bytes) z

/-- The bytes of an object with this value. -/
def encode (t : Ty) (z : ℤ) : ℕ := (z % (2 ^ (8 * t.bytes) : ℕ)).toNat

/-- The value of an object with these bytes. For `bool` only 0 and 1 are values. -/
def decode (t : Ty) (n : ℕ) : ℤ :=
  match t.kind with
  | .int true => if 2 * n < 2 ^ (8 * t.bytes) then n else (n : ℤ) - (2 ^ (8 * t.bytes) : ℕ)
  | _ => n

/-- std::memcpy to a new object of a type. -/
def memcpy (to' from' : Ty) (z : ℤ) : ℤ := decode to' (encode from' z)

/-- static_cast to an integral type ([conv.integral], [conv.bool]); a signed type takes the number that is congruent. -/
def staticCast (to' : Ty) (z : ℤ) : ℤ :=
  match to'.kind with
  | .bool => if z = 0 then 0 else 1
  | .int false => z % (2 ^ (8 * to'.bytes) : ℕ)
  | .int true => if 2 * (z % (2 ^ (8 * to'.bytes) : ℕ)) < (2 ^ (8 * to'.bytes) : ℕ) then z % (2 ^ (8 * to'.bytes) : ℕ)
      else z % (2 ^ (8 * to'.bytes) : ℕ) - (2 ^ (8 * to'.bytes) : ℕ)
  | .other => z

/-- is_integral -/
def isIntegral (t : Ty) : Bool := t.kind ≠ .other

/-- bit_cast, bit_cast.h:32-91, for a compiler with the intrinsic or without; the types have the same size. -/
def bitCast (intrinsic : Bool) (to' from' : Ty) (z : ℤ) : ℤ :=
  if intrinsic then memcpy to' from' z
  else if from' = to' then z
  else if isIntegral from' && isIntegral to' then staticCast to' z
  else if !to'.defaultConstructible then memcpy to' from' z
  else memcpy to' from' z

end Verif.Model.BitCast
