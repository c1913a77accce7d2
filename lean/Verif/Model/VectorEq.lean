import Verif.Model.VectorStore
import Verif.Model.CInt
import Verif.Spec.Float
/-!
# Exact equality of vectors and quaternions

`operator==` and its kin in `/repo/include/muu/vector.h` and `/repo/include/muu/quaternion.h`, for every pair of scalar types.
-/
namespace Verif.Model.VectorEq
open Verif.Spec.CInt Verif.Spec.Parts Verif.Model.VectorStore

/-- meta.h, is_signed. -/
def isSigned : Kind → Bool
  | .int t => t.signed
  | .float _ => true

/-- meta.h, is_floating_point. -/
def isFloat : Kind → Bool
  | .int _ => false
  | .float _ => true

/-- impl::highest_ranked of two types, meta.h:589-663: the type itself; the table of small integers; `decltype(T{} + U{})`, which is
    the floating-point type if there is one (for `half`, half.h:456-479), and the one of more bits of two. -/
def highestRanked (a b : Kind) : Kind :=
  if a = b then a
  else match a, b with
    | .int s, .int t =>
      if (s, t) = (⟨8, true⟩, ⟨16, true⟩) ∨ (t, s) = (⟨8, true⟩, ⟨16, true⟩) then .int ⟨16, true⟩
      else if (s, t) = (⟨8, false⟩, ⟨16, false⟩) ∨ (t, s) = (⟨8, false⟩, ⟨16, false⟩) then .int ⟨16, false⟩
      else if (s, t) = (⟨8, false⟩, ⟨16, true⟩) ∨ (t, s) = (⟨8, false⟩, ⟨16, true⟩) then .int ⟨16, true⟩
      else .int (CInt.arith s t)
    | .int _, .float p => .float p
    | .float p, .int _ => .float p
    | .float p, .float q => .float (max p q)

/-- promote_if_small_float, meta.h:2052-2072: `half` and the like become `float`. -/
def promoteSmall : Kind → Kind
  | .float p => if p ≤ 11 then .float 24 else .float p
  | k => k

/-- impl::equality_check_type, impl/vector_types_common.h:14-18. -/
def equalityType (a b : Kind) : Kind :=
  if isSigned a ≠ isSigned b ∨ isFloat a ≠ isFloat b then promoteSmall (highestRanked a b) else highestRanked a b

/-- `static_cast` of a number: modulo `2^bits` to an integer type, rounded to nearest to a floating-point type. The conversion of
    infinities to integers is undefined and does not occur; exponents are not bounded. -/
def convertTo : Kind → Num → Num
  | .int t, .fin q => .fin (CInt.conv t (q.num.tdiv q.den))
  | .float p, .fin q => .fin (Spec.Float.rnd p q)
  | _, x => x

/-- The built-in `==`: nothing equals not-a-number, and the zeros are equal (they are the same number here). -/
def same : Num → Num → Bool
  | .fin a, .fin b => decide (a = b)
  | .inf a, .inf b => a == b
  | _, _ => false

/-- One component, vector.h:806-820 and 832-846. -/
def sameAs (a b : Kind) (x y : Num) : Bool :=
  if a = b then same x y else same (convertTo (equalityType a b) x) (convertTo (equalityType a b) y)

/-- operator==, vector.h:796-848. -/
def equal (a b : Kind) {n : ℕ} (v w : Store Num n) : Bool := all (sameAs a b) v w

/-- operator!=, vector.h:852-874. -/
def notEqual (a b : Kind) {n : ℕ} (v w : Store Num n) : Bool := !equal a b v w

/-- zero, vector.h:876-900. -/
def zero {n : ℕ} (v : Store Num n) : Bool := all (fun x (_ : Num) => same x (.fin 0)) v v

/-- infinity_or_nan, vector.h:902-932, by what muu::infinity_or_nan tells of a scalar (claim C123). -/
def infinityOrNan (a : Kind) {n : ℕ} (v : Store Num n) : Bool :=
  if isFloat a then any (fun | .fin _ => false | _ => true) v else false

/-- A quaternion, quaternion.h. -/
structure Quaternion where
  s : Num
  v : Store Num 3

/-- operator== of quaternions, quaternion.h:280-322. -/
def quaternionEqual (a b : Kind) (p q : Quaternion) : Bool :=
  if a = b then same p.s q.s && equal a b p.v q.v
  else if !same (convertTo (equalityType a b) p.s) (convertTo (equalityType a b) q.s) then false
  else equal a b p.v q.v

end Verif.Model.VectorEq
