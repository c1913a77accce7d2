import Verif.Spec.CInt
/-!
# C++ integer conversions

The language rules the modelled code relies on (C++17 [conv.prom], [conv.integral], [expr.arith.conv],
[meta.trans.other]); the standard library's and `muu`'s `common_type` (`/repo/include/muu/meta.h`) is the one of the
standard. Types are identified by width and signedness; `int` has 32 bits.
-/
namespace Verif.Model.CInt
open Verif.Spec.CInt

/-- integral promotion -/
def promote (t : Ty) : Ty := if t.bits < 32 then ⟨32, true⟩ else t

/-- usual arithmetic conversions -/
def arith (a b : Ty) : Ty :=
  let a := promote a
  let b := promote b
  if a.signed = b.signed then (if a.bits < b.bits then b else a)
  else
    let u := if a.signed then b else a
    let s := if a.signed then a else b
    if u.bits ≥ s.bits then u else s

/-- std::common_type_t of two arithmetic types: the type itself if they are the same (decay of the conditional
    operator), else by the usual arithmetic conversions -/
def common (a b : Ty) : Ty := if a = b then a else arith a b

/-- static_cast to an integer type: the value congruent modulo `2^bits` (two's complement) -/
def conv (t : Ty) (v : Int) : Int :=
  let m : Int := v % 2 ^ t.bits
  if t.signed ∧ m ≥ 2 ^ (t.bits - 1) then m - 2 ^ t.bits else m

end Verif.Model.CInt
