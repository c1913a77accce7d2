/-!
# Literals of integers and sizes (include/muu/integer_literals.h:19-130, include/muu/size_t_literals.h:17-73)

`unsigned long long` is 64 bits; a literal too large for it does not compile. `static_cast` to a narrower type keeps the low bits.
-/
namespace Verif.Model.Literals

/-- `_u8` (integer_literals.h:25-28). -/
def u8 (n : BitVec 64) : BitVec 8 := n.setWidth 8
/-- `_u16` (integer_literals.h:36-39). -/
def u16 (n : BitVec 64) : BitVec 16 := n.setWidth 16
/-- `_u32` (integer_literals.h:47-50). -/
def u32 (n : BitVec 64) : BitVec 32 := n.setWidth 32
/-- `_u64` (integer_literals.h:58-61). -/
def u64 (n : BitVec 64) : BitVec 64 := n
/-- `_i8` (integer_literals.h:69-72); signed types are read in two's complement. -/
def i8 (n : BitVec 64) : BitVec 8 := n.setWidth 8
/-- `_i16` (integer_literals.h:80-83). -/
def i16 (n : BitVec 64) : BitVec 16 := n.setWidth 16
/-- `_i32` (integer_literals.h:91-94). -/
def i32 (n : BitVec 64) : BitVec 32 := n.setWidth 32
/-- `_i64` (integer_literals.h:102-105). -/
def i64 (n : BitVec 64) : BitVec 64 := n
/-- `_i128` (integer_literals.h:115-118). -/
def i128 (n : BitVec 64) : BitVec 128 := n.setWidth 128
/-- `_u128` (integer_literals.h:126-129). -/
def u128 (n : BitVec 64) : BitVec 128 := n.setWidth 128

/-- `_sz` and `_b` (size_t_literals.h:24-38). -/
def sz (n : BitVec 64) : BitVec 64 := n
/-- `_kb` (size_t_literals.h:46-49). -/
def kb (n : BitVec 64) : BitVec 64 := n * 1024
/-- `_mb` (size_t_literals.h:57-60). -/
def mb (n : BitVec 64) : BitVec 64 := n * 1024 * 1024
/-- `_gb` (size_t_literals.h:68-71). -/
def gb (n : BitVec 64) : BitVec 64 := n * 1024 * 1024 * 1024

/-- A minus before a literal of a signed type of `w` bits: narrower types are promoted to `int` (32 bits) first, and the minus is undefined (does not compile, in a constant expression) if the type cannot hold the result. -/
def minus {w : Nat} (x : BitVec w) : Option Int :=
  let bits := max w 32
  if -x.toInt < 2 ^ (bits - 1) then some (-x.toInt) else none

end Verif.Model.Literals
