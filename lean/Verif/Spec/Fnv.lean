/-!
# FNV-1a (Fowler, Noll, Vo), from its definition

"hash = offset_basis; for each octet: hash = hash xor octet; hash = hash * FNV_prime mod 2^n"
-/
namespace Verif.Spec.Fnv

/-- FNV-1a of a sequence of octets (natural numbers below 256) modulo `2 ^ bits` -/
def fnv1a (bits prime basis : Nat) (octets : List Nat) : Nat :=
  octets.foldl (fun h o => (Nat.xor h o * prime) % 2 ^ bits) basis

/-- The published primes -/
def prime32 : Nat := 2 ^ 24 + 2 ^ 8 + 0x93
def prime64 : Nat := 2 ^ 40 + 2 ^ 8 + 0xb3
def prime128 : Nat := 2 ^ 88 + 2 ^ 8 + 0x3b

/-- The published offset bases -/
def basis32 : Nat := 2166136261
def basis64 : Nat := 14695981039346656037
def basis128 : Nat := 144066263297769815596495629667062367629

/-- The offset basis is by definition the FNV-0 hash (multiply, then xor, starting at 0) of
"chongo <Landon Curt Noll> /\../\". -/
def fnv0 (bits prime : Nat) (octets : List Nat) : Nat :=
  octets.foldl (fun h o => Nat.xor (h * prime % 2 ^ bits) o) 0
def signature : List Nat :=
  [99, 104, 111, 110, 103, 111, 32, 60, 76, 97, 110, 100, 111, 110, 32, 67, 117, 114, 116, 32, 78, 111, 108, 108, 62, 32, 47,
   92, 46, 46, 47, 92]
example : fnv0 32 prime32 signature = basis32 ∧ fnv0 64 prime64 signature = basis64 ∧
    fnv0 128 prime128 signature = basis128 := by decide +kernel

end Verif.Spec.Fnv
