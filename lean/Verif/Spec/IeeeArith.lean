import Verif.Spec.SmallFloat
import Verif.Spec.Half
/-!
# IEEE 754 arithmetic

The operations on numbers with infinities, NaN and signed zeros, as if with unbounded precision, and rounding to a format
(IEEE 754-2008, sections 4.3.1, 6 and 7). The magnitude of a finite number is a rational number, not negative.
-/
namespace Verif.Spec.IeeeArith
open Verif.Spec.SmallFloat Verif.Spec.Float

inductive Number where
  | nan
  | inf (neg : Bool)
  | fin (neg : Bool) (mag : ℚ)
  deriving DecidableEq

/-- the rational number with this sign and magnitude -/
def signed (neg : Bool) (mag : ℚ) : ℚ := if neg then -mag else mag

namespace Number

/-- the opposite -/
def negate : Number → Number
  | nan => nan
  | inf s => inf (!s)
  | fin s a => fin (!s) a

/-- a zero sum is positive unless both terms are negative -/
def add : Number → Number → Number
  | nan, _ | _, nan => nan
  | inf s, inf t => if s = t then inf s else nan
  | inf s, fin _ _ => inf s
  | fin _ _, inf t => inf t
  | fin s a, fin t b =>
    let z := signed s a + signed t b
    if z = 0 then fin (s && t) 0 else fin (decide (z < 0)) |z|

def sub (x y : Number) : Number := add x y.negate

def mul : Number → Number → Number
  | nan, _ | _, nan => nan
  | inf s, inf t => inf (s != t)
  | inf s, fin t b => if b = 0 then nan else inf (s != t)
  | fin s a, inf t => if a = 0 then nan else inf (s != t)
  | fin s a, fin t b => fin (s != t) (a * b)

def div : Number → Number → Number
  | nan, _ | _, nan => nan
  | inf _, inf _ => nan
  | inf s, fin t _ => inf (s != t)
  | fin s _, inf t => fin (s != t) 0
  | fin s a, fin t b => if b = 0 then if a = 0 then nan else inf (s != t) else fin (s != t) (a / b)

/-- rounding to nearest, ties to even, in the format with `p` significant bits, least exponent `emin` and greatest number `greatest` -/
def round (p : ℕ) (emin : ℤ) (greatest : ℚ) : Number → Number
  | nan => nan
  | inf s => inf s
  | fin s a => if greatest < rounded p emin a then inf s else fin s (rounded p emin a)

/-- rounding to binary16 -/
def round16 : Number → Number := round 11 (-14) 65504

/-- rounding to binary32 -/
def round32 : Number → Number := round 24 (-126) ((2 ^ 24 - 1) * 2 ^ 104)

end Number

/-- what 16 bits stand for -/
def value16 (b : BitVec 16) : Number :=
  match Half.half b with
  | .nan => .nan
  | .inf s => .inf s
  | .fin s m => .fin s (m / 2 ^ 24)

/-- what 32 bits stand for -/
def value32 (b : BitVec 32) : Number :=
  match Half.single b with
  | .nan => .nan
  | .inf s => .inf s
  | .fin s m => .fin s (m / 2 ^ 149)

/-- the bits of the binary32 number that is nearest, ties to even -/
def encode32 : Number → BitVec 32
  | .nan => 0x7fc00000#32
  | .inf s => (if s then 0x80000000#32 else 0#32) ||| 0x7f800000#32
  | .fin s a =>
    let units := a * 2 ^ 149
    let e : ℕ := (Int.log 2 units).toNat - 23
    let bits := e * 2 ^ 23 + (roundEven (units / 2 ^ e)).toNat
    (if s then 0x80000000#32 else 0#32) ||| BitVec.ofNat 32 (min bits 0x7f800000)

/-- `r` is the half nearest to `z` from one side or the other: no half is between them, and it is `z` itself if that is a half -/
def Faithful (z r : ℚ) : Prop := IsHalf r ∧ ∀ h, IsHalf h → (h ≤ z → h ≤ r) ∧ (z ≤ h → r ≤ h)

/-- `r` is a result that a system without the choice of the nearest half may give for the exact number `n`: the next half in one direction
or the other, and exactly `n` if it can be -/
def FaithfulResult (n r : Number) : Prop :=
  match n with
  | .nan => r = .nan
  | .inf s => r = .inf s
  | .fin s a => (a ≤ 65504 → ∃ q, r = .fin s q ∧ Faithful a q) ∧ (65504 < a → r = .fin s 65504 ∨ r = .inf s) ∧ (65536 ≤ a → r = .inf s)

end Verif.Spec.IeeeArith
