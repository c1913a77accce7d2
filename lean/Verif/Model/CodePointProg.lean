/-!
# The language the generated code point predicates are written in

`include/muu/impl/unicode_char32_t.h` and `unicode_char16_t.h` were generated by `tools/generate_unicode_functions.py`
and use a very small part of C++. This file gives that part a syntax and a meaning; `Verif.Model.UnicodeChar32` and
`Verif.Model.UnicodeChar16` are the functions themselves, transcribed into the syntax. The code unit is a natural number.

Undefined behaviour — `MUU_UNREACHABLE` (`__builtin_unreachable()`, preprocessor.h:671-675), a false `MUU_ASSUME`
(preprocessor.h:686-694), a shift by the operand's width or more, and an out-of-bounds table read — is `none`.
-/
namespace Verif.Model.CodePoint

/-- Integer expressions over the parameter `c`; `static_cast<uint_leastN_t>(c) - k` wraps modulo `2^N`.
The named constants `child_index_N` are inlined (they are pure). -/
inductive Exp where
  | c
  | sub (bits : Nat) (e : Exp) (k : Nat)
  | add (bits : Nat) (e : Exp) (k : Nat)
  | div (e : Exp) (k : Nat)
  | mod (e : Exp) (k : Nat)

/-- Boolean expressions. `bit w e m` is `(1 << e) & m` in a `w`-bit type, `tbl t i s` is
`t[i] & (0x1ull << s)`. A comparison `k <= c` is written as `ge k`. -/
inductive Cond where
  | lit (b : Bool)
  | lt (k : Nat)
  | le (k : Nat)
  | gt (k : Nat)
  | ge (k : Nat)
  | eq (k : Nat)
  | ne (k : Nat)
  | eqE (e : Exp) (k : Nat)
  | neE (e : Exp) (k : Nat)
  | and (a b : Cond)
  | or (a b : Cond)
  | bit (w : Nat) (e : Exp) (mask : Nat)
  | tbl (t : List Nat) (i s : Exp)

/-- Function bodies. `caseOf e k p q` is one `case k: p` of a `switch (e)`, `q` the remaining cases. -/
inductive Prog where
  | ret (c : Cond)
  | retIf (c : Cond) (b : Bool) (rest : Prog)
  | assume (c : Cond) (rest : Prog)
  | caseOf (e : Exp) (k : Nat) (p q : Prog)
  | unreachable

def Exp.eval (c : Nat) : Exp → Nat
  | .c => c
  | .sub bits e k => (e.eval c + 2 ^ bits - k) % 2 ^ bits
  | .add bits e k => (e.eval c + k) % 2 ^ bits
  | .div e k => e.eval c / k
  | .mod e k => e.eval c % k

def Cond.eval (c : Nat) : Cond → Option Bool
  | .lit b => some b
  | .lt k => some (decide (c < k))
  | .le k => some (decide (c ≤ k))
  | .gt k => some (decide (c > k))
  | .ge k => some (decide (c ≥ k))
  | .eq k => some (c == k)
  | .ne k => some (c != k)
  | .eqE e k => some (e.eval c == k)
  | .neE e k => some (e.eval c != k)
  | .and a b => (a.eval c).bind fun x => if x then b.eval c else some false
  | .or a b => (a.eval c).bind fun x => if x then some true else b.eval c
  | .bit w e mask => if e.eval c < w then some (mask.testBit (e.eval c)) else none
  | .tbl t i s => if s.eval c < 64 then (t[i.eval c]?).map fun word => word.testBit (s.eval c) else none

def Prog.eval (c : Nat) : Prog → Option Bool
  | .ret q => q.eval c
  | .retIf q b rest => (q.eval c).bind fun x => if x then some b else rest.eval c
  | .assume q rest => (q.eval c).bind fun x => if x then rest.eval c else none
  | .caseOf e k p q => if e.eval c == k then p.eval c else q.eval c
  | .unreachable => none

end Verif.Model.CodePoint
