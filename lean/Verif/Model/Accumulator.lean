import Verif.Model.CoreUtils
/-!
# Model of accumulator

Models `/repo/include/muu/accumulator.h`. The operations on values are parameters, so that the bookkeeping is modelled
once for the integer implementation (basic_accumulator, lines 199–254) and the floating-point one (kahan_accumulator,
lines 258–328, whose sum state is the pair of sum and correction). Floating-point arithmetic is in `Verif.Model.Kahan`.
The merge of two kahan_accumulators (line 308) does not compile (`other.sum` names a member function); merging is
modelled for basic_accumulator.
-/
namespace Verif.Model.Accumulator
open Verif.Spec.CInt Verif.Model.CInt Verif.Model.CoreUtils

/-- operations on values `α` and on sums `σ`; `none` is undefined behaviour (signed overflow) -/
structure Ops (α σ : Type) where
  lt : α → α → Bool
  zero : α
  zeroSum : σ
  /-- `static_cast<sum_type>(sample)`, line 216 -/
  toSum : α → σ
  /-- `sum_ += static_cast<sum_type>(sample)`, line 225 -/
  addSample : σ → α → Option σ
  /-- `sum_ += other.sum_`, line 234 -/
  addSum : σ → σ → Option σ

/-- the implementation's members, lines 210–211 -/
structure Impl (α σ : Type) where
  min : α
  max : α
  sum : σ

/-- accumulator, line 49 -/
structure Acc (α σ : Type) where
  impl : Impl α σ
  count : BitVec 64

variable {α σ : Type} (o : Ops α σ)

/-- accumulator(), lines 54–55 -/
def empty : Acc α σ := ⟨⟨o.zero, o.zero, o.zeroSum⟩, 0#64⟩

/-- basic_accumulator::start, lines 213–217 -/
def Impl.start (x : α) : Impl α σ := ⟨x, x, o.toSum x⟩

/-- basic_accumulator::add(sample), lines 219–226 -/
def Impl.add (i : Impl α σ) (x : α) : Option (Impl α σ) := match o.addSample i.sum x with
  | none => none
  | some s => some ⟨min2 o.lt x i.min, max2 o.lt x i.max, s⟩

/-- basic_accumulator::add(other), lines 228–235 -/
def Impl.merge (i other : Impl α σ) : Option (Impl α σ) := match o.addSum i.sum other.sum with
  | none => none
  | some s => some ⟨min2 o.lt other.min i.min, max2 o.lt other.max i.max, s⟩

/-- add(sample), lines 117–130 -/
def Acc.add (a : Acc α σ) (x : α) : Option (Acc α σ) :=
  if a.count = 0#64 then some ⟨Impl.start o x, a.count + 1#64⟩
  else match a.impl.add o x with
    | none => none
    | some i => some ⟨i, a.count + 1#64⟩

/-- add(begin, end), lines 140–146 -/
def Acc.addAll (a : Acc α σ) : List α → Option (Acc α σ)
  | [] => some a
  | x :: l => match a.add o x with
    | none => none
    | some a => a.addAll l

/-- add(other), lines 153–169 -/
def Acc.merge (a other : Acc α σ) : Option (Acc α σ) :=
  if ¬ other.count = 0#64 then
    if a.count = 0#64 then
      match a.impl.merge o other.impl with
      | none => none
      | some i => some ⟨i, a.count + other.count⟩
    else some ⟨other.impl, other.count⟩
  else some a

/-- sum_type of basic_accumulator, lines 204–208: `decltype(T{} + int32_t{})` or `decltype(T{} + uint32_t{})` -/
def sumTy (t : Ty) : Ty := arith t ⟨32, t.signed⟩

/-- `a + b` in type `t`: signed overflow is undefined, unsigned arithmetic is modular -/
def plus (t : Ty) (a b : Int) : Option Int := if t.signed ∧ ¬ t.Has (a + b) then none else some (conv t (a + b))

/-- the integer operations -/
def intOps (t : Ty) : Ops Int Int where
  lt a b := a < b
  zero := 0
  zeroSum := 0
  toSum x := conv (sumTy t) x
  addSample s x := plus (sumTy t) s (conv (sumTy t) x)
  addSum := plus (sumTy t)

end Verif.Model.Accumulator
