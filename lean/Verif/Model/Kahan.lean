import Verif.Model.Accumulator
import Verif.Model.FloatVector
/-!
# Floating-point accumulators

kahan_accumulator, `/repo/include/muu/accumulator.h`, lines 258–328, as an implementation for the model of accumulator
(`Verif.Model.Accumulator`), whose sum state is the pair of `sum_` and `correction_`. `f` is the format of sum_type. start (270–274) leaves
`correction_` as it is; it is zero then, unless `sample_count` has wrapped after 2^64 samples (here `toSum` sets it to zero).
-/
namespace Verif.Model.Kahan
open Verif.Spec.IeeeArith Verif.Spec.FloatFormat Verif.Model.FloatVector

/-- `a < b` for floating-point numbers (IEEE 754-2008, 5.11). -/
def less : Number → Number → Bool
  | .nan, _ | _, .nan => false
  | .inf s, .inf t => s && !t
  | .inf s, .fin _ _ => s
  | .fin _ _, .inf t => !t
  | .fin s a, .fin t b => decide (signed s a < signed t b)

/-- muu::abs (math.h:286-375), at run time and in constant expressions. -/
def abs : Number → Number
  | .nan => .nan
  | .inf _ => .inf false
  | .fin _ a => .fin false a

/-- `a >= b` (IEEE 754-2008, 5.11). -/
def atLeast : Number → Number → Bool
  | .nan, _ | _, .nan => false
  | a, b => !less a b

/-- kahan_add, lines 276–291, on the pair of sum_ and correction_. -/
def kahanAdd (f : Format) (s : Number × Number) (sample : Number) : Number × Number :=
  let t := Op.add.eval f s.1 sample
  if atLeast (abs s.1) (abs sample) then (t, Op.add.eval f s.2 (Op.add.eval f (Op.sub.eval f s.1 t) sample))
  else (t, Op.add.eval f s.2 (Op.add.eval f (Op.sub.eval f sample t) s.1))

/-- The operations of kahan_accumulator: its members are zero at first (267–268), start is lines 270–274, add lines 293–300. There is no addSum: line
308 does not compile. -/
def kahan (f : Format) : Accumulator.Ops Number (Number × Number) where
  lt := less
  zero := .fin false 0
  zeroSum := (.fin false 0, .fin false 0)
  toSum x := (x, .fin false 0)
  addSample s x := some (kahanAdd f s x)
  addSum _ _ := none

/-- sum(), lines 323–327: sum_type `f`, value_type `g`. -/
def sum (f g : Format) (a : Accumulator.Acc Number (Number × Number)) : Number := g.round (Op.add.eval f a.impl.sum.1 a.impl.sum.2)

end Verif.Model.Kahan
