/-! The numbers a thread pool is to be built with. -/
namespace Verif.Spec.PoolSizing

/-- `⌈a / b⌉` -/
def ceilDiv (a b : Nat) : Nat := (a + b - 1) / b

example : ceilDiv 9 4 = 3 ∧ ceilDiv 8 4 = 2 := by decide

/-- the half-open intervals `[a, b)` and `[c, d)` have no byte in common -/
def Apart (a b c d : Nat) : Prop := b ≤ c ∨ d ≤ a

end Verif.Spec.PoolSizing
