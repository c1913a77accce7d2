import Verif.Spec.Float
import Mathlib.Analysis.SpecialFunctions.Trigonometric.Basic

/-!
# The numbers that constants are named after
-/

namespace Verif.Spec.Constants

open Real

/-- Numbers with `p` significant bits. -/
def IsFloat (p : ℕ) (x : ℚ) : Prop := ∃ m k : ℤ, |m| ≤ 2 ^ p ∧ x = m * 2 ^ k

/-- `x` has `p` significant bits, and no such number is closer to `v`. -/
def Nearest (p : ℕ) (v : ℝ) (x : ℚ) : Prop := IsFloat p x ∧ ∀ f, IsFloat p f → |(x : ℝ) - v| ≤ |(f : ℝ) - v|

/-- `x` has `p` significant bits, and is less than `n` units in the last place away from `v`. -/
def Close (p n : ℕ) (v : ℝ) (x : ℚ) : Prop := IsFloat p x ∧ ∃ e : ℤ, 2 ^ e ≤ v ∧ |(x : ℝ) - v| < n * 2 ^ (e + 1 - p)

/-- The golden ratio. -/
noncomputable def golden : ℝ := (1 + √5) / 2

/-- Euler's number. -/
noncomputable def euler : ℝ := Real.exp 1

/-- Ratios of integers, and multiples and roots of `√2`, `√3`, `π` and the golden ratio. -/
noncomputable def numbers : List (String × ℝ) := [
  ("one_over_two", 1 / 2),
  ("one_over_three", 1 / 3),
  ("one_over_four", 1 / 4),
  ("one_over_five", 1 / 5),
  ("one_over_six", 1 / 6),
  ("one_over_seven", 1 / 7),
  ("one_over_eight", 1 / 8),
  ("sqrt_two", √2),
  ("one_over_sqrt_two", 1 / √2),
  ("two_over_three", 2 / 3),
  ("two_over_five", 2 / 5),
  ("two_over_seven", 2 / 7),
  ("sqrt_three", √3),
  ("one_over_sqrt_three", 1 / √3),
  ("three_over_two", 3 / 2),
  ("three_over_four", 3 / 4),
  ("three_over_five", 3 / 5),
  ("three_over_seven", 3 / 7),
  ("three_over_eight", 3 / 8),
  ("sqrt_four", √4),
  ("four_over_three", 4 / 3),
  ("four_over_five", 4 / 5),
  ("four_over_seven", 4 / 7),
  ("pi", π),
  ("one_over_pi", 1 / π),
  ("sqrt_pi", √π),
  ("one_over_sqrt_pi", 1 / √π),
  ("pi_over_two", π / 2),
  ("pi_over_three", π / 3),
  ("pi_over_four", π / 4),
  ("pi_over_five", π / 5),
  ("pi_over_six", π / 6),
  ("pi_over_seven", π / 7),
  ("pi_over_eight", π / 8),
  ("two_over_pi", 2 / π),
  ("three_over_pi", 3 / π),
  ("four_over_pi", 4 / π),
  ("five_over_pi", 5 / π),
  ("six_over_pi", 6 / π),
  ("seven_over_pi", 7 / π),
  ("eight_over_pi", 8 / π),
  ("two_pi", 2 * π),
  ("one_over_two_pi", 1 / (2 * π)),
  ("sqrt_two_pi", √(2 * π)),
  ("one_over_sqrt_two_pi", 1 / (√(2 * π))),
  ("two_pi_over_three", (2 * π) / 3),
  ("two_pi_over_five", (2 * π) / 5),
  ("two_pi_over_seven", (2 * π) / 7),
  ("three_over_two_pi", 3 / (2 * π)),
  ("five_over_two_pi", 5 / (2 * π)),
  ("seven_over_two_pi", 7 / (2 * π)),
  ("three_pi", 3 * π),
  ("one_over_three_pi", 1 / (3 * π)),
  ("sqrt_three_pi", √(3 * π)),
  ("one_over_sqrt_three_pi", 1 / (√(3 * π))),
  ("three_pi_over_two", (3 * π) / 2),
  ("three_pi_over_four", (3 * π) / 4),
  ("three_pi_over_five", (3 * π) / 5),
  ("three_pi_over_seven", (3 * π) / 7),
  ("three_pi_over_eight", (3 * π) / 8),
  ("two_over_three_pi", 2 / (3 * π)),
  ("four_over_three_pi", 4 / (3 * π)),
  ("five_over_three_pi", 5 / (3 * π)),
  ("seven_over_three_pi", 7 / (3 * π)),
  ("eight_over_three_pi", 8 / (3 * π)),
  ("phi", golden),
  ("one_over_phi", 1 / golden),
  ("sqrt_phi", √golden),
  ("one_over_sqrt_phi", 1 / √golden),
  ("phi_over_two", golden / 2),
  ("phi_over_three", golden / 3),
  ("phi_over_four", golden / 4),
  ("phi_over_five", golden / 5),
  ("phi_over_six", golden / 6),
  ("phi_over_seven", golden / 7),
  ("phi_over_eight", golden / 8),
  ("two_over_phi", 2 / golden),
  ("three_over_phi", 3 / golden),
  ("four_over_phi", 4 / golden),
  ("five_over_phi", 5 / golden),
  ("six_over_phi", 6 / golden),
  ("seven_over_phi", 7 / golden),
  ("eight_over_phi", 8 / golden),
  ("one_over_ten", 1 / 10),
  ("one_over_one_hundred", 1 / 100),
  ("one_over_one_thousand", 1 / 1000)]

/-- Euler's number. -/
noncomputable def exponentials : List (String × ℝ) := [
  ("e", euler),
  ("one_over_e", 1 / euler),
  ("sqrt_e", √euler),
  ("one_over_sqrt_e", 1 / √euler),
  ("e_over_two", euler / 2),
  ("e_over_three", euler / 3),
  ("e_over_four", euler / 4),
  ("e_over_five", euler / 5),
  ("e_over_six", euler / 6),
  ("e_over_seven", euler / 7),
  ("e_over_eight", euler / 8),
  ("two_over_e", 2 / euler),
  ("three_over_e", 3 / euler),
  ("four_over_e", 4 / euler),
  ("five_over_e", 5 / euler),
  ("six_over_e", 6 / euler),
  ("seven_over_e", 7 / euler),
  ("eight_over_e", 8 / euler)]

/-- Conversions. -/
noncomputable def conversions : List (String × ℝ) := [
  ("degrees_to_radians", π / 180),
  ("radians_to_degrees", 180 / π)]

end Verif.Spec.Constants
