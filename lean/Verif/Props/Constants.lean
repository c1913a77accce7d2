import Verif.Proofs.Constants

/-!
# Named constants

The reference: the real numbers the constants are named after (`Spec/Constants.lean`), and for each the nearest number
that the type has.
-/

namespace Verif.Props.Constants

open Verif.Model.Constants Verif.Spec.Float Verif.Spec.Constants Verif.Spec.Ieee Verif.Proofs.Constants Verif.Proofs.Float Real

/-! ## C127: constants of the standard types -/

/-- Formats of `long double` (`double` itself, x87 extended, quadruple) with the formats of a constant. -/
def formats : List (ℕ × ℕ) := [(53, 11), (53, 24), (53, 53), (64, 11), (64, 24), (64, 53), (64, 64), (113, 11), (113, 24), (113, 53)]

/-- C127: for `_Float16`, `float`, `double` and `long double` (unless it is quadruple), every constant that does not
involve `e` is the nearest number that the type has. -/
theorem C127_numbers_partial : List.Forall₂ (fun c v => c.1 = v.1 ∧ ∀ f ∈ formats, Nearest f.2 v.2 (stored f.1 f.2 c.2))
    Model.Constants.numbers Spec.Constants.numbers := by
  refine .cons (nearest_row (In.div (.one) (.nat 2)) (by decide +kernel)) ?_
  refine .cons (nearest_row (In.div (.one) (.nat 3)) (by decide +kernel)) ?_
  refine .cons (nearest_row (In.div (.one) (.nat 4)) (by decide +kernel)) ?_
  refine .cons (nearest_row (In.div (.one) (.nat 5)) (by decide +kernel)) ?_
  refine .cons (nearest_row (In.div (.one) (.nat 6)) (by decide +kernel)) ?_
  refine .cons (nearest_row (In.div (.one) (.nat 7)) (by decide +kernel)) ?_
  refine .cons (nearest_row (In.div (.one) (.nat 8)) (by decide +kernel)) ?_
  refine .cons (nearest_row (In.sqrt (.nat 2) (14142135623730950488016887242096980785696716 / 10 ^ 43) (14142135623730950488016887242096980785696721 / 10 ^ 43)) (by decide +kernel)) ?_
  refine .cons (nearest_row (In.div (.one) (In.sqrt (.nat 2) (14142135623730950488016887242096980785696716 / 10 ^ 43) (14142135623730950488016887242096980785696721 / 10 ^ 43))) (by decide +kernel)) ?_
  refine .cons (nearest_row (In.div (.nat 2) (.nat 3)) (by decide +kernel)) ?_
  refine .cons (nearest_row (In.div (.nat 2) (.nat 5)) (by decide +kernel)) ?_
  refine .cons (nearest_row (In.div (.nat 2) (.nat 7)) (by decide +kernel)) ?_
  refine .cons (nearest_row (In.sqrt (.nat 3) (17320508075688772935274463415058723669428050 / 10 ^ 43) (17320508075688772935274463415058723669428055 / 10 ^ 43)) (by decide +kernel)) ?_
  refine .cons (nearest_row (In.div (.one) (In.sqrt (.nat 3) (17320508075688772935274463415058723669428050 / 10 ^ 43) (17320508075688772935274463415058723669428055 / 10 ^ 43))) (by decide +kernel)) ?_
  refine .cons (nearest_row (In.div (.nat 3) (.nat 2)) (by decide +kernel)) ?_
  refine .cons (nearest_row (In.div (.nat 3) (.nat 4)) (by decide +kernel)) ?_
  refine .cons (nearest_row (In.div (.nat 3) (.nat 5)) (by decide +kernel)) ?_
  refine .cons (nearest_row (In.div (.nat 3) (.nat 7)) (by decide +kernel)) ?_
  refine .cons (nearest_row (In.div (.nat 3) (.nat 8)) (by decide +kernel)) ?_
  refine .cons (nearest_row (In.sqrt (.nat 4) (19999999999999999999999999999999999999999998 / 10 ^ 43) (20000000000000000000000000000000000000000003 / 10 ^ 43)) (by decide +kernel)) ?_
  refine .cons (nearest_row (In.div (.nat 4) (.nat 3)) (by decide +kernel)) ?_
  refine .cons (nearest_row (In.div (.nat 4) (.nat 5)) (by decide +kernel)) ?_
  refine .cons (nearest_row (In.div (.nat 4) (.nat 7)) (by decide +kernel)) ?_
  refine .cons (nearest_row (pi_in) (by decide +kernel)) ?_
  refine .cons (nearest_row (In.div (.one) (pi_in)) (by decide +kernel)) ?_
  refine .cons (nearest_row (In.sqrt (pi_in) (17724538509055160272981674833411451827975492 / 10 ^ 43) (17724538509055160272981674833411451827975497 / 10 ^ 43)) (by decide +kernel)) ?_
  refine .cons (nearest_row (In.div (.one) (In.sqrt (pi_in) (17724538509055160272981674833411451827975492 / 10 ^ 43) (17724538509055160272981674833411451827975497 / 10 ^ 43))) (by decide +kernel)) ?_
  refine .cons (nearest_row (In.div (pi_in) (.nat 2)) (by decide +kernel)) ?_
  refine .cons (nearest_row (In.div (pi_in) (.nat 3)) (by decide +kernel)) ?_
  refine .cons (nearest_row (In.div (pi_in) (.nat 4)) (by decide +kernel)) ?_
  refine .cons (nearest_row (In.div (pi_in) (.nat 5)) (by decide +kernel)) ?_
  refine .cons (nearest_row (In.div (pi_in) (.nat 6)) (by decide +kernel)) ?_
  refine .cons (nearest_row (In.div (pi_in) (.nat 7)) (by decide +kernel)) ?_
  refine .cons (nearest_row (In.div (pi_in) (.nat 8)) (by decide +kernel)) ?_
  refine .cons (nearest_row (In.div (.nat 2) (pi_in)) (by decide +kernel)) ?_
  refine .cons (nearest_row (In.div (.nat 3) (pi_in)) (by decide +kernel)) ?_
  refine .cons (nearest_row (In.div (.nat 4) (pi_in)) (by decide +kernel)) ?_
  refine .cons (nearest_row (In.div (.nat 5) (pi_in)) (by decide +kernel)) ?_
  refine .cons (nearest_row (In.div (.nat 6) (pi_in)) (by decide +kernel)) ?_
  refine .cons (nearest_row (In.div (.nat 7) (pi_in)) (by decide +kernel)) ?_
  refine .cons (nearest_row (In.div (.nat 8) (pi_in)) (by decide +kernel)) ?_
  refine .cons (nearest_row (In.mul (.nat 2) (pi_in)) (by decide +kernel)) ?_
  refine .cons (nearest_row (In.div (.one) (In.mul (.nat 2) (pi_in))) (by decide +kernel)) ?_
  refine .cons (nearest_row (In.sqrt (In.mul (.nat 2) (pi_in)) (25066282746310005024157652848110452530069865 / 10 ^ 43) (25066282746310005024157652848110452530069870 / 10 ^ 43)) (by decide +kernel)) ?_
  refine .cons (nearest_row (In.div (.one) (In.sqrt (In.mul (.nat 2) (pi_in)) (25066282746310005024157652848110452530069865 / 10 ^ 43) (25066282746310005024157652848110452530069870 / 10 ^ 43))) (by decide +kernel)) ?_
  refine .cons (nearest_row (In.div (In.mul (.nat 2) (pi_in)) (.nat 3)) (by decide +kernel)) ?_
  refine .cons (nearest_row (In.div (In.mul (.nat 2) (pi_in)) (.nat 5)) (by decide +kernel)) ?_
  refine .cons (nearest_row (In.div (In.mul (.nat 2) (pi_in)) (.nat 7)) (by decide +kernel)) ?_
  refine .cons (nearest_row (In.div (.nat 3) (In.mul (.nat 2) (pi_in))) (by decide +kernel)) ?_
  refine .cons (nearest_row (In.div (.nat 5) (In.mul (.nat 2) (pi_in))) (by decide +kernel)) ?_
  refine .cons (nearest_row (In.div (.nat 7) (In.mul (.nat 2) (pi_in))) (by decide +kernel)) ?_
  refine .cons (nearest_row (In.mul (.nat 3) (pi_in)) (by decide +kernel)) ?_
  refine .cons (nearest_row (In.div (.one) (In.mul (.nat 3) (pi_in))) (by decide +kernel)) ?_
  refine .cons (nearest_row (In.sqrt (In.mul (.nat 3) (pi_in)) (30699801238394654654386548746677945821221291 / 10 ^ 43) (30699801238394654654386548746677945821221296 / 10 ^ 43)) (by decide +kernel)) ?_
  refine .cons (nearest_row (In.div (.one) (In.sqrt (In.mul (.nat 3) (pi_in)) (30699801238394654654386548746677945821221291 / 10 ^ 43) (30699801238394654654386548746677945821221296 / 10 ^ 43))) (by decide +kernel)) ?_
  refine .cons (nearest_row (In.div (In.mul (.nat 3) (pi_in)) (.nat 2)) (by decide +kernel)) ?_
  refine .cons (nearest_row (In.div (In.mul (.nat 3) (pi_in)) (.nat 4)) (by decide +kernel)) ?_
  refine .cons (nearest_row (In.div (In.mul (.nat 3) (pi_in)) (.nat 5)) (by decide +kernel)) ?_
  refine .cons (nearest_row (In.div (In.mul (.nat 3) (pi_in)) (.nat 7)) (by decide +kernel)) ?_
  refine .cons (nearest_row (In.div (In.mul (.nat 3) (pi_in)) (.nat 8)) (by decide +kernel)) ?_
  refine .cons (nearest_row (In.div (.nat 2) (In.mul (.nat 3) (pi_in))) (by decide +kernel)) ?_
  refine .cons (nearest_row (In.div (.nat 4) (In.mul (.nat 3) (pi_in))) (by decide +kernel)) ?_
  refine .cons (nearest_row (In.div (.nat 5) (In.mul (.nat 3) (pi_in))) (by decide +kernel)) ?_
  refine .cons (nearest_row (In.div (.nat 7) (In.mul (.nat 3) (pi_in))) (by decide +kernel)) ?_
  refine .cons (nearest_row (In.div (.nat 8) (In.mul (.nat 3) (pi_in))) (by decide +kernel)) ?_
  refine .cons (nearest_row (phi_in) (by decide +kernel)) ?_
  refine .cons (nearest_row (In.div (.one) (phi_in)) (by decide +kernel)) ?_
  refine .cons (nearest_row (In.sqrt (phi_in) (12720196495140689642524224617374914917156078 / 10 ^ 43) (12720196495140689642524224617374914917156083 / 10 ^ 43)) (by decide +kernel)) ?_
  refine .cons (nearest_row (In.div (.one) (In.sqrt (phi_in) (12720196495140689642524224617374914917156078 / 10 ^ 43) (12720196495140689642524224617374914917156083 / 10 ^ 43))) (by decide +kernel)) ?_
  refine .cons (nearest_row (In.div (phi_in) (.nat 2)) (by decide +kernel)) ?_
  refine .cons (nearest_row (In.div (phi_in) (.nat 3)) (by decide +kernel)) ?_
  refine .cons (nearest_row (In.div (phi_in) (.nat 4)) (by decide +kernel)) ?_
  refine .cons (nearest_row (In.div (phi_in) (.nat 5)) (by decide +kernel)) ?_
  refine .cons (nearest_row (In.div (phi_in) (.nat 6)) (by decide +kernel)) ?_
  refine .cons (nearest_row (In.div (phi_in) (.nat 7)) (by decide +kernel)) ?_
  refine .cons (nearest_row (In.div (phi_in) (.nat 8)) (by decide +kernel)) ?_
  refine .cons (nearest_row (In.div (.nat 2) (phi_in)) (by decide +kernel)) ?_
  refine .cons (nearest_row (In.div (.nat 3) (phi_in)) (by decide +kernel)) ?_
  refine .cons (nearest_row (In.div (.nat 4) (phi_in)) (by decide +kernel)) ?_
  refine .cons (nearest_row (In.div (.nat 5) (phi_in)) (by decide +kernel)) ?_
  refine .cons (nearest_row (In.div (.nat 6) (phi_in)) (by decide +kernel)) ?_
  refine .cons (nearest_row (In.div (.nat 7) (phi_in)) (by decide +kernel)) ?_
  refine .cons (nearest_row (In.div (.nat 8) (phi_in)) (by decide +kernel)) ?_
  refine .cons (nearest_row (In.div (.one) (.nat 10)) (by decide +kernel)) ?_
  refine .cons (nearest_row (In.div (.one) (.nat 100)) (by decide +kernel)) ?_
  refine .cons (nearest_row (In.div (.one) (.nat 1000)) (by decide +kernel)) ?_
  exact .nil

/-- C127: so are the factors for conversion between degrees and radians. -/
theorem C127_conversions_partial : List.Forall₂ (fun c v => c.1 = v.1 ∧ ∀ f ∈ formats, Nearest f.2 v.2 (stored f.1 f.2 c.2))
    Model.Constants.conversions Spec.Constants.conversions := by
  refine .cons (nearest_row (pi_in.div (.nat 180)) (by decide +kernel)) ?_
  refine .cons (nearest_row (In.div (.nat 180) pi_in) (by decide +kernel)) ?_
  exact .nil

/-- C127 (partial): for `_Float16` and `float`, constants that involve `e` are the nearest too; for `double` they are less than
two units in the last place away.  Missing: the nearest for `double`, and anything for `long double`. -/
theorem C127_exponentials_partial : List.Forall₂ (fun c v => c.1 = v.1 ∧
      (∀ f ∈ formats, f.2 ≤ 24 → Nearest f.2 v.2 (stored f.1 f.2 c.2)) ∧
      (∀ f ∈ formats, f.2 = 53 → Close f.2 2 v.2 (stored f.1 f.2 c.2)))
    Model.Constants.exponentials Spec.Constants.exponentials := by
  refine .cons (exponential_row (exp_in) (by decide +kernel)) ?_
  refine .cons (exponential_row (In.div (.one) (exp_in)) (by decide +kernel)) ?_
  refine .cons (exponential_row (In.sqrt (exp_in) (16487212707001281466 / 10 ^ 19) (16487212707001281471 / 10 ^ 19)) (by decide +kernel)) ?_
  refine .cons (exponential_row (In.div (.one) (In.sqrt (exp_in) (16487212707001281466 / 10 ^ 19) (16487212707001281471 / 10 ^ 19))) (by decide +kernel)) ?_
  refine .cons (exponential_row (In.div (exp_in) (.nat 2)) (by decide +kernel)) ?_
  refine .cons (exponential_row (In.div (exp_in) (.nat 3)) (by decide +kernel)) ?_
  refine .cons (exponential_row (In.div (exp_in) (.nat 4)) (by decide +kernel)) ?_
  refine .cons (exponential_row (In.div (exp_in) (.nat 5)) (by decide +kernel)) ?_
  refine .cons (exponential_row (In.div (exp_in) (.nat 6)) (by decide +kernel)) ?_
  refine .cons (exponential_row (In.div (exp_in) (.nat 7)) (by decide +kernel)) ?_
  refine .cons (exponential_row (In.div (exp_in) (.nat 8)) (by decide +kernel)) ?_
  refine .cons (exponential_row (In.div (.nat 2) (exp_in)) (by decide +kernel)) ?_
  refine .cons (exponential_row (In.div (.nat 3) (exp_in)) (by decide +kernel)) ?_
  refine .cons (exponential_row (In.div (.nat 4) (exp_in)) (by decide +kernel)) ?_
  refine .cons (exponential_row (In.div (.nat 5) (exp_in)) (by decide +kernel)) ?_
  refine .cons (exponential_row (In.div (.nat 6) (exp_in)) (by decide +kernel)) ?_
  refine .cons (exponential_row (In.div (.nat 7) (exp_in)) (by decide +kernel)) ?_
  refine .cons (exponential_row (In.div (.nat 8) (exp_in)) (by decide +kernel)) ?_
  exact .nil

/-- C127 is violated by all constants that involve `e`, for the x87 `long double`: another number is nearer. -/
theorem C127_exponentials_violated : List.Forall₂ (fun c v => c.1 = v.1 ∧ ¬ Nearest 64 v.2 (stored 64 64 c.2))
    Model.Constants.exponentials Spec.Constants.exponentials := by
  refine .cons (wrong_row (exp_in) (by decide +kernel)) ?_
  refine .cons (wrong_row (In.div (.one) (exp_in)) (by decide +kernel)) ?_
  refine .cons (wrong_row (In.sqrt (exp_in) (16487212707001281466 / 10 ^ 19) (16487212707001281471 / 10 ^ 19)) (by decide +kernel)) ?_
  refine .cons (wrong_row (In.div (.one) (In.sqrt (exp_in) (16487212707001281466 / 10 ^ 19) (16487212707001281471 / 10 ^ 19))) (by decide +kernel)) ?_
  refine .cons (wrong_row (In.div (exp_in) (.nat 2)) (by decide +kernel)) ?_
  refine .cons (wrong_row (In.div (exp_in) (.nat 3)) (by decide +kernel)) ?_
  refine .cons (wrong_row (In.div (exp_in) (.nat 4)) (by decide +kernel)) ?_
  refine .cons (wrong_row (In.div (exp_in) (.nat 5)) (by decide +kernel)) ?_
  refine .cons (wrong_row (In.div (exp_in) (.nat 6)) (by decide +kernel)) ?_
  refine .cons (wrong_row (In.div (exp_in) (.nat 7)) (by decide +kernel)) ?_
  refine .cons (wrong_row (In.div (exp_in) (.nat 8)) (by decide +kernel)) ?_
  refine .cons (wrong_row (In.div (.nat 2) (exp_in)) (by decide +kernel)) ?_
  refine .cons (wrong_row (In.div (.nat 3) (exp_in)) (by decide +kernel)) ?_
  refine .cons (wrong_row (In.div (.nat 4) (exp_in)) (by decide +kernel)) ?_
  refine .cons (wrong_row (In.div (.nat 5) (exp_in)) (by decide +kernel)) ?_
  refine .cons (wrong_row (In.div (.nat 6) (exp_in)) (by decide +kernel)) ?_
  refine .cons (wrong_row (In.div (.nat 7) (exp_in)) (by decide +kernel)) ?_
  refine .cons (wrong_row (In.div (.nat 8) (exp_in)) (by decide +kernel)) ?_
  exact .nil

/-- C127 is violated by `constants<double>::e`, whatever the format of `long double`. -/
theorem C127_e_violated : ∃ q, ("e", q) ∈ Model.Constants.exponentials ∧ ∀ l ∈ [53, 64, 113], ¬ Nearest 53 (Real.exp 1) (stored l 53 q) := by
  refine ⟨_, List.mem_cons_self, fun l hl => ?_⟩
  refine exp_in.not_nearest 53 (rnd_isFloat 53 (by norm_num) 2.7182818284590452) ?_ ?_ <;> revert l <;> decide +kernel

/-- C127 is violated by `π` for a quadruple `long double`: the literal has too few digits. -/
theorem C127_long_violated : ∃ q, ("pi", q) ∈ Model.Constants.numbers ∧ ¬ Nearest 113 π (stored 113 113 q) := by
  refine ⟨3.141592653589793238463, by decide +kernel, ?_⟩
  refine pi_in.not_nearest 113 (rnd_isFloat 113 (by norm_num) (3141592653589793238462643383279502884197169399 / 10 ^ 45)) ?_ ?_ <;>
    decide +kernel

example : ("pi", 3.141592653589793238463) ∈ Model.Constants.numbers := by decide +kernel

/-! ## C128: constants of `float128_t` -/

/-- C128 (partial): constants of `float128_t` that do not involve `e` are the nearest. -/
theorem C128_numbers_partial : List.Forall₂ (fun c v => c.1 = v.1 ∧ Nearest 113 v.2 (rnd 113 c.2)) quadNumbers Spec.Constants.numbers := by
  refine .cons (quad_row (In.div (.one) (.nat 2)) (by decide +kernel)) ?_
  refine .cons (quad_row (In.div (.one) (.nat 3)) (by decide +kernel)) ?_
  refine .cons (quad_row (In.div (.one) (.nat 4)) (by decide +kernel)) ?_
  refine .cons (quad_row (In.div (.one) (.nat 5)) (by decide +kernel)) ?_
  refine .cons (quad_row (In.div (.one) (.nat 6)) (by decide +kernel)) ?_
  refine .cons (quad_row (In.div (.one) (.nat 7)) (by decide +kernel)) ?_
  refine .cons (quad_row (In.div (.one) (.nat 8)) (by decide +kernel)) ?_
  refine .cons (quad_row (In.sqrt (.nat 2) (14142135623730950488016887242096980785696716 / 10 ^ 43) (14142135623730950488016887242096980785696721 / 10 ^ 43)) (by decide +kernel)) ?_
  refine .cons (quad_row (In.div (.one) (In.sqrt (.nat 2) (14142135623730950488016887242096980785696716 / 10 ^ 43) (14142135623730950488016887242096980785696721 / 10 ^ 43))) (by decide +kernel)) ?_
  refine .cons (quad_row (In.div (.nat 2) (.nat 3)) (by decide +kernel)) ?_
  refine .cons (quad_row (In.div (.nat 2) (.nat 5)) (by decide +kernel)) ?_
  refine .cons (quad_row (In.div (.nat 2) (.nat 7)) (by decide +kernel)) ?_
  refine .cons (quad_row (In.sqrt (.nat 3) (17320508075688772935274463415058723669428050 / 10 ^ 43) (17320508075688772935274463415058723669428055 / 10 ^ 43)) (by decide +kernel)) ?_
  refine .cons (quad_row (In.div (.one) (In.sqrt (.nat 3) (17320508075688772935274463415058723669428050 / 10 ^ 43) (17320508075688772935274463415058723669428055 / 10 ^ 43))) (by decide +kernel)) ?_
  refine .cons (quad_row (In.div (.nat 3) (.nat 2)) (by decide +kernel)) ?_
  refine .cons (quad_row (In.div (.nat 3) (.nat 4)) (by decide +kernel)) ?_
  refine .cons (quad_row (In.div (.nat 3) (.nat 5)) (by decide +kernel)) ?_
  refine .cons (quad_row (In.div (.nat 3) (.nat 7)) (by decide +kernel)) ?_
  refine .cons (quad_row (In.div (.nat 3) (.nat 8)) (by decide +kernel)) ?_
  refine .cons (quad_row (In.sqrt (.nat 4) (19999999999999999999999999999999999999999998 / 10 ^ 43) (20000000000000000000000000000000000000000003 / 10 ^ 43)) (by decide +kernel)) ?_
  refine .cons (quad_row (In.div (.nat 4) (.nat 3)) (by decide +kernel)) ?_
  refine .cons (quad_row (In.div (.nat 4) (.nat 5)) (by decide +kernel)) ?_
  refine .cons (quad_row (In.div (.nat 4) (.nat 7)) (by decide +kernel)) ?_
  refine .cons (quad_row (pi_in) (by decide +kernel)) ?_
  refine .cons (quad_row (In.div (.one) (pi_in)) (by decide +kernel)) ?_
  refine .cons (quad_row (In.sqrt (pi_in) (17724538509055160272981674833411451827975492 / 10 ^ 43) (17724538509055160272981674833411451827975497 / 10 ^ 43)) (by decide +kernel)) ?_
  refine .cons (quad_row (In.div (.one) (In.sqrt (pi_in) (17724538509055160272981674833411451827975492 / 10 ^ 43) (17724538509055160272981674833411451827975497 / 10 ^ 43))) (by decide +kernel)) ?_
  refine .cons (quad_row (In.div (pi_in) (.nat 2)) (by decide +kernel)) ?_
  refine .cons (quad_row (In.div (pi_in) (.nat 3)) (by decide +kernel)) ?_
  refine .cons (quad_row (In.div (pi_in) (.nat 4)) (by decide +kernel)) ?_
  refine .cons (quad_row (In.div (pi_in) (.nat 5)) (by decide +kernel)) ?_
  refine .cons (quad_row (In.div (pi_in) (.nat 6)) (by decide +kernel)) ?_
  refine .cons (quad_row (In.div (pi_in) (.nat 7)) (by decide +kernel)) ?_
  refine .cons (quad_row (In.div (pi_in) (.nat 8)) (by decide +kernel)) ?_
  refine .cons (quad_row (In.div (.nat 2) (pi_in)) (by decide +kernel)) ?_
  refine .cons (quad_row (In.div (.nat 3) (pi_in)) (by decide +kernel)) ?_
  refine .cons (quad_row (In.div (.nat 4) (pi_in)) (by decide +kernel)) ?_
  refine .cons (quad_row (In.div (.nat 5) (pi_in)) (by decide +kernel)) ?_
  refine .cons (quad_row (In.div (.nat 6) (pi_in)) (by decide +kernel)) ?_
  refine .cons (quad_row (In.div (.nat 7) (pi_in)) (by decide +kernel)) ?_
  refine .cons (quad_row (In.div (.nat 8) (pi_in)) (by decide +kernel)) ?_
  refine .cons (quad_row (In.mul (.nat 2) (pi_in)) (by decide +kernel)) ?_
  refine .cons (quad_row (In.div (.one) (In.mul (.nat 2) (pi_in))) (by decide +kernel)) ?_
  refine .cons (quad_row (In.sqrt (In.mul (.nat 2) (pi_in)) (25066282746310005024157652848110452530069865 / 10 ^ 43) (25066282746310005024157652848110452530069870 / 10 ^ 43)) (by decide +kernel)) ?_
  refine .cons (quad_row (In.div (.one) (In.sqrt (In.mul (.nat 2) (pi_in)) (25066282746310005024157652848110452530069865 / 10 ^ 43) (25066282746310005024157652848110452530069870 / 10 ^ 43))) (by decide +kernel)) ?_
  refine .cons (quad_row (In.div (In.mul (.nat 2) (pi_in)) (.nat 3)) (by decide +kernel)) ?_
  refine .cons (quad_row (In.div (In.mul (.nat 2) (pi_in)) (.nat 5)) (by decide +kernel)) ?_
  refine .cons (quad_row (In.div (In.mul (.nat 2) (pi_in)) (.nat 7)) (by decide +kernel)) ?_
  refine .cons (quad_row (In.div (.nat 3) (In.mul (.nat 2) (pi_in))) (by decide +kernel)) ?_
  refine .cons (quad_row (In.div (.nat 5) (In.mul (.nat 2) (pi_in))) (by decide +kernel)) ?_
  refine .cons (quad_row (In.div (.nat 7) (In.mul (.nat 2) (pi_in))) (by decide +kernel)) ?_
  refine .cons (quad_row (In.mul (.nat 3) (pi_in)) (by decide +kernel)) ?_
  refine .cons (quad_row (In.div (.one) (In.mul (.nat 3) (pi_in))) (by decide +kernel)) ?_
  refine .cons (quad_row (In.sqrt (In.mul (.nat 3) (pi_in)) (30699801238394654654386548746677945821221291 / 10 ^ 43) (30699801238394654654386548746677945821221296 / 10 ^ 43)) (by decide +kernel)) ?_
  refine .cons (quad_row (In.div (.one) (In.sqrt (In.mul (.nat 3) (pi_in)) (30699801238394654654386548746677945821221291 / 10 ^ 43) (30699801238394654654386548746677945821221296 / 10 ^ 43))) (by decide +kernel)) ?_
  refine .cons (quad_row (In.div (In.mul (.nat 3) (pi_in)) (.nat 2)) (by decide +kernel)) ?_
  refine .cons (quad_row (In.div (In.mul (.nat 3) (pi_in)) (.nat 4)) (by decide +kernel)) ?_
  refine .cons (quad_row (In.div (In.mul (.nat 3) (pi_in)) (.nat 5)) (by decide +kernel)) ?_
  refine .cons (quad_row (In.div (In.mul (.nat 3) (pi_in)) (.nat 7)) (by decide +kernel)) ?_
  refine .cons (quad_row (In.div (In.mul (.nat 3) (pi_in)) (.nat 8)) (by decide +kernel)) ?_
  refine .cons (quad_row (In.div (.nat 2) (In.mul (.nat 3) (pi_in))) (by decide +kernel)) ?_
  refine .cons (quad_row (In.div (.nat 4) (In.mul (.nat 3) (pi_in))) (by decide +kernel)) ?_
  refine .cons (quad_row (In.div (.nat 5) (In.mul (.nat 3) (pi_in))) (by decide +kernel)) ?_
  refine .cons (quad_row (In.div (.nat 7) (In.mul (.nat 3) (pi_in))) (by decide +kernel)) ?_
  refine .cons (quad_row (In.div (.nat 8) (In.mul (.nat 3) (pi_in))) (by decide +kernel)) ?_
  refine .cons (quad_row (phi_in) (by decide +kernel)) ?_
  refine .cons (quad_row (In.div (.one) (phi_in)) (by decide +kernel)) ?_
  refine .cons (quad_row (In.sqrt (phi_in) (12720196495140689642524224617374914917156078 / 10 ^ 43) (12720196495140689642524224617374914917156083 / 10 ^ 43)) (by decide +kernel)) ?_
  refine .cons (quad_row (In.div (.one) (In.sqrt (phi_in) (12720196495140689642524224617374914917156078 / 10 ^ 43) (12720196495140689642524224617374914917156083 / 10 ^ 43))) (by decide +kernel)) ?_
  refine .cons (quad_row (In.div (phi_in) (.nat 2)) (by decide +kernel)) ?_
  refine .cons (quad_row (In.div (phi_in) (.nat 3)) (by decide +kernel)) ?_
  refine .cons (quad_row (In.div (phi_in) (.nat 4)) (by decide +kernel)) ?_
  refine .cons (quad_row (In.div (phi_in) (.nat 5)) (by decide +kernel)) ?_
  refine .cons (quad_row (In.div (phi_in) (.nat 6)) (by decide +kernel)) ?_
  refine .cons (quad_row (In.div (phi_in) (.nat 7)) (by decide +kernel)) ?_
  refine .cons (quad_row (In.div (phi_in) (.nat 8)) (by decide +kernel)) ?_
  refine .cons (quad_row (In.div (.nat 2) (phi_in)) (by decide +kernel)) ?_
  refine .cons (quad_row (In.div (.nat 3) (phi_in)) (by decide +kernel)) ?_
  refine .cons (quad_row (In.div (.nat 4) (phi_in)) (by decide +kernel)) ?_
  refine .cons (quad_row (In.div (.nat 5) (phi_in)) (by decide +kernel)) ?_
  refine .cons (quad_row (In.div (.nat 6) (phi_in)) (by decide +kernel)) ?_
  refine .cons (quad_row (In.div (.nat 7) (phi_in)) (by decide +kernel)) ?_
  refine .cons (quad_row (In.div (.nat 8) (phi_in)) (by decide +kernel)) ?_
  refine .cons (quad_row (In.div (.one) (.nat 10)) (by decide +kernel)) ?_
  refine .cons (quad_row (In.div (.one) (.nat 100)) (by decide +kernel)) ?_
  refine .cons (quad_row (In.div (.one) (.nat 1000)) (by decide +kernel)) ?_
  exact .nil

/-- C128 (partial): the factors for conversion are less than one unit in the last place away. -/
theorem C128_conversions_partial :
    List.Forall₂ (fun c v => c.1 = v.1 ∧ Close 113 1 v.2 (rnd 113 c.2)) quadConversions Spec.Constants.conversions := by
  refine .cons (quad_close_row (pi_in.div (.nat 180)) (by decide +kernel)) ?_
  refine .cons (quad_close_row (In.div (.nat 180) pi_in) (by decide +kernel)) ?_
  exact .nil

/-- C128 is violated by all constants that involve `e`. -/
theorem C128_exponentials_violated : List.Forall₂ (fun c v => c.1 = v.1 ∧ ¬ Nearest 113 v.2 (rnd 113 c.2))
    quadExponentials Spec.Constants.exponentials := by
  refine .cons (quad_wrong_row (exp_in) (by decide +kernel)) ?_
  refine .cons (quad_wrong_row (In.div (.one) (exp_in)) (by decide +kernel)) ?_
  refine .cons (quad_wrong_row (In.sqrt (exp_in) (16487212707001281466 / 10 ^ 19) (16487212707001281471 / 10 ^ 19)) (by decide +kernel)) ?_
  refine .cons (quad_wrong_row (In.div (.one) (In.sqrt (exp_in) (16487212707001281466 / 10 ^ 19) (16487212707001281471 / 10 ^ 19))) (by decide +kernel)) ?_
  refine .cons (quad_wrong_row (In.div (exp_in) (.nat 2)) (by decide +kernel)) ?_
  refine .cons (quad_wrong_row (In.div (exp_in) (.nat 3)) (by decide +kernel)) ?_
  refine .cons (quad_wrong_row (In.div (exp_in) (.nat 4)) (by decide +kernel)) ?_
  refine .cons (quad_wrong_row (In.div (exp_in) (.nat 5)) (by decide +kernel)) ?_
  refine .cons (quad_wrong_row (In.div (exp_in) (.nat 6)) (by decide +kernel)) ?_
  refine .cons (quad_wrong_row (In.div (exp_in) (.nat 7)) (by decide +kernel)) ?_
  refine .cons (quad_wrong_row (In.div (exp_in) (.nat 8)) (by decide +kernel)) ?_
  refine .cons (quad_wrong_row (In.div (.nat 2) (exp_in)) (by decide +kernel)) ?_
  refine .cons (quad_wrong_row (In.div (.nat 3) (exp_in)) (by decide +kernel)) ?_
  refine .cons (quad_wrong_row (In.div (.nat 4) (exp_in)) (by decide +kernel)) ?_
  refine .cons (quad_wrong_row (In.div (.nat 5) (exp_in)) (by decide +kernel)) ?_
  refine .cons (quad_wrong_row (In.div (.nat 6) (exp_in)) (by decide +kernel)) ?_
  refine .cons (quad_wrong_row (In.div (.nat 7) (exp_in)) (by decide +kernel)) ?_
  refine .cons (quad_wrong_row (In.div (.nat 8) (exp_in)) (by decide +kernel)) ?_
  exact .nil

/-- C128 is violated by `degrees_to_radians`, the literal of which has too few significant digits. -/
theorem C128_degrees_violated : ∃ q, ("degrees_to_radians", q) ∈ quadConversions ∧ ¬ Nearest 113 (π / 180) (rnd 113 q) := by
  refine ⟨_, List.mem_cons_self, ?_⟩
  refine (pi_in.div (.nat 180)).not_nearest 113 (rnd_isFloat 113 (by norm_num)
    (3141592653589793238462643383279502884197169399 / 10 ^ 45 / 180)) ?_ ?_ <;> decide +kernel

example : ("sqrt_two", 1.414213562373095048801688724209698079) ∈ quadNumbers := by decide +kernel

/-! ## C129: constants of `half` -/

/-- C129 (partial): every constant of an emulated `half` that does not involve `e` is less than one unit in the last place away.  Missing: the nearest. -/
theorem C129_numbers_partial : List.Forall₂ (fun c v => c.1 = v.1 ∧ ∃ x, interchange 5 10 c.2 = .finite x ∧ Close 11 1 v.2 x)
    halfNumbers Spec.Constants.numbers := by
  refine .cons (half_row (In.div (.one) (.nat 2)) (1/2) (by decide +kernel) (by decide +kernel)) ?_
  refine .cons (half_row (In.div (.one) (.nat 3)) (683/2048) (by decide +kernel) (by decide +kernel)) ?_
  refine .cons (half_row (In.div (.one) (.nat 4)) (1/4) (by decide +kernel) (by decide +kernel)) ?_
  refine .cons (half_row (In.div (.one) (.nat 5)) (1639/8192) (by decide +kernel) (by decide +kernel)) ?_
  refine .cons (half_row (In.div (.one) (.nat 6)) (683/4096) (by decide +kernel) (by decide +kernel)) ?_
  refine .cons (half_row (In.div (.one) (.nat 7)) (1171/8192) (by decide +kernel) (by decide +kernel)) ?_
  refine .cons (half_row (In.div (.one) (.nat 8)) (1/8) (by decide +kernel) (by decide +kernel)) ?_
  refine .cons (half_row (In.sqrt (.nat 2) (14142135623730950488016887242096980785696716 / 10 ^ 43) (14142135623730950488016887242096980785696721 / 10 ^ 43)) (181/128) (by decide +kernel) (by decide +kernel)) ?_
  refine .cons (half_row (In.div (.one) (In.sqrt (.nat 2) (14142135623730950488016887242096980785696716 / 10 ^ 43) (14142135623730950488016887242096980785696721 / 10 ^ 43))) (181/256) (by decide +kernel) (by decide +kernel)) ?_
  refine .cons (half_row (In.div (.nat 2) (.nat 3)) (683/1024) (by decide +kernel) (by decide +kernel)) ?_
  refine .cons (half_row (In.div (.nat 2) (.nat 5)) (1639/4096) (by decide +kernel) (by decide +kernel)) ?_
  refine .cons (half_row (In.div (.nat 2) (.nat 7)) (1171/4096) (by decide +kernel) (by decide +kernel)) ?_
  refine .cons (half_row (In.sqrt (.nat 3) (17320508075688772935274463415058723669428050 / 10 ^ 43) (17320508075688772935274463415058723669428055 / 10 ^ 43)) (887/512) (by decide +kernel) (by decide +kernel)) ?_
  refine .cons (half_row (In.div (.one) (In.sqrt (.nat 3) (17320508075688772935274463415058723669428050 / 10 ^ 43) (17320508075688772935274463415058723669428055 / 10 ^ 43))) (1183/2048) (by decide +kernel) (by decide +kernel)) ?_
  refine .cons (half_row (In.div (.nat 3) (.nat 2)) (3/2) (by decide +kernel) (by decide +kernel)) ?_
  refine .cons (half_row (In.div (.nat 3) (.nat 4)) (3/4) (by decide +kernel) (by decide +kernel)) ?_
  refine .cons (half_row (In.div (.nat 3) (.nat 5)) (1229/2048) (by decide +kernel) (by decide +kernel)) ?_
  refine .cons (half_row (In.div (.nat 3) (.nat 7)) (439/1024) (by decide +kernel) (by decide +kernel)) ?_
  refine .cons (half_row (In.div (.nat 3) (.nat 8)) (3/8) (by decide +kernel) (by decide +kernel)) ?_
  refine .cons (half_row (In.sqrt (.nat 4) (19999999999999999999999999999999999999999998 / 10 ^ 43) (20000000000000000000000000000000000000000003 / 10 ^ 43)) (2) (by decide +kernel) (by decide +kernel)) ?_
  refine .cons (half_row (In.div (.nat 4) (.nat 3)) (683/512) (by decide +kernel) (by decide +kernel)) ?_
  refine .cons (half_row (In.div (.nat 4) (.nat 5)) (1639/2048) (by decide +kernel) (by decide +kernel)) ?_
  refine .cons (half_row (In.div (.nat 4) (.nat 7)) (1171/2048) (by decide +kernel) (by decide +kernel)) ?_
  refine .cons (half_row (pi_in) (1609/512) (by decide +kernel) (by decide +kernel)) ?_
  refine .cons (half_row (In.div (.one) (pi_in)) (163/512) (by decide +kernel) (by decide +kernel)) ?_
  refine .cons (half_row (In.sqrt (pi_in) (17724538509055160272981674833411451827975492 / 10 ^ 43) (17724538509055160272981674833411451827975497 / 10 ^ 43)) (1815/1024) (by decide +kernel) (by decide +kernel)) ?_
  refine .cons (half_row (In.div (.one) (In.sqrt (pi_in) (17724538509055160272981674833411451827975492 / 10 ^ 43) (17724538509055160272981674833411451827975497 / 10 ^ 43))) (289/512) (by decide +kernel) (by decide +kernel)) ?_
  refine .cons (half_row (In.div (pi_in) (.nat 2)) (1609/1024) (by decide +kernel) (by decide +kernel)) ?_
  refine .cons (half_row (In.div (pi_in) (.nat 3)) (1073/1024) (by decide +kernel) (by decide +kernel)) ?_
  refine .cons (half_row (In.div (pi_in) (.nat 4)) (1609/2048) (by decide +kernel) (by decide +kernel)) ?_
  refine .cons (half_row (In.div (pi_in) (.nat 5)) (1287/2048) (by decide +kernel) (by decide +kernel)) ?_
  refine .cons (half_row (In.div (pi_in) (.nat 6)) (1073/2048) (by decide +kernel) (by decide +kernel)) ?_
  refine .cons (half_row (In.div (pi_in) (.nat 7)) (1839/4096) (by decide +kernel) (by decide +kernel)) ?_
  refine .cons (half_row (In.div (pi_in) (.nat 8)) (1609/4096) (by decide +kernel) (by decide +kernel)) ?_
  refine .cons (half_row (In.div (.nat 2) (pi_in)) (163/256) (by decide +kernel) (by decide +kernel)) ?_
  refine .cons (half_row (In.div (.nat 3) (pi_in)) (489/512) (by decide +kernel) (by decide +kernel)) ?_
  refine .cons (half_row (In.div (.nat 4) (pi_in)) (163/128) (by decide +kernel) (by decide +kernel)) ?_
  refine .cons (half_row (In.div (.nat 5) (pi_in)) (815/512) (by decide +kernel) (by decide +kernel)) ?_
  refine .cons (half_row (In.div (.nat 6) (pi_in)) (489/256) (by decide +kernel) (by decide +kernel)) ?_
  refine .cons (half_row (In.div (.nat 7) (pi_in)) (1141/512) (by decide +kernel) (by decide +kernel)) ?_
  refine .cons (half_row (In.div (.nat 8) (pi_in)) (163/64) (by decide +kernel) (by decide +kernel)) ?_
  refine .cons (half_row (In.mul (.nat 2) (pi_in)) (1609/256) (by decide +kernel) (by decide +kernel)) ?_
  refine .cons (half_row (In.div (.one) (In.mul (.nat 2) (pi_in))) (163/1024) (by decide +kernel) (by decide +kernel)) ?_
  refine .cons (half_row (In.sqrt (In.mul (.nat 2) (pi_in)) (25066282746310005024157652848110452530069865 / 10 ^ 43) (25066282746310005024157652848110452530069870 / 10 ^ 43)) (321/128) (by decide +kernel) (by decide +kernel)) ?_
  refine .cons (half_row (In.div (.one) (In.sqrt (In.mul (.nat 2) (pi_in)) (25066282746310005024157652848110452530069865 / 10 ^ 43) (25066282746310005024157652848110452530069870 / 10 ^ 43))) (817/2048) (by decide +kernel) (by decide +kernel)) ?_
  refine .cons (half_row (In.div (In.mul (.nat 2) (pi_in)) (.nat 3)) (1073/512) (by decide +kernel) (by decide +kernel)) ?_
  refine .cons (half_row (In.div (In.mul (.nat 2) (pi_in)) (.nat 5)) (1287/1024) (by decide +kernel) (by decide +kernel)) ?_
  refine .cons (half_row (In.div (In.mul (.nat 2) (pi_in)) (.nat 7)) (1839/2048) (by decide +kernel) (by decide +kernel)) ?_
  refine .cons (half_row (In.div (.nat 3) (In.mul (.nat 2) (pi_in))) (489/1024) (by decide +kernel) (by decide +kernel)) ?_
  refine .cons (half_row (In.div (.nat 5) (In.mul (.nat 2) (pi_in))) (815/1024) (by decide +kernel) (by decide +kernel)) ?_
  refine .cons (half_row (In.div (.nat 7) (In.mul (.nat 2) (pi_in))) (1141/1024) (by decide +kernel) (by decide +kernel)) ?_
  refine .cons (half_row (In.mul (.nat 3) (pi_in)) (1207/128) (by decide +kernel) (by decide +kernel)) ?_
  refine .cons (half_row (In.div (.one) (In.mul (.nat 3) (pi_in))) (1739/16384) (by decide +kernel) (by decide +kernel)) ?_
  refine .cons (half_row (In.sqrt (In.mul (.nat 3) (pi_in)) (30699801238394654654386548746677945821221291 / 10 ^ 43) (30699801238394654654386548746677945821221296 / 10 ^ 43)) (393/128) (by decide +kernel) (by decide +kernel)) ?_
  refine .cons (half_row (In.div (.one) (In.sqrt (In.mul (.nat 3) (pi_in)) (30699801238394654654386548746677945821221291 / 10 ^ 43) (30699801238394654654386548746677945821221296 / 10 ^ 43))) (667/2048) (by decide +kernel) (by decide +kernel)) ?_
  refine .cons (half_row (In.div (In.mul (.nat 3) (pi_in)) (.nat 2)) (1207/256) (by decide +kernel) (by decide +kernel)) ?_
  refine .cons (half_row (In.div (In.mul (.nat 3) (pi_in)) (.nat 4)) (1207/512) (by decide +kernel) (by decide +kernel)) ?_
  refine .cons (half_row (In.div (In.mul (.nat 3) (pi_in)) (.nat 5)) (965/512) (by decide +kernel) (by decide +kernel)) ?_
  refine .cons (half_row (In.div (In.mul (.nat 3) (pi_in)) (.nat 7)) (1379/1024) (by decide +kernel) (by decide +kernel)) ?_
  refine .cons (half_row (In.div (In.mul (.nat 3) (pi_in)) (.nat 8)) (1207/1024) (by decide +kernel) (by decide +kernel)) ?_
  refine .cons (half_row (In.div (.nat 2) (In.mul (.nat 3) (pi_in))) (1739/8192) (by decide +kernel) (by decide +kernel)) ?_
  refine .cons (half_row (In.div (.nat 4) (In.mul (.nat 3) (pi_in))) (1739/4096) (by decide +kernel) (by decide +kernel)) ?_
  refine .cons (half_row (In.div (.nat 5) (In.mul (.nat 3) (pi_in))) (1087/2048) (by decide +kernel) (by decide +kernel)) ?_
  refine .cons (half_row (In.div (.nat 7) (In.mul (.nat 3) (pi_in))) (1521/2048) (by decide +kernel) (by decide +kernel)) ?_
  refine .cons (half_row (In.div (.nat 8) (In.mul (.nat 3) (pi_in))) (1739/2048) (by decide +kernel) (by decide +kernel)) ?_
  refine .cons (half_row (phi_in) (1657/1024) (by decide +kernel) (by decide +kernel)) ?_
  refine .cons (half_row (In.div (.one) (phi_in)) (633/1024) (by decide +kernel) (by decide +kernel)) ?_
  refine .cons (half_row (In.sqrt (phi_in) (12720196495140689642524224617374914917156078 / 10 ^ 43) (12720196495140689642524224617374914917156083 / 10 ^ 43)) (1303/1024) (by decide +kernel) (by decide +kernel)) ?_
  refine .cons (half_row (In.div (.one) (In.sqrt (phi_in) (12720196495140689642524224617374914917156078 / 10 ^ 43) (12720196495140689642524224617374914917156083 / 10 ^ 43))) (805/1024) (by decide +kernel) (by decide +kernel)) ?_
  refine .cons (half_row (In.div (phi_in) (.nat 2)) (1657/2048) (by decide +kernel) (by decide +kernel)) ?_
  refine .cons (half_row (In.div (phi_in) (.nat 3)) (1105/2048) (by decide +kernel) (by decide +kernel)) ?_
  refine .cons (half_row (In.div (phi_in) (.nat 4)) (1657/4096) (by decide +kernel) (by decide +kernel)) ?_
  refine .cons (half_row (In.div (phi_in) (.nat 5)) (663/2048) (by decide +kernel) (by decide +kernel)) ?_
  refine .cons (half_row (In.div (phi_in) (.nat 6)) (1105/4096) (by decide +kernel) (by decide +kernel)) ?_
  refine .cons (half_row (In.div (phi_in) (.nat 7)) (947/4096) (by decide +kernel) (by decide +kernel)) ?_
  refine .cons (half_row (In.div (phi_in) (.nat 8)) (1657/8192) (by decide +kernel) (by decide +kernel)) ?_
  refine .cons (half_row (In.div (.nat 2) (phi_in)) (633/512) (by decide +kernel) (by decide +kernel)) ?_
  refine .cons (half_row (In.div (.nat 3) (phi_in)) (1899/1024) (by decide +kernel) (by decide +kernel)) ?_
  refine .cons (half_row (In.div (.nat 4) (phi_in)) (633/256) (by decide +kernel) (by decide +kernel)) ?_
  refine .cons (half_row (In.div (.nat 5) (phi_in)) (791/256) (by decide +kernel) (by decide +kernel)) ?_
  refine .cons (half_row (In.div (.nat 6) (phi_in)) (1899/512) (by decide +kernel) (by decide +kernel)) ?_
  refine .cons (half_row (In.div (.nat 7) (phi_in)) (277/64) (by decide +kernel) (by decide +kernel)) ?_
  refine .cons (half_row (In.div (.nat 8) (phi_in)) (633/128) (by decide +kernel) (by decide +kernel)) ?_
  refine .cons (half_row (In.div (.one) (.nat 10)) (1639/16384) (by decide +kernel) (by decide +kernel)) ?_
  refine .cons (half_row (In.div (.one) (.nat 100)) (1311/131072) (by decide +kernel) (by decide +kernel)) ?_
  refine .cons (half_row (In.div (.one) (.nat 1000)) (1049/1048576) (by decide +kernel) (by decide +kernel)) ?_
  exact .nil

/-- C129 (partial): so are those that involve `e`. -/
theorem C129_exponentials_partial : List.Forall₂ (fun c v => c.1 = v.1 ∧ ∃ x, interchange 5 10 c.2 = .finite x ∧ Close 11 1 v.2 x)
    halfExponentials Spec.Constants.exponentials := by
  refine .cons (half_row (exp_in) (87/32) (by decide +kernel) (by decide +kernel)) ?_
  refine .cons (half_row (In.div (.one) (exp_in)) (1507/4096) (by decide +kernel) (by decide +kernel)) ?_
  refine .cons (half_row (In.sqrt (exp_in) (16487212707001281466 / 10 ^ 19) (16487212707001281471 / 10 ^ 19)) (1689/1024) (by decide +kernel) (by decide +kernel)) ?_
  refine .cons (half_row (In.div (.one) (In.sqrt (exp_in) (16487212707001281466 / 10 ^ 19) (16487212707001281471 / 10 ^ 19))) (621/1024) (by decide +kernel) (by decide +kernel)) ?_
  refine .cons (half_row (In.div (exp_in) (.nat 2)) (87/64) (by decide +kernel) (by decide +kernel)) ?_
  refine .cons (half_row (In.div (exp_in) (.nat 3)) (29/32) (by decide +kernel) (by decide +kernel)) ?_
  refine .cons (half_row (In.div (exp_in) (.nat 4)) (87/128) (by decide +kernel) (by decide +kernel)) ?_
  refine .cons (half_row (In.div (exp_in) (.nat 5)) (557/1024) (by decide +kernel) (by decide +kernel)) ?_
  refine .cons (half_row (In.div (exp_in) (.nat 6)) (29/64) (by decide +kernel) (by decide +kernel)) ?_
  refine .cons (half_row (In.div (exp_in) (.nat 7)) (1591/4096) (by decide +kernel) (by decide +kernel)) ?_
  refine .cons (half_row (In.div (exp_in) (.nat 8)) (87/256) (by decide +kernel) (by decide +kernel)) ?_
  refine .cons (half_row (In.div (.nat 2) (exp_in)) (1507/2048) (by decide +kernel) (by decide +kernel)) ?_
  refine .cons (half_row (In.div (.nat 3) (exp_in)) (565/512) (by decide +kernel) (by decide +kernel)) ?_
  refine .cons (half_row (In.div (.nat 4) (exp_in)) (1507/1024) (by decide +kernel) (by decide +kernel)) ?_
  refine .cons (half_row (In.div (.nat 5) (exp_in)) (471/256) (by decide +kernel) (by decide +kernel)) ?_
  refine .cons (half_row (In.div (.nat 6) (exp_in)) (565/256) (by decide +kernel) (by decide +kernel)) ?_
  refine .cons (half_row (In.div (.nat 7) (exp_in)) (1319/512) (by decide +kernel) (by decide +kernel)) ?_
  refine .cons (half_row (In.div (.nat 8) (exp_in)) (1507/512) (by decide +kernel) (by decide +kernel)) ?_
  exact .nil

/-- C129 (partial): so are the factors for conversion. -/
theorem C129_conversions_partial : List.Forall₂ (fun c v => c.1 = v.1 ∧ ∃ x, interchange 5 10 c.2 = .finite x ∧ Close 11 1 v.2 x)
    halfConversions Spec.Constants.conversions := by
  refine .cons (half_row (pi_in.div (.nat 180)) (143/8192) (by decide +kernel) (by decide +kernel)) ?_
  refine .cons (half_row (In.div (.nat 180) pi_in) (917/16) (by decide +kernel) (by decide +kernel)) ?_
  exact .nil

/-- C129 is violated by 39 of the constants of an emulated `half`, `1 / 3`, `π` and `2π` among them: another number is nearer. -/
theorem C129_half_violated :
    (∃ b x, ("one_over_three", b) ∈ halfNumbers ∧ interchange 5 10 b = .finite x ∧ ¬ Nearest 11 (1 / 3) x) ∧
    (∃ b x, ("pi", b) ∈ halfNumbers ∧ interchange 5 10 b = .finite x ∧ ¬ Nearest 11 π x) ∧
    (∃ b x, ("two_pi", b) ∈ halfNumbers ∧ interchange 5 10 b = .finite x ∧ ¬ Nearest 11 (2 * π) x) ∧
    (∃ b x, ("one_over_ten", b) ∈ halfNumbers ∧ interchange 5 10 b = .finite x ∧ ¬ Nearest 11 (1 / 10) x) ∧
    (∃ b x, ("radians_to_degrees", b) ∈ halfConversions ∧ interchange 5 10 b = .finite x ∧ ¬ Nearest 11 (180 / π) x) := by
  have t := rnd_isFloat 11 (by norm_num)
  refine ⟨⟨0b0011010101010110, 683 / 2048, by decide +kernel, by decide +kernel, ?_⟩,
    ⟨0b0100001001001001, 1609 / 512, by decide +kernel, by decide +kernel, ?_⟩,
    ⟨0b0100011001001001, 1609 / 256, by decide +kernel, by decide +kernel, ?_⟩,
    ⟨0b0010111001100111, 1639 / 16384, by decide +kernel, by decide +kernel, ?_⟩,
    ⟨0b0101001100101010, 917 / 16, by decide +kernel, by decide +kernel, ?_⟩⟩
  · exact (In.div .one (.nat 3)).not_nearest 11 (t (1 / 3)) (by decide +kernel) (by decide +kernel)
  · exact pi_in.not_nearest 11 (t (201 / 64)) (by decide +kernel) (by decide +kernel)
  · exact (In.mul (.nat 2) pi_in).not_nearest 11 (t (201 / 32)) (by decide +kernel) (by decide +kernel)
  · exact (In.div .one (.nat 10)).not_nearest 11 (t (1 / 10)) (by decide +kernel) (by decide +kernel)
  · exact (In.div (.nat 180) pi_in).not_nearest 11 (t (1833 / 32)) (by decide +kernel) (by decide +kernel)

end Verif.Props.Constants
