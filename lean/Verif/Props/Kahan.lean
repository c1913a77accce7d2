import Verif.Proofs.Kahan

/-! # C149: floating-point accumulators -/

namespace Verif.Props.Kahan

open Verif.Spec.IeeeArith Verif.Spec.FloatFormat Verif.Spec.LeastGreatest Verif.Model.FloatVector Verif.Model.Accumulator Verif.Model.CoreUtils Verif.Model.Kahan
  Verif.Proofs.FloatVector Verif.Proofs.Kahan

/-- After any sequence of numbers of the format, none of them infinite or NaN, the accumulator has counted them and knows the least and the greatest, and its sum is
the exact sum with a relative error of the unit round-off and an absolute one of the square of the error of plain summation, so as if summed with
twice the precision and rounded once, if nothing overflows. -/
theorem C149_sum (f : Format) (hp : 1 ≤ f.p) (l : List Number) (xs : List ℚ) (h0 : l ≠ []) (hl : l.map value = xs.map some)
    (hf : ∀ x ∈ l, f.Has x) (hn : l.length < 2 ^ 64) (hg : 2 * (1 + f.u) ^ (2 * l.length) * (xs.map (|·|)).sum ≤ f.greatest) :
    ∃ a m M y, (empty (kahan f)).addAll (kahan f) l = some a ∧ a.count.toNat = l.length ∧
      value a.impl.min = some m ∧ value a.impl.max = some M ∧ Extremes xs m M ∧ value (Model.Kahan.sum f f a) = some y ∧
      |y - xs.sum| ≤ f.u * |xs.sum| + (1 + f.u) * ((1 + f.u) ^ (l.length - 1) - 1) ^ 2 * (xs.map (|·|)).sum := by
  obtain ⟨a, m, M, y, Y, r1, r2, r3, r4, r5, r6, r7, r8, r9⟩ := accumulated hp l xs h0 hl hf hn hg
  refine ⟨a, m, M, Y, r1, r2, r3, r4, r5, ?_, r9⟩
  have hR := r7.choose_spec.choose_spec.2.2.2
  have := value_round f r7.value (by rw [rd_R hp hR]; exact r8)
  rw [rd_R hp hR] at this
  unfold Model.Kahan.sum
  rw [r6]
  exact this

/-- A sum that plain summation loses. -/
example : ∃ a, (empty (kahan binary32)).addAll (kahan binary32) [.fin false 1, .fin false (2 ^ 60), .fin false 1, .fin true (2 ^ 60)] = some a ∧
    Model.Kahan.sum binary32 binary32 a = .fin false 2 ∧ a.impl.min = .fin true (2 ^ 60) ∧ a.impl.max = .fin false (2 ^ 60) := by
  refine ⟨_, rfl, ?_, ?_, ?_⟩ <;> decide +kernel

example : ∃ a m M y, (empty (kahan binary64)).addAll (kahan binary64) [.fin false (3 / 4), .fin true 7] = some a ∧ a.count.toNat = 2 ∧
      value a.impl.min = some m ∧ value a.impl.max = some M ∧ Extremes [3 / 4, -7] m M ∧ value (Model.Kahan.sum binary64 binary64 a) = some y ∧
      |y - ([3 / 4, -7] : List ℚ).sum| ≤ binary64.u * |([3 / 4, -7] : List ℚ).sum| +
        (1 + binary64.u) * ((1 + binary64.u) ^ 1 - 1) ^ 2 * (([3 / 4, -7] : List ℚ).map (|·|)).sum := by
  refine C149_sum binary64 (by decide) [.fin false (3 / 4), .fin true 7] [3 / 4, -7] (by simp) (by decide +kernel) ?_ (by simp) (by decide +kernel)
  intro x hx
  simp only [List.mem_cons, List.not_mem_nil, or_false] at hx
  rcases hx with rfl | rfl
  · exact ⟨⟨3, -2, by norm_num [binary64], by norm_num [binary64], by norm_num [zpow_neg]⟩, by decide +kernel⟩
  · exact ⟨⟨7, 0, by norm_num [binary64], by norm_num [binary64], by norm_num⟩, by decide +kernel⟩

/-- Halves are summed as floats and the sum is rounded once more: for halves, which are floats too. -/
theorem C149_half (g : Format) (l : List Number) (xs : List ℚ) (h0 : l ≠ []) (hl : l.map value = xs.map some)
    (hf : ∀ x ∈ l, binary32.Has x) (hn : l.length < 2 ^ 64) (hg : 2 * (1 + binary32.u) ^ (2 * l.length) * (xs.map (|·|)).sum ≤ binary32.greatest) :
    ∃ a y Y, (empty (kahan binary32)).addAll (kahan binary32) l = some a ∧ Model.Kahan.sum binary32 g a = g.round y ∧ value y = some Y ∧
      |Y - xs.sum| ≤ binary32.u * |xs.sum| +
        (1 + binary32.u) * ((1 + binary32.u) ^ (l.length - 1) - 1) ^ 2 * (xs.map (|·|)).sum := by
  obtain ⟨a, m, M, y, Y, r1, r2, r3, r4, r5, r6, r7, r8, r9⟩ := accumulated (f := binary32) (by decide) l xs h0 hl hf hn hg
  exact ⟨a, y, Y, r1, by unfold Model.Kahan.sum; rw [r6], r7.value, r9⟩

example : ∃ a, (empty (kahan binary32)).addAll (kahan binary32) [.fin false 2048, .fin false 1, .fin false 2] = some a ∧
    Model.Kahan.sum binary32 ⟨11, -14, 65504⟩ a = .fin false 2052 := by
  refine ⟨_, rfl, ?_⟩; decide +kernel

end Verif.Props.Kahan
