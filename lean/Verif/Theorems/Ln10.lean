import Verif.Model.PhreeqcState
import Mathlib.Analysis.SpecialFunctions.Log.Deriv
import Mathlib.Tactic.NormNum
import Mathlib.Tactic.Linarith

/-!
# The factor between natural and decimal logarithms (C123)
-/

namespace Verif.Constants

theorem log_two_near : |Real.log 2 - 693147180559945 / 10 ^ 15| ≤ 1 / 10 ^ 13 := by
  have h := Real.abs_log_sub_add_sum_range_le (show |(1 / 2 : ℝ)| < 1 by norm_num [abs_lt]) 46
  have e : Real.log (1 - 1 / 2 : ℝ) = - Real.log 2 := by
    rw [← Real.log_inv]
    norm_num
  rw [e] at h
  simp only [Finset.sum_range_succ, Finset.sum_range_zero] at h
  norm_num [abs_le] at h ⊢
  constructor <;> linarith [h.1, h.2]

theorem log_five_quarters_near : |Real.log (5 / 4) - 223143551314210 / 10 ^ 15| ≤ 1 / 10 ^ 13 := by
  have h := Real.abs_log_sub_add_sum_range_le (show |(1 / 5 : ℝ)| < 1 by norm_num [abs_lt]) 20
  have e : Real.log (1 - 1 / 5 : ℝ) = - Real.log (5 / 4) := by
    rw [← Real.log_inv]
    norm_num
  rw [e] at h
  simp only [Finset.sum_range_succ, Finset.sum_range_zero] at h
  norm_num [abs_le] at h ⊢
  constructor <;> linarith [h.1, h.2]

/-- **C123 (logarithms).** The factor by which decimal logarithms given to PHREEQC become natural ones is right to twelve digits. -/
theorem C123_ln10 : |PhreeqcState.ln10 - Real.log 10| ≤ 5 / 10 ^ 12 := by
  have e : Real.log 10 = 3 * Real.log 2 + Real.log (5 / 4) := by
    rw [show (10 : ℝ) = 2 ^ 3 * (5 / 4) by norm_num, Real.log_mul (by norm_num) (by norm_num), Real.log_pow]
    norm_num
  have h1 := abs_le.1 log_two_near
  have h2 := abs_le.1 log_five_quarters_near
  rw [e, PhreeqcState.ln10, abs_le]
  norm_num at h1 h2 ⊢
  constructor <;> linarith [h1.1, h1.2, h2.1, h2.2]

end Verif.Constants
