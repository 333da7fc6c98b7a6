import Verif.Model.MoleFractions
import Mathlib.Analysis.Calculus.Deriv.Basic
import Mathlib.Analysis.Calculus.Deriv.Add
import Mathlib.Analysis.Calculus.Deriv.Mul
import Mathlib.Analysis.Calculus.Deriv.Inv
import Mathlib.Analysis.SpecialFunctions.Log.Deriv
import Mathlib.Algebra.BigOperators.Fin
import Mathlib.Algebra.BigOperators.Field

/-!
# Theorem C22: mole fractions and their derivatives
-/

namespace Verif.MoleFractions

variable {N : Nat}

theorem moleFractions_of_total (n : Fin N → ℝ) (h : ∑ i, n i ≠ 0) (i : Fin N) : moleFractions n i = n i / ∑ k, n k := by
  unfold moleFractions
  by_cases h1 : N = 1
  · rw [if_pos h1]
    subst h1
    have : ∑ k, n k = n i := by rw [Fin.sum_univ_one]; congr 1; exact (Fin.eq_zero i).symm
    rw [this] at h ⊢
    exact (div_self h).symm
  · rw [if_neg h1]
    simp only [if_pos h]

/-- **C22 (sum).** For amounts with a non-zero total the mole fractions are the amounts over the total, and sum to one. -/
theorem C22_sum_one (n : Fin N → ℝ) (h : ∑ i, n i ≠ 0) :
    (∀ i, moleFractions n i = n i / ∑ k, n k) ∧ ∑ i, moleFractions n i = 1 := by
  refine ⟨moleFractions_of_total n h, ?_⟩
  simp only [moleFractions_of_total n h]
  rw [← Finset.sum_div, div_self h]

/-- **C22 (sign).** Non-negative amounts, also all zero, have mole fractions between zero and one. -/
theorem C22_nonneg (n : Fin N → ℝ) (h : ∀ i, 0 ≤ n i) (i : Fin N) : 0 ≤ moleFractions n i ∧ moleFractions n i ≤ 1 := by
  by_cases h0 : ∑ k, n k = 0
  · unfold moleFractions
    by_cases h1 : N = 1
    · rw [if_pos h1]; simp
    · rw [if_neg h1]; simp [h0]
  · rw [moleFractions_of_total n h0]
    have hp : 0 < ∑ k, n k := lt_of_le_of_ne (Finset.sum_nonneg fun k _ => h k) (Ne.symm h0)
    exact ⟨div_nonneg (h i) (le_of_lt hp), (div_le_one hp).2 (Finset.single_le_sum (fun k _ => h k) (Finset.mem_univ i))⟩

/-- **C22 (scaling).** Scaling all amounts by a non-zero factor does not change the mole fractions. -/
theorem C22_scale (n : Fin N → ℝ) (s : ℝ) (hs : s ≠ 0) : moleFractions (fun i => s * n i) = moleFractions n := by
  unfold moleFractions
  by_cases h1 : N = 1
  · rw [if_pos h1, if_pos h1]
  · rw [if_neg h1, if_neg h1]
    simp only [← Finset.mul_sum]
    by_cases h0 : ∑ k, n k = 0
    · rw [h0, mul_zero]; simp
    · rw [if_pos (mul_ne_zero hs h0), if_pos h0]
      funext i
      rw [mul_div_mul_left _ _ hs]

theorem sum_update (n : Fin N → ℝ) (j : Fin N) (t : ℝ) : ∑ k, Function.update n j t k = (∑ k, n k) + (t - n j) := by
  rw [Finset.sum_update_of_mem (Finset.mem_univ j)]
  have := Finset.sum_sdiff (f := n) (Finset.subset_univ {j})
  rw [Finset.sum_singleton] at this
  linarith

theorem hasDerivAt_update (n : Fin N → ℝ) (i j : Fin N) :
    HasDerivAt (fun t => Function.update n j t i) (if j = i then 1 else 0) (n j) := by
  by_cases h : j = i
  · subst h
    rw [if_pos rfl]
    have : (fun t => Function.update n j t j) = id := by funext t; simp
    rw [this]; exact hasDerivAt_id (n j)
  · rw [if_neg h]
    have : (fun t => Function.update n j t i) = fun _ => n i := by
      funext t; exact Function.update_of_ne (Ne.symm h) _ _
    rw [this]; exact hasDerivAt_const _ _

theorem jacobian_eq (n : Fin N → ℝ) (h : ∑ k, n k ≠ 0) (i j : Fin N) : moleFractionsJacobian n i j =
    if j = i then (1 - n i / ∑ k, n k) / ∑ k, n k else -(n i / ∑ k, n k) / ∑ k, n k := by
  unfold moleFractionsJacobian
  dsimp only
  rw [if_neg h]

theorem lnJacobian_eq (n : Fin N → ℝ) (h : ∑ k, n k ≠ 0) (i j : Fin N) : lnMoleFractionsJacobian n i j =
    if j = i then (1 - n i / ∑ k, n k) / n i else -(n i / ∑ k, n k) / n i := by
  unfold lnMoleFractionsJacobian
  dsimp only
  rw [if_neg h]

/-- **C22 (Jacobian).** Entry `(i, j)` of `moleFractionsJacobian` is the derivative of the mole fraction of species `i` with respect
to the amount of species `j`, for every number of species and all amounts with a non-zero total. -/
theorem C22_jacobian (n : Fin N → ℝ) (h : ∑ k, n k ≠ 0) (i j : Fin N) :
    HasDerivAt (fun t => moleFractions (Function.update n j t) i) (moleFractionsJacobian n i j) (n j) := by
  have hd1 := hasDerivAt_update n i j
  have hd2 : HasDerivAt (fun t => ∑ k, Function.update n j t k) 1 (n j) := by
    simp only [sum_update]
    simpa using ((hasDerivAt_id (n j)).sub_const (n j)).const_add (∑ k, n k)
  have hs : ∑ k, Function.update n j (n j) k = ∑ k, n k := by rw [sum_update]; ring
  have hq := hd1.div hd2 (by rw [hs]; exact h)
  have hev : (fun t => moleFractions (Function.update n j t) i) =ᶠ[nhds (n j)]
      (fun t => Function.update n j t i / ∑ k, Function.update n j t k) := by
    have : ∀ᶠ t in nhds (n j), ∑ k, Function.update n j t k ≠ 0 := by
      apply hd2.continuousAt.eventually_ne
      rw [hs]; exact h
    exact this.mono fun t ht => moleFractions_of_total _ ht i
  have he : moleFractionsJacobian n i j = ((if j = i then 1 else 0) * (∑ k, Function.update n j (n j) k) -
      Function.update n j (n j) i * 1) / (∑ k, Function.update n j (n j) k) ^ 2 := by
    rw [hs, Function.update_eq_self]
    rw [jacobian_eq n h]
    by_cases hij : j = i
    · rw [if_pos hij, if_pos hij]; field_simp
    · rw [if_neg hij, if_neg hij]; field_simp; ring
  rw [he]
  exact hq.congr_of_eventuallyEq hev

/-- **C22 (Jacobian of the logarithms).** For a species with positive mole fraction. -/
theorem C22_ln_jacobian (n : Fin N → ℝ) (h : ∑ k, n k ≠ 0) (i j : Fin N) (hi : 0 < moleFractions n i) :
    HasDerivAt (fun t => Real.log (moleFractions (Function.update n j t) i)) (lnMoleFractionsJacobian n i j) (n j) := by
  have hd := C22_jacobian n h i j
  have hx : moleFractions (Function.update n j (n j)) i = moleFractions n i := by rw [Function.update_eq_self]
  have := hd.log (by rw [hx]; exact ne_of_gt hi)
  rw [hx] at this
  convert this using 1
  have hm := moleFractions_of_total n h i
  have hn : n i ≠ 0 := by
    intro h0
    rw [hm, h0, zero_div] at hi
    exact lt_irrefl _ hi
  rw [hm]
  rw [jacobian_eq n h, lnJacobian_eq n h]
  by_cases hij : j = i
  · rw [if_pos hij, if_pos hij]; field_simp
  · rw [if_neg hij, if_neg hij]; field_simp

example : (∑ k, (![1, 0, 3] : Fin 3 → ℝ) k ≠ 0) ∧ 0 < moleFractions (![1, 0, 3] : Fin 3 → ℝ) 2 := by
  have h : ∑ k, (![1, 0, 3] : Fin 3 → ℝ) k ≠ 0 := by simp [Fin.sum_univ_succ]; norm_num
  refine ⟨h, ?_⟩
  rw [moleFractions_of_total _ h]
  simp [Fin.sum_univ_succ]; norm_num

end Verif.MoleFractions
