import Verif.Spec.HKF
import Verif.Theorems.WaterElectro
import Mathlib.Analysis.InnerProductSpace.NormPow

/-!
# Derivatives of the functions of the HKF model
-/

namespace Verif.HKF

open Real Filter Topology Verif.Water Asymptotics

/-- A power cut off at zero is differentiable. -/
theorem hasDerivAt_cut_rpow (b u : ℝ) (hb : 1 < b) :
    HasDerivAt (fun x : ℝ => if 0 < x then x ^ b else 0) (if 0 < u then b * u ^ (b - 1) else 0) u := by
  rcases lt_trichotomy u 0 with h | h | h
  · rw [if_neg (by linarith)]
    refine (hasDerivAt_const u (0 : ℝ)).congr_of_eventuallyEq ?_
    filter_upwards [eventually_lt_nhds h] with x hx
    rw [if_neg (by linarith)]
  · subst h
    rw [if_neg (lt_irrefl _)]
    have ha := hasDerivAt_abs_rpow (0 : ℝ) hb
    rw [hasDerivAt_iff_isLittleO_nhds_zero] at ha ⊢
    simp only [zero_add, abs_zero, mul_zero, smul_zero, sub_zero, lt_irrefl, if_false, zero_rpow (by linarith : b ≠ 0)] at ha ⊢
    refine IsBigO.trans_isLittleO ?_ ha
    refine IsBigO.of_bound 1 (Eventually.of_forall fun x => ?_)
    rw [one_mul]
    split
    · next hx => rw [abs_of_pos hx]
    · simp
  · rw [if_pos h]
    refine (hasDerivAt_rpow_const (Or.inl h.ne')).congr_of_eventuallyEq ?_
    filter_upwards [eventually_gt_nhds h] with x hx
    rw [if_pos hx]

theorem hasDerivAt_cut_pow (n : ℕ) (u : ℝ) (hn : 2 ≤ n) :
    HasDerivAt (fun x : ℝ => if 0 < x then x ^ n else 0) (if 0 < u then n * u ^ (n - 1) else 0) u := by
  have h := hasDerivAt_cut_rpow n u (by exact_mod_cast hn)
  have e : ((n : ℝ) - 1) = ((n - 1 : ℕ) : ℝ) := by push_cast [Nat.cast_sub (by omega : 1 ≤ n)]; ring
  simpa only [rpow_natCast, e] using h

/-- The part of `g` in region II as a product of a function of temperature and a function of pressure, each
extended by zero. -/
noncomputable def cutT (T : ℝ) : ℝ × ℝ × ℝ := if 155 < T - 273.15 then ft T else 0
/-- See `cutT`. -/
noncomputable def cutP (P : ℝ) : ℝ × ℝ × ℝ := if P * 1.0e-5 < 1000 then fp P else 0

theorem cutT_deriv (T : ℝ) :
    HasDerivAt (fun t => (cutT t).1) (cutT T).2.1 T ∧ HasDerivAt (fun t => (cutT t).2.1) (cutT T).2.2 T := by
  have hu : HasDerivAt (fun t : ℝ => ((t - 273.15) - 155) / 300) (1 / 300) T :=
    (((hasDerivAt_id' T).sub_const 273.15).sub_const 155).div_const 300
  have iff : ∀ t : ℝ, 155 < t - 273.15 ↔ 0 < ((t - 273.15) - 155) / 300 := fun t => by
    rw [div_pos_iff]; constructor
    · intro h; left; constructor <;> linarith
    · rintro (h | h) <;> linarith
  have r := fun b hb => HasDerivAt.comp T (hasDerivAt_cut_rpow b (((T - 273.15) - 155) / 300) hb) hu
  have n := fun b hb => HasDerivAt.comp T (hasDerivAt_cut_pow b (((T - 273.15) - 155) / 300) hb) hu
  constructor
  · refine (((r 4.8 (by norm_num)).fun_add ((n 16 (by norm_num)).const_mul 3.666660e+01)).congr_of_eventuallyEq
      (Eventually.of_forall fun t => ?_)).congr_deriv ?_
    · simp only [cutT, ft, iff, Function.comp_apply]
      split <;> simp
    · simp only [cutT, ft, iff]
      split
      · next h =>
        generalize ((T - 273.15) - 155) / 300 = u at h ⊢
        have e : u ^ (4.8 - 1 : ℝ) = u ^ (4.8 : ℝ) / u := by rw [rpow_sub_one h.ne']
        simp only [e]
        field_simp
        push_cast
        ring
      · simp
  · refine ((((r 3.8 (by norm_num)).const_mul (4.8 / 300)).fun_add ((n 15 (by norm_num)).const_mul (16 * 3.666660e+01 / 300))).congr_of_eventuallyEq
      (Eventually.of_forall fun t => ?_)).congr_deriv ?_
    · simp only [cutT, ft, iff, Function.comp_apply]
      split
      · next h =>
        generalize ((t - 273.15) - 155) / 300 = u at h ⊢
        have e : u ^ (3.8 : ℝ) = u ^ (4.8 : ℝ) / u := by rw [← rpow_sub_one h.ne']; norm_num
        simp only [e]
        field_simp
      · simp
    · simp only [cutT, ft, iff]
      split
      · next h =>
        generalize ((T - 273.15) - 155) / 300 = u at h ⊢
        have e : u ^ (3.8 - 1 : ℝ) = u ^ (4.8 : ℝ) / u / u := by
          rw [← rpow_sub_one h.ne', ← rpow_sub_one h.ne']; norm_num
        simp only [e]
        field_simp
        push_cast
        ring
      · simp

theorem cutP_deriv (P : ℝ) :
    HasDerivAt (fun p => (cutP p).1) (cutP P).2.1 P ∧ HasDerivAt (fun p => (cutP p).2.1) (cutP P).2.2 P := by
  have hu : HasDerivAt (fun p : ℝ => 1000 - p * 1.0e-5) (-1.0e-5) P := by
    simpa using ((hasDerivAt_id' P).mul_const (1.0e-5 : ℝ)).const_sub 1000
  have iff : ∀ p : ℝ, p * 1.0e-5 < 1000 ↔ 0 < 1000 - p * 1.0e-5 := fun p => sub_pos.symm
  have n := fun b hb => HasDerivAt.comp P (hasDerivAt_cut_pow b (1000 - P * 1.0e-5) hb) hu
  constructor
  · refine ((((n 3 (by norm_num)).const_mul (-1.504956e-10)).fun_add ((n 4 (by norm_num)).const_mul 5.017990e-14)).congr_of_eventuallyEq
      (Eventually.of_forall fun p => ?_)).congr_deriv ?_
    · simp only [cutP, fp, iff, Function.comp_apply]
      split <;> simp
    · simp only [cutP, fp, iff]
      split
      · next h =>
        generalize 1000 - P * 1.0e-5 = u at h ⊢
        field_simp
        push_cast
        norm_num
        ring
      · simp
  · refine ((((n 2 (by norm_num)).const_mul (3 * 1.504956e-10 / 1e5)).fun_add ((n 3 (by norm_num)).const_mul (-4 * 5.017990e-14 / 1e5))).congr_of_eventuallyEq
      (Eventually.of_forall fun p => ?_)).congr_deriv ?_
    · simp only [cutP, fp, iff, Function.comp_apply]
      split
      · next h =>
        generalize 1000 - p * 1.0e-5 = u at h ⊢
        field_simp
        norm_num
        ring
      · simp
    · simp only [cutP, fp, iff]
      split
      · next h =>
        generalize 1000 - P * 1.0e-5 = u at h ⊢
        field_simp
        push_cast
        norm_num
        ring
      · simp

end Verif.HKF
