import Verif.Spec.PhreeqcThermo
import Verif.Theorems.PhreeqcThermo
import Mathlib.Analysis.SpecialFunctions.Sqrt
import Mathlib.Analysis.SpecialFunctions.Log.Deriv
import Mathlib.Analysis.Complex.ExponentialBounds

/-!
# Theorems C77: properties of water for PHREEQC databases
-/

namespace Verif.Phreeqc

open ReactionThermo

/-! ### Density -/

theorem hasDerivAt_poly (a c0 c1 c2 c3 x : ℝ) (hx : 0 < x) :
    HasDerivAt (fun x => a + x * (c0 + x * (c1 + x * (c2 + √x * c3)))) (c0 + x * (2 * c1 + x * (3 * c2 + √x * 3.5 * c3))) x := by
  have hs := Real.hasDerivAt_sqrt hx.ne'
  have hid := hasDerivAt_id x
  have h := ((hid.mul (((hid.mul (((hid.mul ((hs.mul_const c3).const_add c2))).const_add c1))).const_add c0))).const_add a
  refine h.congr_deriv ?_
  have h0 : √x ≠ 0 := (Real.sqrt_pos.2 hx).ne'
  have hsq : √x * √x = x := Real.mul_self_sqrt hx.le
  simp only [id, Pi.mul_apply]
  have : 1 / (2 * √x) = √x / (2 * x) := by
    rw [div_eq_div_iff (by positivity) (by positivity)]
    linear_combination (-2 : ℝ) * hsq
  rw [this]
  field_simp
  ring

theorem pAbove_above (T P : ℝ) (h : pSat T < P * pascalToAtm) : pAbove T P = P * pascalToAtm - (pSat T - 1e-6) := by
  unfold pAbove; dsimp only; rw [if_neg (not_lt.2 h.le)]

theorem pascalToAtm_pos : 0 < pascalToAtm := by unfold pascalToAtm; norm_num

theorem above_eventually (T P : ℝ) (h : pSat T < P * pascalToAtm) : ∀ᶠ p in nhds P, pSat T < p * pascalToAtm :=
  (continuous_id.mul continuous_const).continuousAt.eventually (lt_mem_nhds h)

theorem rhoRaw_deriv (T P : ℝ) (h : pSat T < P * pascalToAtm) :
    HasDerivAt (fun p => rhoRaw T p)
      ((coef0 (clampedCelsius T) + pAbove T P * (2 * coef1 (clampedCelsius T) + pAbove T P * (3 * coef2 (clampedCelsius T) +
        √(pAbove T P) * 3.5 * coef3 (clampedCelsius T)))) * pascalToAtm) P := by
  have hx : 0 < pAbove T P := by
    rw [pAbove_above T P h]
    have : (0 : ℝ) < 1e-6 := by norm_num
    linarith
  have h1 := hasDerivAt_poly (rhoSat T) (coef0 (clampedCelsius T)) (coef1 (clampedCelsius T)) (coef2 (clampedCelsius T)) (coef3 (clampedCelsius T)) _ hx
  have h2 : HasDerivAt (fun p => pAbove T p) pascalToAtm P := by
    have : HasDerivAt (fun p => p * pascalToAtm - (pSat T - 1e-6)) pascalToAtm P := by
      simpa using ((hasDerivAt_id P).mul_const pascalToAtm).sub_const (pSat T - 1e-6)
    refine this.congr_of_eventuallyEq ?_
    filter_upwards [above_eventually T P h] with p hp
    exact pAbove_above T p hp
  exact h1.comp P h2

theorem rho_eq (T P : ℝ) (h : 0.01 < rhoRaw T P) : (waterThermo T P).rho = rhoRaw T P / 1000 := by
  unfold waterThermo; dsimp only; rw [if_neg (not_lt.2 h.le)]; norm_num

/-- **C77 (compressibility), partial.** Above the saturation pressure, and where the density is above its lower limit, the compressibility in 1/atm is the derivative of the
logarithm of the density with respect to pressure. Missing: lower pressures, see `C77_below_saturation_wrong`. -/
theorem C77_compressibility_partial (T P : ℝ) (h : pSat T < P * pascalToAtm) (hr : 0.01 < rhoRaw T P) :
    HasDerivAt (fun p => Real.log (waterThermo T p).rho) ((waterThermo T P).kappa * pascalToAtm) P := by
  have h1 := rhoRaw_deriv T P h
  have hpos : 0 < rhoRaw T P := lt_trans (by norm_num) hr
  have h2 := (h1.div_const 1000).log (by positivity)
  refine (h2.congr_of_eventuallyEq ?_).congr_deriv ?_
  · filter_upwards [h1.continuousAt.eventually (lt_mem_nhds hr)] with p hp
    rw [rho_eq T p hp]
  · unfold waterThermo
    dsimp only
    rw [if_neg (not_lt.2 hr.le)]
    field_simp

theorem rhoSat_25 : 0.01 ≤ rhoSat 298.15 := by
  unfold rhoSat
  dsimp only
  have ht0 : (0 : ℝ) < 1 - 298.15 / 647.096 := by norm_num
  have ht1 : (1 : ℝ) - 298.15 / 647.096 < 0.54 := by norm_num
  generalize (1 : ℝ) - 298.15 / 647.096 = t at ht0 ht1
  have hle : ∀ (n : ℕ) (q : ℝ), (n : ℝ) ≤ q → t ^ q ≤ 0.54 ^ n := by
    intro n q hq
    have h1 := Real.rpow_le_rpow_of_exponent_ge ht0 (by linarith : t ≤ 1) hq
    rw [Real.rpow_natCast] at h1
    exact h1.trans (by gcongr)
  have e1 : 0 ≤ t ^ ((1 : ℝ) / 3) := Real.rpow_nonneg ht0.le _
  have e2 : 0 ≤ t ^ ((2 : ℝ) / 3) := Real.rpow_nonneg ht0.le _
  have e3 := hle 1 ((5 : ℝ) / 3) (by norm_num)
  have e4 := hle 5 ((16 : ℝ) / 3) (by norm_num)
  have e5 := hle 14 ((43 : ℝ) / 3) (by norm_num)
  have e6 := hle 36 ((110 : ℝ) / 3) (by norm_num)
  norm_num at e3 e4 e5 e6 ⊢
  linarith

/-- 25 °C and 1 bar meet the conditions. -/
theorem conditions_25 : pSat 298.15 < 100000 * pascalToAtm ∧ 0.01 < rhoRaw 298.15 100000 := by
  have h := rhoSat_25
  have hs : pSat 298.15 < 100000 * pascalToAtm := by
    unfold pSat pascalToAtm
    have h1 : Real.exp (11.6702 - 3816.44 / (298.15 - 46.13)) < Real.exp (-3) := by
      apply Real.exp_lt_exp.2; norm_num
    have h2 : Real.exp (-3) < 1 / 2 := by
      have : Real.exp (-3) < Real.exp (-1) := Real.exp_lt_exp.2 (by norm_num)
      have := Real.exp_neg_one_lt_d9
      linarith
    have : (1 / 2 : ℝ) < 100000 * 9.86923e-6 := by norm_num
    linarith
  refine ⟨hs, ?_⟩
  have hx1 : 0 < pAbove 298.15 100000 := by
    rw [pAbove_above _ _ hs]; have : (0 : ℝ) < 1e-6 := by norm_num
    linarith
  have hx2 : pAbove 298.15 100000 < 1 := by
    rw [pAbove_above _ _ hs]
    have : 0 < pSat 298.15 := Real.exp_pos _
    have : (100000 : ℝ) * pascalToAtm < 0.99 := by unfold pascalToAtm; norm_num
    have : (1e-6 : ℝ) < 0.01 := by norm_num
    linarith
  have hc : clampedCelsius 298.15 = 25 := by unfold clampedCelsius; norm_num
  unfold rhoRaw
  dsimp only
  rw [hc]
  generalize pAbove 298.15 100000 = x at hx1 hx2
  have hsx : √x ≤ 1 := Real.sqrt_le_one.2 hx2.le
  have hs0 : 0 ≤ √x := Real.sqrt_nonneg x
  have e0 : 0.04 < coef0 25 := by unfold coef0; norm_num
  have e1 : -0.001 < coef1 25 := by unfold coef1; norm_num
  have e2 : -0.001 < coef2 25 := by unfold coef2; norm_num
  have e3 : -0.001 < coef3 25 := by unfold coef3; norm_num
  have a3 : -0.001 ≤ √x * coef3 25 := by nlinarith
  have a2 : -0.002 ≤ coef2 25 + √x * coef3 25 := by linarith
  have b2 : -0.002 ≤ x * (coef2 25 + √x * coef3 25) := by nlinarith
  have a1 : -0.003 ≤ coef1 25 + x * (coef2 25 + √x * coef3 25) := by linarith
  have b1 : -0.003 ≤ x * (coef1 25 + x * (coef2 25 + √x * coef3 25)) := by nlinarith
  have a0 : 0 < coef0 25 + x * (coef1 25 + x * (coef2 25 + √x * coef3 25)) := by linarith
  have := mul_pos hx1 a0
  linarith

/-- **C77 is false below the saturation pressure.** The density does not depend on pressure there, but the compressibility is not zero: at 25 °C and
1 kPa it is positive. -/
theorem C77_below_saturation_wrong :
    (∀ T P, P * pascalToAtm < pSat T → HasDerivAt (fun p => (waterThermo T p).rho) 0 P) ∧
    1000 * pascalToAtm < pSat 298.15 ∧ 0 < (waterThermo 298.15 1000).kappa := by
  have hab : ∀ T P, P * pascalToAtm < pSat T → pAbove T P = 1e-6 := by
    intro T P h
    unfold pAbove; dsimp only; rw [if_pos h]; ring
  have hlow : 1000 * pascalToAtm < pSat 298.15 := by
    unfold pSat pascalToAtm
    have h1 : Real.exp (-4) < Real.exp (11.6702 - 3816.44 / (298.15 - 46.13)) := by
      apply Real.exp_lt_exp.2; norm_num
    have h2 : (0.01 : ℝ) < Real.exp (-4) := by
      have h3 : Real.exp 4 < 100 := by
        have : Real.exp 4 = Real.exp 1 ^ 4 := by rw [← Real.exp_nat_mul]; norm_num
        rw [this]
        have h4 := Real.exp_one_lt_d9
        have h5 := Real.exp_pos 1
        calc Real.exp 1 ^ 4 < 2.7182818286 ^ 4 := by gcongr
          _ < 100 := by norm_num
      rw [Real.exp_neg]
      rw [lt_inv_comm₀ (by norm_num) (Real.exp_pos _)]
      norm_num
      linarith
    have : (1000 : ℝ) * 9.86923e-6 < 0.01 := by norm_num
    linarith
  refine ⟨?_, hlow, ?_⟩
  · intro T P h
    have hev : ∀ᶠ p in nhds P, p * pascalToAtm < pSat T :=
      (continuous_id.mul continuous_const).continuousAt.eventually (gt_mem_nhds h)
    refine (hasDerivAt_const P (waterThermo T P).rho).congr_of_eventuallyEq ?_
    filter_upwards [hev] with p hp
    unfold waterThermo rhoRaw
    dsimp only
    rw [hab T p hp, hab T P h]
  · unfold waterThermo
    dsimp only
    have hc : clampedCelsius 298.15 = 25 := by unfold clampedCelsius; norm_num
    rw [hab _ _ hlow, hc]
    have hsx : √(1e-6 : ℝ) ≤ 1 := Real.sqrt_le_one.2 (by norm_num)
    have hs0 : 0 ≤ √(1e-6 : ℝ) := Real.sqrt_nonneg _
    have e0 : 0.04 < coef0 25 := by unfold coef0; norm_num
    have e1 : -0.001 < coef1 25 := by unfold coef1; norm_num
    have e2 : -0.001 < coef2 25 := by unfold coef2; norm_num
    have e3 : -0.001 < coef3 25 := by unfold coef3; norm_num
    apply div_pos
    · have a3 : -0.0035 ≤ √(1e-6 : ℝ) * 3.5 * coef3 25 := by nlinarith
      have a2 : -0.0065 ≤ 3 * coef2 25 + √(1e-6 : ℝ) * 3.5 * coef3 25 := by linarith
      have a1 : -0.0085 ≤ 2 * coef1 25 + 1e-6 * (3 * coef2 25 + √(1e-6 : ℝ) * 3.5 * coef3 25) := by nlinarith
      nlinarith
    · split_ifs with h
      · norm_num
      · exact lt_of_lt_of_le (by norm_num) (not_lt.1 h)

/-! ### Dielectric constant -/

theorem epsRaw_deriv (T P : ℝ) (h1 : elB T + pBar P ≠ 0) (h2 : elB T + 1e3 ≠ 0) :
    HasDerivAt (fun p => epsRaw T p) (elC T / (elB T + pBar P) * (1.01325 * pascalToAtm)) P := by
  have hp : HasDerivAt (fun p => (elB T + pBar p) / (elB T + 1e3)) (1.01325 * pascalToAtm / (elB T + 1e3)) P := by
    have : HasDerivAt (fun p => pBar p) (1.01325 * pascalToAtm) P := by
      have := ((hasDerivAt_id P).mul_const pascalToAtm).mul_const (1.01325 : ℝ)
      refine this.congr_deriv ?_
      ring
    exact (this.const_add _).div_const _
  have := ((hp.log (div_ne_zero h1 h2)).const_mul (elC T)).const_add (3.4279e2 * Real.exp (T * (-5.0866e-3 + T * 9.469e-7)))
  refine this.congr_deriv ?_
  field_simp

theorem eps_eq (T P : ℝ) (w : WaterThermo) (h : 0 < epsRaw T P) : (waterElectro T P w).eps = epsRaw T P := by
  unfold waterElectro; dsimp only; rw [if_neg (not_le.2 h)]

/-- **C77 (Born functions), partial.** Where the dielectric constant is positive, the Born function `Q` is the derivative of `Z` with respect to pressure in bar. -/
theorem C77_born_partial (T P : ℝ) (h1 : elB T + pBar P ≠ 0) (h2 : elB T + 1e3 ≠ 0) (he : 0 < epsRaw T P) (w : ℝ → WaterThermo) :
    HasDerivAt (fun p => (waterElectro T p (w p)).eps) (elC T / (elB T + pBar P) * (1.01325 * pascalToAtm)) P ∧
    HasDerivAt (fun p => (waterElectro T p (w p)).Z) ((waterElectro T P (w P)).Q * (1.01325 * pascalToAtm)) P := by
  have hd := epsRaw_deriv T P h1 h2
  have hev := hd.continuousAt.eventually (lt_mem_nhds he)
  constructor
  · refine hd.congr_of_eventuallyEq ?_
    filter_upwards [hev] with p hp
    exact eps_eq T p (w p) hp
  · have h3 := (((hd.inv he.ne').const_mul (-1)).add_const (1.0 : ℝ)).mul_const (41.84004 : ℝ)
    refine (h3.congr_of_eventuallyEq ?_).congr_deriv ?_
    · filter_upwards [hev] with p hp
      simp only [waterElectro]
      rw [if_neg (not_le.2 hp)]
      simp [div_eq_mul_inv]
    · simp only [waterElectro]
      rw [if_neg (not_le.2 he)]
      field_simp

/-- **C77 (Debye-Hückel slope), partial.** Above the saturation pressure, where density and dielectric constant have not been replaced, the slope for volumes is
`-4 R T` times the pressure derivative of the osmotic coefficient parameter `A_φ = ln(10) A / 3`, per atm, with the gas constant in cm³ atm. -/
theorem C77_debye_huckel_partial (T P : ℝ) (hT : 0 < T) (h : pSat T < P * pascalToAtm) (hr : 0.01 < rhoRaw T P)
    (h1 : elB T + pBar P ≠ 0) (h2 : elB T + 1e3 ≠ 0) (he : 0 < epsRaw T P) :
    ∃ A', HasDerivAt (fun p => ln10 * (waterElectro T p (waterThermo T p)).A / 3) (A' * pascalToAtm) P ∧
      (waterElectro T P (waterThermo T P)).Av = -4 * (1000 * rLiterAtm) * T * A' := by
  set κ := (waterThermo T P).kappa with hκ
  set D := elC T / (elB T + pBar P) * (1.01325 * pascalToAtm) with hD
  have hat := pascalToAtm_pos
  have hl : 0 < ln10 := ln10_pos
  have hdE := epsRaw_deriv T P h1 h2
  have hevE := hdE.continuousAt.eventually (lt_mem_nhds he)
  -- the logarithm of `A` is `c + log ρ / 2 - 3/2 log ε`
  have hlogρ := C77_compressibility_partial T P h hr
  have hlogε := hdE.log he.ne'
  have hpi : 0 < piConst := by unfold piConst; norm_num
  have hav : 0 < avogadro := by unfold avogadro; norm_num
  have hApos : ∀ p, 0 < epsRaw T p → 0 < (waterElectro T p (waterThermo T p)).A := by
    intro p hp
    have hρ := waterThermo_pos T p
    simp only [waterElectro]
    rw [if_neg (not_le.2 hp)]
    positivity
  have hlogA : ∀ p, 0 < epsRaw T p → Real.log (waterElectro T p (waterThermo T p)).A =
      Real.log (√(8 * piConst * avogadro * (1.671008e-3 / T) / 1e3) * (1.671008e-3 / T) / (2 * ln10)) +
        1 / 2 * Real.log (waterThermo T p).rho - 3 / 2 * Real.log (epsRaw T p) := by
    intro p hp
    have hρ := waterThermo_pos T p
    have e1 : (waterElectro T p (waterThermo T p)).A =
        (√(8 * piConst * avogadro * (1.671008e-3 / T) / 1e3) * (1.671008e-3 / T) / (2 * ln10)) *
          (√((waterThermo T p).rho) * (√(epsRaw T p))⁻¹ * (epsRaw T p)⁻¹) := by
      simp only [waterElectro]
      rw [if_neg (not_le.2 hp)]
      have : 8 * piConst * avogadro * (1.671008e-3 / (epsRaw T p * T)) * (waterThermo T p).rho / 1e3 =
          (8 * piConst * avogadro * (1.671008e-3 / T) / 1e3) * ((waterThermo T p).rho * (epsRaw T p)⁻¹) := by field_simp
      rw [this, Real.sqrt_mul (by positivity), Real.sqrt_mul hρ.le, Real.sqrt_inv]
      field_simp
    rw [e1, Real.log_mul (by positivity) (by positivity), Real.log_mul (by positivity) (by positivity), Real.log_mul (by positivity) (by positivity),
      Real.log_inv, Real.log_inv, Real.log_sqrt hρ.le, Real.log_sqrt hp.le]
    ring
  have hdlog : HasDerivAt (fun p => Real.log (waterElectro T p (waterThermo T p)).A)
      (1 / 2 * (κ * pascalToAtm) - 3 / 2 * (D / epsRaw T P)) P := by
    have := ((hlogρ.const_mul (1 / 2)).const_add (Real.log (√(8 * piConst * avogadro * (1.671008e-3 / T) / 1e3) * (1.671008e-3 / T) / (2 * ln10)))).sub (hlogε.const_mul (3 / 2))
    refine this.congr_of_eventuallyEq ?_
    filter_upwards [hevE] with p hp
    exact hlogA p hp
  have hA0 := hApos P he
  have hdA : HasDerivAt (fun p => (waterElectro T p (waterThermo T p)).A)
      ((waterElectro T P (waterThermo T P)).A * (1 / 2 * (κ * pascalToAtm) - 3 / 2 * (D / epsRaw T P))) P := by
    have := hdlog.exp
    rw [Real.exp_log hA0] at this
    refine this.congr_of_eventuallyEq ?_
    filter_upwards [hevE] with p hp
    rw [Real.exp_log (hApos p hp)]
  refine ⟨ln10 * ((waterElectro T P (waterThermo T P)).A * (1 / 2 * κ - 3 / 2 * (elC T / (elB T + pBar P) * 1.01325 / epsRaw T P))) / 3, ?_, ?_⟩
  · refine ((hdA.const_mul ln10).div_const 3).congr_deriv ?_
    rw [hD]
    ring
  · have hAv : (waterElectro T P (waterThermo T P)).Av = (waterElectro T P (waterThermo T P)).A * (2 * ln10) * rLiterAtm * 1e3 * T *
        (elC T / (elB T + pBar P) * 1.01325 / epsRaw T P - κ / 3) := by
      simp only [waterElectro]
      rw [if_neg (not_le.2 he)]
      field_simp
      rfl
    rw [hAv]
    ring

/-- 25 °C and 1 bar meet the conditions: the derivatives below are the values reported there. -/
example : ∃ A', HasDerivAt (fun p => ln10 * (waterElectro 298.15 p (waterThermo 298.15 p)).A / 3) (A' * pascalToAtm) 100000 ∧
    (waterElectro 298.15 100000 (waterThermo 298.15 100000)).Av = -4 * (1000 * rLiterAtm) * 298.15 * A' := by
  have hb : elB 298.15 + pBar 100000 > 6000 := by unfold elB pBar pascalToAtm; norm_num
  have hb2 : elB 298.15 + 1e3 > 0 := by unfold elB; norm_num
  refine C77_debye_huckel_partial _ _ (by norm_num) conditions_25.1 conditions_25.2 (by linarith) hb2.ne' ?_
  unfold epsRaw
  have hexp : (0.1 : ℝ) < Real.exp (298.15 * (-5.0866e-3 + 298.15 * 9.469e-7)) := by
    have h1 : Real.exp (-2) < Real.exp (298.15 * (-5.0866e-3 + 298.15 * 9.469e-7)) := Real.exp_lt_exp.2 (by norm_num)
    have h2 : Real.exp (-2) = Real.exp (-1) * Real.exp (-1) := by rw [← Real.exp_add]; norm_num
    have h3 := Real.exp_neg_one_gt_d9
    nlinarith
  have hlog : (-0.2 : ℝ) ≤ Real.log ((elB 298.15 + pBar 100000) / (elB 298.15 + 1e3)) := by
    have h1 := Real.one_sub_inv_le_log_of_pos (x := (elB 298.15 + pBar 100000) / (elB 298.15 + 1e3)) (by positivity)
    have h2 : ((elB 298.15 + pBar 100000) / (elB 298.15 + 1e3))⁻¹ ≤ 1.2 := by
      unfold elB pBar pascalToAtm; norm_num
    linarith
  have hc0 : 0 < elC 298.15 := by unfold elC; norm_num
  have hc : elC 298.15 < 30 := by unfold elC; norm_num
  nlinarith

end Verif.Phreeqc
