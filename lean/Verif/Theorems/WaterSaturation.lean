import Verif.Model.WaterThermo
import Verif.Spec.WaterSaturation
import Mathlib.Analysis.Calculus.Deriv.MeanValue
import Mathlib.Analysis.Calculus.Deriv.Pow
import Mathlib.Analysis.Calculus.Deriv.Inv
import Mathlib.Tactic.Linarith
import Mathlib.Tactic.Positivity
import Mathlib.Tactic.FieldSimp
import Mathlib.Tactic.Ring

/-!
# C99: the saturation curve of water
-/

namespace Verif.Saturation

open Real Verif.Water

/-- Powers with rational exponents as powers of a root. -/
theorem root_pow {t : ℝ} (ht : 0 ≤ t) (n k : ℕ) : t ^ ((k : ℝ) / n) = (t ^ (1 / (n : ℝ))) ^ k := by
  rw [← rpow_natCast, ← rpow_mul ht]
  congr 1
  ring

theorem root_pow_self {t : ℝ} (ht : 0 ≤ t) (n : ℕ) (hn : n ≠ 0) : (t ^ (1 / (n : ℝ))) ^ n = t := by
  rw [one_div, rpow_inv_natCast_pow ht hn]

theorem theta_eq (T : ℝ) : theta T = 1 - T / Tcr := by rw [theta, Tcr]

theorem theta_nonneg {T : ℝ} (h : T ≤ Tcr) : 0 ≤ theta T := by
  rw [theta_eq, sub_nonneg, div_le_one (by norm_num [Tcr])]; exact h

theorem theta_lt_one {T : ℝ} (h : 0 < T) : theta T < 1 := by
  rw [theta_eq]; have : 0 < T / Tcr := div_pos h (by norm_num [Tcr]); linarith

theorem theta_anti {T U : ℝ} (h : T < U) : theta U < theta T := by
  rw [theta_eq, theta_eq]
  have : T / Tcr < U / Tcr := div_lt_div_of_pos_right h (by norm_num [Tcr])
  linarith

theorem ratio_eq {T : ℝ} (h : 0 < T) : Tcr / T = 1 / (1 - theta T) := by
  rw [theta_eq]
  have : Tcr ≠ 0 := by norm_num [Tcr]
  have := h.ne'
  rw [sub_sub_cancel, one_div_div]

/-! ### Pressure -/

/-- The exponent of the vapour pressure as a function of the square root of the distance. -/
noncomputable def pexp (s : ℝ) : ℝ :=
  (-7.85951783 * s ^ 2 + 1.84408259 * s ^ 3 + -11.7866497 * s ^ 6 + 22.6807411 * s ^ 7 + -15.9618719 * s ^ 8 + 1.80122502 * s ^ 15) / (1 - s ^ 2)

theorem saturatedPressure_eq {T : ℝ} (h0 : 0 < T) (h : T ≤ Tcr) : saturatedPressure T = Pcr * exp (pexp (theta T ^ (1 / 2 : ℝ))) := by
  have ht := theta_nonneg h
  have h2 : (theta T ^ (1 / 2 : ℝ)) ^ 2 = theta T := by exact_mod_cast root_pow_self ht 2 (by norm_num)
  have h15 : theta T ^ (1.5 : ℝ) = (theta T ^ (1 / 2 : ℝ)) ^ 3 := by
    have := root_pow ht 2 3
    norm_num at this ⊢
    exact this
  unfold saturatedPressure
  dsimp only
  rw [← theta_eq, h15, ratio_eq h0, pexp]
  generalize theta T ^ (1 / 2 : ℝ) = s at *
  rw [← h2]
  congr 2
  rw [one_div, mul_comm, div_eq_mul_inv]
  congr 1
  ring

theorem pexp_deriv {s : ℝ} (h0 : 0 < s) (h1 : s < 1) : deriv pexp s < 0 := by
  have hs : 1 - s ^ 2 ≠ 0 := by nlinarith
  have hn : HasDerivAt (fun s : ℝ => -7.85951783 * s ^ 2 + 1.84408259 * s ^ 3 + -11.7866497 * s ^ 6 + 22.6807411 * s ^ 7 + -15.9618719 * s ^ 8 +
      1.80122502 * s ^ 15)
      (-7.85951783 * (2 * s) + 1.84408259 * (3 * s ^ 2) + -11.7866497 * (6 * s ^ 5) + 22.6807411 * (7 * s ^ 6) + -15.9618719 * (8 * s ^ 7) +
      1.80122502 * (15 * s ^ 14)) s := by
    have p := fun k : ℕ => hasDerivAt_pow k s
    have := ((((((p 2).const_mul (-7.85951783)).add ((p 3).const_mul 1.84408259)).add ((p 6).const_mul (-11.7866497))).add
      ((p 7).const_mul 22.6807411)).add ((p 8).const_mul (-15.9618719))).add ((p 15).const_mul 1.80122502)
    exact this.congr_deriv (by norm_num)
  have hd : HasDerivAt (fun s : ℝ => 1 - s ^ 2) (-(2 * s)) s := by
    have := (hasDerivAt_pow 2 s).const_sub 1
    exact this.congr_deriv (by norm_num)
  have key : HasDerivAt pexp _ s := hn.div hd hs
  rw [key.deriv]
  refine div_neg_of_neg_of_pos ?_ (by positivity)
  have e : (-7.85951783 * (2 * s) + 1.84408259 * (3 * s ^ 2) + -11.7866497 * (6 * s ^ 5) + 22.6807411 * (7 * s ^ 6) + -15.9618719 * (8 * s ^ 7) +
      1.80122502 * (15 * s ^ 14)) * (1 - s ^ 2) - (-7.85951783 * s ^ 2 + 1.84408259 * s ^ 3 + -11.7866497 * s ^ 6 + 22.6807411 * s ^ 7 +
      -15.9618719 * s ^ 8 + 1.80122502 * s ^ 15) * -(2 * s) =
      2 * s * (-7.85951783 + 1.84408259 * (1.5 * s - 0.5 * s ^ 3) + s ^ 4 * (-11.7866497 * (3 - 2 * s ^ 2) + 22.6807411 * (s * (3.5 - 2.5 * s ^ 2)) +
        -15.9618719 * (s ^ 2 * (4 - 3 * s ^ 2))) + 1.80122502 * (7.5 * s ^ 13 - 6.5 * s ^ 15)) := by ring
  rw [e]
  refine mul_neg_of_pos_of_neg (by positivity) ?_
  have b1 : 1.5 * s - 0.5 * s ^ 3 ≤ 1 := by nlinarith [mul_nonneg (sq_nonneg (1 - s)) (by linarith : (0 : ℝ) ≤ 2 + s)]
  have b2 : -11.7866497 * (3 - 2 * s ^ 2) + 22.6807411 * (s * (3.5 - 2.5 * s ^ 2)) + -15.9618719 * (s ^ 2 * (4 - 3 * s ^ 2)) ≤ 0 := by
    nlinarith [mul_nonneg h0.le (sub_nonneg.2 h1.le), mul_nonneg (sq_nonneg s) (sub_nonneg.2 h1.le), sq_nonneg (s - 0.9), sq_nonneg (s ^ 2 - 0.8),
      mul_nonneg h0.le (sq_nonneg (s - 0.8)), mul_nonneg (sub_nonneg.2 h1.le) (sq_nonneg (s - 0.8)), mul_nonneg (mul_nonneg h0.le (sub_nonneg.2 h1.le)) (sq_nonneg (s - 0.8))]
  have b3 : 7.5 * s ^ 13 - 6.5 * s ^ 15 ≤ 2.625 := by
    have p1 : s ^ 13 ≤ 1 := pow_le_one₀ h0.le h1.le
    have p2 : s ^ 13 ≤ s ^ 2 := pow_le_pow_of_le_one h0.le h1.le (by norm_num)
    have q : s ^ 15 = s ^ 13 * s ^ 2 := by ring
    have : s ^ 13 * (1 - s ^ 2) ≤ 1 / 4 := by
      have h3 : s ^ 13 * (1 - s ^ 2) ≤ s ^ 2 * (1 - s ^ 2) := mul_le_mul_of_nonneg_right p2 (by nlinarith)
      nlinarith [sq_nonneg (s ^ 2 - 1 / 2)]
    rw [q]
    nlinarith
  have b4 : s ^ 4 * (-11.7866497 * (3 - 2 * s ^ 2) + 22.6807411 * (s * (3.5 - 2.5 * s ^ 2)) + -15.9618719 * (s ^ 2 * (4 - 3 * s ^ 2))) ≤ 0 :=
    mul_nonpos_of_nonneg_of_nonpos (by positivity) b2
  linarith

theorem pexp_anti : StrictAntiOn pexp (Set.Ico 0 1) := by
  refine strictAntiOn_of_deriv_neg (convex_Ico 0 1) ?_ ?_
  · intro s hs
    refine ContinuousAt.continuousWithinAt ?_
    unfold pexp
    refine ContinuousAt.div (by fun_prop) (by fun_prop) ?_
    have : s ^ 2 < 1 := by have := hs.1; have := hs.2; nlinarith
    linarith
  · intro s hs
    rw [interior_Ico] at hs
    exact pexp_deriv hs.1 hs.2

/-- **C99**, vapour pressure: the published equation; the critical pressure at the critical temperature; positive, and strictly increasing with
temperature up to the critical point. -/
theorem C99_pressure :
    (∀ T, 0 < T → T ≤ 647.096 → saturatedPressure T = pressure T ∧ 0 < saturatedPressure T) ∧ saturatedPressure 647.096 = 22.064e6 ∧
      ∀ T U, 0 < T → T < U → U ≤ 647.096 → saturatedPressure T < saturatedPressure U := by
  have hT : Tcr = 647.096 := rfl
  refine ⟨fun T h0 h => ⟨?_, ?_⟩, ?_, fun T U h0 hTU hU => ?_⟩
  · have ht := theta_nonneg (hT ▸ h : T ≤ Tcr)
    have p := fun k : ℕ => root_pow ht 2 k
    have h2 : (theta T ^ (1 / 2 : ℝ)) ^ 2 = theta T := by exact_mod_cast root_pow_self ht 2 (by norm_num)
    have e3 : theta T ^ (1.5 : ℝ) = (theta T ^ (1 / 2 : ℝ)) ^ 3 := by rw [show (1.5 : ℝ) = ((3 : ℕ) : ℝ) / (2 : ℕ) by norm_num]; exact_mod_cast p 3
    have e6 : theta T ^ (3 : ℝ) = (theta T ^ (1 / 2 : ℝ)) ^ 6 := by rw [show (3 : ℝ) = ((6 : ℕ) : ℝ) / (2 : ℕ) by norm_num]; exact_mod_cast p 6
    have e7 : theta T ^ (3.5 : ℝ) = (theta T ^ (1 / 2 : ℝ)) ^ 7 := by rw [show (3.5 : ℝ) = ((7 : ℕ) : ℝ) / (2 : ℕ) by norm_num]; exact_mod_cast p 7
    have e8 : theta T ^ (4 : ℝ) = (theta T ^ (1 / 2 : ℝ)) ^ 8 := by rw [show (4 : ℝ) = ((8 : ℕ) : ℝ) / (2 : ℕ) by norm_num]; exact_mod_cast p 8
    have e15 : theta T ^ (7.5 : ℝ) = (theta T ^ (1 / 2 : ℝ)) ^ 15 := by rw [show (7.5 : ℝ) = ((15 : ℕ) : ℝ) / (2 : ℕ) by norm_num]; exact_mod_cast p 15
    rw [saturatedPressure_eq h0 (hT ▸ h), pressure, pexp, show (647.096 : ℝ) / T = 1 / (1 - theta T) from ratio_eq h0, e3, e6, e7, e8, e15]
    generalize theta T ^ (1 / 2 : ℝ) = s at *
    rw [← h2]
    show (22.064e6 : ℝ) * _ = _
    congr 2
    rw [one_div, mul_comm, div_eq_mul_inv, mul_comm]
  · rw [saturatedPressure_eq h0 (hT ▸ h)]
    have : 0 < Pcr := by norm_num [Pcr]
    positivity
  · rw [saturatedPressure_eq (by norm_num) (by norm_num [Tcr])]
    have : theta 647.096 = 0 := by norm_num [theta]
    rw [this, zero_rpow (by norm_num)]
    norm_num [pexp, Pcr]
  · rw [saturatedPressure_eq h0 (by rw [hT]; linarith), saturatedPressure_eq (by linarith) (hT ▸ hU)]
    refine mul_lt_mul_of_pos_left (exp_lt_exp.2 ?_) (by norm_num [Pcr])
    have tU := theta_nonneg (hT ▸ hU : U ≤ Tcr)
    have tT := theta_anti hTU
    refine pexp_anti ⟨by positivity, ?_⟩ ⟨rpow_nonneg (by linarith) _, ?_⟩ (rpow_lt_rpow tU tT (by norm_num))
    · exact rpow_lt_one tU (theta_lt_one (by linarith)) (by norm_num)
    · exact rpow_lt_one (by linarith) (theta_lt_one h0) (by norm_num)

/-- Between freezing and the critical point. -/
example : (0 : ℝ) < 373.15 ∧ (373.15 : ℝ) < 500 ∧ (500 : ℝ) ≤ 647.096 := by norm_num

/-! ### Saturated liquid -/

/-- The relative density of the liquid as a function of the cube root of the distance. -/
noncomputable def lrel (x : ℝ) : ℝ :=
  1 + 1.99274064 * x + 1.09965342 * x ^ 2 + -0.510839303 * x ^ 5 + -1.75493479 * x ^ 16 + -45.5170352 * x ^ 43 + -6.74694450e5 * x ^ 110

theorem saturatedLiquid_eq {T : ℝ} (h : T ≤ Tcr) : saturatedLiquidDensity T = Dcr * lrel (theta T ^ (1 / 3 : ℝ)) := by
  have ht := theta_nonneg h
  have h3 : (theta T ^ (1 / 3 : ℝ)) ^ 3 = theta T := by exact_mod_cast root_pow_self ht 3 (by norm_num)
  unfold saturatedLiquidDensity lrel
  dsimp only
  rw [← theta_eq]
  generalize theta T ^ (1 / 3 : ℝ) = x at *
  rw [← h3]
  congr 1
  ring

theorem lrel_hasDeriv (x : ℝ) : HasDerivAt lrel (1.99274064 + 2.19930684 * x - 2.554196515 * x ^ 4 - 28.07895664 * x ^ 15 - 1957.2325136 * x ^ 42 -
    74216389.5 * x ^ 109) x := by
  have p := fun k : ℕ => hasDerivAt_pow k x
  have := ((((((hasDerivAt_const x (1 : ℝ)).add ((hasDerivAt_id x).const_mul 1.99274064)).add ((p 2).const_mul 1.09965342)).add
    ((p 5).const_mul (-0.510839303))).add ((p 16).const_mul (-1.75493479))).add ((p 43).const_mul (-45.5170352))).add ((p 110).const_mul (-6.74694450e5))
  refine HasDerivAt.congr_deriv (f := lrel) this ?_
  norm_num
  ring

/-- Powers below a bound. -/
theorem pow_le_lin {x X : ℝ} (h0 : 0 ≤ x) (h : x ≤ X) (k : ℕ) : x ^ (k + 1) ≤ x * X ^ k := by
  rw [pow_succ, mul_comm]
  exact mul_le_mul_of_nonneg_left (pow_le_pow_left₀ h0 h k) h0

theorem lrel_deriv_pos {x : ℝ} (h0 : 0 ≤ x) (h : x ≤ 0.828) : 0 < deriv lrel x := by
  rw [(lrel_hasDeriv x).deriv]
  have a := pow_le_lin h0 h 3
  have b := pow_le_lin h0 h 14
  have c := pow_le_lin h0 h 41
  have d := pow_le_lin h0 h 108
  norm_num only at a b c d
  nlinarith

theorem lrel_mono : StrictMonoOn lrel (Set.Icc 0 0.828) := by
  refine strictMonoOn_of_deriv_pos (convex_Icc _ _) ?_ ?_
  · intro x _
    exact (lrel_hasDeriv x).continuousAt.continuousWithinAt
  · intro x hx
    rw [interior_Icc] at hx
    exact lrel_deriv_pos hx.1.le hx.2.le

theorem lrel_gt {x : ℝ} (h0 : 0 < x) (h : x ≤ 0.834) : 1 < lrel x := by
  have a := pow_le_lin h0.le h 4
  have b := pow_le_lin h0.le h 15
  have c := pow_le_lin h0.le h 42
  have d := pow_le_lin h0.le h 109
  norm_num only at a b c d
  unfold lrel
  nlinarith [sq_nonneg x]

theorem root3_le {T : ℝ} (h : T ≤ Tcr) {X : ℝ} (hX : 0 ≤ X) (hb : theta T ≤ X ^ 3) : theta T ^ (1 / 3 : ℝ) ≤ X := by
  have ht := theta_nonneg h
  have h3 : (theta T ^ (1 / 3 : ℝ)) ^ 3 = theta T := by exact_mod_cast root_pow_self ht 3 (by norm_num)
  exact le_of_pow_le_pow_left₀ (n := 3) (by norm_num) hX (by rw [h3]; exact hb)

/-- **C99**, density of the saturated liquid: the published equation; the critical density at the critical temperature; from the triple point on
greater than the critical density, and from 280 K on (above the maximum of the density) strictly decreasing with temperature. -/
theorem C99_liquid :
    (∀ T, T ≤ 647.096 → saturatedLiquidDensity T = liquidDensity T) ∧ saturatedLiquidDensity 647.096 = 322 ∧
      (∀ T, 273.16 ≤ T → T < 647.096 → 322 < saturatedLiquidDensity T) ∧
      ∀ T U, 280 ≤ T → T < U → U ≤ 647.096 → saturatedLiquidDensity U < saturatedLiquidDensity T := by
  have hT : Tcr = 647.096 := rfl
  refine ⟨fun T h => ?_, ?_, fun T h1 h2 => ?_, fun T U h1 hTU hU => ?_⟩
  · have ht := theta_nonneg (hT ▸ h : T ≤ Tcr)
    have p := fun k : ℕ => root_pow ht 3 k
    have e2 : theta T ^ (2 / 3 : ℝ) = (theta T ^ (1 / 3 : ℝ)) ^ 2 := by exact_mod_cast p 2
    have e5 : theta T ^ (5 / 3 : ℝ) = (theta T ^ (1 / 3 : ℝ)) ^ 5 := by exact_mod_cast p 5
    have e16 : theta T ^ (16 / 3 : ℝ) = (theta T ^ (1 / 3 : ℝ)) ^ 16 := by exact_mod_cast p 16
    have e43 : theta T ^ (43 / 3 : ℝ) = (theta T ^ (1 / 3 : ℝ)) ^ 43 := by exact_mod_cast p 43
    have e110 : theta T ^ (110 / 3 : ℝ) = (theta T ^ (1 / 3 : ℝ)) ^ 110 := by exact_mod_cast p 110
    rw [saturatedLiquid_eq (hT ▸ h), liquidDensity, lrel, e2, e5, e16, e43, e110]
    norm_num [Dcr]
  · rw [saturatedLiquid_eq (by norm_num [Tcr])]
    have : theta 647.096 = 0 := by norm_num [theta]
    rw [this, zero_rpow (by norm_num)]
    norm_num [lrel, Dcr]
  · have hle : T ≤ Tcr := by rw [hT]; exact h2.le
    rw [saturatedLiquid_eq hle]
    have hpos : 0 < theta T := by
      rw [theta, sub_pos, div_lt_one (by norm_num)]; exact h2
    have hb : theta T ≤ 0.834 ^ 3 := by
      rw [theta]
      have : (273.16 : ℝ) / 647.096 ≤ T / 647.096 := div_le_div_of_nonneg_right h1 (by norm_num)
      norm_num at this ⊢
      linarith
    have := lrel_gt (rpow_pos_of_pos hpos (1 / 3)) (root3_le hle (by norm_num) hb)
    rw [show Dcr = 322 by norm_num [Dcr]]
    linarith
  · have hle : T ≤ Tcr := by rw [hT]; linarith
    rw [saturatedLiquid_eq hle, saturatedLiquid_eq (hT ▸ hU)]
    have tU := theta_nonneg (hT ▸ hU : U ≤ Tcr)
    have tT := theta_anti hTU
    have hb : theta T ≤ 0.828 ^ 3 := by
      rw [theta]
      have : (280 : ℝ) / 647.096 ≤ T / 647.096 := div_le_div_of_nonneg_right h1 (by norm_num)
      norm_num at this ⊢
      linarith
    have hx := root3_le hle (by norm_num) hb
    have hlt : theta U ^ (1 / 3 : ℝ) < theta T ^ (1 / 3 : ℝ) := rpow_lt_rpow tU tT (by norm_num)
    refine mul_lt_mul_of_pos_left ?_ (by norm_num [Dcr])
    exact lrel_mono ⟨by positivity, by linarith⟩ ⟨rpow_nonneg (by linarith) _, hx⟩ hlt

/-! ### Saturated vapour -/

/-- Minus the exponent of the published equation, as a function of the sixth root of the distance. -/
noncomputable def vexp (x : ℝ) : ℝ :=
  2.03150240 * x ^ 2 + 2.68302940 * x ^ 4 + 5.38626492 * x ^ 8 + 17.2991605 * x ^ 18 + 44.7586581 * x ^ 37 + 63.9201063 * x ^ 71

theorem vexp_lt {x y : ℝ} (hx : 0 ≤ x) (h : x < y) : vexp x < vexp y := by
  have p := fun k : ℕ => pow_le_pow_left₀ hx h.le k
  have := pow_lt_pow_left₀ h hx (by norm_num : (2 : ℕ) ≠ 0)
  have := p 4
  have := p 8
  have := p 18
  have := p 37
  have := p 71
  unfold vexp
  linarith

theorem vexp_zero : vexp 0 = 0 := by norm_num [vexp]

theorem vapour_code {T : ℝ} (h0 : 0 < T) (_ : T ≤ Tcr) :
    saturatedVapourDensity T = Dcr * exp (-(1 / (1 - theta T) * vexp (theta T ^ (1 / 6 : ℝ)))) := by
  unfold saturatedVapourDensity vexp
  dsimp only
  rw [← theta_eq, ratio_eq h0]
  generalize theta T ^ (1 / 6 : ℝ) = x
  congr 2
  ring

theorem vapour_published {T : ℝ} (h : T ≤ Tcr) : vapourDensity T = Dcr * exp (-vexp (theta T ^ (1 / 6 : ℝ))) := by
  have ht := theta_nonneg h
  have p := fun k : ℕ => root_pow ht 6 k
  have e2 : theta T ^ (2 / 6 : ℝ) = (theta T ^ (1 / 6 : ℝ)) ^ 2 := by exact_mod_cast p 2
  have e4 : theta T ^ (4 / 6 : ℝ) = (theta T ^ (1 / 6 : ℝ)) ^ 4 := by exact_mod_cast p 4
  have e8 : theta T ^ (8 / 6 : ℝ) = (theta T ^ (1 / 6 : ℝ)) ^ 8 := by exact_mod_cast p 8
  have e18 : theta T ^ (18 / 6 : ℝ) = (theta T ^ (1 / 6 : ℝ)) ^ 18 := by exact_mod_cast p 18
  have e37 : theta T ^ (37 / 6 : ℝ) = (theta T ^ (1 / 6 : ℝ)) ^ 37 := by exact_mod_cast p 37
  have e71 : theta T ^ (71 / 6 : ℝ) = (theta T ^ (1 / 6 : ℝ)) ^ 71 := by exact_mod_cast p 71
  rw [vapourDensity, e2, e4, e8, e18, e37, e71, vexp]
  generalize theta T ^ (1 / 6 : ℝ) = x
  rw [show Dcr = 322 by norm_num [Dcr]]
  congr 2
  ring

/-- **C99**, density of the saturated vapour, what holds: the critical density at the critical temperature; below it positive, less than the critical
density and so less than the density of the saturated liquid, and strictly increasing with temperature. Missing: the published values. -/
theorem C99_vapour_partial :
    saturatedVapourDensity 647.096 = 322 ∧
      (∀ T, 0 < T → T < 647.096 → 0 < saturatedVapourDensity T ∧ saturatedVapourDensity T < 322) ∧
      (∀ T, 273.16 ≤ T → T < 647.096 → saturatedVapourDensity T < saturatedLiquidDensity T) ∧
      ∀ T U, 0 < T → T < U → U ≤ 647.096 → saturatedVapourDensity T < saturatedVapourDensity U := by
  have hT : Tcr = 647.096 := rfl
  have hD : Dcr = 322 := by norm_num [Dcr]
  have c1 : saturatedVapourDensity 647.096 = 322 := by
    rw [vapour_code (by norm_num) (by norm_num [Tcr])]
    have : theta 647.096 = 0 := by norm_num [theta]
    rw [this, zero_rpow (by norm_num), vexp_zero, hD]
    norm_num
  have c4 : ∀ T U, 0 < T → T < U → U ≤ 647.096 → saturatedVapourDensity T < saturatedVapourDensity U := by
    intro T U h0 hTU hU
    rw [vapour_code h0 (by rw [hT]; linarith), vapour_code (by linarith) (hT ▸ hU), hD]
    refine mul_lt_mul_of_pos_left (exp_lt_exp.2 (neg_lt_neg ?_)) (by norm_num)
    have tU := theta_nonneg (hT ▸ hU : U ≤ Tcr)
    have tT := theta_anti hTU
    have hlt : theta U ^ (1 / 6 : ℝ) < theta T ^ (1 / 6 : ℝ) := rpow_lt_rpow tU tT (by norm_num)
    have hv := vexp_lt (by positivity) hlt
    have hv0 : 0 ≤ vexp (theta U ^ (1 / 6 : ℝ)) := by unfold vexp; positivity
    have h1 := theta_lt_one h0
    have hr : 1 / (1 - theta U) ≤ 1 / (1 - theta T) := one_div_le_one_div_of_le (by linarith) (by linarith)
    have hp : 0 < 1 / (1 - theta T) := by have : 0 < 1 - theta T := by linarith
                                          positivity
    calc 1 / (1 - theta U) * vexp (theta U ^ (1 / 6 : ℝ)) ≤ 1 / (1 - theta T) * vexp (theta U ^ (1 / 6 : ℝ)) := mul_le_mul_of_nonneg_right hr hv0
      _ < _ := mul_lt_mul_of_pos_left hv hp
  have c2 : ∀ T, 0 < T → T < 647.096 → 0 < saturatedVapourDensity T ∧ saturatedVapourDensity T < 322 := by
    intro T h0 h
    refine ⟨?_, ?_⟩
    · rw [vapour_code h0 (by rw [hT]; linarith), hD]; positivity
    · have := c4 T 647.096 h0 h le_rfl
      rwa [c1] at this
  refine ⟨c1, c2, fun T h1 h2 => ?_, c4⟩
  exact (c2 T (by linarith) h2).2.trans (C99_liquid.2.2.1 T h1 h2)

/-- **C99**, the density of the saturated vapour is wrong in the code: the published equation has no factor `Tcr / T`, so that at every temperature below
the critical one the returned density is smaller than the published one (which is equal to it at the critical temperature only). -/
theorem C99_vapour_wrong : ∀ T, 0 < T → T < 647.096 → saturatedVapourDensity T < vapourDensity T := by
  intro T h0 h
  have hT : Tcr = 647.096 := rfl
  have hle : T ≤ Tcr := by rw [hT]; exact h.le
  rw [vapour_code h0 hle, vapour_published hle]
  refine mul_lt_mul_of_pos_left (exp_lt_exp.2 (neg_lt_neg ?_)) (by norm_num [Dcr])
  have hpos : 0 < theta T := by rw [theta, sub_pos, div_lt_one (by norm_num)]; exact h
  have h1 := theta_lt_one h0
  have hv := vexp_lt le_rfl (rpow_pos_of_pos hpos (1 / 6))
  rw [vexp_zero] at hv
  have hr : 1 < 1 / (1 - theta T) := by rw [lt_div_iff₀ (by linarith)]; linarith
  nlinarith

/-- Water between 25 and 100 °C meets all the conditions; the vapour gets denser and the liquid lighter. -/
example : saturatedVapourDensity 298.15 < saturatedVapourDensity 373.15 ∧ saturatedLiquidDensity 373.15 < saturatedLiquidDensity 298.15 ∧
    saturatedPressure 298.15 < saturatedPressure 373.15 ∧ saturatedVapourDensity 373.15 < vapourDensity 373.15 :=
  ⟨C99_vapour_partial.2.2.2 _ _ (by norm_num) (by norm_num) (by norm_num), C99_liquid.2.2.2 _ _ (by norm_num) (by norm_num) (by norm_num),
    C99_pressure.2.2 _ _ (by norm_num) (by norm_num) (by norm_num), C99_vapour_wrong _ (by norm_num) (by norm_num)⟩

end Verif.Saturation
