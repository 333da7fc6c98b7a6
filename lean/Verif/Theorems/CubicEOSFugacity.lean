import Verif.Theorems.CubicEOS
import Mathlib.Analysis.Calculus.Deriv.Pi
import Mathlib.Analysis.Calculus.Deriv.Prod
import Mathlib.Algebra.BigOperators.Field

/-!
# Theorems C47: fugacity coefficients of the cubic equations of state
-/

namespace Verif.CubicEOS

variable {n : Nat}

theorem ln_phi_eq (e : Eos n) (props : Props n) (T P : ℝ) (x : Fin n → ℝ) (Z : ℝ) (hreg : Regular e T P x Z) (hroot : poly e T P x Z = 0) (k : Fin n) :
    (evaluate e props T P x Z).ln_phi k = bbar e k / b e k * (Z - 1) - Real.log (Z - beta e T P x) -
      (1 + abar e T x k / amix e T x - bbar e k / bmix e x) * q e T x * cI (epsilon e.model) (sigma e.model) (beta e T P x) Z := by
  show cLnPhi _ _ _ _ _ _ _ = _
  rw [cLnPhi_closed hreg.beta_ne hreg.eps hreg.sig hreg.Zb (factored hroot), mul_div_cancel_right₀ _ hreg.beta_ne]

theorem b_ne (e : Eos n) (k : Fin n) (h1 : e.Tcr k ≠ 0) (h2 : e.Pcr k ≠ 0) : b e k ≠ 0 := by
  have : Omega e.model ≠ 0 := by cases e.model <;> norm_num [Omega]
  exact div_ne_zero (mul_ne_zero (mul_ne_zero this R_ne) h1) h2

/-- **C47 (what is computed).** At every root, the logarithm of a fugacity coefficient in closed form: the term `Z - 1` has the factor 1 for all species. -/
theorem C47_closed_form (e : Eos n) (props : Props n) (T P : ℝ) (x : Fin n → ℝ) (Z : ℝ) (hreg : Regular e T P x Z) (hroot : poly e T P x Z = 0) (k : Fin n)
    (h1 : e.Tcr k ≠ 0) (h2 : e.Pcr k ≠ 0) :
    (evaluate e props T P x Z).ln_phi k = (Z - 1) - Real.log (Z - beta e T P x) -
      (1 + abar e T x k / amix e T x - bbar e k / bmix e x) * q e T x * cI (epsilon e.model) (sigma e.model) (beta e T P x) Z := by
  rw [ln_phi_eq e props T P x Z hreg hroot k, show bbar e k / b e k = 1 from div_self (b_ne e k h1 h2), one_mul]

/-- **C47 (sum rule).** The mole-fraction-weighted sum of the logarithms of the fugacity coefficients is the residual Gibbs energy divided by `RT`. -/
theorem C47_sum (e : Eos n) (props : Props n) (T P : ℝ) (x : Fin n → ℝ) (Z : ℝ) (hreg : Regular e T P x Z) (hroot : poly e T P x Z = 0) (hx : ∑ i, x i = 1)
    (h1 : ∀ k, e.Tcr k ≠ 0) (h2 : ∀ k, e.Pcr k ≠ 0) :
    ∑ k, x k * (evaluate e props T P x Z).ln_phi k = (evaluate e props T P x Z).Gres / (R * T) := by
  have hRT : R * T ≠ 0 := mul_ne_zero R_ne hreg.T0
  have hG : (evaluate e props T P x Z).Gres / (R * T) = Z - 1 - Real.log (Z - beta e T P x) - q e T x * cI (epsilon e.model) (sigma e.model) (beta e T P x) Z := by
    show R * T * _ / (R * T) = _
    rw [mul_div_cancel_left₀ _ hRT]
    rfl
  rw [hG]
  have hs : ∀ k, x k * (evaluate e props T P x Z).ln_phi k = x k * (Z - 1 - Real.log (Z - beta e T P x) - q e T x * cI (epsilon e.model) (sigma e.model) (beta e T P x) Z) -
      x k * abar e T x k * (q e T x * cI (epsilon e.model) (sigma e.model) (beta e T P x) Z / amix e T x) +
      x k * bbar e k * (q e T x * cI (epsilon e.model) (sigma e.model) (beta e T P x) Z / bmix e x) := by
    intro k
    rw [C47_closed_form e props T P x Z hreg hroot k (h1 k) (h2 k)]
    ring
  have hab : ∑ k, x k * abar e T x k = amix e T x := by
    have : ∀ k, x k * abar e T x k = 2 * (∑ j, x k * x j * aij e T k j) - x k * amix e T x := by
      intro k
      unfold abar
      rw [mul_sub, Finset.mul_sum, Finset.mul_sum]
      congr 1
      exact Finset.sum_congr rfl fun j _ => by ring
    simp only [this]
    rw [Finset.sum_sub_distrib, ← Finset.mul_sum, ← Finset.sum_mul, hx]
    unfold amix
    ring
  simp only [hs]
  rw [Finset.sum_add_distrib, Finset.sum_sub_distrib, ← Finset.sum_mul, ← Finset.sum_mul, ← Finset.sum_mul, hx, hab]
  show _ - _ + bmix e x * _ = _
  have hb := hreg.b
  have ha := hreg.a
  field_simp
  ring

/-- **C47 (error).** The computed coefficient differs from the textbook's by `(1 - b_k/b) (Z - 1)`. -/
theorem C47_error (e : Eos n) (props : Props n) (T P : ℝ) (x : Fin n → ℝ) (Z : ℝ) (hreg : Regular e T P x Z) (hroot : poly e T P x Z = 0) (k : Fin n)
    (h1 : e.Tcr k ≠ 0) (h2 : e.Pcr k ≠ 0) :
    (evaluate e props T P x Z).ln_phi k - lnPhiTextbook e T P x Z k = (1 - bbar e k / bmix e x) * (Z - 1) := by
  rw [C47_closed_form e props T P x Z hreg hroot k h1 h2]
  unfold lnPhiTextbook
  ring

/-- **C47 (textbook), partial.** The computed coefficient is the textbook's for a species whose co-volume is that of the mixture, in particular for a pure
fluid; it is not for any other species unless `Z = 1` (missing: see `C47_error`). -/
theorem C47_textbook_partial (e : Eos n) (props : Props n) (T P : ℝ) (x : Fin n → ℝ) (Z : ℝ) (hreg : Regular e T P x Z) (hroot : poly e T P x Z = 0) (k : Fin n)
    (h1 : e.Tcr k ≠ 0) (h2 : e.Pcr k ≠ 0) :
    (evaluate e props T P x Z).ln_phi k = lnPhiTextbook e T P x Z k ↔ bbar e k = bmix e x ∨ Z = 1 := by
  rw [← sub_eq_zero, C47_error e props T P x Z hreg hroot k h1 h2, mul_eq_zero, sub_eq_zero, sub_eq_zero, eq_comm, div_eq_one_iff_eq hreg.b]

/-- The two species of the example have different co-volumes: their computed coefficients are too large by 1/2 and too small by 1/2. -/
theorem C47_wrong (props : Props 2) :
    (evaluate Ex.mix props Ex.T Ex.P Ex.x Ex.Z).ln_phi 0 = lnPhiTextbook Ex.mix Ex.T Ex.P Ex.x Ex.Z 0 + 1 / 2 ∧
    (evaluate Ex.mix props Ex.T Ex.P Ex.x Ex.Z).ln_phi 1 = lnPhiTextbook Ex.mix Ex.T Ex.P Ex.x Ex.Z 1 - 1 / 2 := by
  have hR := R_ne
  have h0 := C47_error Ex.mix props Ex.T Ex.P Ex.x Ex.Z Ex.regular Ex.root 0 (by simp [Ex.mix]) (by simp [Ex.mix])
  have h1 := C47_error Ex.mix props Ex.T Ex.P Ex.x Ex.Z Ex.regular Ex.root 1 (by simp [Ex.mix]) (by simp [Ex.mix])
  rw [Ex.bbar_eq, Ex.bmix_eq] at h0 h1
  have e0 : R / 8 * Ex.mix.Tcr 0 / (R / 4) = 1 / 2 := by simp only [Ex.mix, Matrix.cons_val_zero]; field_simp; norm_num
  have e1 : R / 8 * Ex.mix.Tcr 1 / (R / 4) = 3 / 2 := by simp only [Ex.mix, Matrix.cons_val_one, Matrix.cons_val_fin_one]; field_simp; norm_num
  rw [e0] at h0
  rw [e1] at h1
  have hz : Ex.Z - 1 = 1 := by norm_num [Ex.Z]
  rw [hz] at h0 h1
  constructor <;> linarith

example (props : Props 2) : ∑ k, Ex.x k * (evaluate Ex.mix props Ex.T Ex.P Ex.x Ex.Z).ln_phi k = (evaluate Ex.mix props Ex.T Ex.P Ex.x Ex.Z).Gres / (R * Ex.T) :=
  C47_sum Ex.mix props Ex.T Ex.P Ex.x Ex.Z Ex.regular Ex.root (by simp [Ex.x]; norm_num) (by intro k; fin_cases k <;> simp [Ex.mix]) (by intro k; fin_cases k <;> simp [Ex.mix])

/-! ## The textbook formula is the partial molar property -/

theorem fractions_hasDerivAt (m : Fin n → ℝ) (k i : Fin n) (hN : ∑ j, m j ≠ 0) :
    HasDerivAt (fun t => fractions (Function.update m k t) i) (((if i = k then 1 else 0) - fractions m i) / ∑ j, m j) (m k) := by
  have d : ∀ i, HasDerivAt (fun t => Function.update m k t i) (if i = k then 1 else 0) (m k) := by
    intro i
    have h := hasDerivAt_pi.1 (hasDerivAt_update m k (m k)) i
    refine h.congr_deriv ?_
    rw [Pi.single_apply]
  have dN : HasDerivAt (fun t => ∑ j, Function.update m k t j) 1 (m k) := by
    have := HasDerivAt.fun_sum (u := Finset.univ) fun j _ => d j
    refine this.congr_deriv ?_
    simp
  have hu : Function.update m k (m k) = m := Function.update_eq_self k m
  refine ((d i).div dN (by rw [hu]; exact hN)).congr_deriv ?_
  simp only [hu]
  unfold fractions
  field_simp

theorem bmix_hasDerivAt (e : Eos n) (m : Fin n → ℝ) (k : Fin n) (hN : ∑ j, m j ≠ 0) :
    HasDerivAt (fun t => bmix e (fractions (Function.update m k t))) ((bbar e k - bmix e (fractions m)) / ∑ j, m j) (m k) := by
  have := HasDerivAt.fun_sum (u := Finset.univ) fun i _ => (fractions_hasDerivAt m k i hN).mul_const (bbar e i)
  refine this.congr_deriv ?_
  have h1 : ∀ i, ((if i = k then (1 : ℝ) else 0) - fractions m i) / (∑ j, m j) * bbar e i =
      ((if i = k then bbar e i else 0) - fractions m i * bbar e i) / ∑ j, m j := by
    intro i
    split_ifs <;> ring
  simp only [h1]
  rw [← Finset.sum_div, Finset.sum_sub_distrib]
  simp [bmix]

theorem amix_hasDerivAt (e : Eos n) (T : ℝ) (m : Fin n → ℝ) (k : Fin n) (hN : ∑ j, m j ≠ 0) (hsymm : ∀ i j, aij e T i j = aij e T j i) :
    HasDerivAt (fun t => amix e T (fractions (Function.update m k t))) ((abar e T (fractions m) k - amix e T (fractions m)) / ∑ j, m j) (m k) := by
  have hu : Function.update m k (m k) = m := Function.update_eq_self k m
  have := HasDerivAt.fun_sum (u := Finset.univ) fun i _ => HasDerivAt.fun_sum (u := Finset.univ) fun j _ =>
    ((fractions_hasDerivAt m k i hN).mul (fractions_hasDerivAt m k j hN)).mul_const (aij e T i j)
  refine this.congr_deriv ?_
  simp only [hu]
  have h1 : ∀ i j, (((if i = k then (1 : ℝ) else 0) - fractions m i) / (∑ j, m j) * fractions m j + fractions m i * (((if j = k then (1 : ℝ) else 0) - fractions m j) / ∑ j, m j)) *
      aij e T i j = ((if i = k then fractions m j * aij e T i j else 0) + (if j = k then fractions m i * aij e T j i else 0) - 2 * (fractions m i * fractions m j * aij e T i j)) / ∑ j, m j := by
    intro i j
    rw [hsymm j i]
    split_ifs <;> ring
  simp only [h1]
  simp only [← Finset.sum_div, Finset.sum_sub_distrib, Finset.sum_add_distrib, ← Finset.mul_sum]
  congr 1
  have h2 : ∑ i, ∑ j, (if i = k then fractions m j * aij e T i j else 0) = ∑ j, fractions m j * aij e T k j := by
    rw [Finset.sum_comm]
    simp
  have h3 : ∑ i, ∑ j, (if j = k then fractions m i * aij e T j i else 0) = ∑ j, fractions m j * aij e T k j := by
    simp
  rw [h2, h3]
  have h4 : abar e T (fractions m) k = 2 * (∑ j, fractions m j * aij e T k j) - amix e T (fractions m) := by
    unfold abar
    rw [Finset.mul_sum]
    congr 1
    exact Finset.sum_congr rfl fun j _ => by ring
  rw [h4]
  unfold amix
  ring

/-- **C47 (partial molar property).** Along every continuous family of simple roots, the textbook formula is the derivative of the total residual Gibbs
energy (over `RT`) with respect to the amount of the species, at constant temperature, pressure and amounts of the other species. -/
theorem C47_partial_molar (e : Eos n) (props : Props n) (T P : ℝ) (m : Fin n → ℝ) (k : Fin n) (Z : ℝ → ℝ) (hN : ∑ j, m j ≠ 0)
    (hsymm : ∀ i j, kij e T i j = kij e T j i) (hreg : Regular e T P (fractions m) (Z (m k))) (hc : ContinuousAt Z (m k))
    (hroot : ∀ᶠ t in nhds (m k), poly e T P (fractions (Function.update m k t)) (Z t) = 0) (hD : Simple e T P (fractions m) (Z (m k))) :
    HasDerivAt (fun t => (∑ j, Function.update m k t j) * ((evaluate e props T P (fractions (Function.update m k t)) (Z t)).Gres / (R * T)))
      (lnPhiTextbook e T P (fractions m) (Z (m k)) k) (m k) := by
  have hu : Function.update m k (m k) = m := Function.update_eq_self k m
  have hR := R_ne
  have hT := hreg.T0
  have hP := hreg.P0
  have ha := hreg.a
  have hb := hreg.b
  have hRT : R * T ≠ 0 := mul_ne_zero hR hT
  have hs : ∀ i j, aij e T i j = aij e T j i := by
    intro i j
    unfold aij s
    rw [r_eq, r_eq, hsymm i j, mul_comm (a e T i)]
  have da := amix_hasDerivAt e T m k hN hs
  have db := bmix_hasDerivAt e m k hN
  have dβ : HasDerivAt (fun t => beta e T P (fractions (Function.update m k t)))
      (beta e T P (fractions m) * (bbar e k / bmix e (fractions m) - 1) / ∑ j, m j) (m k) := by
    refine ((db.const_mul P).div_const (R * T)).congr_deriv ?_
    unfold beta
    field_simp
  have dq : HasDerivAt (fun t => q e T (fractions (Function.update m k t)))
      (q e T (fractions m) * (abar e T (fractions m) k / amix e T (fractions m) - bbar e k / bmix e (fractions m)) / ∑ j, m j) (m k) := by
    have hne : bmix e (fractions (Function.update m k (m k))) * R * T ≠ 0 := by rw [hu]; exact mul_ne_zero (mul_ne_zero hb hR) hT
    refine (da.div ((db.mul_const R).mul_const T) hne).congr_deriv ?_
    simp only [hu]
    unfold q
    field_simp
    ring
  have hroot0 : poly e T P (fractions m) (Z (m k)) = 0 := by
    have := hroot.self_of_nhds
    rwa [hu] at this
  obtain ⟨a1, a2, a3⟩ := coefficients_hasDerivAt (epsilon e.model) (sigma e.model) (fun t => beta e T P (fractions (Function.update m k t)))
    (fun t => q e T (fractions (Function.update m k t))) _ _ (m k) dβ dq
  have dZ := root_hasDerivAt _ _ _ Z _ _ _ (m k) a1 a2 a3 hc hroot (by simp only [hu]; exact hD)
  have dG := cG_hasDerivAt (ε := epsilon e.model) (σ := sigma e.model) (fun t => beta e T P (fractions (Function.update m k t))) Z
    (fun t => q e T (fractions (Function.update m k t))) _ _ _ (m k) dβ dZ dq (by simp only [hu]; exact hreg.beta_ne)
    (by simp only [hu]; exact hreg.eps) (by simp only [hu]; exact hreg.sig) (by simp only [hu]; exact hreg.Zb) (by simp only [hu]; exact factored hroot0)
  have dN : HasDerivAt (fun t => ∑ j, Function.update m k t j) 1 (m k) := by
    have := HasDerivAt.fun_sum (u := Finset.univ) fun j _ => hasDerivAt_pi.1 (hasDerivAt_update m k (m k)) j
    refine this.congr_deriv ?_
    simp [Pi.single_apply]
  have hG : ∀ t, (evaluate e props T P (fractions (Function.update m k t)) (Z t)).Gres / (R * T) =
      cG (epsilon e.model) (sigma e.model) (beta e T P (fractions (Function.update m k t))) (q e T (fractions (Function.update m k t))) (Z t) := by
    intro t
    show R * T * _ / (R * T) = _
    rw [mul_div_cancel_left₀ _ hRT]
  simp only [hG]
  refine (dN.mul dG).congr_deriv ?_
  simp only [hu]
  unfold lnPhiTextbook cG
  have hβ := hreg.beta_ne
  generalize beta e T P (fractions m) = bb at *
  generalize cI (epsilon e.model) (sigma e.model) bb (Z (m k)) = I at *
  generalize Real.log (Z (m k) - bb) = L at *
  generalize (∑ j, m j) = N at *
  generalize q e T (fractions m) = qq at *
  field_simp
  ring

/-- Amounts 1/2 and 1/2 of the two species of the example meet the hypotheses. -/
example : ∃ Z : ℝ → ℝ, ∑ j, Ex.x j ≠ 0 ∧ (∀ i j, kij Ex.mix Ex.T i j = kij Ex.mix Ex.T j i) ∧ Regular Ex.mix Ex.T Ex.P (fractions Ex.x) (Z (Ex.x 0)) ∧
    ContinuousAt Z (Ex.x 0) ∧ (∀ᶠ t in nhds (Ex.x 0), poly Ex.mix Ex.T Ex.P (fractions (Function.update Ex.x 0 t)) (Z t) = 0) ∧
    Simple Ex.mix Ex.T Ex.P (fractions Ex.x) (Z (Ex.x 0)) := by
  have hsum : ∑ j, Ex.x j = 1 := by simp [Ex.x]; norm_num
  have hN : ∑ j, Ex.x j ≠ 0 := by rw [hsum]; exact one_ne_zero
  have hf : fractions Ex.x = Ex.x := by funext i; simp [fractions, hsum]
  have hu : Function.update Ex.x 0 (Ex.x 0) = Ex.x := Function.update_eq_self 0 Ex.x
  have hR := R_ne
  have hs : ∀ i j, aij Ex.mix Ex.T i j = aij Ex.mix Ex.T j i := by
    intro i j
    unfold aij s
    rw [r_eq, r_eq, mul_comm (a _ _ i)]
    rfl
  have da := amix_hasDerivAt Ex.mix Ex.T Ex.x 0 hN hs
  have db := bmix_hasDerivAt Ex.mix Ex.x 0 hN
  have cβ : ContinuousAt (fun t => beta Ex.mix Ex.T Ex.P (fractions (Function.update Ex.x 0 t))) (Ex.x 0) :=
    ((db.continuousAt.const_mul Ex.P).div_const (R * Ex.T))
  have cq : ContinuousAt (fun t => q Ex.mix Ex.T (fractions (Function.update Ex.x 0 t))) (Ex.x 0) := by
    refine da.continuousAt.div ((db.continuousAt.mul_const R).mul_const Ex.T) ?_
    rw [hu, hf]
    exact mul_ne_zero (mul_ne_zero Ex.regular.b hR) Ex.regular.T0
  have hroot := Ex.root
  obtain ⟨Z, h1, h2, h3⟩ := exists_branch
    (fun t => cA (epsilon Ex.mix.model) (sigma Ex.mix.model) (beta Ex.mix Ex.T Ex.P (fractions (Function.update Ex.x 0 t))))
    (fun t => cB (epsilon Ex.mix.model) (sigma Ex.mix.model) (beta Ex.mix Ex.T Ex.P (fractions (Function.update Ex.x 0 t))) (q Ex.mix Ex.T (fractions (Function.update Ex.x 0 t))))
    (fun t => cC (epsilon Ex.mix.model) (sigma Ex.mix.model) (beta Ex.mix Ex.T Ex.P (fractions (Function.update Ex.x 0 t))) (q Ex.mix Ex.T (fractions (Function.update Ex.x 0 t))))
    (Ex.x 0) Ex.Z (by unfold cA; fun_prop) (by unfold cB; fun_prop) (by unfold cC; fun_prop)
    (by simp only [hu, hf]; exact Ex.root) (by simp only [hu, hf]; exact Ex.simple)
  refine ⟨Z, hN, fun _ _ => rfl, ?_, h2, h3, ?_⟩
  · rw [h1, hf]; exact Ex.regular
  · rw [h1, hf]; exact Ex.simple

end Verif.CubicEOS
