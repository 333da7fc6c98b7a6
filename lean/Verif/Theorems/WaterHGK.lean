import Verif.Lemmas.HGK
import Mathlib.Analysis.Complex.Exponential

/-!
# C65 : the derivatives of the Haar, Gallagher and Kell state
-/

namespace Verif.Water

open Real

/-- The temperatures and densities for which the equation of state is defined : above 259 K, at most
2800 kg/m³, and not at the two densities where the last contribution divides by zero. -/
structure HgkRange (T D : ℝ) : Prop where
  temperature : 259 ≤ T
  positive : 0 < D
  density : D ≤ 2800
  r1 : D ≠ 1.0038928 * hgkDref
  r2 : D ≠ 4.8778492 * hgkDref

/-- How much `hTTT` lacks : the term `f/t²` of line 295 should be `2f/t²`. -/
noncomputable def hgkErrTTT (T D : ℝ) : ℝ :=
  3 * (hgk2 (T / hgkTref) (D / hgkDref)).h / (T / hgkTref) ^ 3 * (hgkFref / hgkTref / hgkTref / hgkTref)

/-- How much `hTDD` has in excess because of the missing factor `x` of line 267. -/
noncomputable def hgkErrX (t d : ℝ) : ℝ :=
  hgkA20 * t * (1 / (hgkX (hgkY t d)).h + hgkc1 + 2 * hgkc2 * (hgkX (hgkY t d)).h) * hgkXerr (hgkY t d)

/-- How much `hTDD` has in excess because of the `theta_r` of line 362 that should be `theta_t`. -/
noncomputable def hgkErrPsi (i : ℕ) (t d : ℝ) : ℝ :=
  let s := hgk4term (hgkA4.getD i 0) (hgkAlpha.getD i 0) (hgkBeta.getD i 0)
    (hgkRi.getD i 0) (hgkTi.getD i 0) (hgkMi.getD i 0) (hgkNi.getD i 0) t d
  hgkPsi_r (hgkAlpha.getD i 0) (hgkRi.getD i 0) (hgkMi.getD i 0) (hgkNi.getD i 0) d * (s.hD - s.hT)

/-- How much `hTDD` has in excess. -/
noncomputable def hgkErrTDD (T D : ℝ) : ℝ :=
  (hgkErrX (T / hgkTref) (D / hgkDref) + (hgkErrPsi 0 (T / hgkTref) (D / hgkDref) + hgkErrPsi 1 (T / hgkTref) (D / hgkDref)
    + hgkErrPsi 2 (T / hgkTref) (D / hgkDref) + hgkErrPsi 3 (T / hgkTref) (D / hgkDref)))
  * (hgkFref / hgkDref / hgkDref / hgkTref)

theorem hgkY_lt_one {t d : ℝ} (ht : 0.4 ≤ t) (hd : 0 < d) (hd' : d ≤ 9) : (hgkY t d).h < 1 := by
  have ht0 : 0 < t := by linarith
  show d * (hgkYc.getD 0 0 + hgkYc.getD 1 0 * log t + hgkYc.getD 2 0 * t ^ (-3 : ℤ) + hgkYc.getD 3 0 * t ^ (-5 : ℤ)) < 1
  have h3 : t ^ (-3 : ℤ) ≤ 15.625 := by
    rw [zpow_neg, inv_le_comm₀ (by positivity) (by norm_num)]
    have : (0.4 : ℝ) ^ 3 ≤ t ^ 3 := pow_le_pow_left₀ (by norm_num) ht 3
    have h : t ^ (3 : ℤ) = t ^ 3 := by norm_cast
    rw [h]
    refine le_trans ?_ this
    norm_num
  have h5 : 0 < t ^ (-5 : ℤ) := zpow_pos ht0 _
  have hl : -log t ≤ 1.5 := by
    rw [← log_inv]
    have h1 := log_le_sub_one_of_pos (inv_pos.mpr ht0)
    have h2 : t⁻¹ ≤ 2.5 := by
      rw [inv_le_comm₀ ht0 (by norm_num)]
      refine le_trans ?_ ht
      norm_num
    linarith
  have e0 : hgkYc.getD 0 0 = 0.59402227e-1 := rfl
  have e1 : hgkYc.getD 1 0 = -0.28128238e-1 := rfl
  have e2 : hgkYc.getD 2 0 = 0.56826674e-3 := rfl
  have e3 : hgkYc.getD 3 0 = -0.27987451e-3 := rfl
  rw [e0, e1, e2, e3]
  have hb : (0.59402227e-1 + -0.28128238e-1 * log t + 0.56826674e-3 * t ^ (-3 : ℤ) + -0.27987451e-3 * t ^ (-5 : ℤ) : ℝ) ≤ 0.111 := by
    generalize t ^ (-3 : ℤ) = w3 at *
    generalize t ^ (-5 : ℤ) = w5 at *
    norm_num at h3 hl ⊢
    linarith
  nlinarith

/-- The corrected state. -/
noncomputable def hgkFix (T D : ℝ) : HState :=
  { hgk T D with hTTT := (hgk T D).hTTT + hgkErrTTT T D, hTDD := (hgk T D).hTDD - hgkErrTDD T D }

theorem hgkFix_jet (T D : ℝ) (h : HgkRange T D) : IsJet hgkFix T D := by
  have hTr : (0 : ℝ) < hgkTref := by unfold hgkTref; norm_num
  have hDr : (0 : ℝ) < hgkDref := by unfold hgkDref; norm_num
  have ht : 0 < T / hgkTref := div_pos (by linarith [h.temperature]) hTr
  have hd : 0 < D / hgkDref := div_pos h.positive hDr
  have ht4 : 0.4 ≤ T / hgkTref := by
    rw [le_div_iff₀ hTr]; have := h.temperature; unfold hgkTref; norm_num at this ⊢; linarith
  have hd9 : D / hgkDref ≤ 9 := by
    rw [div_le_iff₀ hDr]; have := h.density; unfold hgkDref; norm_num at this ⊢; linarith
  have hy := hgkY_lt_one ht4 hd hd9
  have j0 : IsJet hgk0 (T / hgkTref) (D / hgkDref) :=
    (hgk0log_jet ht hd).add (IsJet.sum _ (fun i => hgk0term (hgkA0.getD i 0) i) fun i _ => hgk0term_jet _ _ ht hd)
  have j1 : IsJet hgk1 (T / hgkTref) (D / hgkDref) :=
    IsJet.sum _ (fun i => hgk1term (hgkA1.getD i 0) i) fun i _ => hgk1term_jet _ _ ht hd
  have j2 := hgk2_jet ht hd hy
  have j3 : IsJet hgk3 (T / hgkTref) (D / hgkDref) := by
    refine IsJet.sum _ (fun i => hgk3term (hgkA3.getD i 0) (hgkLi.getD i 0) (hgkKi.getD i 0)) fun i hi => hgk3term_jet _ _ _ ?_ ht hd
    rw [List.mem_range] at hi
    interval_cases i <;> norm_num [hgkA3]
  have j4 : IsJet (fun t d => sumStates (List.range 4) (fun i => hgk4fix (hgkA4.getD i 0) (hgkAlpha.getD i 0) (hgkBeta.getD i 0)
      (hgkRi.getD i 0) (hgkTi.getD i 0) (hgkMi.getD i 0) (hgkNi.getD i 0) t d)) (T / hgkTref) (D / hgkDref) := by
    refine IsJet.sum _ (fun i => hgk4fix (hgkA4.getD i 0) (hgkAlpha.getD i 0) (hgkBeta.getD i 0)
      (hgkRi.getD i 0) (hgkTi.getD i 0) (hgkMi.getD i 0) (hgkNi.getD i 0)) fun i hi => hgk4term_jet _ _ _ _ _ _ _ ?_ ?_ ?_
    · rw [List.mem_range] at hi
      interval_cases i <;> norm_num [hgkRi]
    · rw [List.mem_range] at hi
      interval_cases i <;> norm_num [hgkTi]
    · have a1 : D / hgkDref ≠ 1.0038928 := by
        intro he; rw [div_eq_iff hDr.ne'] at he; exact h.r1 he
      have a2 : D / hgkDref ≠ 4.8778492 := by
        intro he; rw [div_eq_iff hDr.ne'] at he; exact h.r2 he
      rw [List.mem_range] at hi
      interval_cases i
      · intro he; apply a1; rw [he]; norm_num [hgkRi]
      · intro he; apply a1; rw [he]; norm_num [hgkRi]
      · intro he; apply a1; rw [he]; norm_num [hgkRi]
      · intro he; apply a2; rw [he]; norm_num [hgkRi]
  have js := (((j0.add j1).add j2).add j3).add j4
  have hc := IsJet.chain (f := fun t => t / hgkTref) (f1 := fun _ => 1 / hgkTref) (f2 := fun _ => 0) (f3 := fun _ => 0)
    (k := 1 / hgkDref) (T := T) (D := D) (by rw [one_div_mul_eq_div]; exact js)
    ((hasDerivAt_id' T).div_const _) (hasDerivAt_const _ _) (hasDerivAt_const _ _)
  refine ((IsJet.const hgkFref).mul hc).congr_all ?_
  intro t d
  rw [one_div_mul_eq_div]
  unfold hgkFix hgk hgkErrTTT hgkErrTDD hgkErrX hgkErrPsi
  simp only []
  generalize t / hgkTref = a
  generalize d / hgkDref = b
  have h4 : sumStates (List.range 4) (fun i => hgk4fix (hgkA4.getD i 0) (hgkAlpha.getD i 0) (hgkBeta.getD i 0)
      (hgkRi.getD i 0) (hgkTi.getD i 0) (hgkMi.getD i 0) (hgkNi.getD i 0) a b) =
      { hgk4 a b with hTDD := (hgk4 a b).hTDD - (hgkErrPsi 0 a b + hgkErrPsi 1 a b + hgkErrPsi 2 a b + hgkErrPsi 3 a b) } := by
    unfold hgk4 sumStates hgkErrPsi
    simp only [List.range, List.range.loop, List.foldl, hgk4fix]
    ext <;> simp only [add_h, add_hT, add_hD, add_hTT, add_hTD, add_hDD, add_hTTT, add_hTTD, add_hTDD, add_hDDD]
    ring
  rw [h4]
  unfold hgkErrPsi
  simp only []
  generalize hgk4 a b = s4
  unfold hgk2fix
  generalize hgk0 a b = s0, hgk1 a b = s1, hgk3 a b = s3
  generalize hgk2 a b = s2
  unfold hgkDimension
  ext <;> simp only [HState.mul, HState.chain, HState.const, add_h, add_hT, add_hD, add_hTT, add_hTD, add_hDD, add_hTTT, add_hTTD, add_hTDD, add_hDDD] <;> ring

/-- C65, part.  In the whole range of the equation the state holds the true first and second partial
derivatives of the Helmholtz energy, and the true third derivatives `hTTD` (by temperature) and `hDDD`.
Missing, because false : the values of `hTTT` and `hTDD`. -/
theorem C65_hgk_partial (T D : ℝ) (h : HgkRange T D) :
    HasPartials (fun t d => (hgk t d).h) (hgk T D).hT (hgk T D).hD T D ∧
    HasPartials (fun t d => (hgk t d).hT) (hgk T D).hTT (hgk T D).hTD T D ∧
    HasPartials (fun t d => (hgk t d).hD) (hgk T D).hTD (hgk T D).hDD T D ∧
    HasDerivAt (fun d => (hgk T d).hTT) (hgk T D).hTTD D ∧
    HasDerivAt (fun t => (hgk t D).hTD) (hgk T D).hTTD T ∧
    HasDerivAt (fun d => (hgk T d).hDD) (hgk T D).hDDD D :=
  let j := hgkFix_jet T D h
  ⟨j.h, j.hT, j.hD, j.hTT.right, j.hTD.left, j.hDD.right⟩

/-- C65, exact error of the two other fields : the true third derivatives are the fields plus and minus
explicit terms. -/
theorem C65_hgk_exact (T D : ℝ) (h : HgkRange T D) :
    HasDerivAt (fun t => (hgk t D).hTT) ((hgk T D).hTTT + hgkErrTTT T D) T ∧
    HasDerivAt (fun d => (hgk T d).hTD) ((hgk T D).hTDD - hgkErrTDD T D) D ∧
    HasDerivAt (fun t => (hgk t D).hDD) ((hgk T D).hTDD - hgkErrTDD T D) T :=
  let j := hgkFix_jet T D h
  ⟨j.hTT.left, j.hTD.right, j.hDD.left⟩

/-- The range contains liquid water in a laboratory. -/
example : HgkRange 298.15 997 :=
  ⟨by norm_num, by norm_num, by norm_num, by unfold hgkDref; norm_num, by unfold hgkDref; norm_num⟩

theorem hgkY_one (d : ℝ) (hd : d ≠ 0) : hgkY 1 d =
    { h := d * 0.05969061923, hT := d * (-0.02843366567), hD := 0.05969061923, hTT := d * 0.02655120358, hTD := -0.02843366567,
      hDD := 0, hTTT := (hgkY 1 d).hTTT, hTTD := 0.02655120358, hTDD := 0, hDDD := 0 } := by
  have e0 : hgkYc.getD 0 0 = 0.59402227e-1 := rfl
  have e1 : hgkYc.getD 1 0 = -0.28128238e-1 := rfl
  have e2 : hgkYc.getD 2 0 = 0.56826674e-3 := rfl
  have e3 : hgkYc.getD 3 0 = -0.27987451e-3 := rfl
  ext <;> simp only [hgkY, e0, e1, e2, e3, log_one, one_zpow] <;> field_simp <;> norm_num

/-- C65, refuted for `hTTT` : at the reference temperature and density of the equation the field is not
the third derivative with respect to temperature. -/
theorem C65_hgk_TTT_wrong : HgkRange hgkTref hgkDref ∧
    ¬ HasDerivAt (fun t => (hgk t hgkDref).hTT) (hgk hgkTref hgkDref).hTTT hgkTref := by
  have hr : HgkRange hgkTref hgkDref :=
    ⟨by unfold hgkTref; norm_num, by unfold hgkDref; norm_num, by unfold hgkDref; norm_num,
      by unfold hgkDref; norm_num, by unfold hgkDref; norm_num⟩
  refine ⟨hr, fun hw => ?_⟩
  have he := hw.unique (C65_hgk_exact _ _ hr).1
  have hz : hgkErrTTT hgkTref hgkDref = 0 := by linarith
  have hTr : hgkTref ≠ 0 := by unfold hgkTref; norm_num
  have hDr : hgkDref ≠ 0 := by unfold hgkDref; norm_num
  unfold hgkErrTTT at hz
  rw [div_self hTr, div_self hDr] at hz
  have hlt : (hgk2 1 1).h < 0 := by
    show hgkA20 * 1 * ((hgkU (hgkX (hgkY 1 1)) 1).h + hgkc1 * (hgkX (hgkY 1 1)).h
      + hgkc2 * (hgkX (hgkY 1 1)).h * (hgkX (hgkY 1 1)).h + hgkc3 * (hgkY 1 1).h) < 0
    have ey : (hgkY 1 1).h = 0.05969061923 := by rw [hgkY_one 1 one_ne_zero]; norm_num
    have ex : (hgkX (hgkY 1 1)).h = 1 / (1 - 0.05969061923) := by
      show 1 / (1 - (hgkY 1 1).h) = _
      rw [ey]
    have eu : (hgkU (hgkX (hgkY 1 1)) 1).h = log (1 * (1 / (1 - 0.05969061923))) := by
      show log (1 * (hgkX (hgkY 1 1)).h) = _
      rw [ex]
    have hl := log_le_sub_one_of_pos (x := 1 * (1 / (1 - 0.05969061923))) (by norm_num)
    rw [eu, ex, ey]
    generalize log (1 * (1 / (1 - 0.05969061923))) = L at hl
    unfold hgkA20 hgkc1 hgkc2 hgkc3
    norm_num at hl ⊢
    linarith
  have hF : hgkFref / hgkTref / hgkTref / hgkTref ≠ 0 := by unfold hgkFref hgkTref; norm_num
  have := mul_eq_zero.mp hz
  rcases this with h1 | h1
  · rw [one_pow, div_one] at h1
    linarith
  · exact hF h1

/-- A number times a small exponential is small. -/
theorem abs_mul_exp_neg_le (c q : ℝ) (hq : 0 ≤ q) : |c * exp (-q)| ≤ |c| / (1 + q / 8) ^ 8 := by
  rw [abs_mul, abs_of_pos (exp_pos _), exp_neg, ← div_eq_mul_inv]
  have h1 : (1 + q / 8) ^ 8 ≤ exp q := by
    have h2 : q / 8 + 1 ≤ exp (q / 8) := add_one_le_exp _
    have h3 : exp q = exp (q / 8) ^ 8 := by rw [← exp_nat_mul]; congr 1; push_cast; ring
    rw [h3]
    exact pow_le_pow_left₀ (by positivity) (by linarith) 8
  exact div_le_div_of_nonneg_left (abs_nonneg _) (by positivity) h1

theorem hgkErrPsi_le (A al be r0 t0 : ℝ) (m n : ℕ) (t d : ℝ) (hq : 0 ≤ al * ((d - r0) / r0) ^ m + be * ((t - t0) / t0) * ((t - t0) / t0)) :
    |hgkPsi_r al r0 m n d * ((hgk4term A al be r0 t0 m n t d).hD - (hgk4term A al be r0 t0 m n t d).hT)| ≤
      |hgkPsi_r al r0 m n d * ((n - al * m * ((d - r0) / r0) ^ m) * (1 / r0) / ((d - r0) / r0)
        + 2 * be * ((t - t0) / t0) * (1 / t0)) * (A * ((d - r0) / r0) ^ n)|
      / (1 + (al * ((d - r0) / r0) ^ m + be * ((t - t0) / t0) * ((t - t0) / t0)) / 8) ^ 8 := by
  refine le_trans (le_of_eq ?_) (abs_mul_exp_neg_le _ _ hq)
  congr 1
  simp only [hgk4term]
  rw [show -(al * ((d - r0) / r0) ^ m + be * ((t - t0) / t0) * ((t - t0) / t0))
    = -al * ((d - r0) / r0) ^ m - be * ((t - t0) / t0) * ((t - t0) / t0) by ring]
  ring

theorem hgkErrPsi_small (i : ℕ) (hi : i < 4) : |hgkErrPsi i 1 3| ≤ 0.01 := by
  interval_cases i
  all_goals
    refine le_trans (hgkErrPsi_le _ _ _ _ _ _ _ _ _ ?_) ?_
    · norm_num [hgkA4, hgkAlpha, hgkBeta, hgkRi, hgkTi, hgkMi, hgkNi]
    · rw [div_le_iff₀ (by norm_num [hgkA4, hgkAlpha, hgkBeta, hgkRi, hgkTi, hgkMi, hgkNi]), abs_le]
      constructor <;> norm_num [hgkPsi_r, hgkA4, hgkAlpha, hgkBeta, hgkRi, hgkTi, hgkMi, hgkNi]

/-- C65, refuted for `hTDD` : at three times the reference density the field is neither the derivative
of `hTD` with respect to density nor that of `hDD` with respect to temperature. -/
theorem C65_hgk_TDD_wrong : HgkRange hgkTref (3 * hgkDref) ∧
    ¬ HasDerivAt (fun d => (hgk hgkTref d).hTD) (hgk hgkTref (3 * hgkDref)).hTDD (3 * hgkDref) ∧
    ¬ HasDerivAt (fun t => (hgk t (3 * hgkDref)).hDD) (hgk hgkTref (3 * hgkDref)).hTDD hgkTref := by
  have hr : HgkRange hgkTref (3 * hgkDref) :=
    ⟨by unfold hgkTref; norm_num, by unfold hgkDref; norm_num, by unfold hgkDref; norm_num,
      by unfold hgkDref; norm_num, by unfold hgkDref; norm_num⟩
  have hTr : hgkTref ≠ 0 := by unfold hgkTref; norm_num
  have hDr : hgkDref ≠ 0 := by unfold hgkDref; norm_num
  have hne : hgkErrTDD hgkTref (3 * hgkDref) ≠ 0 := by
    unfold hgkErrTDD
    rw [div_self hTr, mul_div_cancel_right₀ _ hDr]
    have hF : hgkFref / hgkDref / hgkDref / hgkTref ≠ 0 := by unfold hgkFref hgkDref hgkTref; norm_num
    refine mul_ne_zero ?_ hF
    have b0 := abs_le.mp (hgkErrPsi_small 0 (by norm_num))
    have b1 := abs_le.mp (hgkErrPsi_small 1 (by norm_num))
    have b2 := abs_le.mp (hgkErrPsi_small 2 (by norm_num))
    have b3 := abs_le.mp (hgkErrPsi_small 3 (by norm_num))
    have hx : 0.05 < hgkErrX 1 3 := by
      unfold hgkErrX hgkXerr
      simp only [hgkX]
      rw [hgkY_one 3 (by norm_num)]
      simp only []
      unfold hgkA20 hgkc1 hgkc2
      norm_num
    norm_num at b0 b1 b2 b3 hx
    intro h0
    linarith [b0.1, b1.1, b2.1, b3.1]
  refine ⟨hr, fun hw => hne ?_, fun hw => hne ?_⟩
  · have := hw.unique (C65_hgk_exact _ _ hr).2.1
    linarith
  · have := hw.unique (C65_hgk_exact _ _ hr).2.2
    linarith

end Verif.Water
