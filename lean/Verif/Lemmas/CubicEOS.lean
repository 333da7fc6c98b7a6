import Verif.Model.CubicEOS
import Mathlib.Analysis.Calculus.Deriv.Mul
import Mathlib.Analysis.Calculus.Deriv.Inv
import Mathlib.Analysis.Calculus.Deriv.Pow
import Mathlib.Analysis.Calculus.Deriv.Slope
import Mathlib.Analysis.SpecialFunctions.Log.Deriv
import Mathlib.Analysis.SpecialFunctions.Sqrt
import Mathlib.Tactic.FieldSimp
import Mathlib.Topology.Order.IntermediateValue
import Mathlib.Topology.MetricSpace.HausdorffDistance
import Mathlib.Topology.MetricSpace.ProperSpace.Real
import Mathlib.Tactic.LinearCombination
import Mathlib.Tactic.NormNum

/-!
# Lemmas for C46, C47, C57
-/

namespace Verif.CubicEOS

theorem R_pos : 0 < R := by unfold R; norm_num
theorem R_ne : R ≠ 0 := R_pos.ne'

/-- The cubic polynomial of the code in factored form. -/
theorem cubic_factored (ε σ β q Z : ℝ) : Z ^ 3 + cA ε σ β * Z ^ 2 + cB ε σ β q * Z + cC ε σ β q =
    (Z - 1 - β) * (Z + ε * β) * (Z + σ * β) + q * β * (Z - β) := by
  unfold cA cB cC; ring

/-- The derivative of a root of a monic cubic polynomial whose coefficients depend on a variable. -/
theorem root_hasDerivAt (A B C Z : ℝ → ℝ) (A' B' C' t : ℝ) (hA : HasDerivAt A A' t) (hB : HasDerivAt B B' t) (hC : HasDerivAt C C' t)
    (hZ : ContinuousAt Z t) (hroot : ∀ᶠ u in nhds t, Z u ^ 3 + A u * Z u ^ 2 + B u * Z u + C u = 0)
    (hD : 3 * Z t * Z t + 2 * A t * Z t + B t ≠ 0) :
    HasDerivAt Z (-(A' * Z t * Z t + B' * Z t + C') / (3 * Z t * Z t + 2 * A t * Z t + B t)) t := by
  rw [hasDerivAt_iff_tendsto_slope] at hA hB hC ⊢
  have h0 := hroot.self_of_nhds
  -- the quotient of differences, with respect to Z, of the polynomial at u
  let m : ℝ → ℝ := fun u => (Z u ^ 2 + Z u * Z t + Z t ^ 2) + A u * (Z u + Z t) + B u
  have hcA : ContinuousAt A t := by
    have := (hasDerivAt_iff_tendsto_slope.2 hA).continuousAt; exact this
  have hcB : ContinuousAt B t := by
    have := (hasDerivAt_iff_tendsto_slope.2 hB).continuousAt; exact this
  have hm : Filter.Tendsto m (nhdsWithin t {t}ᶜ) (nhds (3 * Z t * Z t + 2 * A t * Z t + B t)) := by
    have : ContinuousAt m t := by
      refine ContinuousAt.add (ContinuousAt.add ?_ ?_) hcB
      · exact ((hZ.pow 2).add (hZ.mul continuousAt_const)).add continuousAt_const
      · exact hcA.mul (hZ.add continuousAt_const)
    have h := this.tendsto.mono_left (nhdsWithin_le_nhds (s := {t}ᶜ))
    have e : m t = 3 * Z t * Z t + 2 * A t * Z t + B t := by simp only [m]; ring
    rwa [e] at h
  have hmne : ∀ᶠ u in nhdsWithin t {t}ᶜ, m u ≠ 0 := hm.eventually_ne hD
  have hlim : Filter.Tendsto (fun u => -(slope A t u * Z t * Z t + slope B t u * Z t + slope C t u) / m u) (nhdsWithin t {t}ᶜ)
      (nhds (-(A' * Z t * Z t + B' * Z t + C') / (3 * Z t * Z t + 2 * A t * Z t + B t))) := by
    refine Filter.Tendsto.div (Filter.Tendsto.neg ?_) hm hD
    exact (((hA.mul_const _).mul_const _).add (hB.mul_const _)).add hC
  refine hlim.congr' ?_
  have hr : ∀ᶠ u in nhdsWithin t {t}ᶜ, Z u ^ 3 + A u * Z u ^ 2 + B u * Z u + C u = 0 := hroot.filter_mono nhdsWithin_le_nhds
  filter_upwards [hr, hmne, self_mem_nhdsWithin] with u h1 h2 h3
  have hut : u - t ≠ 0 := sub_ne_zero.2 h3
  simp only [slope_def_field]
  rw [div_eq_div_iff h2 hut]
  have key : (Z u - Z t) * m u = -((A u - A t) * Z t * Z t + (B u - B t) * Z t + (C u - C t)) := by
    simp only [m]
    linear_combination h1 - h0
  rw [key]
  field_simp

/-- Near a simple root there are roots of all polynomials with nearby coefficients. -/
theorem roots_near (A B C : ℝ → ℝ) (t z : ℝ) (hA : ContinuousAt A t) (hB : ContinuousAt B t) (hC : ContinuousAt C t)
    (hz : z ^ 3 + A t * z ^ 2 + B t * z + C t = 0) (hD : 3 * z * z + 2 * A t * z + B t ≠ 0) (δ : ℝ) (hδ : 0 < δ) :
    ∀ᶠ u in nhds t, ∃ y, y ^ 3 + A u * y ^ 2 + B u * y + C u = 0 ∧ |y - z| ≤ δ := by
  let D := 3 * z * z + 2 * A t * z + B t
  let m : ℝ → ℝ := fun h => D + h * (3 * z + A t + h)
  have hpm : ∀ h, (z + h) ^ 3 + A t * (z + h) ^ 2 + B t * (z + h) + C t = h * m h := by
    intro h
    simp only [m, D]
    linear_combination hz
  have hmc : Continuous m := by fun_prop
  have hm0 : m 0 = D := by simp [m]
  have hev : ∀ᶠ h in nhds 0, 0 < m h * D := by
    have : ContinuousAt (fun h => m h * D) 0 := (hmc.mul continuous_const).continuousAt
    have hpos : 0 < m 0 * D := by rw [hm0]; exact mul_self_pos.2 hD
    exact this.eventually_const_lt hpos
  obtain ⟨ρ, hρ, hball⟩ := Metric.eventually_nhds_iff.1 hev
  obtain ⟨η, h0, h1, h2⟩ : ∃ η, 0 < η ∧ η ≤ δ ∧ η < ρ := ⟨min δ (ρ / 2), lt_min hδ (by linarith), min_le_left _ _, lt_of_le_of_lt (min_le_right _ _) (by linarith)⟩
  have hp : 0 < m η * D := hball (by rw [Real.dist_eq, sub_zero, abs_of_pos h0]; exact h2)
  have hn : 0 < m (-η) * D := hball (by rw [Real.dist_eq, sub_zero, abs_neg, abs_of_pos h0]; exact h2)
  have hcont : ∀ y, ContinuousAt (fun u => (y ^ 3 + A u * y ^ 2 + B u * y + C u) * D) t := by
    intro y
    exact (((continuousAt_const.add (hA.mul continuousAt_const)).add (hB.mul continuousAt_const)).add hC).mul continuousAt_const
  have ep : ∀ᶠ u in nhds t, 0 < ((z + η) ^ 3 + A u * (z + η) ^ 2 + B u * (z + η) + C u) * D := by
    refine (hcont (z + η)).eventually_const_lt ?_
    show 0 < ((z + η) ^ 3 + A t * (z + η) ^ 2 + B t * (z + η) + C t) * D
    rw [hpm, mul_assoc]
    exact mul_pos h0 hp
  have en : ∀ᶠ u in nhds t, ((z + -η) ^ 3 + A u * (z + -η) ^ 2 + B u * (z + -η) + C u) * D < 0 := by
    refine (hcont (z + -η)).eventually_lt_const ?_
    show ((z + -η) ^ 3 + A t * (z + -η) ^ 2 + B t * (z + -η) + C t) * D < 0
    rw [hpm, mul_assoc]
    exact mul_neg_of_neg_of_pos (by linarith) hn
  filter_upwards [ep, en] with u hu1 hu2
  have hle : z + -η ≤ z + η := by linarith
  have hcu : ContinuousOn (fun y => (y ^ 3 + A u * y ^ 2 + B u * y + C u) * D) (Set.Icc (z + -η) (z + η)) := by fun_prop
  obtain ⟨y, hy, hy0⟩ := intermediate_value_Icc hle hcu ⟨hu2.le, hu1.le⟩
  refine ⟨y, ?_, ?_⟩
  · rcases mul_eq_zero.1 hy0 with h | h
    · exact h
    · exact absurd h hD
  · rw [abs_le]
    constructor <;> linarith [hy.1, hy.2]

/-- At a simple root there is a continuous family of roots. -/
theorem exists_branch (A B C : ℝ → ℝ) (t z : ℝ) (hA : ContinuousAt A t) (hB : ContinuousAt B t) (hC : ContinuousAt C t)
    (hz : z ^ 3 + A t * z ^ 2 + B t * z + C t = 0) (hD : 3 * z * z + 2 * A t * z + B t ≠ 0) :
    ∃ Z : ℝ → ℝ, Z t = z ∧ ContinuousAt Z t ∧ ∀ᶠ u in nhds t, Z u ^ 3 + A u * Z u ^ 2 + B u * Z u + C u = 0 := by
  let S : ℝ → Set ℝ := fun u => {y | y ^ 3 + A u * y ^ 2 + B u * y + C u = 0}
  have hclosed : ∀ u, IsClosed (S u) := fun u => isClosed_eq (by fun_prop) continuous_const
  have hex : ∀ u, ∃ y, (S u).Nonempty → y ∈ S u ∧ Metric.infDist z (S u) = dist z y := by
    intro u
    by_cases hS : (S u).Nonempty
    · obtain ⟨y, hy, he⟩ := (hclosed u).exists_infDist_eq_dist hS z
      exact ⟨y, fun _ => ⟨hy, he⟩⟩
    · exact ⟨0, fun h => absurd h hS⟩
  choose Z hZ using hex
  have hnear := roots_near A B C t z hA hB hC hz hD
  refine ⟨Z, ?_, ?_, ?_⟩
  · have hzS : z ∈ S t := hz
    have := (hZ t ⟨z, hzS⟩).2
    rw [Metric.infDist_zero_of_mem hzS] at this
    exact (dist_eq_zero.1 this.symm).symm
  · have hzt : Z t = z := by
      have hzS : z ∈ S t := hz
      have := (hZ t ⟨z, hzS⟩).2
      rw [Metric.infDist_zero_of_mem hzS] at this
      exact (dist_eq_zero.1 this.symm).symm
    rw [Metric.continuousAt_iff']
    intro δ hδ
    rw [hzt]
    filter_upwards [hnear (δ / 2) (by linarith)] with u hu
    obtain ⟨y, hy, hyz⟩ := hu
    have hyS : y ∈ S u := hy
    obtain ⟨-, he⟩ := hZ u ⟨y, hyS⟩
    rw [dist_comm, ← he]
    refine lt_of_le_of_lt (Metric.infDist_le_dist_of_mem hyS) ?_
    rw [dist_comm, Real.dist_eq]
    linarith
  · filter_upwards [hnear 1 one_pos] with u hu
    obtain ⟨y, hy, -⟩ := hu
    exact (hZ u ⟨y, hy⟩).1

section I
variable {ε σ β β' Z Z' q q' : ℝ}

/-- The derivative of the integration factor, in closed form. -/
theorem cI'_closed (hβ : ε = σ → β ≠ 0) (h1 : Z + ε * β ≠ 0) (h2 : Z + σ * β ≠ 0) :
    cI' ε σ β Z β' Z' = (β' * Z - β * Z') / ((Z + ε * β) * (Z + σ * β)) := by
  unfold cI'
  by_cases h : ε = σ
  · rw [if_neg (not_not.2 h)]
    unfold cI
    rw [if_neg (not_not.2 h)]
    have := hβ h
    subst h
    rw [div_sub_div _ _ this h1, div_mul_div_comm, div_eq_div_iff (mul_ne_zero h1 (mul_ne_zero this h1)) (mul_ne_zero h1 h1)]
    ring
  · rw [if_pos h]
    have h3 : σ - ε ≠ 0 := sub_ne_zero.2 (Ne.symm h)
    rw [div_sub_div _ _ h2 h1, div_div, div_eq_div_iff (mul_ne_zero (mul_ne_zero h2 h1) h3) (mul_ne_zero h1 h2)]
    ring

theorem cI_hasDerivAt (β Z : ℝ → ℝ) (β' Z' t : ℝ) (hβ : HasDerivAt β β' t) (hZ : HasDerivAt Z Z' t) (h0 : ε = σ → β t ≠ 0)
    (h1 : Z t + ε * β t ≠ 0) (h2 : Z t + σ * β t ≠ 0) :
    HasDerivAt (fun u => cI ε σ (β u) (Z u)) (cI' ε σ (β t) (Z t) β' Z') t := by
  rw [cI'_closed h0 h1 h2]
  have d1 : HasDerivAt (fun u => Z u + ε * β u) (Z' + ε * β') t := hZ.add (hβ.const_mul ε)
  have d2 : HasDerivAt (fun u => Z u + σ * β u) (Z' + σ * β') t := hZ.add (hβ.const_mul σ)
  by_cases h : ε = σ
  · have : (fun u => cI ε σ (β u) (Z u)) = fun u => β u / (Z u + ε * β u) := by
      funext u; unfold cI; rw [if_neg (not_not.2 h)]
    rw [this]
    refine (hβ.div d1 h1).congr_deriv ?_
    subst h
    rw [div_eq_div_iff (pow_ne_zero 2 h1) (mul_ne_zero h1 h1)]
    ring
  · have : (fun u => cI ε σ (β u) (Z u)) = fun u => Real.log ((Z u + σ * β u) / (Z u + ε * β u)) / (σ - ε) := by
      funext u; unfold cI; rw [if_pos h]
    rw [this]
    have h3 : σ - ε ≠ 0 := sub_ne_zero.2 (Ne.symm h)
    refine (((d2.div d1 h1).log (div_ne_zero h2 h1)).div_const (σ - ε)).congr_deriv ?_
    simp only [Pi.div_apply]
    rw [div_div_div_eq, div_div, div_eq_div_iff (mul_ne_zero (mul_ne_zero (pow_ne_zero 2 h1) h2) h3) (mul_ne_zero h1 h2)]
    ring

/-- The derivative of the residual Gibbs energy along solutions of the equation of state: the derivative of `Z` does not matter. -/
theorem cG_hasDerivAt (β Z q : ℝ → ℝ) (β' Z' q' t : ℝ) (hβ : HasDerivAt β β' t) (hZ : HasDerivAt Z Z' t) (hq : HasDerivAt q q' t)
    (h0 : β t ≠ 0) (h1 : Z t + ε * β t ≠ 0) (h2 : Z t + σ * β t ≠ 0) (h3 : Z t - β t ≠ 0)
    (heos : (Z t - 1 - β t) * (Z t + ε * β t) * (Z t + σ * β t) + q t * β t * (Z t - β t) = 0) :
    HasDerivAt (fun u => cG ε σ (β u) (q u) (Z u)) (β' / β t * (Z t - 1) - q' * cI ε σ (β t) (Z t)) t := by
  have hI := cI_hasDerivAt (ε := ε) (σ := σ) β Z β' Z' t hβ hZ (fun _ => h0) h1 h2
  have d : HasDerivAt (fun u => Z u - 1 - Real.log (Z u - β u) - q u * cI ε σ (β u) (Z u))
      (Z' - (Z' - β') / (Z t - β t) - (q' * cI ε σ (β t) (Z t) + q t * cI' ε σ (β t) (Z t) β' Z')) t :=
    ((hZ.sub_const 1).sub ((hZ.sub hβ).log h3)).sub (hq.mul hI)
  refine d.congr_deriv ?_
  rw [cI'_closed (fun _ => h0) h1 h2]
  generalize cI ε σ (β t) (Z t) = I
  generalize Z t = z at *
  generalize β t = b at *
  generalize q t = qq at *
  have hq' : qq = -((z - 1 - b) * (z + ε * b) * (z + σ * b)) / (b * (z - b)) := by
    rw [eq_div_iff (mul_ne_zero h0 h3)]; linear_combination heos
  have e1 : qq * ((β' * z - b * Z') / ((z + ε * b) * (z + σ * b))) = -((z - 1 - b) * (β' * z - b * Z')) / (b * (z - b)) := by
    rw [hq', div_mul_div_comm, div_eq_div_iff (mul_ne_zero (mul_ne_zero h0 h3) (mul_ne_zero h1 h2)) (mul_ne_zero h0 h3)]
    ring
  rw [e1]
  field_simp
  ring

/-- The code's logarithm of a fugacity coefficient in closed form, for any `betak` and `qk`. -/
theorem cLnPhi_closed {βk qk : ℝ} (h0 : β ≠ 0) (h1 : Z + ε * β ≠ 0) (h2 : Z + σ * β ≠ 0) (h3 : Z - β ≠ 0)
    (heos : (Z - 1 - β) * (Z + ε * β) * (Z + σ * β) + q * β * (Z - β) = 0) :
    cLnPhi ε σ β q Z βk qk = βk / β * (Z - 1) - Real.log (Z - β) - qk * cI ε σ β Z := by
  unfold cLnPhi
  dsimp only
  generalize hZk : (-(((ε + σ - 1) * βk - 1) * Z * Z + (cB ε σ β q + (((ε * σ - ε - σ) * (2 * βk - β) + qk - q) * β - (ε + σ - q) * βk)) * Z +
    2 * cC ε σ β q + ((ε * σ * (2 * β + 1) + 2 * q - qk) * β * β - (2 * (ε * σ + q) + 3 * ε * σ * β) * β * βk)) /
    (3 * Z * Z + 2 * cA ε σ β * Z + cB ε σ β q)) = Zk
  have hq' : q = -((Z - 1 - β) * (Z + ε * β) * (Z + σ * β)) / (β * (Z - β)) := by
    rw [eq_div_iff (mul_ne_zero h0 h3)]; linear_combination heos
  have hIk : (if ε ≠ σ then cI ε σ β Z + ((Zk + σ * βk) / (Z + σ * β) - (Zk + ε * βk) / (Z + ε * β)) / (σ - ε)
      else cI ε σ β Z * (1 + βk / β - (Zk + ε * βk) / (Z + ε * β))) = cI ε σ β Z + (βk * Z - β * Zk) / ((Z + ε * β) * (Z + σ * β)) := by
    by_cases h : ε = σ
    · rw [if_neg (not_not.2 h)]
      unfold cI
      rw [if_neg (not_not.2 h)]
      subst h
      have e1 : 1 + βk / β - (Zk + ε * βk) / (Z + ε * β) = 1 + (βk * (Z + ε * β) - β * (Zk + ε * βk)) / (β * (Z + ε * β)) := by
        rw [← div_sub_div _ _ h0 h1]; ring
      rw [e1, mul_add, mul_one, div_mul_div_comm]
      congr 1
      rw [div_eq_div_iff (mul_ne_zero h1 (mul_ne_zero h0 h1)) (mul_ne_zero h1 h1)]
      ring
    · rw [if_pos h]
      have h4 : σ - ε ≠ 0 := sub_ne_zero.2 (Ne.symm h)
      congr 1
      rw [div_sub_div _ _ h2 h1, div_div, div_eq_div_iff (mul_ne_zero (mul_ne_zero h2 h1) h4) (mul_ne_zero h1 h2)]
      ring
  rw [hIk]
  generalize cI ε σ β Z = I
  have e1 : q * ((βk * Z - β * Zk) / ((Z + ε * β) * (Z + σ * β))) = -((Z - 1 - β) * (βk * Z - β * Zk)) / (β * (Z - β)) := by
    rw [hq', div_mul_div_comm, div_eq_div_iff (mul_ne_zero (mul_ne_zero h0 h3) (mul_ne_zero h1 h2)) (mul_ne_zero h0 h3)]
    ring
  rw [mul_add, e1]
  field_simp
  ring

end I

/-! ## Parameters -/

theorem sqrt_hasDerivAt (c T : ℝ) (h : 0 < T * c) : HasDerivAt (fun T => √(T * c)) (0.5 / √(T * c) * c) T := by
  have := ((hasDerivAt_id T).mul_const c).sqrt h.ne'
  refine this.congr_deriv ?_
  have : √(T * c) ≠ 0 := (Real.sqrt_pos.2 h).ne'
  simp only [id]
  rw [one_mul]
  generalize √(T * c) = y at *
  field_simp
  norm_num
  ring

theorem sqrtT_hasDerivAt (c T : ℝ) (h : 0 < T * c) :
    HasDerivAt (fun T => 0.5 / √(T * c) * c) (-0.5 / (T * c) * (0.5 / √(T * c) * c) * c) T := by
  have h1 := sqrt_hasDerivAt c T h
  have h2 : √(T * c) ≠ 0 := (Real.sqrt_pos.2 h).ne'
  have h3 : √(T * c) * √(T * c) = T * c := Real.mul_self_sqrt h.le
  refine (((hasDerivAt_const T (0.5 : ℝ)).div h1 h2).mul_const c).congr_deriv ?_
  generalize √(T * c) = y at *
  rw [← h3]
  field_simp
  ring

theorem alphaSoave_hasDerivAt (m c T : ℝ) (h : 0 < T * c) :
    HasDerivAt (fun T => (alphaSoave m (T * c) c).1) (alphaSoave m (T * c) c).2.1 T ∧
    HasDerivAt (fun T => (alphaSoave m (T * c) c).2.1) (alphaSoave m (T * c) c).2.2 T := by
  unfold alphaSoave
  dsimp only
  have h1 := sqrt_hasDerivAt c T h
  have h2 := sqrtT_hasDerivAt c T h
  have d : HasDerivAt (fun T => 1 + m * (1 - √(T * c))) (-m * (0.5 / √(T * c) * c)) T := by
    refine (((h1.const_sub 1).const_mul m).const_add 1).congr_deriv ?_
    ring
  have d2 : HasDerivAt (fun T => -m * (0.5 / √(T * c) * c)) (-m * (-0.5 / (T * c) * (0.5 / √(T * c) * c) * c)) T := h2.const_mul (-m)
  constructor
  · refine (d.mul d).congr_deriv ?_
    ring
  · refine ((d.const_mul 2).mul d2).congr_deriv ?_
    ring

/-- The functions of the code for alpha and its derivatives. -/
theorem alpha_hasDerivAt (k : Kind) (c w T : ℝ) (h : 0 < T * c) :
    HasDerivAt (fun T => (alpha k (T * c) c w).1) (alpha k (T * c) c w).2.1 T ∧
    HasDerivAt (fun T => (alpha k (T * c) c w).2.1) (alpha k (T * c) c w).2.2 T := by
  cases k with
  | vanDerWaals => exact ⟨hasDerivAt_const T 1, hasDerivAt_const T 0⟩
  | redlichKwong =>
    unfold alpha
    dsimp only
    have h1 := sqrt_hasDerivAt c T h
    have h2 : √(T * c) ≠ 0 := (Real.sqrt_pos.2 h).ne'
    have h3 : √(T * c) * √(T * c) = T * c := Real.mul_self_sqrt h.le
    have d : HasDerivAt (fun T => 1 / √(T * c)) (-0.5 / (T * c) * (1 / √(T * c)) * c) T := by
      refine ((hasDerivAt_const T (1 : ℝ)).div h1 h2).congr_deriv ?_
      generalize √(T * c) = y at *
      rw [← h3]
      field_simp
      ring
    refine ⟨d, ?_⟩
    have d0 : HasDerivAt (fun T : ℝ => T * c) c T := by
      simpa using (hasDerivAt_id T).mul_const c
    refine ((((hasDerivAt_const T (-0.5 : ℝ)).div d0 h.ne').mul d).mul_const c).congr_deriv ?_
    generalize √(T * c) = y at *
    simp only [Pi.div_apply]
    rw [← h3]
    field_simp
    ring
  | soaveRedlichKwong => exact alphaSoave_hasDerivAt _ c T h
  | pengRobinson => exact alphaSoave_hasDerivAt _ c T h

variable {n : Nat}

theorem a_hasDerivAt (e : Eos n) (T : ℝ) (hT : 0 < T) (k : Fin n) (hc : 0 < e.Tcr k) :
    HasDerivAt (fun T => a e T k) (aT e T k) T ∧ HasDerivAt (fun T => aT e T k) (aTT e T k) T := by
  have := alpha_hasDerivAt e.model (1 / e.Tcr k) (e.omega k) T (mul_pos hT (one_div_pos.2 hc))
  exact ⟨this.1.const_mul _, this.2.const_mul _⟩

theorem s_hasDerivAt (e : Eos n) (T : ℝ) (hT : 0 < T) (i j : Fin n) (hi : 0 < e.Tcr i) (hj : 0 < e.Tcr j)
    (ha : 0 < a e T i * a e T j) : HasDerivAt (fun T => s e T i j) (sT e T i j) T := by
  obtain ⟨di, -⟩ := a_hasDerivAt e T hT i hi
  obtain ⟨dj, -⟩ := a_hasDerivAt e T hT j hj
  have := (di.mul dj).sqrt ha.ne'
  refine this.congr_deriv ?_
  unfold sT s
  have h2 : √(a e T i * a e T j) ≠ 0 := (Real.sqrt_pos.2 ha).ne'
  have h3 : √(a e T i * a e T j) * √(a e T i * a e T j) = a e T i * a e T j := Real.mul_self_sqrt ha.le
  simp only [Pi.mul_apply]
  rw [show (0.5 : ℝ) * √(a e T i * a e T j) / (a e T i * a e T j) = 0.5 * √(a e T i * a e T j) / (√(a e T i * a e T j) * √(a e T i * a e T j)) by rw [h3]]
  generalize √(a e T i * a e T j) = y at *
  field_simp
  norm_num
  ring

theorem sT_hasDerivAt (e : Eos n) (T : ℝ) (hT : 0 < T) (i j : Fin n) (hi : 0 < e.Tcr i) (hj : 0 < e.Tcr j)
    (ha : 0 < a e T i * a e T j) : HasDerivAt (fun T => sT e T i j) (sTT e T i j) T := by
  obtain ⟨di, di2⟩ := a_hasDerivAt e T hT i hi
  obtain ⟨dj, dj2⟩ := a_hasDerivAt e T hT j hj
  have ds := s_hasDerivAt e T hT i j hi hj ha
  have d0 := di.mul dj
  have d1 := ((di2.mul dj).add (di.mul dj2))
  have := ((ds.const_mul 0.5).div d0 ha.ne').mul d1
  refine this.congr_deriv ?_
  unfold sTT sT
  have h2 : s e T i j ≠ 0 := (Real.sqrt_pos.2 ha).ne'
  simp only [Pi.mul_apply, Pi.div_apply, Pi.add_apply]
  have hai : a e T i ≠ 0 := left_ne_zero_of_mul ha.ne'
  have haj : a e T j ≠ 0 := right_ne_zero_of_mul ha.ne'
  generalize s e T i j = y at *
  generalize a e T i = u at *
  generalize a e T j = v at *
  field_simp
  ring

end Verif.CubicEOS
