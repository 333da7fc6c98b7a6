import Verif.Theorems.WaterWagnerPruss
import Verif.Theorems.WaterHGK
import Mathlib.Analysis.SpecialFunctions.Pow.Continuity

/-!
# C67 : water vapour obeys the ideal gas law at low density
-/

namespace Verif.Water

open Real Filter Topology

/-- As the density goes to zero, the density times the derivative of the Helmholtz energy, which is the
pressure divided by the density, tends to `L`. -/
def VapourLimit (F : ℝ → HState) (L : ℝ) : Prop := Tendsto (fun d => d * (F d).hD) (𝓝[>] 0) (𝓝 L)

namespace VapourLimit

variable {F G : ℝ → HState} {L M : ℝ}

theorem add (hF : VapourLimit F L) (hG : VapourLimit G M) : VapourLimit (fun d => F d + G d) (L + M) := by
  refine (Tendsto.add hF hG).congr fun d => ?_
  simp only [add_hD]; ring

theorem congr (hF : VapourLimit F L) (h : ∀ d, 0 < d → (G d).hD = (F d).hD) : VapourLimit G L := by
  refine Tendsto.congr' ?_ hF
  filter_upwards [self_mem_nhdsWithin] with d hd
  rw [h d hd]

theorem zero : VapourLimit (fun _ => HState.zero) 0 := by
  simp [VapourLimit, HState.zero]

theorem of_zero (h : ∀ d, (F d).hD = 0) : VapourLimit F 0 := by
  simp [VapourLimit, h]

theorem sum (l : List ℕ) (f : ℕ → ℝ → HState) (h : ∀ i ∈ l, VapourLimit (f i) 0) :
    VapourLimit (fun d => sumStates l fun i => f i d) 0 := by
  have aux : ∀ (l : List ℕ) (G : ℝ → HState), VapourLimit G 0 → (∀ i ∈ l, VapourLimit (f i) 0) →
      VapourLimit (fun d => l.foldl (fun s i => s + f i d) (G d)) 0 := by
    intro l
    induction l with
    | nil => intro G hG _; simpa using hG
    | cons i l ih =>
      intro G hG hl
      simp only [List.foldl_cons]
      refine ih (fun d => G d + f i d) ?_ fun j hj => hl j (List.mem_cons_of_mem _ hj)
      simpa using hG.add (hl i List.mem_cons_self)
  exact aux l _ zero h

/-- Near zero density the product is a function continuous at zero. -/
theorem of_continuous {g : ℝ → ℝ} (hg : ContinuousAt g 0) (hL : g 0 = L) (h : ∀ d, 0 < d → d * (F d).hD = g d) :
    VapourLimit F L := by
  refine Tendsto.congr' ?_ ((hL ▸ hg.tendsto : Tendsto g (𝓝 0) (𝓝 L)).mono_left nhdsWithin_le_nhds)
  filter_upwards [self_mem_nhdsWithin] with d hd
  exact (h d hd).symm

theorem of_continuous_hD (hg : ContinuousAt (fun d => (F d).hD) 0) : VapourLimit F 0 :=
  of_continuous (g := fun d => d * (F d).hD) (continuousAt_id.mul hg) (by simp) fun _ _ => rfl

end VapourLimit

section WagnerPruss

theorem wpPoly_limit (n d t tau : ℝ) (hd : 0 < d) : VapourLimit (wpPoly n d t tau) 0 := by
  refine VapourLimit.of_continuous (g := fun x => d * (n * x ^ d * tau ^ t)) ?_ ?_ ?_
  · have := continuousAt_rpow_const 0 d (Or.inr hd.le)
    fun_prop
  · simp [zero_rpow hd.ne']
  · intro x hx
    simp only [wpPoly]; field_simp

theorem wpExp_limit (n c d t tau : ℝ) (hd : 0 < d) (hc : 0 < c) : VapourLimit (wpExp n c d t tau) 0 := by
  refine VapourLimit.of_continuous (g := fun x => (d - c * x ^ c) * (n * x ^ d * tau ^ t * exp (-x ^ c))) ?_ ?_ ?_
  · have := continuousAt_rpow_const 0 d (Or.inr hd.le)
    have := continuousAt_rpow_const 0 c (Or.inr hc.le)
    fun_prop
  · simp [zero_rpow hd.ne']
  · intro x hx
    simp only [wpExp]; field_simp

theorem wpGauss_limit (n d t al be ga ep tau : ℝ) (hd : 0 < d) : VapourLimit (wpGauss n d t al be ga ep tau) 0 := by
  refine VapourLimit.of_continuous (g := fun x => (d - x * (2 * al * (x - ep))) *
    (n * x ^ d * tau ^ t * exp ((-al) * (x - ep) ^ 2 - be * (tau - ga) ^ 2))) ?_ ?_ ?_
  · have := continuousAt_rpow_const 0 d (Or.inr hd.le)
    fun_prop
  · simp [zero_rpow hd.ne']
  · intro x hx
    simp only [wpGauss]; field_simp

theorem wpNonAnalytic_limit (n b A B E a C F tau : ℝ) (hB : 0 < B) (hE : E ≠ 0) :
    VapourLimit (fun d => wpNonAnalytic n (wpDeltaPow b (wpDelta A B E a tau d)) (wpPsi C F tau d) d) 0 := by
  have j := wpNonAnalytic_jet (T := tau) (D := 0) n (wpDeltaPow_jet b A B E a hB hE zero_ne_one)
    (wpPsi_jet C F)
  exact VapourLimit.of_continuous_hD j.hD.right.continuousAt

theorem wpPhi_limit (tau : ℝ) : VapourLimit (wpPhi tau) 1 := by
  have h0 : VapourLimit (wpIdeal0 tau) 1 := by
    refine VapourLimit.of_continuous (g := fun _ => 1) continuousAt_const rfl ?_
    intro d hd; simp only [wpIdeal0]; field_simp
  have h1 : VapourLimit (fun d => sumStates (List.range' 4 5) fun i =>
      wpIdeal (wpNo.getD i 0) (wpGammao.getD (i - 4) 0) tau d) 0 :=
    VapourLimit.sum _ _ fun i _ => VapourLimit.of_zero fun d => rfl
  have h2 := VapourLimit.sum (List.range' 1 7) (fun i d => wpPoly (wpN.getD i 0) (wpD.getD i 0) (wpT.getD i 0) tau d) (by
    intro i hi
    refine wpPoly_limit _ _ _ _ ?_
    simp only [List.mem_range'_1] at hi
    obtain ⟨a, b⟩ := hi
    interval_cases i <;> norm_num [wpD])
  have h3 := VapourLimit.sum (List.range' 8 44) (fun i d => wpExp (wpN.getD i 0) (wpC.getD i 0) (wpD.getD i 0) (wpT.getD i 0) tau d) (by
    intro i hi
    simp only [List.mem_range'_1] at hi
    obtain ⟨a, b⟩ := hi
    refine wpExp_limit _ _ _ _ _ ?_ ?_
    · interval_cases i <;> norm_num [wpD]
    · interval_cases i <;> norm_num [wpC])
  have h4 := VapourLimit.sum (List.range' 52 3) (fun i d => wpGauss (wpN.getD i 0) (wpD.getD i 0) (wpT.getD i 0)
      (wpAlpha.getD (i - 52) 0) (wpBeta.getD (i - 52) 0) (wpGamma.getD (i - 52) 0) (wpEpsilon.getD (i - 52) 0) tau d) (by
    intro i hi
    simp only [List.mem_range'_1] at hi
    obtain ⟨a, b⟩ := hi
    refine wpGauss_limit _ _ _ _ _ _ _ _ ?_
    interval_cases i <;> norm_num [wpD])
  have h5 := VapourLimit.sum (List.range' 55 2) (fun i d => wpNonAnalytic (wpN.getD i 0)
      (wpDeltaPow (wpb.getD (i - 55) 0) (wpDelta (wpA.getD (i - 55) 0) (wpB.getD (i - 55) 0) (wpE.getD (i - 55) 0)
        (wpa.getD (i - 55) 0) tau d))
      (wpPsi (wpCc.getD (i - 55) 0) (wpF.getD (i - 55) 0) tau d) d) (by
    intro i hi
    simp only [List.mem_range'_1] at hi
    obtain ⟨a, b⟩ := hi
    refine wpNonAnalytic_limit _ _ _ _ _ _ _ _ _ ?_ ?_
    · interval_cases i <;> norm_num [wpB]
    · interval_cases i <;> norm_num [wpE])
  have h := (h0.add h1).add (((h2.add h3).add h4).add h5)
  have e : (1 : ℝ) + 0 + (0 + 0 + 0 + 0) = 1 := by norm_num
  rw [e] at h
  exact h

end WagnerPruss

section HGK

theorem hgk1term_limit (A : ℝ) (i : ℤ) (t : ℝ) : VapourLimit (hgk1term A i t) 0 := by
  refine VapourLimit.of_continuous (g := fun d => d * A * t ^ (1 - i)) (by fun_prop) (by simp) ?_
  intro d hd
  simp only [hgk1term]; field_simp

theorem hgk2_limit (t : ℝ) : VapourLimit (hgk2 t) (hgkA20 * t) := by
  let c := hgkYc.getD 0 0 + hgkYc.getD 1 0 * log t + hgkYc.getD 2 0 * t ^ (-3 : ℤ) + hgkYc.getD 3 0 * t ^ (-5 : ℤ)
  refine VapourLimit.of_continuous (g := fun d => hgkA20 * t * ((d * (c * (1 / (1 - d * c))) + 1)
    + hgkc1 * (d * (c * (1 / (1 - d * c) * (1 / (1 - d * c)))))
    + 2 * hgkc2 * (1 / (1 - d * c)) * (d * (c * (1 / (1 - d * c) * (1 / (1 - d * c))))) + hgkc3 * (d * c))) ?_ ?_ ?_
  · have : (1 : ℝ) - 0 * c ≠ 0 := by simp
    fun_prop (disch := assumption)
  · simp
  · intro d hd
    have hy : d * c / d = c := by field_simp
    simp only [hgk2, hgk2of, hgkX, hgkU, hgkY]
    show d * (hgkA20 * t * (d * c / d * (1 / (1 - d * c) * (1 / (1 - d * c))) / (1 / (1 - d * c)) + 1 / d
      + hgkc1 * (d * c / d * (1 / (1 - d * c) * (1 / (1 - d * c))))
      + 2 * hgkc2 * (1 / (1 - d * c)) * (d * c / d * (1 / (1 - d * c) * (1 / (1 - d * c)))) + hgkc3 * (d * c / d))) = _
    rw [hy]
    have h2 : ∀ x : ℝ, c * (x * x) / x = c * x := by
      intro x
      by_cases hx : x = 0
      · simp [hx]
      · field_simp
    rw [h2]
    have h3 : d * (1 / d) = 1 := by field_simp
    linear_combination hgkA20 * t * h3

theorem hgk3term_limit (A : ℝ) (l k : ℕ) (t : ℝ) : VapourLimit (hgk3term A l k t) 0 := by
  refine VapourLimit.of_continuous (g := fun d => d * (k * (hgkz0 * (1 - (1 - exp ((-hgkz0) * d)))) *
    (A * t ^ (-(l : ℤ)) * (1 - exp ((-hgkz0) * d)) ^ (k - 1)))) (by fun_prop) (by simp) ?_
  intro d hd
  have hz0 : 0 < hgkz0 := by unfold hgkz0; norm_num
  have hz : 0 < 1 - exp ((-hgkz0) * d) := by
    have : exp ((-hgkz0) * d) < exp 0 := exp_lt_exp.mpr (by nlinarith)
    rw [exp_zero] at this; linarith
  simp only [hgk3term]
  rcases k with _ | k
  · simp
  · simp only [Nat.add_sub_cancel, pow_succ]
    generalize 1 - exp ((-hgkz0) * d) = z at hz ⊢
    field_simp

theorem hgk4term_limit (A al be r0 t0 : ℝ) (m n : ℕ) (t : ℝ) (hr : r0 ≠ 0) :
    VapourLimit (hgk4term A al be r0 t0 m n t) 0 := by
  refine VapourLimit.of_continuous_hD ?_
  simp only [hgk4term]
  have : (0 - r0) / r0 ≠ 0 := by rw [zero_sub, neg_div, div_self hr]; norm_num
  fun_prop (disch := assumption)

theorem hgk_limit (t : ℝ) : VapourLimit (fun r => hgk0 t r + hgk1 t r + hgk2 t r + hgk3 t r + hgk4 t r) (hgkA20 * t) := by
  have h0 : VapourLimit (hgk0 t) 0 := by
    have := (VapourLimit.of_zero (F := hgk0log t) fun d => rfl).add
      (VapourLimit.sum (List.range' 2 16) (fun i d => hgk0term (hgkA0.getD i 0) i t d) fun i _ =>
        VapourLimit.of_zero fun d => rfl)
    rw [add_zero] at this
    exact this
  have h1 : VapourLimit (hgk1 t) 0 := VapourLimit.sum _ _ fun i _ => hgk1term_limit _ _ _
  have h3 : VapourLimit (hgk3 t) 0 := VapourLimit.sum _ _ fun i _ => hgk3term_limit _ _ _ _
  have h4 : VapourLimit (hgk4 t) 0 := VapourLimit.sum _ _ fun i hi => by
    simp only [List.mem_range] at hi
    refine hgk4term_limit _ _ _ _ _ _ _ _ ?_
    interval_cases i <;> norm_num [hgkRi]
  simpa using (((h0.add h1).add (hgk2_limit t)).add h3).add h4

end HGK

/-- Scaling the density does not change the limit. -/
theorem VapourLimit.scale {F : ℝ → HState} {L c : ℝ} (h : VapourLimit F L) (hc : 0 < c) :
    Tendsto (fun D => D / c * (F (D / c)).hD) (𝓝[>] 0) (𝓝 L) := by
  refine Tendsto.comp h ?_
  refine tendsto_nhdsWithin_iff.mpr ⟨?_, ?_⟩
  · have : ContinuousAt (fun D : ℝ => D / c) 0 := by fun_prop
    have h2 := this.tendsto
    simp only [zero_div] at h2
    exact h2.mono_left nhdsWithin_le_nhds
  · filter_upwards [self_mem_nhdsWithin] with D hD
    exact div_pos hD hc

/-- C67 for Wagner and Pruss : at every temperature the pressure divided by the density tends to `R T` as
the density goes to zero, with the specific gas constant of water. -/
theorem C67_wagnerPruss (T : ℝ) :
    Tendsto (fun D => waterPressure T D wagnerPruss / D) (𝓝[>] 0) (𝓝 (461.51805 * T)) := by
  have h := ((wpPhi_limit (Tcr / T)).scale (c := Dcr) (by unfold Dcr; norm_num)).const_mul (461.51805 * T)
  rw [mul_one] at h
  refine Tendsto.congr' ?_ h
  filter_upwards [self_mem_nhdsWithin] with D hD
  have hD' : (D : ℝ) ≠ 0 := ne_of_gt hD
  simp only [waterPressure, wagnerPruss, wpDimension, wpR]
  field_simp

/-- C67 for Haar, Gallagher and Kell : the same with the gas constant that its coefficients give. -/
theorem C67_hgk (T : ℝ) :
    Tendsto (fun D => waterPressureHGK T D / D) (𝓝[>] 0) (𝓝 (4.2923415 * 69595.89 / 647.27 * T)) := by
  have h := ((hgk_limit (T / hgkTref)).scale (c := hgkDref) (by unfold hgkDref; norm_num)).const_mul hgkFref
  have e : hgkFref * (hgkA20 * (T / hgkTref)) = 4.2923415 * 69595.89 / 647.27 * T := by
    unfold hgkFref hgkA20 hgkTref; ring
  rw [e] at h
  refine Tendsto.congr' ?_ h
  filter_upwards [self_mem_nhdsWithin] with D hD
  have hD' : (D : ℝ) ≠ 0 := ne_of_gt hD
  simp only [waterPressureHGK, waterPressure, hgk, hgkDimension]
  field_simp

/-- The gas constant of C67_hgk agrees with that of Wagner and Pruss to one part in 100000. -/
theorem C67_gasConstant : |(4.2923415 * 69595.89 / 647.27 : ℝ) / 461.51805 - 1| < 1e-5 := by
  rw [abs_lt]; constructor <;> norm_num

/-- `waterPressureWagnerPruss` does not return the pressure of the Wagner and Pruss equation of state : at
every temperature there is a range of densities where it differs, because it evaluates the other
equation of state. -/
theorem C67_pressure_wrong (T : ℝ) (hT : 0 < T) :
    ∃ D₀ > 0, ∀ D, 0 < D → D < D₀ → waterPressureWagnerPruss T D ≠ waterPressure T D wagnerPruss := by
  have h := (C67_hgk T).sub (C67_wagnerPruss T)
  have hpos : (0 : ℝ) < 4.2923415 * 69595.89 / 647.27 * T - 461.51805 * T := by
    have : (4.2923415 * 69595.89 / 647.27 - 461.51805 : ℝ) > 0 := by norm_num
    nlinarith
  have ev := h.eventually (eventually_gt_nhds hpos)
  rw [eventually_nhdsWithin_iff, Metric.eventually_nhds_iff] at ev
  obtain ⟨ε, he, hev⟩ := ev
  refine ⟨ε, he, fun D h0 h1 heq => ?_⟩
  have := hev (y := D) (by rw [Real.dist_eq, sub_zero, abs_of_pos h0]; exact h1) h0
  have e : waterPressureHGK T D = waterPressure T D wagnerPruss := heq
  rw [e, sub_self] at this
  exact lt_irrefl _ this

/-- The other function of the pair does what its name says. -/
theorem C67_pressure_hgk (T D : ℝ) : waterPressureHGK T D = D ^ 2 * (hgk T D).hD := by
  simp only [waterPressureHGK, waterPressure]; ring

end Verif.Water
