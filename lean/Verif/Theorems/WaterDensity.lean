import Verif.Lemmas.Jet
import Mathlib.Analysis.Calculus.MeanValue

/-!
# C68 : the density of water solves the pressure equation
-/

namespace Verif.Water

open Real Filter Topology

section
variable {model : ℝ → ℝ → HState} {T P D' : ℝ} {som : StateOfMatter}

theorem densityLoop_ok {model : ℝ → HState} {n : ℕ} {D₀ : ℝ} (Q : ℝ → Prop) (h0 : Q D₀)
    (hstep : ∀ D, Q D → Q (densityStep P D (model D))) (h : densityLoop model P n D₀ = .ok D') :
    ∃ D, Q D ∧ |densityResidual P D (model D)| < densityTol ∧ D' = densityStep P D (model D) := by
  induction n generalizing D₀ with
  | zero => exact absurd h (by simp [densityLoop])
  | succ n ih =>
    unfold densityLoop at h
    simp only at h
    split at h
    · next hlt => injection h with h; exact ⟨D₀, h0, hlt, h.symm⟩
    · exact ih (hstep D₀ h0) h

/-- C68, part.  When `waterDensity` returns a density, it is the result of one more iteration from a density
whose pressure differs from the given one by less than `1e-8` times the critical pressure. -/
theorem C68_iterate_partial (h : waterDensity T P model som = .ok D') :
    ∃ D, |waterPressure T D model - P| < 1e-8 * 22.064e6 ∧
      (D' = D - (waterPressure T D model - P) / (2 * D * (model T D).hD + D ^ 2 * (model T D).hDD) ∨
       D' = P / (D * (model T D).hD)) := by
  obtain ⟨D, -, h1, h2⟩ := densityLoop_ok (fun _ => True) trivial (fun _ _ => trivial) h
  refine ⟨D, ?_, ?_⟩
  · have e : waterPressure T D model - P = densityResidual P D (model T D) * Pcr := by
      unfold waterPressure densityResidual Pcr; field_simp
    rw [e, abs_mul, abs_of_pos (by unfold Pcr; norm_num : (0 : ℝ) < Pcr)]
    have : (0 : ℝ) < Pcr := by unfold Pcr; norm_num
    have h3 := mul_lt_mul_of_pos_right h1 this
    unfold densityTol at h3
    unfold Pcr at h3 ⊢
    exact h3
  · rw [h2]
    unfold densityStep
    simp only
    split
    · left
      have : (densityResidual P D (model T D) / densitySlope D (model T D)) =
          (waterPressure T D model - P) / (2 * D * (model T D).hD + D ^ 2 * (model T D).hDD) := by
        unfold densityResidual densitySlope waterPressure
        rw [div_div_div_cancel_right₀ (by unfold Pcr; norm_num), pow_two]
      rw [← this]
    · right; rfl

/-- C68, positivity.  At positive temperature and pressure, with a model whose pressure is positive at
positive densities, the returned density is positive. -/
theorem C68_positive (hT : 0 < T) (hP : 0 < P) (hm : ∀ D, 0 < D → 0 < (model T D).hD)
    (h : waterDensity T P model som = .ok D') : 0 < D' := by
  have hstep : ∀ D, 0 < D → 0 < densityStep P D (model T D) := by
    intro D hD
    unfold densityStep
    simp only
    split
    · next hlt => linarith
    · exact div_pos hP (mul_pos hD (hm D hD))
  have h0 : 0 < densityGuess T P som := by
    unfold densityGuess Dcr Mw Rgas
    split
    · norm_num
    · positivity
  obtain ⟨D, hD, -, h2⟩ := densityLoop_ok (fun D => 0 < D) h0 hstep h
  rw [h2]; exact hstep D hD

/-- C68, the pressure of the returned density.  When between the last two iterates the slope of the
pressure as a function of density is positive and at most twice its value at the last but one iterate,
the pressure of the returned density differs from the given one by less than `1e-8` times the critical
pressure. -/
theorem C68_pressure_partial (h : waterDensity T P model som = .ok D') :
    ∃ D, |waterPressure T D model - P| < 1e-8 * 22.064e6 ∧
      ((∀ x ∈ Set.uIcc D D', HasDerivAt (fun d => waterPressure T d model)
          (2 * x * (model T x).hD + x ^ 2 * (model T x).hDD) x ∧
        0 < 2 * x * (model T x).hD + x ^ 2 * (model T x).hDD ∧
        2 * x * (model T x).hD + x ^ 2 * (model T x).hDD ≤
          2 * (2 * D * (model T D).hD + D ^ 2 * (model T D).hDD)) →
        D' = D - (waterPressure T D model - P) / (2 * D * (model T D).hD + D ^ 2 * (model T D).hDD) →
        |waterPressure T D' model - P| < 1e-8 * 22.064e6) := by
  obtain ⟨D, h1, -⟩ := C68_iterate_partial h
  refine ⟨D, h1, fun hd hs => ?_⟩
  set s : ℝ → ℝ := fun x => 2 * x * (model T x).hD + x ^ 2 * (model T x).hDD with hsdef
  have hsD : 0 < s D := (hd D Set.left_mem_uIcc).2.1
  by_cases heq : D = D'
  · rw [← heq]; exact h1
  obtain ⟨ξ, hξ, hmv⟩ : ∃ ξ ∈ Set.uIcc D D', waterPressure T D' model - waterPressure T D model = s ξ * (D' - D) := by
    rcases lt_or_gt_of_ne heq with hlt | hlt
    · obtain ⟨c, hc, e⟩ := exists_hasDerivAt_eq_slope (fun d => waterPressure T d model) s hlt
        (fun x hx => ((hd x (by rw [Set.uIcc_of_le hlt.le]; exact hx)).1).continuousAt.continuousWithinAt)
        (fun x hx => (hd x (by rw [Set.uIcc_of_le hlt.le]; exact Set.Ioo_subset_Icc_self hx)).1)
      refine ⟨c, by rw [Set.uIcc_of_le hlt.le]; exact Set.Ioo_subset_Icc_self hc, ?_⟩
      rw [e, div_mul_cancel₀ _ (by linarith)]
    · obtain ⟨c, hc, e⟩ := exists_hasDerivAt_eq_slope (fun d => waterPressure T d model) s hlt
        (fun x hx => ((hd x (by rw [Set.uIcc_of_ge hlt.le]; exact hx)).1).continuousAt.continuousWithinAt)
        (fun x hx => (hd x (by rw [Set.uIcc_of_ge hlt.le]; exact Set.Ioo_subset_Icc_self hx)).1)
      refine ⟨c, by rw [Set.uIcc_of_ge hlt.le]; exact Set.Ioo_subset_Icc_self hc, ?_⟩
      have : D - D' ≠ 0 := by linarith
      rw [e]; field_simp; ring
  have h2 := (hd ξ hξ).2
  have key : waterPressure T D' model - P = (waterPressure T D model - P) * (1 - s ξ / s D) := by
    have : D' - D = -((waterPressure T D model - P) / s D) := by rw [hs]; ring
    rw [this] at hmv
    have h3 : waterPressure T D' model - P = waterPressure T D model - P + s ξ * -((waterPressure T D model - P) / s D) := by
      linarith
    rw [h3]; ring
  have h4 : |1 - s ξ / s D| ≤ 1 := by
    have a : 0 < s ξ / s D := div_pos h2.1 hsD
    have b : s ξ / s D ≤ 2 := by rw [div_le_iff₀ hsD]; exact h2.2
    rw [abs_le]; constructor <;> linarith
  rw [key, abs_mul]
  calc _ ≤ |waterPressure T D model - P| * 1 := by gcongr
    _ < _ := by rw [mul_one]; exact h1

/-- C68, the thermodynamic state.  The state computed from a Helmholtz state with a positive pressure has
exactly the given pressure; its density differs from the density the Helmholtz state was computed at
unless that density solves the pressure equation exactly. -/
theorem C68_state {D : ℝ} (hP : 0 < P) (hD : 0 < D) (hm : 0 < (model T D).hD) :
    let W := thermoState T P (model T D)
    W.pressure = P ∧ 0 < W.density ∧ W.density ^ 2 * (model T D).hD = P ∧
    (W.density = D ↔ waterPressure T D model = P) := by
  have hd : 0 < √(P / (model T D).hD) := sqrt_pos.mpr (div_pos hP hm)
  have hs : √(P / (model T D).hD) ^ 2 * (model T D).hD = P := by
    rw [sq_sqrt (div_pos hP hm).le, div_mul_cancel₀ _ hm.ne']
  refine ⟨?_, hd, hs, ?_⟩
  · show √(P / (model T D).hD) * √(P / (model T D).hD) * (model T D).hD = P
    rw [← pow_two]; exact hs
  · show √(P / (model T D).hD) = D ↔ D * D * (model T D).hD = P
    constructor
    · intro h; rw [h] at hs; rw [← pow_two]; exact hs
    · intro h
      have : P / (model T D).hD = D ^ 2 := by rw [← h]; field_simp
      rw [this, sqrt_sq hD.le]

end

/-- A fluid whose pressure is a quadratic function of the density, with a minimum near the initial guess of
the code. -/
noncomputable def flatFluid (_T D : ℝ) : HState where
  h := D + (0.001 - 6440) * log D - (100000 + 0.1 - 3.22 + 3220 ^ 2) / D
  hD := 1 + (0.001 - 6440) / D + (100000 + 0.1 - 3.22 + 3220 ^ 2) / D ^ 2
  hDD := -((0.001 - 6440) / D ^ 2) - 2 * (100000 + 0.1 - 3.22 + 3220 ^ 2) / D ^ 3
  hDDD := 2 * (0.001 - 6440) / D ^ 3 + 6 * (100000 + 0.1 - 3.22 + 3220 ^ 2) / D ^ 4
  hT := 0
  hTT := 0
  hTD := 0
  hTTT := 0
  hTTD := 0
  hTDD := 0

theorem flatFluid_jet (T D : ℝ) (hT : 0 < T) (hD : 0 < D) : IsJet flatFluid T D := by
  have h := ((IsJet.varD (T := T) (D := D)).add ((IsJet.const (0.001 - 6440)).mul (IsJet.varD.log hD.ne'))).add
    ((IsJet.const (-(100000 + 0.1 - 3.22 + 3220 ^ 2))).mul (IsJet.varD.inv hD.ne'))
  refine h.congr_pos hT hD ?_
  intro t d ht hd
  unfold flatFluid
  ext <;> simp only [HState.mul, HState.comp, HState.log, HState.inv, HState.const, HState.varT, HState.varD, add_h, add_hT,
    add_hD, add_hTT, add_hTD, add_hDD, add_hTTT, add_hTTD, add_hTDD, add_hDDD] <;> field_simp <;> ring

theorem flatFluid_pressure (T D : ℝ) (hD : 0 < D) :
    waterPressure T D flatFluid = 100000.1 + 0.001 * (D - 3220) + (D - 3220) ^ 2 := by
  unfold waterPressure flatFluid
  field_simp; ring

/-- The pressure of the returned density is not checked : there is a smooth fluid with positive pressure at
all densities for which the returned density has a pressure 10 % away from the given one. -/
theorem C68_wrong (T : ℝ) (hT : 0 < T) :
    ∃ model : ℝ → ℝ → HState, (∀ D, 0 < D → IsJet model T D) ∧ (∀ D, 0 < D → 0 < waterPressure T D model) ∧
      ∃ D', waterDensity T 100000 model .liquid = .ok D' ∧ waterPressure T D' model = 110000 := by
  refine ⟨flatFluid, fun D hD => flatFluid_jet T D hT hD, fun D hD => ?_, 3120, ?_, ?_⟩
  · rw [flatFluid_pressure T D hD]; nlinarith [sq_nonneg (D - 3220 + 1)]
  · have hr : densityResidual 100000 3220 (flatFluid T 3220) = 0.1 / Pcr := by
      unfold densityResidual flatFluid; norm_num
    have hs : densitySlope 3220 (flatFluid T 3220) = 0.001 / Pcr := by
      unfold densitySlope flatFluid; norm_num
    have hg : densityGuess T 100000 .liquid = 3220 := by unfold densityGuess Dcr; norm_num
    have hq : densityStep 100000 3220 (flatFluid T 3220) = 3120 := by
      unfold densityStep
      simp only [hr, hs]
      unfold Pcr
      norm_num
    unfold waterDensity
    rw [hg]
    unfold densityLoop
    simp only [hr, hq]
    rw [if_pos]
    unfold Pcr densityTol
    norm_num [abs_of_pos]
  · rw [flatFluid_pressure T 3120 (by norm_num)]; norm_num

/-- The ideal gas, as a model without the fields the density calculation does not read. -/
noncomputable def gasModel (T D : ℝ) : HState :=
  ⟨0, 0, Rgas * T / Mw / D, 0, 0, -(Rgas * T / Mw / D ^ 2), 0, 0, 0, 0⟩

theorem gasModel_density (T P : ℝ) (hT : 0 < T) (hP : 0 < P) :
    waterDensity T P gasModel .gas = .ok (Mw / (Rgas * T / P)) := by
  have hR : (0 : ℝ) < Rgas := by unfold Rgas; norm_num
  have hM : (0 : ℝ) < Mw := by unfold Mw; norm_num
  have hr : densityResidual P (Mw / (Rgas * T / P)) (gasModel T (Mw / (Rgas * T / P))) = 0 := by
    unfold densityResidual gasModel
    rw [div_eq_zero_iff]; left
    simp only
    field_simp; ring
  have hq : densityStep P (Mw / (Rgas * T / P)) (gasModel T (Mw / (Rgas * T / P))) = Mw / (Rgas * T / P) := by
    unfold densityStep
    simp only [hr, zero_div, sub_zero]
    rw [if_pos (by positivity)]
  unfold waterDensity
  have hg : densityGuess T P .gas = Mw / (Rgas * T / P) := rfl
  rw [hg]
  unfold densityLoop
  simp only [hr, hq]
  rw [if_pos]
  unfold densityTol; norm_num

/-- The hypotheses of the theorems are met. -/
example : 0 < Mw / (Rgas * 300 / 100000) :=
  C68_positive (T := 300) (P := 100000) (model := gasModel) (som := .gas) (by norm_num) (by norm_num)
    (fun D hD => by unfold gasModel Rgas Mw; positivity) (gasModel_density 300 100000 (by norm_num) (by norm_num))

end Verif.Water
