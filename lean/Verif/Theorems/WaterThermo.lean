import Verif.Theorems.WaterWagnerPruss
import Verif.Theorems.WaterHGK
import Mathlib.Analysis.Calculus.FDeriv.Equiv
import Mathlib.Tactic.FieldSimp

/-!
# C66 : the thermodynamic state of water follows from its Helmholtz state
-/

namespace Verif.Water

open Real Filter Topology

/-- A continuous solution of `pr(T, ρ) = P` is differentiable where `∂pr/∂ρ` does not vanish. -/
theorem implicit_partials {pr ρ : ℝ → ℝ → ℝ} {a b T P : ℝ} (hpr : HasPartials pr a b T (ρ T P)) (hb : b ≠ 0)
    (hc : ContinuousAt (fun p : ℝ × ℝ => ρ p.1 p.2) (T, P))
    (hroot : ∀ᶠ p in 𝓝 (T, P), pr p.1 (ρ p.1 p.2) = p.2) : HasPartials ρ ((-a) / b) (1 / b) T P := by
  let L : ℝ × ℝ →L[ℝ] ℝ × ℝ := (ContinuousLinearMap.fst ℝ ℝ ℝ).prod
    (a • ContinuousLinearMap.fst ℝ ℝ ℝ + b • ContinuousLinearMap.snd ℝ ℝ ℝ)
  let M : ℝ × ℝ →L[ℝ] ℝ × ℝ := (ContinuousLinearMap.fst ℝ ℝ ℝ).prod
    (((-a) / b) • ContinuousLinearMap.fst ℝ ℝ ℝ + (1 / b) • ContinuousLinearMap.snd ℝ ℝ ℝ)
  have hl : Function.LeftInverse M L := by
    rintro ⟨x, y⟩
    simp only [L, M, ContinuousLinearMap.prod_apply, _root_.add_apply, _root_.smul_apply,
      ContinuousLinearMap.coe_fst', ContinuousLinearMap.coe_snd', smul_eq_mul, Prod.mk.injEq, true_and]
    field_simp
    ring
  have hr : Function.RightInverse M L := by
    rintro ⟨x, y⟩
    simp only [L, M, ContinuousLinearMap.prod_apply, _root_.add_apply, _root_.smul_apply,
      ContinuousLinearMap.coe_fst', ContinuousLinearMap.coe_snd', smul_eq_mul, Prod.mk.injEq, true_and]
    field_simp
    ring
  let e := ContinuousLinearEquiv.equivOfInverse L M hl hr
  have hf : HasFDerivAt (fun p : ℝ × ℝ => (p.1, pr p.1 p.2)) (e : ℝ × ℝ →L[ℝ] ℝ × ℝ) (T, ρ T P) :=
    HasFDerivAt.prodMk hasFDerivAt_fst hpr
  have hg : HasFDerivAt (fun p : ℝ × ℝ => (p.1, ρ p.1 p.2)) (e.symm : ℝ × ℝ →L[ℝ] ℝ × ℝ) (T, P) := by
    refine HasFDerivAt.of_local_left_inverse (f := fun p : ℝ × ℝ => (p.1, pr p.1 p.2)) ?_ hf ?_
    · exact continuousAt_fst.prodMk hc
    · filter_upwards [hroot] with p hp
      simp only [hp]
  have h2 := (hasFDerivAt_snd (𝕜 := ℝ) (p := (T, ρ T P))).comp (T, P) hg
  exact h2.congr_fderiv (by rfl)

/-- What a density function must satisfy at `(T, P)` : it is positive and continuous, it solves the
pressure equation `P = ρ² ∂A/∂ρ` in a neighbourhood, and the fluid is not at a spinodal. -/
structure DensityRoot (F : ℝ → ℝ → HState) (ρ : ℝ → ℝ → ℝ) (T P : ℝ) : Prop where
  temperature : T ≠ 0
  pressure : 0 < P
  positive : 0 < ρ T P
  continuous : ContinuousAt (fun p : ℝ × ℝ => ρ p.1 p.2) (T, P)
  root : ∀ᶠ p in 𝓝 (T, P), p.2 = ρ p.1 p.2 ^ 2 * (F p.1 (ρ p.1 p.2)).hD
  slope : 2 * ρ T P * (F T (ρ T P)).hD + ρ T P ^ 2 * (F T (ρ T P)).hDD ≠ 0

/-- The thermodynamic state at the density `ρ`. -/
noncomputable def stateAt (F : ℝ → ℝ → HState) (ρ : ℝ → ℝ → ℝ) (t p : ℝ) : ThermoState := thermoState t p (F t (ρ t p))

section
variable {F : ℝ → ℝ → HState} {ρ : ℝ → ℝ → ℝ} {T P : ℝ}

theorem sqrt_eq_density {p r h : ℝ} (hp : 0 < p) (hr : 0 < r) (h0 : p = r ^ 2 * h) : √(p / h) = r := by
  have hh : h ≠ 0 := by rintro rfl; simp at h0; linarith
  rw [h0, mul_div_cancel_right₀ _ hh, Real.sqrt_sq hr.le]

theorem density_eventually (h : DensityRoot F ρ T P) :
    ∀ᶠ p in 𝓝 (T, P), √(p.2 / (F p.1 (ρ p.1 p.2)).hD) = ρ p.1 p.2 := by
  filter_upwards [h.root, h.continuous.eventually_const_lt h.positive,
    IsJet.eventually_snd (eventually_gt_nhds h.pressure)] with p h1 h2 h3
  exact sqrt_eq_density h3 h2 h1

/-- C66.  If the derivative fields of the Helmholtz state are right, the thermodynamic state computed from
it at the density that solves the pressure equation is consistent, except at a density maximum
(`∂ρ/∂T = 0`), where the code divides by zero. -/
theorem C66_thermoState (hF : IsJet F T (ρ T P)) (h : DensityRoot F ρ T P) (hmax : (stateAt F ρ T P).densityT ≠ 0) :
    ThermoConsistent (stateAt F ρ) T P := by
  have e := density_eventually h
  have e0 : √(P / (F T (ρ T P)).hD) = ρ T P := e.self_of_nhds
  have hroot0 : P = ρ T P ^ 2 * (F T (ρ T P)).hD := h.root.self_of_nhds
  have hs := h.slope
  have hr0 := h.positive
  have hT0 := h.temperature
  -- the density
  have hpr : HasPartials (fun t d => d ^ 2 * (F t d).hD) (ρ T P ^ 2 * (F T (ρ T P)).hTD)
      (2 * ρ T P * (F T (ρ T P)).hD + ρ T P ^ 2 * (F T (ρ T P)).hDD) T (ρ T P) := by
    refine ((((HasPartials.snd (x := T) (y := ρ T P)).mul HasPartials.snd).mul hF.hD).congr_partials ?_ ?_).congr ?_
    · ring
    · ring
    · exact Eventually.of_forall fun p => by ring
  have hρ := implicit_partials hpr hs h.continuous (h.root.mono fun p hp => hp.symm)
  -- the fields of the Helmholtz state along the density
  have c : ∀ {g : ℝ → ℝ → ℝ} {gx gy : ℝ}, HasPartials g gx gy T (ρ T P) → HasPartials (fun t p => g t (ρ t p))
      (gx * 1 + gy * _) (gx * 0 + gy * _) T P := fun hg => HasPartials.fst.comp₂ hρ hg
  have ch := c hF.h
  have chT := c hF.hT
  have chD := c hF.hD
  have chTD := c hF.hTD
  have chDD := c hF.hDD
  have hmax' : ρ T P ^ 2 * (F T (ρ T P)).hTD ≠ 0 := by
    intro hz
    apply hmax
    simp only [stateAt, thermoState]
    rw [e0, ← pow_two, hz]
    simp
  have vT : HasPartials (fun (t : ℝ) (_ : ℝ) => t) 1 0 T P := HasPartials.fst
  have vP : HasPartials (fun (_ : ℝ) (p : ℝ) => p) 0 1 T P := HasPartials.snd
  have r2 := hρ.mul hρ
  have nT := r2.mul chTD
  have nD := ((hρ.const_mul 2).mul chD).add (r2.mul chDD)
  have hs' : 2 * ρ T P * (F T (ρ T P)).hD + ρ T P * ρ T P * (F T (ρ T P)).hDD ≠ 0 := by rwa [← pow_two]
  constructor
  · refine (hρ.congr_partials ?_ ?_).congr (e.mono fun p hp => ?_)
    · simp only [stateAt, thermoState]; rw [e0]; ring
    · simp only [stateAt, thermoState]; rw [e0]; ring
    · simp only [stateAt, thermoState]; exact hp
  · refine ((nT.neg.div nD hs').congr_partials ?_ ?_).congr (e.mono fun p hp => ?_)
    · simp only [stateAt, thermoState]; rw [e0]
      generalize F T (ρ T P) = s at hs' hmax' hroot0 ⊢
      generalize ρ T P = r at hs' hmax' hroot0 hr0 ⊢
      try rw [hroot0]
      simp only [pow_two] at hs' hmax' ⊢
      generalize hN : 2 * r * s.hD + r * r * s.hDD = N at hs' ⊢
      have hX : s.hTD ≠ 0 := right_ne_zero_of_mul hmax'
      try field_simp
      try simp only [← hN]
      try ring
    · simp only [stateAt, thermoState]; rw [e0]
      generalize F T (ρ T P) = s at hs' hmax' hroot0 ⊢
      generalize ρ T P = r at hs' hmax' hroot0 hr0 ⊢
      try rw [hroot0]
      simp only [pow_two] at hs' hmax' ⊢
      generalize hN : 2 * r * s.hD + r * r * s.hDD = N at hs' ⊢
      have hX : s.hTD ≠ 0 := right_ne_zero_of_mul hmax'
      try field_simp
      try simp only [← hN]
      try ring
    · simp only [stateAt, thermoState]; rw [hp]
  · refine (((HasPartials.const 1).div nD hs').congr_partials ?_ ?_).congr (e.mono fun p hp => ?_)
    · simp only [stateAt, thermoState]; rw [e0]
      generalize F T (ρ T P) = s at hs' hmax' hroot0 ⊢
      generalize ρ T P = r at hs' hmax' hroot0 hr0 ⊢
      try rw [hroot0]
      simp only [pow_two] at hs' hmax' ⊢
      generalize hN : 2 * r * s.hD + r * r * s.hDD = N at hs' ⊢
      have hX : s.hTD ≠ 0 := right_ne_zero_of_mul hmax'
      try field_simp
      try simp only [← hN]
      try ring
    · simp only [stateAt, thermoState]; rw [e0]
      generalize F T (ρ T P) = s at hs' hmax' hroot0 ⊢
      generalize ρ T P = r at hs' hmax' hroot0 hr0 ⊢
      try rw [hroot0]
      simp only [pow_two] at hs' hmax' ⊢
      generalize hN : 2 * r * s.hD + r * r * s.hDD = N at hs' ⊢
      have hX : s.hTD ≠ 0 := right_ne_zero_of_mul hmax'
      try field_simp
      try simp only [← hN]
      try ring
    · simp only [stateAt, thermoState]; rw [hp]
  · intro t p; rfl
  · refine (((ch.add (vT.mul chT.neg)).add (vP.div hρ hr0.ne')).sub (vT.mul chT.neg) |>.congr_partials ?_ ?_).congr (e.mono fun p hp => ?_)
    · simp only [stateAt, thermoState]
      generalize F T (ρ T P) = s at hs' hmax' hroot0 ⊢
      generalize ρ T P = r at hs' hmax' hroot0 hr0 ⊢
      try rw [hroot0]
      simp only [pow_two] at hs' hmax' ⊢
      generalize hN : 2 * r * s.hD + r * r * s.hDD = N at hs' ⊢
      have hX : s.hTD ≠ 0 := right_ne_zero_of_mul hmax'
      try field_simp
      try simp only [← hN]
      try ring
    · simp only [stateAt, thermoState]; rw [e0]
      generalize F T (ρ T P) = s at hs' hmax' hroot0 ⊢
      generalize ρ T P = r at hs' hmax' hroot0 hr0 ⊢
      try rw [hroot0]
      simp only [pow_two] at hs' hmax' ⊢
      generalize hN : 2 * r * s.hD + r * r * s.hDD = N at hs' ⊢
      have hX : s.hTD ≠ 0 := right_ne_zero_of_mul hmax'
      try field_simp
      try simp only [← hN]
      try ring
    · simp only [stateAt, thermoState]; rw [hp]
  · refine (((ch.add (vT.mul chT.neg)).add (vP.div hρ hr0.ne')).congr_partials ?_ ?_).congr (e.mono fun p hp => ?_)
    · simp only [stateAt, thermoState]; rw [e0]
      generalize F T (ρ T P) = s at hs' hmax' hroot0 ⊢
      generalize ρ T P = r at hs' hmax' hroot0 hr0 ⊢
      try rw [hroot0]
      simp only [pow_two] at hs' hmax' ⊢
      generalize hN : 2 * r * s.hD + r * r * s.hDD = N at hs' ⊢
      have hX : s.hTD ≠ 0 := right_ne_zero_of_mul hmax'
      try field_simp
      try simp only [← hN]
      try ring
    · simp only [stateAt, thermoState]; rw [e0]
      generalize F T (ρ T P) = s at hs' hmax' hroot0 ⊢
      generalize ρ T P = r at hs' hmax' hroot0 hr0 ⊢
      try rw [hroot0]
      simp only [pow_two] at hs' hmax' ⊢
      generalize hN : 2 * r * s.hD + r * r * s.hDD = N at hs' ⊢
      have hX : s.hTD ≠ 0 := right_ne_zero_of_mul hmax'
      try field_simp
      try simp only [← hN]
      try ring
    · simp only [stateAt, thermoState]; rw [hp]
  · refine (chT.neg.congr_partials ?_ ?_).congr (Eventually.of_forall fun p => ?_)
    · simp only [stateAt, thermoState]; rw [e0]
      generalize F T (ρ T P) = s at hs' hmax' hroot0 ⊢
      generalize ρ T P = r at hs' hmax' hroot0 hr0 ⊢
      try rw [hroot0]
      simp only [pow_two] at hs' hmax' ⊢
      generalize hN : 2 * r * s.hD + r * r * s.hDD = N at hs' ⊢
      have hX : s.hTD ≠ 0 := right_ne_zero_of_mul hmax'
      try field_simp
      try simp only [← hN]
      try ring
    · simp only [stateAt, thermoState]; rw [e0]
      generalize F T (ρ T P) = s at hs' hmax' hroot0 ⊢
      generalize ρ T P = r at hs' hmax' hroot0 hr0 ⊢
      try rw [hroot0]
      simp only [pow_two] at hs' hmax' ⊢
      generalize hN : 2 * r * s.hD + r * r * s.hDD = N at hs' ⊢
      have hX : s.hTD ≠ 0 := right_ne_zero_of_mul hmax'
      try field_simp
      try simp only [← hN]
      try ring
    · simp only [stateAt, thermoState]
  · simp only [stateAt, thermoState]; ring
  · simp only [stateAt, thermoState]; ring
  · simp only [stateAt, thermoState]

/-- C66, pressure.  The pressure field is the given pressure, and its derivative fields are the partial
derivatives of `ρ² ∂A/∂ρ` with respect to temperature and density. -/
theorem C66_pressure (hF : IsJet F T (ρ T P)) (h : DensityRoot F ρ T P) :
    (stateAt F ρ T P).pressure = P ∧ (stateAt F ρ T P).density = ρ T P ∧
    HasPartials (fun t d => waterPressure t d F) (stateAt F ρ T P).pressureT (stateAt F ρ T P).pressureD T (ρ T P) ∧
    HasPartials (fun t d => d ^ 2 * (F t d).hTD) (stateAt F ρ T P).pressureTT (stateAt F ρ T P).pressureTD T (ρ T P) ∧
    HasPartials (fun t d => 2 * d * (F t d).hD + d ^ 2 * (F t d).hDD) (stateAt F ρ T P).pressureTD
      (stateAt F ρ T P).pressureDD T (ρ T P) := by
  have e0 : √(P / (F T (ρ T P)).hD) = ρ T P := (density_eventually h).self_of_nhds
  have hroot0 : P = ρ T P ^ 2 * (F T (ρ T P)).hD := h.root.self_of_nhds
  have vD : HasPartials (fun (_ : ℝ) (d : ℝ) => d) 0 1 T (ρ T P) := HasPartials.snd
  have d2 : HasPartials (fun (_ : ℝ) (d : ℝ) => d ^ 2) 0 (2 * ρ T P) T (ρ T P) :=
    ((vD.mul vD).congr_partials (by ring) (by ring)).congr (Eventually.of_forall fun p => by ring)
  refine ⟨?_, ?_, ?_, ?_, ?_⟩
  · simp only [stateAt, thermoState]; rw [e0, ← pow_two]; exact hroot0.symm
  · simp only [stateAt, thermoState]; rw [e0]
  · refine ((d2.mul hF.hD).congr_partials ?_ ?_).congr (Eventually.of_forall fun p => ?_)
    · simp only [stateAt, thermoState]; rw [e0]; ring
    · simp only [stateAt, thermoState]; rw [e0]; ring
    · simp only [waterPressure]; ring
  · refine (d2.mul hF.hTD).congr_partials ?_ ?_
    · simp only [stateAt, thermoState]; rw [e0]; ring
    · simp only [stateAt, thermoState]; rw [e0]; ring
  · refine (((vD.const_mul 2).mul hF.hD).add (d2.mul hF.hDD)).congr_partials ?_ ?_
    · simp only [stateAt, thermoState]; rw [e0]; ring
    · simp only [stateAt, thermoState]; rw [e0]; ring

/-- C66, isochoric heat capacity.  `cv` is the derivative of the internal energy `A - T ∂A/∂T` with respect
to temperature at constant density. -/
theorem C66_cv (hF : IsJet F T (ρ T P)) :
    HasDerivAt (fun t => (F t (ρ T P)).h - t * (F t (ρ T P)).hT) (stateAt F ρ T P).cv T := by
  have := hF.h.left.fun_sub ((hasDerivAt_id' T).fun_mul hF.hT.left)
  refine this.congr_deriv ?_
  simp only [stateAt, thermoState]
  ring

end

/-- C66 for the equation of state of Wagner and Pruss. -/
theorem C66_wagnerPruss {ρ : ℝ → ℝ → ℝ} {T P : ℝ} (hT : 0 < T) (hcr : ρ T P ≠ Dcr)
    (h : DensityRoot wagnerPruss ρ T P) (hmax : (stateAt wagnerPruss ρ T P).densityT ≠ 0) :
    ThermoConsistent (stateAt wagnerPruss ρ) T P :=
  C66_thermoState (C64_wagnerPruss T _ hT h.positive hcr) h hmax

/-- C66 for the equation of state of Haar, Gallagher and Kell, part : every relation holds except those of
the second derivatives `densityTT` and `densityTP`, which inherit the error of `hTDD`. -/
theorem C66_hgk_partial {ρ : ℝ → ℝ → ℝ} {T P : ℝ} (hr : HgkRange T (ρ T P))
    (h : DensityRoot hgk ρ T P) (hmax : (stateAt hgk ρ T P).densityT ≠ 0) :
    let W := stateAt hgk ρ
    HasPartials (fun t p => (W t p).density) (W T P).densityT (W T P).densityP T P ∧
    HasPartials (fun t p => (W t p).gibbs) (-(W T P).entropy) (W T P).volume T P ∧
    HasPartials (fun t p => (W t p).enthalpy) (W T P).cp
      ((W T P).volume + T * ((W T P).densityT / (W T P).density ^ 2)) T P ∧
    HasPartials (fun t p => (W t p).entropy) ((W T P).cp / T) ((W T P).densityT / (W T P).density ^ 2) T P ∧
    HasDerivAt (fun p => (W T p).densityP) (W T P).densityPP P := by
  have hc : ThermoConsistent (stateAt hgkFix ρ) T P :=
    C66_thermoState (hgkFix_jet T _ hr) ⟨h.temperature, h.pressure, h.positive, h.continuous, h.root, h.slope⟩ hmax
  exact ⟨hc.density, hc.gibbs, hc.enthalpy, hc.entropy, hc.densityP.right⟩

/-- A fluid that obeys the ideal gas law with gas constant 1 and constant heat capacity. -/
noncomputable def idealFluid (T D : ℝ) : HState where
  h := T * Real.log D - T * Real.log T
  hT := Real.log D - Real.log T - 1
  hD := T / D
  hTT := -1 / T
  hTD := 1 / D
  hDD := -T / D ^ 2
  hTTT := 1 / T ^ 2
  hTTD := 0
  hTDD := -1 / D ^ 2
  hDDD := 2 * T / D ^ 3

theorem idealFluid_jet {T D : ℝ} (hT : 0 < T) (hD : 0 < D) : IsJet idealFluid T D := by
  have h := ((IsJet.varT (T := T) (D := D)).mul (IsJet.varD.log hD.ne')).add
    ((IsJet.const (-1)).mul (IsJet.varT.mul (IsJet.varT.log hT.ne')))
  refine h.congr_pos hT hD ?_
  intro t d ht hd
  unfold idealFluid
  ext <;> simp only [HState.mul, HState.comp, HState.log, HState.const, HState.varT, HState.varD, add_h, add_hT, add_hD,
    add_hTT, add_hTD, add_hDD, add_hTTT, add_hTTD, add_hTDD, add_hDDD] <;> field_simp <;> ring

/-- The hypotheses are met : the ideal fluid at 300 K with the density `P/T`. -/
example : ThermoConsistent (stateAt idealFluid fun t p => p / t) 300 600 := by
  have hr : DensityRoot idealFluid (fun t p => p / t) 300 600 := by
    refine ⟨by norm_num, by norm_num, by norm_num, ?_, ?_, ?_⟩
    · exact ContinuousAt.div continuousAt_snd continuousAt_fst (by norm_num)
    · filter_upwards [IsJet.eventually_fst (eventually_gt_nhds (show (0 : ℝ) < 300 by norm_num)),
        IsJet.eventually_snd (eventually_gt_nhds (show (0 : ℝ) < 600 by norm_num))] with p h1 h2
      simp only [idealFluid]
      field_simp
    · simp only [idealFluid]; norm_num
  refine C66_thermoState (idealFluid_jet (by norm_num) (by norm_num)) hr ?_
  simp only [stateAt, thermoState]
  rw [(density_eventually hr).self_of_nhds]
  simp only [idealFluid]
  norm_num

end Verif.Water
