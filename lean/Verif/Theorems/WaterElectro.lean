import Verif.Theorems.WaterThermo
import Mathlib.Topology.Order.IntermediateValue

/-!
# C69 : the dielectric constant of water and the Born functions
-/

namespace Verif.Water

open Real Filter Topology

section
variable {W : ℝ → ℝ → ThermoState} {T P : ℝ}

/-- The parts of the consistency of the thermodynamic state that the dielectric constant depends on. -/
structure DensityConsistent (W : ℝ → ℝ → ThermoState) (T P : ℝ) : Prop where
  /-- `∂ρ/∂T` and `∂ρ/∂P` -/
  density : HasPartials (fun t p => (W t p).density) (W T P).densityT (W T P).densityP T P
  /-- `∂²ρ/∂T²` and `∂²ρ/∂T∂P` -/
  densityT : HasPartials (fun t p => (W t p).densityT) (W T P).densityTT (W T P).densityTP T P
  /-- `∂²ρ/∂P∂T` and `∂²ρ/∂P²` -/
  densityP : HasPartials (fun t p => (W t p).densityP) (W T P).densityTP (W T P).densityPP T P

theorem ThermoConsistent.toDensity (h : ThermoConsistent W T P) : DensityConsistent W T P :=
  ⟨h.density, h.densityT, h.densityP⟩

/-- Partial derivatives of a power of the reduced density. -/
theorem pow_partials (hρ : HasPartials (fun t p => (W t p).density) (W T P).densityT (W T P).densityP T P) (h0 : (W T P).density ≠ 0) (i : ℕ) :
    HasPartials (fun t p => ((W t p).density / jnDr) ^ i)
      (((W T P).density / jnDr) ^ i * (i * ((W T P).densityT / (W T P).density)))
      (((W T P).density / jnDr) ^ i * (i * ((W T P).densityP / (W T P).density))) T P := by
  have hr : HasPartials (fun t p => (W t p).density / jnDr) ((W T P).densityT / jnDr) ((W T P).densityP / jnDr) T P := by
    refine ((hρ.mul_const (1 / jnDr)).congr_partials ?_ ?_).congr (Eventually.of_forall fun p => ?_)
    · ring
    · ring
    · ring
  have hj : jnDr ≠ 0 := by unfold jnDr; norm_num
  refine (hr.comp (hasDerivAt_pow i ((W T P).density / jnDr))).congr_partials ?_ ?_
  all_goals
    rcases i with _ | i
    · simp
    · simp only [Nat.add_sub_cancel, pow_succ]
      field_simp

/-- The first derivatives of one term of the sum. -/
theorem jnTerm_first (hρ : HasPartials (fun t p => (W t p).density) (W T P).densityT (W T P).densityP T P)
    (h0 : (W T P).density ≠ 0) (i : ℕ) (h1 : HasDerivAt (fun t => jnK i (t / jnTr)) (jnKt i (T / jnTr) / jnTr) T) :
    HasPartials (fun t p => (jnTerm i t (W t p)).e) (jnTerm i T (W T P)).eT (jnTerm i T (W T P)).eP T P := by
  have pr := pow_partials hρ h0 i
  have pk : HasPartials (fun t _ => jnK i (t / jnTr)) (jnKt i (T / jnTr) / jnTr) 0 T P :=
    ((HasPartials.fst (x := T) (y := P)).comp h1).congr_partials (by ring) (by ring)
  refine (pk.mul pr).congr_partials ?_ ?_
  all_goals simp only [jnTerm]; ring

/-- The derivatives of one term of the sum. -/
theorem jnTerm_partials (hW : DensityConsistent W T P) (h0 : (W T P).density ≠ 0) (hP : (W T P).densityP ≠ 0) (i : ℕ)
    (hk : i = 0 ∨ jnK i (T / jnTr) ≠ 0)
    (h1 : HasDerivAt (fun t => jnK i (t / jnTr)) (jnKt i (T / jnTr) / jnTr) T)
    (h2 : HasDerivAt (fun t => jnKt i (t / jnTr) / jnTr) (jnKtt i (T / jnTr) / jnTr / jnTr) T) :
    HasPartials (fun t p => (jnTerm i t (W t p)).e) (jnTerm i T (W T P)).eT (jnTerm i T (W T P)).eP T P ∧
    HasPartials (fun t p => (jnTerm i t (W t p)).eT) (jnTerm i T (W T P)).eTT (jnTerm i T (W T P)).eTP T P ∧
    HasPartials (fun t p => (jnTerm i t (W t p)).eP) (jnTerm i T (W T P)).eTP (jnTerm i T (W T P)).ePP T P := by
  have pr := pow_partials hW.density h0 i
  have pk : HasPartials (fun t _ => jnK i (t / jnTr)) (jnKt i (T / jnTr) / jnTr) 0 T P :=
    ((HasPartials.fst (x := T) (y := P)).comp h1).congr_partials (by ring) (by ring)
  have pk1 : HasPartials (fun t _ => jnKt i (t / jnTr) / jnTr) (jnKtt i (T / jnTr) / jnTr / jnTr) 0 T P :=
    ((HasPartials.fst (x := T) (y := P)).comp h2).congr_partials (by ring) (by ring)
  have pa := (hW.densityT.neg).div hW.density h0
  have pb := hW.densityP.div hW.density h0
  have hk' : ∀ x y : ℝ, (i : ℝ) * jnK i (T / jnTr) * (x / jnK i (T / jnTr) + y) = i * (x + jnK i (T / jnTr) * y) := by
    intro x y
    rcases hk with hk | hk
    · simp [hk]
    · field_simp
  refine ⟨?_, ?_, ?_⟩
  · exact jnTerm_first hW.density h0 i h1
  · refine (pr.mul (pk1.sub ((pa.const_mul (i : ℝ)).mul pk))).congr_partials ?_ ?_
    · simp only [jnTerm]; field_simp; ring
    · simp only [jnTerm]
      have e : ∀ (ri x a b c : ℝ), ri * jnK i (T / jnTr) * (i : ℝ) * b * (x / jnK i (T / jnTr) - i * a + c / b) =
          ri * b * (i * jnK i (T / jnTr) * (x / jnK i (T / jnTr) + (c / b - i * a))) := by intros; ring
      rw [e, hk']
      field_simp; ring
  · refine (((pr.mul pk).mul_const (i : ℝ)).mul pb).congr_partials ?_ ?_
    · simp only [jnTerm]
      have e : ∀ (ri x a b c : ℝ), ri * jnK i (T / jnTr) * (i : ℝ) * b * (x / jnK i (T / jnTr) - i * a + c / b) =
          ri * b * (i * jnK i (T / jnTr) * (x / jnK i (T / jnTr) + (c / b - i * a))) := by intros; ring
      rw [e, hk']
      field_simp; ring
    · simp only [jnTerm]; field_simp; ring

theorem jnK_deriv (i : ℕ) {t : ℝ} (ht : t ≠ 0) : HasDerivAt (jnK i) (jnKt i t) t ∧ HasDerivAt (jnKt i) (jnKtt i t) t := by
  have v := hasDerivAt_id' t
  have c := fun a : ℝ => hasDerivAt_const t a
  have p : ∀ (a : ℝ) (n : ℕ), HasDerivAt (fun x => a / x ^ n) (-(n * a) / t ^ (n + 1)) t :=
    fun a n => IsJet.hasDerivAt_inv_pow a n t ht
  match i with
  | 0 => exact ⟨c _, c _⟩
  | 1 =>
    refine ⟨((p (jnA.getD 1 0) 1).congr_of_eventuallyEq (Eventually.of_forall fun x => ?_)).congr_deriv ?_,
      ((p (-jnA.getD 1 0) 2).congr_of_eventuallyEq (Eventually.of_forall fun x => ?_)).congr_deriv ?_⟩
    all_goals simp only [jnK, jnKt, jnKtt]; push_cast; ring
  | 2 =>
    refine ⟨((((p (jnA.getD 2 0) 1).fun_add (c (jnA.getD 3 0))).fun_add (v.const_mul (jnA.getD 4 0))).congr_of_eventuallyEq
        (Eventually.of_forall fun x => ?_)).congr_deriv ?_,
      (((p (-jnA.getD 2 0) 2).fun_add (c (jnA.getD 4 0))).congr_of_eventuallyEq (Eventually.of_forall fun x => ?_)).congr_deriv ?_⟩
    all_goals simp only [jnK, jnKt, jnKtt]; push_cast; ring
  | 3 =>
    refine ⟨((((p (jnA.getD 5 0) 1).fun_add (v.const_mul (jnA.getD 6 0))).fun_add ((v.fun_mul v).const_mul (jnA.getD 7 0))).congr_of_eventuallyEq
        (Eventually.of_forall fun x => ?_)).congr_deriv ?_,
      ((((p (-jnA.getD 5 0) 2).fun_add (c (jnA.getD 6 0))).fun_add (v.const_mul (2 * jnA.getD 7 0))).congr_of_eventuallyEq
        (Eventually.of_forall fun x => ?_)).congr_deriv ?_⟩
    all_goals simp only [jnK, jnKt, jnKtt]; push_cast; ring
  | n + 4 =>
    refine ⟨((((p (jnA.getD 8 0) 2).fun_add (p (jnA.getD 9 0) 1)).fun_add (c (jnA.getD 10 0))).congr_of_eventuallyEq
        (Eventually.of_forall fun x => ?_)).congr_deriv ?_,
      (((p (-2 * jnA.getD 8 0) 3).fun_add (p (-jnA.getD 9 0) 2)).congr_of_eventuallyEq
        (Eventually.of_forall fun x => ?_)).congr_deriv ?_⟩
    all_goals simp only [jnK, jnKt, jnKtt]; push_cast; ring

theorem jnK_scaled (i : ℕ) (hT : T ≠ 0) :
    HasDerivAt (fun t => jnK i (t / jnTr)) (jnKt i (T / jnTr) / jnTr) T ∧
    HasDerivAt (fun t => jnKt i (t / jnTr) / jnTr) (jnKtt i (T / jnTr) / jnTr / jnTr) T := by
  have hr : jnTr ≠ 0 := by unfold jnTr; norm_num
  have hd : HasDerivAt (fun t => t / jnTr) (1 / jnTr) T := (hasDerivAt_id' T).div_const jnTr
  have h := jnK_deriv i (div_ne_zero hT hr)
  refine ⟨?_, ?_⟩
  · refine (HasDerivAt.comp T h.1 hd).congr_deriv ?_
    ring
  · refine ((HasDerivAt.comp T h.2 hd).div_const jnTr).congr_deriv ?_
    ring

theorem sum5_partials {f : ℕ → ℝ → ℝ → ℝ} {a b : ℕ → ℝ} (h : ∀ i, i ≤ 4 → HasPartials (f i) (a i) (b i) T P) :
    HasPartials (fun t p => sum5 fun i => f i t p) (sum5 a) (sum5 b) T P :=
  ((((h 0 (by norm_num)).add (h 1 (by norm_num))).add (h 2 (by norm_num))).add (h 3 (by norm_num))).add (h 4 (by norm_num))

/-- The Born functions of a dielectric constant that does not vanish. -/
theorem born_partials {X : ℝ → ℝ → Epsilon} (he : HasPartials (fun t p => (X t p).e) (X T P).eT (X T P).eP T P)
    (heT : HasPartials (fun t p => (X t p).eT) (X T P).eTT (X T P).eTP T P)
    (heP : HasPartials (fun t p => (X t p).eP) (X T P).eTP (X T P).ePP T P) (h0 : (X T P).e ≠ 0) :
    ElectroConsistent (fun t p => bornFunctions (X t p)) T P where
  epsilon := he
  epsilonT := heT
  epsilonP := heP
  bornZ := rfl
  bornYQ := by
    refine ((HasPartials.const (-1)).div he h0).congr_partials ?_ ?_
    all_goals simp only [bornFunctions]; field_simp; ring
  bornXU := by
    refine (heT.div (he.mul he) (mul_ne_zero h0 h0)).congr_partials ?_ ?_
    all_goals simp only [bornFunctions]; field_simp; ring
  bornUN := by
    refine (heP.div (he.mul he) (mul_ne_zero h0 h0)).congr_partials ?_ ?_
    all_goals simp only [bornFunctions]; field_simp; ring

/-- C69.  Wherever the derivatives of density are right, the fluid is not incompressible and none of the four
functions of temperature of the model vanishes, the derivatives of the dielectric constant and the Born
functions are what their names say. -/
theorem C69_electroState_partial (hT : T ≠ 0) (hW : DensityConsistent W T P) (h0 : (W T P).density ≠ 0)
    (hP : (W T P).densityP ≠ 0) (hk : ∀ i, 1 ≤ i → i ≤ 4 → jnK i (T / jnTr) ≠ 0)
    (he : (electroState T (W T P)).epsilon ≠ 0) : ElectroConsistent (fun t p => electroState t (W t p)) T P := by
  have term : ∀ i, i ≤ 4 → _ := fun i hi => jnTerm_partials hW h0 hP i
    (by rcases Nat.eq_zero_or_pos i with h | h
        · exact Or.inl h
        · exact Or.inr (hk i h hi))
    (jnK_scaled i hT).1 (jnK_scaled i hT).2
  exact born_partials
    (X := fun t p => ⟨sum5 fun i => (jnTerm i t (W t p)).e, sum5 fun i => (jnTerm i t (W t p)).eT,
      sum5 fun i => (jnTerm i t (W t p)).eP, sum5 fun i => (jnTerm i t (W t p)).eTT,
      sum5 fun i => (jnTerm i t (W t p)).eTP, sum5 fun i => (jnTerm i t (W t p)).ePP⟩)
    (sum5_partials fun i hi => (term i hi).1) (sum5_partials fun i hi => (term i hi).2.1)
    (sum5_partials fun i hi => (term i hi).2.2) he

/-- The dielectric constant and its first derivatives need neither the compressibility nor the functions of
temperature to be different from zero. -/
theorem C69_first (hT : T ≠ 0) (hρ : HasPartials (fun t p => (W t p).density) (W T P).densityT (W T P).densityP T P)
    (h0 : (W T P).density ≠ 0) :
    HasPartials (fun t p => (electroState t (W t p)).epsilon) (electroState T (W T P)).epsilonT
      (electroState T (W T P)).epsilonP T P :=
  sum5_partials fun i _ => jnTerm_first hρ h0 i (jnK_scaled i hT).1

end

/-- C69 for water from the equation of state of Wagner and Pruss. -/
theorem C69_wagnerPruss_partial {ρ : ℝ → ℝ → ℝ} {T P : ℝ} (hT : 0 < T) (hcr : ρ T P ≠ Dcr)
    (h : DensityRoot wagnerPruss ρ T P) (hmax : (stateAt wagnerPruss ρ T P).densityT ≠ 0)
    (hk : ∀ i, 1 ≤ i → i ≤ 4 → jnK i (T / jnTr) ≠ 0)
    (he : (electroState T (stateAt wagnerPruss ρ T P)).epsilon ≠ 0) :
    ElectroConsistent (fun t p => electroState t (stateAt wagnerPruss ρ t p)) T P := by
  have e0 : (stateAt wagnerPruss ρ T P).density = ρ T P := (density_eventually h).self_of_nhds
  refine C69_electroState_partial hT.ne' (C66_wagnerPruss hT hcr h hmax).toDensity ?_ ?_ hk he
  · rw [e0]; exact h.positive.ne'
  · have hs := h.slope
    have e1 : (stateAt wagnerPruss ρ T P).densityP = 1 / (2 * ρ T P * (wagnerPruss T (ρ T P)).hD
        + ρ T P * ρ T P * (wagnerPruss T (ρ T P)).hDD) := by
      have e2 : (stateAt wagnerPruss ρ T P).densityP = 1 / (2 * (stateAt wagnerPruss ρ T P).density * (wagnerPruss T (ρ T P)).hD
        + (stateAt wagnerPruss ρ T P).density * (stateAt wagnerPruss ρ T P).density * (wagnerPruss T (ρ T P)).hDD) := rfl
      rw [e2, e0]
    rw [e1, ← pow_two]
    exact one_div_ne_zero hs

/-- The functions of temperature do vanish : there is a temperature between 510 K and 512 K where the code
divides by zero for the mixed derivative, whatever the pressure. -/
theorem C69_zero_division : ∃ T, 510 < T ∧ T < 512 ∧ jnK 4 (T / jnTr) = 0 := by
  have hc : ContinuousOn (fun T => jnK 4 (T / jnTr)) (Set.Icc 510 512) := by
    intro T hT
    have : T / jnTr ≠ 0 := by
      have h1 := hT.1
      unfold jnTr
      positivity
    refine ContinuousAt.continuousWithinAt ?_
    exact ContinuousAt.comp (f := fun T => T / jnTr) (jnK_deriv 4 this).1.continuousAt (by fun_prop)
  have := intermediate_value_Ioo' (by norm_num : (510 : ℝ) ≤ 512) hc
  obtain ⟨T, hT, h⟩ := this (show (0 : ℝ) ∈ _ by
    simp only [jnK, jnA, jnTr, Set.mem_Ioo]
    norm_num)
  exact ⟨T, hT.1, hT.2, h⟩

/-- The hypotheses are met : the ideal fluid at the reference temperature. -/
example : ElectroConsistent (fun t p => electroState t (stateAt idealFluid (fun t p => p / t) t p)) 298.15 298150 := by
  have hr : DensityRoot idealFluid (fun t p => p / t) 298.15 298150 := by
    refine ⟨by norm_num, by norm_num, by norm_num, ?_, ?_, ?_⟩
    · exact ContinuousAt.div continuousAt_snd continuousAt_fst (by norm_num)
    · filter_upwards [IsJet.eventually_fst (eventually_gt_nhds (show (0 : ℝ) < 298.15 by norm_num)),
        IsJet.eventually_snd (eventually_gt_nhds (show (0 : ℝ) < 298150 by norm_num))] with p h1 h2
      simp only [idealFluid]
      field_simp
    · simp only [idealFluid]; norm_num
  have e : √(298150 / (idealFluid 298.15 (298150 / 298.15)).hD) = 298150 / 298.15 := (density_eventually hr).self_of_nhds
  have hc : ThermoConsistent (stateAt idealFluid fun t p => p / t) 298.15 298150 := by
    refine C66_thermoState (idealFluid_jet (by norm_num) (by norm_num)) hr ?_
    simp only [stateAt, thermoState]
    rw [e]
    simp only [idealFluid]
    norm_num
  refine C69_electroState_partial (by norm_num) hc.toDensity ?_ ?_ ?_ ?_
  · simp only [stateAt, thermoState]; rw [e]; norm_num
  · simp only [stateAt, thermoState]; rw [e]; simp only [idealFluid]; norm_num
  · intro i h1 h2
    interval_cases i <;> simp only [jnK, jnA, jnTr] <;> norm_num
  · simp only [electroState, bornFunctions, sum5, jnTerm, stateAt, thermoState]
    rw [e]
    simp only [jnK, jnA, jnTr, jnDr]
    norm_num

end Verif.Water
