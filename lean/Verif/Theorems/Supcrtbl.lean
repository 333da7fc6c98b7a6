import Verif.Spec.Supcrtbl
import Verif.Theorems.StandardModels

/-!
# C95: the SUPCRTBL functions
-/

namespace Verif.Supcrtbl

open Real Filter Topology Verif.Water Verif.StandardModels

/-! ### The solvent -/

/-- C95, solvent: with the default parameters the properties are those for these parameters. -/
theorem C95_solvent_partial (T : ℝ) (w : ThermoState) : ({} : Solvent).Expected T w (solventProps {} T w) := by
  constructor <;> simp only [solventProps, Supcrt.solventProps, Supcrt.cal] <;> norm_num

/-- C95 is false for other parameters: they are ignored. -/
theorem C95_solvent_wrong (p : Solvent) (T : ℝ) (w : ThermoState) (h : p.Str ≠ 63.312288) :
    ¬ p.Expected T w (solventProps p T w) := by
  intro e
  have h1 := e.entropy
  have h2 := (C95_solvent_partial T w).entropy
  simp only [solventProps] at h1 h2
  rw [h1] at h2
  exact h (by linarith)

example : (⟨273.16, 0, 0, 0, 0, 0⟩ : Solvent).Str ≠ 63.312288 := by norm_num

/-! ### Solutes -/

theorem kJToCal_eq (x : ℝ) : x * kJToCal = kJ x := by
  unfold kJToCal calToKJ kJ
  norm_num
  ring

/-- Except for the entropy and the Born coefficient, the parameters are those that are documented. -/
theorem cparams_eq (p : Solute) : p.cparams = { p.documented with Sr := p.Sr, wref := p.wref * 100000 } := by
  simp only [Solute.cparams, Solute.documented, Supcrt.Solute.mk.injEq, true_and, and_true, kJToCal_eq, kJ]
  norm_num
  refine ⟨?_, ?_, ?_, ?_⟩ <;> ring

/-- C95, solutes: for a solute whose entropy and Born coefficient are zero, the properties are those of the SUPCRT model with the
parameters in the documented units. -/
theorem C95_solute_partial (p : Solute) (T P : ℝ) (aes : HKF.BornState) (wes : ElectroState) (hS : p.Sr = 0) (hw : p.wref = 0) :
    soluteProps p T P aes wes = Supcrt.soluteProps p.documented T P aes wes := by
  have : p.cparams = p.documented := by
    rw [cparams_eq]
    simp [Solute.documented, hS, hw, kJ]
  rw [soluteProps, this]

/-- C95, solutes: by how much the entropy and the Gibbs energy differ from those of the model with the documented units: the entropy is read
in calories, and the Born coefficient without the conversion of kilojoules. -/
theorem C95_solute_exact (p : Solute) (T P : ℝ) (aes : HKF.BornState) (wes : ElectroState) :
    (soluteProps p T P aes wes).entropy = (Supcrt.soluteProps p.documented T P aes wes).entropy + 3.184 * p.Sr
      + (1000 - 4.184) * 100000 * p.wref * Supcrt.Yr ∧
    (soluteProps p T P aes wes).gibbs = (Supcrt.soluteProps p.documented T P aes wes).gibbs - 3.184 * p.Sr * (T - Supcrt.Tr)
      - (1000 - 4.184) * 100000 * p.wref * (Supcrt.Zr + 1 + Supcrt.Yr * (T - Supcrt.Tr)) ∧
    (soluteProps p T P aes wes).volume = (Supcrt.soluteProps p.documented T P aes wes).volume ∧
    (soluteProps p T P aes wes).cp = (Supcrt.soluteProps p.documented T P aes wes).cp := by
  rw [soluteProps, cparams_eq]
  simp only [Supcrt.soluteProps, Solute.documented, Supcrt.cal, kJ]
  refine ⟨?_, ?_, trivial, trivial⟩ <;> ring

/-- C95 is false for solutes with an entropy and no Born coefficient: neither entropy nor, away from 25 °C, Gibbs energy are right. -/
theorem C95_solute_wrong (p : Solute) (T P : ℝ) (aes : HKF.BornState) (wes : ElectroState) (hS : p.Sr ≠ 0) (hw : p.wref = 0) :
    (soluteProps p T P aes wes).entropy ≠ (Supcrt.soluteProps p.documented T P aes wes).entropy ∧
    (T ≠ Supcrt.Tr → (soluteProps p T P aes wes).gibbs ≠ (Supcrt.soluteProps p.documented T P aes wes).gibbs) := by
  obtain ⟨h1, h2, -, -⟩ := C95_solute_exact p T P aes wes
  rw [hw] at h1 h2
  constructor
  · rw [h1]
    intro h
    exact hS (by linarith)
  · intro hT h
    rw [h2] at h
    have : p.Sr * (T - Supcrt.Tr) = 0 := by linarith
    rcases mul_eq_zero.1 this with h | h
    · exact hS h
    · exact hT (by linarith)

/-- The hypotheses of the theorems on solutes are met. -/
example : (⟨c!"CO2(aq)", 0, -385.974, -413.798, 117.57, 0, 0, 0, 0, 0, 0, 0⟩ : Solute).Sr ≠ 0 ∧
    (⟨c!"H+", 1, 0, 0, 0, 0, 0, 0, 0, 0, 0, 0⟩ : Solute).Sr = 0 := by norm_num

/-! ### The integrals of the heat capacity -/

theorem deriv_cpdT (a b c d : ℝ) {T : ℝ} (hT : 0 < T) : HasDerivAt (cpdT a b c d) (cp a b c d T) T := by
  have h := deriv_sqrt_cp a b c d hT
  refine (h.congr_of_eventuallyEq (Eventually.of_forall fun t => ?_))
  simp only [cpdT, Tr, StandardModels.Tr]
  ring

theorem deriv_cpdlnT (a b c d : ℝ) {T : ℝ} (hT : 0 < T) : HasDerivAt (cpdlnT a b c d) (cp a b c d T / T) T := by
  have h := deriv_sqrt_cpln a b c d hT
  refine (h.congr_of_eventuallyEq (Eventually.of_forall fun t => ?_))
  simp only [cpdlnT, Tr, StandardModels.Tr]
  ring

/-! ### Fluids -/

/-- C95, fluids: with `b` and the reference volume equal to zero, Gibbs energy, enthalpy and volume are those of the model of Holland and Powell
with the documented units. -/
theorem C95_fluid_partial (p : Fluid) (T P : ℝ) (hb : p.b = 0) (hV : p.Vr = 0) :
    ∃ x, hollandPowell p.documented T P = .ok x ∧ (fluidProps p T P).gibbs = x.G0 ∧ (fluidProps p T P).enthalpy = x.H0 ∧
      (fluidProps p T P).volume = x.V0 := by
  refine ⟨_, rfl, ?_, ?_, ?_⟩
  · simp only [fluidProps, Fluid.documented, HollandPowell.CpdT, HollandPowell.CpdlnT, HollandPowell.VdP, cpdT, cpdlnT, hb, hV, JToKJ, kJToJ, Tr,
      StandardModels.Tr, if_true]
    ring
  · simp only [fluidProps, Fluid.documented, HollandPowell.CpdT, HollandPowell.VdP, cpdT, hb, hV, kJToJ, Tr, StandardModels.Tr, if_true]
    ring
  · simp [fluidProps, Fluid.documented, HollandPowell.V, hV]

/-- C95, fluids: the entropy is minus the temperature derivative of the Gibbs energy, `A = U - T S`, and the temperature derivative of the
enthalpy is a thousand times the heat capacity that is returned; the internal energy is the enthalpy. -/
theorem C95_fluid_derivatives (p : Fluid) (T P : ℝ) (hT : 0 < T) :
    HasDerivAt (fun t => (fluidProps p t P).gibbs) (-(fluidProps p T P).entropy) T ∧
    (fluidProps p T P).helmholtz = (fluidProps p T P).internalEnergy - T * (fluidProps p T P).entropy ∧
    HasDerivAt (fun t => (fluidProps p t P).enthalpy) (1000 * (fluidProps p T P).cp) T ∧
    (fluidProps p T P).internalEnergy = (fluidProps p T P).enthalpy ∧ (fluidProps p T P).cv = (fluidProps p T P).cp - 8.3144621 := by
  have h1 := deriv_cpdT p.a p.b p.c p.d hT
  have h2 := deriv_cpdlnT p.a p.b p.c p.d hT
  have h0 : HasDerivAt (fun t : ℝ => t) 1 T := hasDerivAt_id' T
  refine ⟨?_, ?_, ?_, rfl, rfl⟩
  · have := (((((h0.sub_const Tr).const_mul (p.Sr * JToKJ)).const_sub p.Gf).add h1).sub (h0.mul h2)).mul_const kJToJ
    refine this.congr_deriv ?_
    simp only [fluidProps]
    field_simp
    ring
  · simp only [fluidProps]; ring
  · have := (h1.const_add p.Hf).mul_const kJToJ
    refine this.congr_deriv ?_
    simp only [fluidProps, kJToJ]
    norm_num
    ring

/-- C95 is false for the heat capacity of every fluid: it is in kJ/(mol K), and not the temperature derivative of the enthalpy. -/
theorem C95_fluid_cp_wrong (p : Fluid) (T P : ℝ) (hT : 0 < T) (h : (fluidProps p T P).cp ≠ 0) :
    ¬ HasDerivAt (fun t => (fluidProps p t P).enthalpy) (fluidProps p T P).cp T := by
  intro e
  have := e.unique (C95_fluid_derivatives p T P hT).2.2.1
  exact h (by linarith)

/-- C95 is false for fluids with a reference volume: the volume is zero. -/
theorem C95_fluid_volume_wrong (p : Fluid) (T P : ℝ) (h : p.Vr ≠ 0) :
    ∃ x, hollandPowell p.documented T P = .ok x ∧ (fluidProps p T P).volume ≠ x.V0 := by
  refine ⟨_, rfl, ?_⟩
  simp only [fluidProps, Fluid.documented, HollandPowell.V, if_true]
  exact fun e => h (by linarith)

/-- The gas of an example: a constant heat capacity. -/
def gas : Fluid := ⟨-394, -393, 213, 0, 0.05, 0, 0, 0, 0⟩

/-- The hypotheses of the theorems on fluids are met. -/
example : gas.b = 0 ∧ gas.Vr = 0 ∧ (fluidProps gas 300 100000).cp ≠ 0 := by
  refine ⟨rfl, rfl, ?_⟩
  norm_num [fluidProps, gas, cp]

/-! ### Minerals -/

theorem asUsed_ka (p : Mineral) : p.asUsed.ka = p.ka := by
  simp only [HollandPowell.ka, Mineral.asUsed, Mineral.ka]
  congr 1
  ring

theorem asUsed_kb (p : Mineral) : p.asUsed.kb = p.kb / 100000 := by
  simp only [HollandPowell.kb, Mineral.asUsed, Mineral.kb]
  rw [mul_comm p.kappa, ← div_div, div_right_comm]
  ring

theorem asUsed_kc (p : Mineral) : p.asUsed.kc = p.kc := by
  simp only [HollandPowell.kc, Mineral.asUsed, Mineral.kc]
  congr 1 <;> ring

theorem asUsed_Pth (p : Mineral) (T : ℝ) : p.asUsed.Pth T = p.Pth T * 100000 := by
  simp only [HollandPowell.Pth, Mineral.Pth, HollandPowell.E, Mineral.E0, HollandPowell.theta, Mineral.theta, Mineral.asUsed, Tr, StandardModels.Tr]
  ring

theorem asUsed_aux1 (p : Mineral) (T : ℝ) : p.asUsed.aux1 T = p.aux1 T := by
  simp only [HollandPowell.aux1, Mineral.aux1, asUsed_kb, asUsed_Pth]
  ring

theorem asUsed_aux3 (p : Mineral) (T P : ℝ) : p.asUsed.aux3 T P = p.aux3 T (P * PaToBar) := by
  simp only [HollandPowell.aux3, Mineral.aux3, asUsed_kb, asUsed_Pth, PaToBar]
  ring

theorem asUsed_V (p : Mineral) (T P : ℝ) (h : p.kappa ≠ 0) : p.asUsed.V T P = p.V T (P * PaToBar) / 100 := by
  have hk : p.asUsed.kappa0 ≠ 0 := by
    show p.kappa * 100000 ≠ 0
    exact mul_ne_zero h (by norm_num)
  simp only [HollandPowell.V, if_neg hk, Mineral.V, asUsed_aux3, asUsed_ka, asUsed_kc]
  simp only [Mineral.asUsed]
  ring

theorem asUsed_VdP (p : Mineral) (T P : ℝ) (h : p.kappa ≠ 0) : p.asUsed.VdP T P = p.VdP T (P * PaToBar) * 1000 := by
  have hk : p.asUsed.kappa0 ≠ 0 := by
    show p.kappa * 100000 ≠ 0
    exact mul_ne_zero h (by norm_num)
  simp only [HollandPowell.VdP, if_neg hk, Mineral.VdP, asUsed_aux1, asUsed_aux3, asUsed_ka, asUsed_kb, asUsed_kc]
  have e : p.kb / 100000 * (p.kc - 1) * P = p.kb * (p.kc - 1) * (P * PaToBar) := by unfold PaToBar; ring
  rw [e]
  simp only [Mineral.asUsed, PaToBar]
  ring

/-- C95, minerals: what is computed, for all parameters: Gibbs energy, enthalpy and heat capacity are those of the model of Holland and
Powell for the parameters as used, and the volume is a thousandth of it. -/
theorem C95_mineral_exact (p : Mineral) (T P : ℝ) (h : p.kappa ≠ 0) :
    ∃ x, hollandPowell p.asUsed T P = .ok x ∧ (mineralProps p T P).gibbs = x.G0 ∧ (mineralProps p T P).enthalpy = x.H0 ∧
      (mineralProps p T P).cp = x.Cp0 ∧ (mineralProps p T P).cv = x.Cv0 ∧ 1000 * (mineralProps p T P).volume = x.V0 := by
  refine ⟨_, rfl, ?_, ?_, ?_, ?_, ?_⟩
  · simp only [asUsed_VdP p T P h]
    simp only [mineralProps, Mineral.asUsed, HollandPowell.CpdT, HollandPowell.CpdlnT, cpdT, cpdlnT, JToKJ, kJToJ, Tr, StandardModels.Tr]
    ring
  · simp only [asUsed_VdP p T P h]
    simp only [mineralProps, Mineral.asUsed, HollandPowell.CpdT, cpdT, kJToJ, Tr, StandardModels.Tr]
    ring
  · simp only [mineralProps, Mineral.asUsed, HollandPowell.Cp, cp, kJToJ]
    ring
  · simp only [mineralProps, Mineral.asUsed, HollandPowell.Cp, cp, kJToJ]
    ring
  · simp only [asUsed_V p T P h]
    simp only [mineralProps]
    ring

/-- C95, minerals: with `b` and the reference volume equal to zero, all properties are those of the model of Holland and Powell with the documented
units. -/
theorem C95_mineral_partial (p : Mineral) (T P : ℝ) (hb : p.b = 0) (hV : p.Vr = 0) :
    ∃ x, hollandPowell p.documented T P = .ok x ∧ Supcrt.convert (mineralProps p T P) = x := by
  refine ⟨_, rfl, ?_⟩
  simp only [Supcrt.convert, Props.mk.injEq]
  have h1 : p.documented.VdP T P = 0 := by
    simp [HollandPowell.VdP, Mineral.documented, hV]
  have h2 : p.documented.V T P = 0 := by
    simp [HollandPowell.V, Mineral.documented, hV]
  have h3 : p.VdP T (P * PaToBar) = 0 := by simp [Mineral.VdP, hV]
  have h4 : p.V T (P * PaToBar) = 0 := by simp [Mineral.V, hV]
  simp only [h1, h2, mineralProps, h3, h4]
  simp only [Mineral.documented, HollandPowell.CpdT, HollandPowell.CpdlnT, HollandPowell.Cp, cp, cpdT, cpdlnT, hb, JToKJ, kJToJ, Tr, StandardModels.Tr]
  refine ⟨?_, ?_, ?_, ?_, ?_⟩ <;> ring

/-- C95, minerals: the entropy and the energies: `A = U - T S`, and `G = H - T S` up to the constant of the reference state. The internal energy
lacks a thousand times `P V` (kilojoules less a product in joules). -/
theorem C95_mineral_entropy (p : Mineral) (T P : ℝ) :
    (mineralProps p T P).helmholtz = (mineralProps p T P).internalEnergy - T * (mineralProps p T P).entropy ∧
    (mineralProps p T P).gibbs = (mineralProps p T P).enthalpy - T * (mineralProps p T P).entropy
      + 1000 * (p.Gf - p.Hf) + 298.15 * p.Sr ∧
    (mineralProps p T P).internalEnergy = (mineralProps p T P).enthalpy - 1000 * (P * (mineralProps p T P).volume) := by
  refine ⟨?_, ?_, ?_⟩ <;> simp only [mineralProps, JToKJ, kJToJ, Tr, PaToBar] <;> ring

/-- C95 is false for every mineral with a volume: the pressure derivative of the Gibbs energy is a thousand times the volume (a volume in J/bar is
added to energies in kJ). -/
theorem C95_mineral_wrong (p : Mineral) (T P : ℝ) (hP : 0 < P) (hk : p.kappa ≠ 0) (hb : p.kb ≠ 0) (hc : p.kc ≠ 1)
    (h3 : 0 < p.aux3 T (P * PaToBar)) (hV : (mineralProps p T P).volume ≠ 0) :
    HasDerivAt (fun q => (mineralProps p T q).gibbs) (1000 * (mineralProps p T P).volume) P ∧
    ¬ HasDerivAt (fun q => (mineralProps p T q).gibbs) (mineralProps p T P).volume P := by
  have key : HasDerivAt (fun q => (mineralProps p T q).gibbs) (1000 * (mineralProps p T P).volume) P := by
    obtain ⟨x, hx, -, -, -, -, hxv⟩ := C95_mineral_exact p T P hk
    have hvol := C53_hollandPowell_volume p.asUsed T P hP fun _ => by
      rw [asUsed_kb, asUsed_kc, asUsed_aux3]
      exact ⟨div_ne_zero hb (by norm_num), hc, h3⟩
    obtain ⟨y, hy, g, hg, hd⟩ := hvol
    rw [hx] at hy
    cases hy
    rw [hxv]
    refine hd.congr_of_eventuallyEq ?_
    filter_upwards [hg] with q hq
    obtain ⟨z, hz, hzg, -⟩ := C95_mineral_exact p T q hk
    rw [hz] at hq
    cases hq
    exact hzg
  refine ⟨key, fun e => ?_⟩
  have := e.unique key
  exact hV (by linarith)

/-- The mineral of an example. -/
def stiffMineral : Mineral := ⟨0, 0, 10, 1, 0, 0, 0, 0, 0, 1, 4, 0, 1, 0⟩

/-- The hypotheses of `C95_mineral_wrong` are met. -/
example : stiffMineral.kappa ≠ 0 ∧ stiffMineral.kb ≠ 0 ∧ stiffMineral.kc ≠ 1 ∧
    0 < stiffMineral.aux3 300 (100000 * PaToBar) ∧ (mineralProps stiffMineral 300 100000).volume ≠ 0 := by
  have hka : stiffMineral.ka = 1 := by norm_num [stiffMineral, Mineral.ka]
  have hkb : stiffMineral.kb = 4 := by norm_num [stiffMineral, Mineral.kb]
  have hkc : stiffMineral.kc = 1 / 4 := by norm_num [stiffMineral, Mineral.kc]
  have hP : stiffMineral.Pth 300 = 0 := by simp [stiffMineral, Mineral.Pth]
  have h3 : stiffMineral.aux3 300 (100000 * PaToBar) = 5 := by
    rw [Mineral.aux3, hkb, hP]; norm_num [PaToBar]
  refine ⟨by norm_num [stiffMineral], by rw [hkb]; norm_num, by rw [hkc]; norm_num, by rw [h3]; norm_num, ?_⟩
  simp only [mineralProps, Mineral.V, h3, hka, hkc]
  have : (0 : ℝ) < 5 ^ (1 / 4 : ℝ) := by positivity
  have h5 : (1 : ℝ) - 1 * (1 - 1 / 5 ^ (1 / 4 : ℝ)) = 1 / 5 ^ (1 / 4 : ℝ) := by ring
  rw [h5]
  have : stiffMineral.Vr = 1 := rfl
  rw [this]
  positivity

/-- The hypotheses of `C95_mineral_partial` are met. -/
example : (⟨-800, -850, 40, 0, 0.1, 0, 0, 0, 0, 1, 4, 0, 3, 0⟩ : Mineral).b = 0 := rfl

end Verif.Supcrtbl
