import Verif.Spec.Constants
import Verif.Model.PhreeqcState
import Verif.Model.PhreeqcImport
import Verif.Model.AqueousMixture
import Verif.Model.AqueousProps
import Verif.Model.ActivityModels
import Verif.Model.Supcrt
import Verif.Model.Supcrtbl
import Verif.Model.StandardModels
import Verif.Model.CubicEOS
import Verif.Model.ReactionThermo
import Verif.Model.WaterThermo
import Verif.Model.HKF
import Verif.Model.RegistryTables
import Verif.Model.Lists
import Mathlib.Tactic.NormNum

/-!
# One value of each constant (C123)
-/

namespace Verif.Constants

open Chem Lists

/-- **C123 (gas constant).** Species, reactions, activities, equations of state, water, aqueous properties and PHREEQC have the same gas constant. -/
theorem C123_gas : Activity.gasConstant = gas ∧ Supcrt.R = gas ∧ StandardModels.R = gas ∧ CubicEOS.R = gas ∧ ReactionThermo.R = gas ∧ Aqueous.gasConstant = gas ∧
    Water.Rgas = gas ∧ PhreeqcState.gasConstant = gas ∧ Aqueous.faradayConstant = faraday := by
  refine ⟨?_, ?_, ?_, ?_, ?_, ?_, ?_, ?_, ?_⟩ <;>
    norm_num [gas, faraday, Activity.gasConstant, Supcrt.R, StandardModels.R, CubicEOS.R, ReactionThermo.R, Aqueous.gasConstant, Water.Rgas,
      PhreeqcState.gasConstant, Aqueous.faradayConstant]

/-- **C123 (reference state).** The standard models of all databases have the same reference temperature and pressure. -/
theorem C123_reference : Supcrt.Tr = temperature ∧ StandardModels.Tr = temperature ∧ HKF.Tr = temperature ∧ Supcrtbl.Tr = temperature ∧ Water.jnTr = temperature ∧
    Supcrt.Pr * Supcrt.bar = bar ∧ StandardModels.Pr = bar ∧ HKF.Pr = bar := by
  refine ⟨?_, ?_, ?_, ?_, ?_, ?_, ?_, ?_⟩ <;>
    norm_num [temperature, bar, Supcrt.Tr, StandardModels.Tr, HKF.Tr, Supcrtbl.Tr, Water.jnTr, Supcrt.Pr, Supcrt.bar, StandardModels.Pr, HKF.Pr]

/-- **C123 (water).** The models of water, the aqueous mixture and PHREEQC have the same molar mass of water, and the formulas by which water and protons are found
are those of the texts `H2O` and `H+`. -/
theorem C123_water : Water.Mw = water ∧ (Aqueous.waterMolarMass : ℝ) = water ∧ PhreeqcState.waterMolarMass = water ∧
    Formula.ofString c!"H2O" = .ok Aqueous.waterFormula ∧ Formula.ofString c!"H+" = .ok Aqueous.protonFormula := by
  refine ⟨?_, ?_, ?_, by decide +kernel, by decide +kernel⟩ <;>
    norm_num [water, Water.Mw, Aqueous.waterMolarMass, PhreeqcState.waterMolarMass]

/-- **C123 (atmospheres).** Pressures given to PHREEQC in atmospheres are right to one part in a thousand million, and the same from Pa and from bar. -/
theorem C123_atmosphere (P : ℝ) : |P * PhreeqcState.pascalToAtm - P / atmosphere| ≤ |P / atmosphere| / 10 ^ 9 ∧
    ∀ p : Rat, ((PhreeqcImport.barToAtm p : Rat) : ℝ) = p * bar * PhreeqcState.pascalToAtm := by
  constructor
  · have e : P * PhreeqcState.pascalToAtm - P / atmosphere = P / atmosphere * (atmosphere * PhreeqcState.pascalToAtm - 1) := by
      norm_num [atmosphere]
      ring
    rw [e, abs_mul, div_eq_mul_inv]
    exact mul_le_mul_of_nonneg_left (by norm_num [atmosphere, PhreeqcState.pascalToAtm, abs_le]) (abs_nonneg _)
  · intro p
    unfold PhreeqcImport.barToAtm
    push_cast
    norm_num [bar, PhreeqcState.pascalToAtm]
    ring

/-- A species of two atoms of hydrogen and one of oxygen, the elements of the table, and no charge. -/
def IsWater (s : Species) : Prop := ∃ h ∈ Registries.defaultElements, ∃ o ∈ Registries.defaultElements,
  h.symbol = c!"H" ∧ o.symbol = c!"O" ∧ s.elements = [(h, 2), (o, 1)] ∧ s.charge = 0

theorem water_mass (me : Rat) (s : Species) (hs : IsWater s) : s.molarMass me = 1801528 / 100000000 := by
  obtain ⟨h, hh, o, ho, h1, h2, h3, h4⟩ := hs
  have k1 : ∀ e ∈ Registries.defaultElements, e.symbol = c!"H" → e.molarMass = 100794 / 100000000 := by decide +kernel
  have k2 : ∀ e ∈ Registries.defaultElements, e.symbol = c!"O" → e.molarMass = 159994 / 10000000 := by decide +kernel
  unfold Species.molarMass
  rw [h3, h4]
  simp only [computeMolarMass, List.foldl_cons, List.foldl_nil]
  rw [k1 h hh h1, k2 o ho h2]
  norm_num

/-- **C123 (mass of water, partial).** The mass of a species of water by the table of elements is that of the constant to one part in a million. -/
theorem C123_water_mass_partial (me : Rat) (s : Species) (hs : IsWater s) : |((s.molarMass me : Rat) : ℝ) - water| ≤ water / 10 ^ 6 := by
  rw [water_mass me s hs]
  norm_num [water, abs_le]

/-- **C123 fails** for the mass of water: it is never the constant, so that the mass of water by which molalities are defined is not the mass of the water in a
state. -/
theorem C123_water_mass_wrong : (∃ s, IsWater s) ∧ ∀ me s, IsWater s → ((s.molarMass me : Rat) : ℝ) ≠ water := by
  constructor
  · refine ⟨{ rawName := c!"H2O", formula := c!"H2O", elements := [(⟨c!"H", 50397 / 50000000, c!"Hydrogen", []⟩, 2), (⟨c!"O", 79997 / 5000000, c!"Oxygen", []⟩, 1)],
              charge := 0, rawState := .Aqueous }, _, ?_, _, ?_, rfl, rfl, rfl, rfl⟩ <;> decide +kernel
  · intro me s hs
    rw [water_mass me s hs]
    norm_num [water]

end Verif.Constants
