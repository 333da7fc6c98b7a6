import Mathlib.Data.Real.Basic

/-!
# The constants of nature, and conventions, that all modules should share
-/

namespace Verif.Constants

/-- The gas constant, J/(mol K). -/
noncomputable def gas : ℝ := 8.3144621

/-- The Faraday constant, C/mol. -/
noncomputable def faraday : ℝ := 96485.3329

/-- The reference temperature, 25 °C, in K. -/
noncomputable def temperature : ℝ := 25 + 273.15

/-- One bar, and one atmosphere, in Pa. -/
noncomputable def bar : ℝ := 10 ^ 5
noncomputable def atmosphere : ℝ := 101325

/-- The molar mass of water, kg/mol. -/
noncomputable def water : ℝ := 0.018015268

end Verif.Constants
