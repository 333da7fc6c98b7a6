import Mathlib.Analysis.SpecialFunctions.Pow.Real
import Mathlib.Analysis.SpecialFunctions.Exp

/-!
# Specification for C99: the saturation curve of water

The auxiliary equations of Wagner and Pruß (2002), J. Phys. Chem. Ref. Data 31, 387-535, equations (2.5) to (2.7), as published: `θ = 1 - T / 647.096 K`.
-/

namespace Verif.Saturation

open Real
noncomputable section

/-- The distance from the critical point. -/
def theta (T : ℝ) : ℝ := 1 - T / 647.096

/-- Equation (2.5): the vapour pressure in Pa. -/
def pressure (T : ℝ) : ℝ :=
  22.064e6 * exp (647.096 / T * (-7.85951783 * theta T + 1.84408259 * theta T ^ (1.5 : ℝ) + -11.7866497 * theta T ^ (3 : ℝ) +
    22.6807411 * theta T ^ (3.5 : ℝ) + -15.9618719 * theta T ^ (4 : ℝ) + 1.80122502 * theta T ^ (7.5 : ℝ)))

/-- Equation (2.6): the density of the saturated liquid in kg/m³. -/
def liquidDensity (T : ℝ) : ℝ :=
  322 * (1 + 1.99274064 * theta T ^ (1 / 3 : ℝ) + 1.09965342 * theta T ^ (2 / 3 : ℝ) + -0.510839303 * theta T ^ (5 / 3 : ℝ) +
    -1.75493479 * theta T ^ (16 / 3 : ℝ) + -45.5170352 * theta T ^ (43 / 3 : ℝ) + -6.74694450e5 * theta T ^ (110 / 3 : ℝ))

/-- Equation (2.7): the density of the saturated vapour in kg/m³. -/
def vapourDensity (T : ℝ) : ℝ :=
  322 * exp (-2.03150240 * theta T ^ (2 / 6 : ℝ) + -2.68302940 * theta T ^ (4 / 6 : ℝ) + -5.38626492 * theta T ^ (8 / 6 : ℝ) +
    -17.2991605 * theta T ^ (18 / 6 : ℝ) + -44.7586581 * theta T ^ (37 / 6 : ℝ) + -63.9201063 * theta T ^ (71 / 6 : ℝ))

end
end Verif.Saturation
