import Verif.Spec.ActivityModels
import Verif.Spec.AqueousMixture
import Verif.Model.FluidModels

/-!
# Specification for activity models of fluids (C78, C79)
-/

namespace Verif.Activity

open Verif.Aqueous Verif.ChemicalProps Filter Topology

/-- The residual properties of a fluid, functions of temperature and pressure at fixed composition, are those of one Gibbs energy: the
volume is its derivative with respect to pressure, the enthalpy follows from the Gibbs–Helmholtz relation, the heat capacity is the
derivative of the enthalpy, the heat capacities differ as the volume requires, and the fluid becomes an ideal gas at zero pressure. The
volume of the fluid is the residual volume plus that of the ideal gas. -/
structure ResidualConsistent (p : ℝ → ℝ → AProps ℝ) (T P : ℝ) : Prop where
  volume : HasDerivAt (fun P' => (p T P').Gex) (p T P).Vex P
  volumeT : HasDerivAt (fun T' => (p T' P).Vex) (p T P).VexT T
  volumeP : HasDerivAt (fun P' => (p T P').Vex) (p T P).VexP P
  enthalpy : HasDerivAt (fun T' => (p T' P).Gex / T') (-(p T P).Hex / T ^ 2) T
  heat : HasDerivAt (fun T' => (p T' P).Hex) (p T P).Cpex T
  isochoric : ∀ VT VP : ℝ, HasDerivAt (fun T' => (p T' P).Vex + gasConstant * T' / P) VT T →
    HasDerivAt (fun P' => (p T P').Vex + gasConstant * T / P') VP P → VP ≠ 0 →
    (p T P).Cpex - (p T P).Cvex = -T * VT ^ 2 / VP - gasConstant
  ideal : Tendsto (fun P' => (p T P').Gex) (𝓝[>] 0) (𝓝 0)

/-- The phase consists of H2O, CO2 and CH4, each at most once. -/
def ThreeGases (species : List (Species ℝ)) : Prop :=
  (∀ s ∈ species, s.formula ∈ [waterFormula, co2Formula, ch4Formula]) ∧ (species.map fun s => s.formula).Nodup

/-- The amount or mole fraction of the species with formula `f`, zero if there is none. -/
def ofFormula (species : List (Species ℝ)) (x : List ℝ) (f : Formula) : ℝ :=
  (((species.zip x).filter fun q => q.1.formula = f).map fun q => q.2).sum

/-- A virial coefficient as a function of temperature (Spycher and Reed 1988, equations 9 and 10). -/
noncomputable def virial (T a b c : ℝ) : ℝ := a / T ^ 2 + b / T + c

/-- The second virial coefficient of a mixture with mole fractions `w` of H2O, `c` of CO2 and `m` of CH4 (Spycher and Reed 1988,
tables 1 and 2). -/
noncomputable def secondVirial (T w c m : ℝ) : ℝ :=
  w ^ 2 * virial T (-6191.41) 14.8528 (-0.00914267) + c ^ 2 * virial T (-1430.87) 3.598 (-0.00227376) +
  m ^ 2 * virial T (-537.779) 1.54946 (-0.000927827) + 2 * w * c * virial T (-1954.7) 7.74805 (-0.0102901) +
  2 * w * m * virial T (-1103.2) 4.52871 (-0.00507784) + 2 * c * m * virial T (-800.592) 2.2899 (-0.00153917)

/-- The third virial coefficient of a mixture; the coefficients of H2O with CH4 are zero. -/
noncomputable def thirdVirial (T w c m : ℝ) : ℝ :=
  w ^ 3 * virial T (-66.3326) 0.18277 (-0.00013274) + c ^ 3 * virial T 3.47644 (-0.0104247) 0.00000846271 +
  m ^ 3 * virial T 1.20861 (-0.00370814) 0.00000333804 + 3 * w ^ 2 * c * virial T 104.453 (-0.384283) 0.000365858 +
  3 * w * c ^ 2 * virial T (-8.28426) 0.0119097 0.00000808886 + 3 * c ^ 2 * m * virial T 2.9916 (-0.0104893) 0.0000102627 +
  3 * c * m ^ 2 * virial T 1.58384 (-0.00492077) 0.00000430104

/-! ## The Redlich–Kwong equation of Spycher, Pruess and Ennis-King (2003)

Temperatures are in K, pressures in bar, volumes in cm³/mol. -/

/-- The universal gas constant in bar cm³/(mol K). -/
noncomputable def Rbar : ℝ := 83.1447

/-- The covolume of CO2. -/
noncomputable def covolume : ℝ := 27.8

/-- The attraction of CO2. -/
noncomputable def attraction (T : ℝ) : ℝ := 75400000 - 41300 * T

/-- `P` is the pressure of CO2 with molar volume `v`. -/
def RedlichKwong (T P v : ℝ) : Prop := P = Rbar * T / (v - covolume) - attraction T / (√T * v * (v + covolume))

/-- The residual Helmholtz energy, divided by `R T`, of a mixture of `w` moles of H2O and `c` moles of CO2 in the volume `V`, with the mixing
rules of Redlich and Kwong; `aw` is the attraction of H2O. -/
noncomputable def residualHelmholtz (aw T w c V : ℝ) : ℝ :=
  let B := c * covolume + w * 18.18
  let A := c ^ 2 * attraction T + 2 * w * c * 78900000 + w ^ 2 * aw;
  -(w + c) * Real.log ((V - B) / V) - A / (Rbar * (T * √T) * B) * Real.log ((V + B) / V)

/-- The ln fugacity coefficient of CO2 with molar volume `v` at the pressure `P`: its residual Gibbs energy, divided by `R T`. -/
noncomputable def lnFugacity (T P v : ℝ) : ℝ :=
  residualHelmholtz 0 T 0 1 v + P * v / (Rbar * T) - 1 - Real.log (P * v / (Rbar * T))

/-- The molar volume (cm³/mol) in a result at the pressure `P` (Pa): the model subtracts `83.1447 T / P` from it. -/
noncomputable def volumeIn (T P : ℝ) (p : AProps ℝ) : ℝ := (p.Vex + 83.1447 * T / P) * 1000000

/-- The cubic equation for the volume is outside the band in which `cardano` takes the roots to be equal, see C21. -/
def OutsideBand (eps T P : ℝ) : Prop :=
  let b := -Rbar * T / P
  let c := -(Rbar * T * covolume / P - attraction T / (P * √T) + covolume ^ 2)
  let d := -attraction T * covolume / (P * √T)
  eps < |Cardano.discr b c d| ∨ Cardano.discr b c d = 0

end Verif.Activity
