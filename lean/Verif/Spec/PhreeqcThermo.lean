import Verif.Model.PhreeqcThermo
import Verif.Spec.Phreeqc

/-!
# Specification for C76 and C77
-/

namespace Verif.Phreeqc

open Chem ReactionThermo
open ChemicalProps (Std)

/-- The equilibrium constant that a database defines with the data `logk`: the analytic expression if any of its six coefficients is given, otherwise
the van't Hoff equation with `log_k` at 25 °C and `delta_h` in kJ/mol. -/
structure DefinesLgK (logk : Nat → Rat) (lgK : ℝ → ℝ) : Prop where
  analytic : (∃ i, 2 ≤ i ∧ i ≤ 7 ∧ logk i ≠ 0) → ∀ T, 0 < T →
    lgK T = logk 2 + logk 3 * T + logk 4 / T + logk 5 * Real.logb 10 T + logk 6 / T ^ 2 + logk 7 * T ^ 2
  vantHoff : (∀ i, 2 ≤ i → i ≤ 7 → logk i = 0) → ∀ T, 0 < T →
    lgK T = logk 0 + 1000 * logk 1 / (R * Real.log 10) * (1 / 298.15 - 1 / T)

/-- The standard properties `p` of the product and `qs` of the reactants obey the equilibrium constant `lgK` of the formation of the product at 1 atm;
the Gibbs energy of reaction changes with pressure by the volume of reaction. -/
def Obeys (lgK : ℝ) (coeffs : List ℝ) (qs : List (Std ℝ)) (p : Std ℝ) (T P : ℝ) : Prop :=
  p.G0 - (List.zipWith (fun c q => c * q.G0) coeffs qs).sum =
    -R * T * Real.log 10 * lgK + (p.V0 - (List.zipWith (fun c q => c * q.V0) coeffs qs).sum) * (P - 101325)

end Verif.Phreeqc
