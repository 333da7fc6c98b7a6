import Verif.Model.ReactionThermo
import Mathlib.Analysis.Calculus.Deriv.Basic

/-!
# Specification for C34 and C52
-/

namespace Verif.ReactionThermo

open ChemicalProps (Std)

/-- The reactants of the last call that set reactants. -/
def lastReactants (calls : List Call) : Option (List Reactant) :=
  (calls.filterMap fun c => match c with | .reactants l => some l | _ => none).getLast?

/-- The standard volume of the product declared by the last call that declares one. -/
def lastVolume (calls : List Call) : Option (Store → ℝ → ℝ → ℝ) :=
  (calls.filterMap fun c => match c with
    | .equilibriumConstant _ => some fun _ _ _ => 0
    | .standardVolume v => some fun s _ _ => s v
    | .volumeModel m => some m
    | _ => none).getLast?

/-- The reaction model of the last call that sets one. -/
noncomputable def lastRxnModel (calls : List Call) : Option RxnModel :=
  (calls.filterMap fun c => match c with
    | .equilibriumConstant k => some (constLgK k 100000)
    | .rxnModel m => some m
    | _ => none).getLast?

/-- `p` are the standard properties of the product of a reaction between reactants with coefficients and properties `l`, when the
properties of the reaction are given by `rxn` for the volume change of the reaction. -/
structure IsProduct (l : List (ℝ × Std ℝ)) (rxn : ℝ → RxnProps) (p : Std ℝ) : Prop where
  gibbs : p.G0 = (rxn (p.V0 - (l.map fun r => r.1 * r.2.V0).sum)).dG0 + (l.map fun r => r.1 * r.2.G0).sum
  enthalpy : p.H0 = (rxn (p.V0 - (l.map fun r => r.1 * r.2.V0).sum)).dH0 + (l.map fun r => r.1 * r.2.H0).sum

/-- Gibbs-Helmholtz at a temperature: the enthalpy is `-T²` times the derivative of `G/T`. -/
def GibbsHelmholtzAt (G H : ℝ → ℝ) (T : ℝ) : Prop := HasDerivAt (fun t => G t / t) (-(H T) / T ^ 2) T

/-- Gibbs-Helmholtz at all positive temperatures. -/
def GibbsHelmholtz (G H : ℝ → ℝ) : Prop := ∀ T, 0 < T → GibbsHelmholtzAt G H T

end Verif.ReactionThermo
