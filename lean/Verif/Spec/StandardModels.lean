import Verif.Model.StandardModels
import Mathlib.Analysis.Calculus.Deriv.Basic

/-!
# Specification of the standard thermodynamic models

What thermodynamics asks of a model that returns, at every temperature and pressure, a Gibbs
energy, an enthalpy, a volume and a heat capacity.
-/

namespace Verif.StandardModels

open Filter Topology

/-- The model returns values around the temperature `T` at the pressure `P`, and there the property
`F` has the derivative `d` with respect to temperature at constant pressure. -/
def DerT (m : ℝ → ℝ → Res Props) (F : Props → ℝ) (d T P : ℝ) : Prop :=
  ∃ g : ℝ → Props, (∀ᶠ t in 𝓝 T, m t P = .ok (g t)) ∧ HasDerivAt (fun t => F (g t)) d T

/-- The model returns values around the pressure `P` at the temperature `T`, and there the property
`F` has the derivative `d` with respect to pressure at constant temperature. -/
def DerP (m : ℝ → ℝ → Res Props) (F : Props → ℝ) (d T P : ℝ) : Prop :=
  ∃ g : ℝ → Props, (∀ᶠ q in 𝓝 P, m T q = .ok (g q)) ∧ HasDerivAt (fun q => F (g q)) d P

/-- The heat capacity reported at a state is the temperature derivative of the enthalpy. -/
def HeatCapacity (m : ℝ → ℝ → Res Props) (T P : ℝ) : Prop :=
  ∃ x, m T P = .ok x ∧ DerT m Props.H0 x.Cp0 T P

/-- The volume reported at a state is the pressure derivative of the Gibbs energy. -/
def Volume (m : ℝ → ℝ → Res Props) (T P : ℝ) : Prop :=
  ∃ x, m T P = .ok x ∧ DerP m Props.G0 x.V0 T P

/-- `G = H - T S + K` at a state, where the entropy `S` is minus the temperature derivative of the
Gibbs energy.  With `K = 0` this is the relation `G = H - T S`, and for substances whose Gibbs
energy and enthalpy are counted from the elements `K` is the constant fixed at the reference
state. -/
def GibbsHelmholtz (m : ℝ → ℝ → Res Props) (K T P : ℝ) : Prop :=
  ∃ x S, m T P = .ok x ∧ DerT m Props.G0 (-S) T P ∧ x.G0 = x.H0 - T * S + K

/-- The relation between the two heat capacities of a substance whose volume has the derivatives `VT` with
respect to temperature and `VP` with respect to pressure: `Cp - Cv = -T VT² / VP`, without the
division. -/
def Mayer (x : Props) (T VT VP : ℝ) : Prop := (x.Cp0 - x.Cv0) * VP = -(T * VT ^ 2)

end Verif.StandardModels
