import Verif.Spec.IdealEquilibrium
import Mathlib.Analysis.Calculus.Deriv.Basic

/-!
# Specification for C113
-/

namespace Verif.Response

open ChemicalProps IdealEquilibrium Activity
open ArraySerialization (Props)

/-- The problem with other amounts of elements, at another temperature, at another pressure. -/
def withAmounts (pr : Problem) (b : List ℝ) : Problem := { pr with b := b }
def atT (pr : Problem) (T : ℝ) : Problem := { pr with T := T }
def atP (pr : Problem) (P : ℝ) : Problem := { pr with P := P }

/-- The numbers `y` are the chemical potentials of the elements, divided by `RT`: the derivative of the objective with respect to the amount of a species is the
sum of those of its elements, unless the amount is at a bound. -/
def Potentials (pr : Problem) (n q : List ℝ) (props : Props ℝ) (y : Nat → ℝ) : Prop :=
  ∀ j < n.length + q.length,
    let r := (pr.gradient n props.u).getD j 0 - ∑ i ∈ Finset.range pr.A.length, y i * (((pr.A.getD i []).getD j 0 : Rat) : ℝ)
    (0 < r → ∃ v : Rat, pr.lower[j]? = some (some v) ∧ (n ++ q).getD j 0 = (v : ℝ)) ∧
    (r < 0 → ∃ v : Rat, pr.upper[j]? = some (some v) ∧ (n ++ q).getD j 0 = (v : ℝ))

/-- The amount with index `j` is at none of its bounds. -/
def Free (pr : Problem) (n q : List ℝ) (j : Nat) : Prop :=
  (∀ v : Rat, pr.lower[j]? = some (some v) → (n ++ q).getD j 0 ≠ v) ∧ ∀ v : Rat, pr.upper[j]? = some (some v) → (n ++ q).getD j 0 ≠ v

/-- The amounts of two systems together. -/
def together (n n' : List ℝ) : List ℝ := List.zipWith (· + ·) n n'

/-- The sum of the logarithms of the amounts, as in the barrier. -/
noncomputable def logs (n : List ℝ) : ℝ := (n.map Real.log).sum

/-- The phase has one of the species for each standard model, and this activity model. -/
def HasModel (ph : PhaseModel ℝ) (model : Model) : Prop :=
  ∃ standard species ideal, species.length = standard.length ∧ ph = phase standard species model ideal

/-- A standard model that satisfies the equation of Gibbs and Helmholtz between two temperatures. -/
def GibbsHelmholtz (f : ℝ → ℝ → Option (Std ℝ)) (P lo hi : ℝ) : Prop :=
  ∃ s : ℝ → Std ℝ, (∀ T ∈ Set.Icc lo hi, f T P = some (s T)) ∧ ContinuousOn (fun T => (s T).G0) (Set.Icc lo hi) ∧
    ∀ T ∈ Set.Ioo lo hi, HasDerivAt (fun T => (s T).G0 / T) (-(s T).H0 / T ^ 2) T

/-- A standard model whose volume, less `extra`, is the derivative of its Gibbs energy between two pressures. -/
def VolumeIs (f : ℝ → ℝ → Option (Std ℝ)) (T lo hi : ℝ) (extra : ℝ → ℝ) : Prop :=
  ∃ s : ℝ → Std ℝ, (∀ P ∈ Set.Icc lo hi, f T P = some (s P)) ∧ ContinuousOn (fun P => (s P).G0) (Set.Icc lo hi) ∧
    ∀ P ∈ Set.Ioo lo hi, HasDerivAt (fun P => (s P).G0) ((s P).V0 - extra P) P

end Verif.Response
