import Verif.Spec.PhaseOrder

/-!
# Specification for C115
-/

namespace Verif.Subsystems

open ChemicalProps IdealEquilibrium PhaseOrder
open ArraySerialization (Props)

/-- The state is an equilibrium, with these multipliers of the balances (times `RT` they are the chemical potentials of the elements). -/
def EquilibriumWith (pr : Problem) (n q : List ℝ) (props : Props ℝ) (y : Nat → ℝ) : Prop :=
  Feasible pr n q ∧ Has pr n props ∧ ∀ j < n.length + q.length,
    let r := (pr.gradient n props.u).getD j 0 - ∑ i ∈ Finset.range pr.A.length, y i * (((pr.A.getD i []).getD j 0 : Rat) : ℝ)
    (0 < r → ∃ v : Rat, pr.lower[j]? = some (some v) ∧ (n ++ q).getD j 0 = (v : ℝ)) ∧
    (r < 0 → ∃ v : Rat, pr.upper[j]? = some (some v) ∧ (n ++ q).getD j 0 = (v : ℝ))

/-- How much of balance `i` (an element, or charge) these phases and titrants hold. -/
noncomputable def content (parts : List Part) (titrants : List (Unknown × ℝ)) (i : Nat) : ℝ :=
  ((unknowns parts titrants).map fun x => ((x.column.getD i 0 : Rat) : ℝ) * x.amount).sum

/-- A problem with other amounts of the elements: `f i` of element `i`. -/
noncomputable def withAmounts (common : Problem) (f : Nat → ℝ) : Problem := { common with b := (List.range common.b.length).map f }

/-- A phase with one species. -/
abbrev purePhase (model : PhaseModel ℝ) (x : Unknown) : Part := ⟨model, [x]⟩

/-- An unknown that is at none of its bounds. -/
def Free (x : Unknown) : Prop := (∀ v : Rat, x.lower = some v → x.amount ≠ v) ∧ ∀ v : Rat, x.upper = some v → x.amount ≠ v

/-- The reaction that makes `x` of these species, with coefficients `ν`, for balances `0, …, m - 1`. All species that take part are away from
their bounds. -/
structure Makes (m : Nat) (ν : List ℝ) (species : List Unknown) (x : Unknown) : Prop where
  length : ν.length = species.length
  balanced : ∀ i < m, (List.zipWith (fun c s => c * ((s.column.getD i 0 : Rat) : ℝ)) ν species).sum = ((x.column.getD i 0 : Rat) : ℝ)
  free : ∀ p ∈ ν.zip species, p.1 ≠ 0 → Free p.2

/-- The logarithm of the saturation ratio `Q/K` of a substance with chemical potential `ux` in the reaction that makes it from species with
chemical potentials `u`. -/
noncomputable def saturation (pr : Problem) (ν u : List ℝ) (ux : ℝ) : ℝ := (dot ν u - ux) / (pr.R * pr.T)

/-- What the barrier term of the objective adds to it. -/
noncomputable def barrierPart (pr : Problem) (ν : List ℝ) (species : List Unknown) (amount : ℝ) : ℝ :=
  pr.eps * pr.factor * ((List.zipWith (fun c s => c / s.amount) ν species).sum - 1 / amount)

end Verif.Subsystems
