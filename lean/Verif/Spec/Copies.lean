import Verif.Spec.Subsystems
import Verif.Spec.Scaling

/-!
# Specification for C121
-/

namespace Verif.Copies

open ChemicalProps IdealEquilibrium PhaseOrder

/-- The part `f` of a phase: the same species with the same columns and bounds, and `f` times their amounts. -/
noncomputable def share (f : ℝ) (a : Part) : Part := ⟨a.model, a.species.map fun x => { x with amount := f * x.amount }⟩

/-- The unknown is within its bounds. -/
def InBounds (x : Unknown) : Prop := (∀ v : Rat, x.lower = some v → (v : ℝ) ≤ x.amount) ∧ ∀ v : Rat, x.upper = some v → x.amount ≤ (v : ℝ)

/-- The same phase, with other amounts. -/
structure Copy (a a' : Part) : Prop where
  model : a'.model = a.model
  columns : a'.species.map Unknown.column = a.species.map Unknown.column
  lower : a'.species.map Unknown.lower = a.species.map Unknown.lower
  upper : a'.species.map Unknown.upper = a.species.map Unknown.upper

/-- One phase with the amounts of both. -/
noncomputable def merge (a a' : Part) : Part :=
  ⟨a.model, List.zipWith (fun x x' => { x with amount := x.amount + x'.amount }) a.species a'.species⟩

/-- All amounts of a phase are away from their bounds. -/
def AllFree (a : Part) : Prop := ∀ x ∈ a.species, Subsystems.Free x

/-- All amounts of a phase are positive. -/
def AllPositive (a : Part) : Prop := ∀ x ∈ a.species, 0 < x.amount

end Verif.Copies
