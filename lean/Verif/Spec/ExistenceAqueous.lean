import Verif.Spec.Existence
import Verif.Spec.AqueousMixture

/-!
# Specification for C114: models of real aqueous solutions
-/

namespace Verif.Existence

open Activity

/-- The models for one dissolved gas or neutral species that are evaluated after a model of the solution. -/
inductive Dissolved (species : List (Aqueous.Species ℝ)) : Model → Prop where
  | setschenow (f : Aqueous.Formula) (b : ℝ) (h : ∃ s ∈ species, f.equivalent s.formula = true) : Dissolved species (setschenow f b)
  | drummond (f : Aqueous.Formula) (p : DrummondParams) (h : ∃ s ∈ species, f.equivalent s.formula = true) : Dissolved species (drummond f p)
  | rumpf (f : Aqueous.Formula) (h : ∃ s ∈ species, f.equivalent s.formula = true) : Dissolved species (rumpf f)
  | duanSun (f : Aqueous.Formula) (h : ∃ s ∈ species, f.equivalent s.formula = true) : Dissolved species (duanSun f)

/-- There is water among the species. -/
def HasWater (species : List (Aqueous.Species ℝ)) : Prop := ∃ s ∈ species, Aqueous.waterFormula.equivalent s.formula = true

/-- No dissociation reaction gives a negative number of ions. -/
def Dissociates (reactions : List Registries.Reaction) : Prop := ∀ r ∈ reactions, ∀ q ∈ r.ions, 0 ≤ q.1

/-- There are cations and anions, all the cations have the same charge, all the anions have the same charge, and water has none. -/
def OneChargeOfEachSign (species : List (Aqueous.Species ℝ)) : Prop :=
  (∀ s ∈ species, Aqueous.IsWater s → s.charge = 0) ∧ (∃ s ∈ species, 0 < s.charge) ∧ (∃ s ∈ species, s.charge < 0) ∧
  (∀ s ∈ species, ∀ t ∈ species, 0 < s.charge → 0 < t.charge → s.charge = t.charge) ∧
  ∀ s ∈ species, ∀ t ∈ species, s.charge < 0 → t.charge < 0 → s.charge = t.charge

end Verif.Existence
