import Verif.Model.EquilibriumProps
import Verif.Spec.EquilibriumSpecs

/-!
# Specification for C42
-/

namespace Verif.EquilibriumProps

open EquilibriumSpecs

variable {K Pr α : Type}

/-- The value of temperature or pressure: that of the input if there is one, otherwise that of the unknown. -/
def Known (s : Specs K Pr) (name : Str) (p w : List α) (v : α) : Prop :=
  valueOf s.inputs w name = some v ∨ (name ∉ s.inputs ∧ valueOf (namesControlVariablesP s) p name = some v)

/-- The vectors have the dimensions of the specification. -/
def Sized (s : Specs K Pr) (p w : List α) : Prop := p.length = numControlVariablesP s ∧ w.length = s.inputs.length

/-- Variable `j` is the only one that is seeded. -/
def SeededAt [Zero K] [One K] (x : List (Dual K)) (j : Nat) : Prop := j < x.length ∧ ∀ i (h : i < x.length), x[i].grad = if i = j then 1 else 0

end Verif.EquilibriumProps
