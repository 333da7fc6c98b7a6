import Mathlib.Analysis.Calculus.Deriv.Basic
import Verif.Model.Derivatives

/-!
# What a user of the numerical derivatives relies on
-/

namespace Verif.Derivatives

/-- A function that always returns. -/
def total {n : Nat} {α : Type} (g : Pt n → α) : Pt n → Res α := fun y => .ok (g y)

/-- The function `t ↦ g(x₁, …, xᵢ + t, …, xₙ)`. -/
noncomputable def alongAxis {n : Nat} (g : Pt n → ℝ) (x : Pt n) (i : Fin n) (t : ℝ) : ℝ :=
  g (Function.update x i (x i + t))

/-- The size of the step that belongs to coordinate `xᵢ`: a fraction `eps` of it, or `eps` when it is
zero. -/
def IsStep (eps : ℝ) {n : Nat} (x : Pt n) (i : Fin n) (h : ℝ) : Prop :=
  (x i ≠ 0 → h = eps * |x i|) ∧ (x i = 0 → h = eps)

/-- Two points with the signs of all coordinates in common. -/
def SameSigns {n : Nat} (x y : Pt n) : Prop := ∀ j, (0 < y j ↔ 0 < x j) ∧ (y j < 0 ↔ x j < 0)

end Verif.Derivatives
