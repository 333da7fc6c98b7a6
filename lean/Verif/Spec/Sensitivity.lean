import Verif.Spec.EquilibriumDerivatives
import Verif.Spec.EquilibriumSolver
import Mathlib.Analysis.Calculus.ContDiff.Defs

/-!
# Specification for C117: the sensitivities are the derivatives of the equilibrium state

An equilibrium calculation with control variables `p`, as a problem in `(x, p)`, `x = (n, q)`, with the inputs `w` and the amounts of
components `b`, and the linear equations that the derivatives of its solution satisfy.
-/

namespace Verif.Sensitivity

open EquilibriumDerivatives (Problem Var)
open Matrix

variable {Nn Nq Np Nw Nb Nu : Nat}

/-- The functions, the matrices of the balances and the bounds that are given to the optimiser. -/
structure Task (Nn Nq Np Nw Nb Nu : Nat) where
  pb : Problem Nn Nq Np Nw Nu
  Aex : Matrix (Fin Nb) (Fin (Nn + Nq)) ℝ
  Aep : Matrix (Fin Nb) (Fin Np) ℝ
  lower : Fin (Nn + Nq) → Option ℝ
  upper : Fin (Nn + Nq) → Option ℝ

/-- The variables on which the functions depend: amounts of species, control variables and inputs. -/
def arguments (x : Fin (Nn + Nq) → ℝ) (p : Fin Np → ℝ) (w : Fin Nw → ℝ) : Var Nn Np Nw → ℝ :=
  Sum.elim (EquilibriumSolver.head x) (Sum.elim p w)

/-- The gradient for an unknown less what its balances, with multipliers `y`, are worth. -/
noncomputable def rest (C : Task Nn Nq Np Nw Nb Nu) (w : Fin Nw → ℝ) (x : Fin (Nn + Nq) → ℝ) (p : Fin Np → ℝ) (y : Fin Nb → ℝ) (j : Fin (Nn + Nq)) : ℝ :=
  (C.pb.g j).f (arguments x p w) - ∑ i, y i * C.Aex i j

/-- The state `(x, p)` is an equilibrium for the inputs `w` and the amounts of components `b`. -/
structure EquilibriumAt (C : Task Nn Nq Np Nw Nb Nu) (w : Fin Nw → ℝ) (b : Fin Nb → ℝ) (x : Fin (Nn + Nq) → ℝ) (p : Fin Np → ℝ) (y : Fin Nb → ℝ) : Prop where
  balances : C.Aex *ᵥ x + C.Aep *ᵥ p = b
  constraints : ∀ i, (C.pb.v i).f (arguments x p w) = 0
  lower : ∀ j l, C.lower j = some l → l ≤ x j
  upper : ∀ j u, C.upper j = some u → x j ≤ u
  atLower : ∀ j, 0 < rest C w x p y j → C.lower j = some (x j)
  atUpper : ∀ j, rest C w x p y j < 0 → C.upper j = some (x j)

/-- Every unknown is either kept at a bound by a force, or strictly inside its bounds. -/
def Decided (C : Task Nn Nq Np Nw Nb Nu) (w : Fin Nw → ℝ) (x : Fin (Nn + Nq) → ℝ) (p : Fin Np → ℝ) (y : Fin Nb → ℝ) : Prop :=
  ∀ j, rest C w x p y j ≠ 0 ∨ ((∀ l, C.lower j = some l → l < x j) ∧ ∀ u, C.upper j = some u → x j < u)

/-- The functions have continuous derivatives near a point. -/
def Smooth (C : Task Nn Nq Np Nw Nb Nu) (v : Var Nn Np Nw → ℝ) : Prop :=
  (∀ j, ContDiffAt ℝ 1 (C.pb.g j).f v) ∧ (∀ i, ContDiffAt ℝ 1 (C.pb.v i).f v) ∧ ∀ i, ContDiffAt ℝ 1 (C.pb.u i).f v

/-- The linear equations for small changes of the unknowns: `dx`, `dp` and `dy` make up for a change `g` of the gradient, `v` of the
constraints and `b` of the balances; unknowns that are kept at a bound stay there. -/
structure Linear (Aex : Matrix (Fin Nb) (Fin (Nn + Nq)) ℝ) (Aep : Matrix (Fin Nb) (Fin Np) ℝ) (free : Fin (Nn + Nq) → Prop)
    (fxx : Matrix (Fin (Nn + Nq)) (Fin (Nn + Nq)) ℝ) (fxp : Matrix (Fin (Nn + Nq)) (Fin Np) ℝ)
    (vx : Matrix (Fin Np) (Fin (Nn + Nq)) ℝ) (vp : Matrix (Fin Np) (Fin Np) ℝ) (g : Fin (Nn + Nq) → ℝ) (v : Fin Np → ℝ) (b : Fin Nb → ℝ)
    (dx : Fin (Nn + Nq) → ℝ) (dp : Fin Np → ℝ) (dy : Fin Nb → ℝ) : Prop where
  gradient : ∀ j, free j → (fxx *ᵥ dx) j + (fxp *ᵥ dp) j + g j = ∑ i, dy i * Aex i j
  fixed : ∀ j, ¬ free j → dx j = 0
  constraints : vx *ᵥ dx + vp *ᵥ dp + v = 0
  balances : Aex *ᵥ dx + Aep *ᵥ dp = b

/-- The equations have at most one solution. -/
def Regular (Aex : Matrix (Fin Nb) (Fin (Nn + Nq)) ℝ) (Aep : Matrix (Fin Nb) (Fin Np) ℝ) (free : Fin (Nn + Nq) → Prop)
    (fxx : Matrix (Fin (Nn + Nq)) (Fin (Nn + Nq)) ℝ) (fxp : Matrix (Fin (Nn + Nq)) (Fin Np) ℝ)
    (vx : Matrix (Fin Np) (Fin (Nn + Nq)) ℝ) (vp : Matrix (Fin Np) (Fin Np) ℝ) : Prop :=
  ∀ dx dp dy, Linear Aex Aep free fxx fxp vx vp 0 0 0 dx dp dy → dx = 0 ∧ dp = 0 ∧ dy = 0

/-- A function with its partial derivatives. -/
noncomputable def withDerivatives {ι : Type} [DecidableEq ι] (f : (ι → ℝ) → ℝ) : EquilibriumDerivatives.Fun ι :=
  ⟨f, fun v k => deriv (fun t => f (Function.update v k t)) (v k)⟩

/-- The gradient for a species of an ideal phase: the chemical potential over `RT`, with the standard Gibbs energy `G0` and, in gases, the
pressure in bar, less the barrier term `tau / n`. Temperature and pressure are the inputs. -/
noncomputable def idealGradient {π : Nat} (phaseOf : Fin Nn → Fin π) (gas : Fin π → Bool) (G0 : Fin Nn → ℝ × ℝ → ℝ) (R tau : ℝ) (j : Fin Nn)
    (v : Var Nn 0 2 → ℝ) : ℝ :=
  let T := v (Sum.inr (Sum.inr 0))
  let P := v (Sum.inr (Sum.inr 1))
  let n := fun l => v (Sum.inl l)
  G0 j (T, P) / (R * T) + Real.log (n j / ∑ l with phaseOf l = phaseOf j, n l) + (if gas (phaseOf j) then Real.log (P / 100000) else 0) - tau / n j

/-- An equilibrium calculation at given temperature and pressure for a system of ideal phases. -/
noncomputable def idealTask {π : Nat} (phaseOf : Fin Nn → Fin π) (gas : Fin π → Bool) (G0 : Fin Nn → ℝ × ℝ → ℝ) (R tau : ℝ) (A : Matrix (Fin Nb) (Fin Nn) ℝ)
    (lower upper : Fin Nn → Option ℝ) : Task Nn 0 0 2 Nb 0 where
  pb := ⟨fun _ => 0, fun j => withDerivatives (idealGradient phaseOf gas G0 R tau j), fun i => i.elim0, fun i => i.elim0, Sum.inr 0, Sum.inr 1⟩
  Aex := A
  Aep := fun _ i => i.elim0
  lower := lower
  upper := upper

end Verif.Sensitivity
