import Verif.Model.MoleFractions
import Mathlib.Logic.Function.Basic
import Mathlib.Data.List.FinRange

/-!
# Model of `Reaktoro/Equilibrium/EquilibriumHessian.cpp`

The chemical potentials are differentiated by automatic differentiation. That is represented by a function `D`: `D T P n j k` is the derivative
of the chemical potential of species `k` with respect to the amount of species `j`. An evaluation with derivatives `g` attached to the amounts gives
the combination of these derivatives with weights `g`.
-/

namespace Verif.EquilibriumHessian

/-- The properties read from a `ChemicalProps` object, with the derivatives attached to the amounts. -/
structure Props (N : Nat) where
  T : ℝ
  P : ℝ
  n : Fin N → ℝ
  grads : Fin N → ℝ
  x : Fin N → ℝ

/-- `EquilibriumHessian::Impl` (EquilibriumHessian.cpp:30-58). -/
structure Obj (N : Nat) where
  props : Props N
  H : Fin N → Fin N → ℝ

/-- The constructor (EquilibriumHessian.cpp:54-58); all properties are zero (ChemicalProps.cpp:105-109). -/
def initial (N : Nat) : Obj N := ⟨⟨0, 0, fun _ => 0, fun _ => 0, fun _ => 0⟩, fun _ _ => 0⟩

/-- The derivatives of the chemical potentials. -/
abbrev Deriv (N : Nat) := ℝ → ℝ → (Fin N → ℝ) → Fin N → Fin N → ℝ

/-- `grad(props.chemicalPotentials())` after an evaluation with derivatives `g` attached to the amounts. -/
def gradPotentials {N : Nat} (D : Deriv N) (T P : ℝ) (n g : Fin N → ℝ) (k : Fin N) : ℝ := ∑ j, g j * D T P n j k

/-- One pass of the loops in `exact` and `partiallyExact` (EquilibriumHessian.cpp:72-77, 90-95): seed, update the properties of the object,
unseed, read the row. `g` are the derivatives attached to the local copy of the amounts. -/
def rowPass {N : Nat} (D : Deriv N) (T P : ℝ) (n : Fin N → ℝ) (s : Obj N × (Fin N → ℝ)) (i : Fin N) : Obj N × (Fin N → ℝ) :=
  let g := Function.update s.2 i 1
  ({ props := { s.1.props with T := T, P := P, n := n, grads := g }, H := Function.update s.1.H i (gradPotentials D T P n g) }, Function.update g i 0)

/-- `exact` (EquilibriumHessian.cpp:69-79) with `update` (61-66). The argument is not read: temperature, pressure and amounts are those of
the member `props`. -/
def exact {N : Nat} (D : Deriv N) (o : Obj N) (_props0 : Props N) : Obj N :=
  ((List.finRange N).foldl (rowPass D o.props.T o.props.P o.props.n) (o, o.props.grads)).1

/-- `approx` (EquilibriumHessian.cpp:101-124): the block `Hp` is a copy, so what is computed in the loop is lost. -/
def approx {N : Nat} (o : Obj N) (_props0 : Props N) : Obj N := { o with H := fun _ _ => 0 }

/-- `partiallyExact` (EquilibriumHessian.cpp:82-98). -/
def partiallyExact {N : Nat} (D : Deriv N) (o : Obj N) (_props0 : Props N) (indices : List (Fin N)) : Obj N :=
  let o := approx o o.props
  (indices.foldl (rowPass D o.props.T o.props.P o.props.n) (o, o.props.grads)).1

/-- `diagonalApprox` (EquilibriumHessian.cpp:127-146). -/
noncomputable def diagonalApprox {N : Nat} (R : ℝ) (o : Obj N) (props0 : Props N) : Obj N :=
  { o with H := fun i j => if j = i then R * props0.T * (1 - props0.x i) / props0.n i else 0 }

end Verif.EquilibriumHessian
