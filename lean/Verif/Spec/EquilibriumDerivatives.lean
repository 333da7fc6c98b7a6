import Verif.Model.EquilibriumDerivatives
import Mathlib.Analysis.Calculus.Deriv.Basic

/-!
# Specification for C100: derivatives in equilibrium calculations

What the optimiser should get for a request: values at the point, and the partial derivatives there. Also what of the derivatives stays in the
temperature and pressure of the state after a calculation.
-/

namespace Verif.EquilibriumDerivatives

open EquilibriumProps (Dual)

noncomputable section

variable {Nn Nq Np Nw Nu : Nat}

/-- `d` is the partial derivative of `f` with respect to the variable `k` at `v`. -/
def Partial {ι : Type} [DecidableEq ι] (f : (ι → ℝ) → ℝ) (v : ι → ℝ) (k : ι) (d : ℝ) : Prop :=
  HasDerivAt (fun t => f (Function.update v k t)) d (v k)

/-- The functions of the problem come with their partial derivatives at a point. -/
def Differentiated (pb : Problem Nn Nq Np Nw Nu) (v : Var Nn Np Nw → ℝ) : Prop :=
  (∀ i k, Partial (pb.g i).f v k ((pb.g i).d v k)) ∧ (∀ i k, Partial (pb.v i).f v k ((pb.v i).d v k)) ∧
    ∀ i k, Partial (pb.u i).f v k ((pb.u i).d v k)

/-- The point of a request: amounts of the species, control variables, inputs. -/
def point (w : Fin Nw → ℝ) (r : Request Nn Nq Np) : Var Nn Np Nw → ℝ :=
  Sum.elim (fun i => r.x (Fin.castAdd Nq i)) (Sum.elim r.p w)

/-- Matrices of derivatives of functions `F` with respect to `x` (amounts of species; nothing depends on the amounts of implicit titrants), `p` and `w`, if and
only if they were asked for. -/
def RightX {m : Nat} (F : Fin m → Fun (Var Nn Np Nw)) (pt : Var Nn Np Nw → ℝ) (asked : Bool) (H : Option (Fin m → Fin (Nn + Nq) → ℝ)) : Prop :=
  if asked then ∃ H', H = some H' ∧ ∀ i, (∀ j, Partial (F i).f pt (Sum.inl j) (H' i (Fin.castAdd Nq j))) ∧ ∀ j, H' i (Fin.natAdd Nn j) = 0 else H = none

/-- The same for `p`. -/
def RightP {m : Nat} (F : Fin m → Fun (Var Nn Np Nw)) (pt : Var Nn Np Nw → ℝ) (asked : Bool) (H : Option (Fin m → Fin Np → ℝ)) : Prop :=
  if asked then ∃ H', H = some H' ∧ ∀ i j, Partial (F i).f pt (Sum.inr (Sum.inl j)) (H' i j) else H = none

/-- The same for `w`. -/
def RightW {m : Nat} (F : Fin m → Fun (Var Nn Np Nw)) (pt : Var Nn Np Nw → ℝ) (asked : Bool) (H : Option (Fin m → Fin Nw → ℝ)) : Prop :=
  if asked then ∃ H', H = some H' ∧ ∀ i j, Partial (F i).f pt (Sum.inr (Sum.inr j)) (H' i j) else H = none

/-- A right answer to a request, for inputs with values `w`. -/
def Right (pb : Problem Nn Nq Np Nw Nu) (w : Fin Nw → ℝ) (r : Request Nn Nq Np) : Answer Nn Nq Np Nw → Prop
  | .objective f fx fxx fxp fxw => r.objective = true ∧ f = pb.f (point w r) ∧ (∀ i, fx i = (pb.g i).f (point w r)) ∧
      RightX pb.g (point w r) r.dx fxx ∧ RightP pb.g (point w r) r.dp fxp ∧ RightW pb.g (point w r) r.dw fxw
  | .constraints v ddx ddp ddw => r.objective = false ∧ (∀ i, v i = (pb.v i).f (point w r)) ∧
      RightX pb.v (point w r) r.dx ddx ∧ RightP pb.v (point w r) r.dp ddp ∧ RightW pb.v (point w r) r.dw ddw

/-- The values of the inputs of a calculation. -/
def values (pb : Problem Nn Nq Np Nw Nu) (st : State) (c : Conditions Nw) : Fin Nw → ℝ := fun k => (inputs pb st c k).val

/-- A state without derivatives. -/
def State.Clean (st : State) : Prop := st.T.grad = 0 ∧ st.P.grad = 0

/-- The variable that was the last one to be differentiated in a request. -/
def lastSeed (Nw : Nat) (r : Request Nn Nq Np) : Option (Fin Np ⊕ Fin Nw) :=
  if h : r.dw ∧ 0 < Nw then some (Sum.inr ⟨Nw - 1, by omega⟩) else if h : r.dp ∧ 0 < Np then some (Sum.inl ⟨Np - 1, by omega⟩) else none

end
end Verif.EquilibriumDerivatives
