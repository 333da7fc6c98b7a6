import Verif.Model.EquilibriumProps
import Mathlib.Data.Real.Basic
import Mathlib.Algebra.BigOperators.Ring.Finset
import Mathlib.Data.Fintype.BigOperators

/-!
# Model of the derivatives in `EquilibriumSetup.cpp` and `EquilibriumSolver.cpp`

Numbers are pairs of a value and a derivative (`EquilibriumProps.Dual`). The functions whose derivatives are taken (gradient of the objective
function, residuals of the constraints, serialized properties) are functions of the variables `(n, p, w)`, given with their partial derivatives;
evaluated on pairs they give the value and the sum of the partial derivatives times the derivatives of the variables, as forward automatic
differentiation does. The optimiser is any list of requests.

Simplifications: the members `x`, `p`, `w` of the set-up are assigned before each use and so are local here; evaluations do not throw; the number of
serialized properties does not change, so that the matrix of their derivatives is resized once (entries that were never written are `none`).
-/

namespace Verif.EquilibriumDerivatives

open EquilibriumProps (Dual)

noncomputable section

/-- A number without derivative. -/
def plain (a : ℝ) : Dual ℝ := ⟨a, 0⟩

/-- The variables `(n, p, w)` of `EquilibriumProps::update`. -/
abbrev Var (Nn Np Nw : Nat) := Fin Nn ⊕ Fin Np ⊕ Fin Nw

/-- The variables with their derivatives: the head of `x` (EquilibriumSetup.cpp:218-222), `p` and `w`. -/
def vars {Nn Nq Np Nw : Nat} (x : Fin (Nn + Nq) → Dual ℝ) (p : Fin Np → Dual ℝ) (w : Fin Nw → Dual ℝ) : Var Nn Np Nw → Dual ℝ :=
  Sum.elim (fun i => x (Fin.castAdd Nq i)) (Sum.elim p w)

/-- A differentiable function of the variables, with its partial derivatives. -/
structure Fun (ι : Type) where
  f : (ι → ℝ) → ℝ
  d : (ι → ℝ) → ι → ℝ

/-- Evaluation with pairs (`autodiff::real`). -/
def Fun.eval {ι : Type} [Fintype ι] (F : Fun ι) (v : ι → Dual ℝ) : Dual ℝ :=
  ⟨F.f (fun k => (v k).val), ∑ k, F.d (fun k => (v k).val) k * (v k).grad⟩

/-- What the set-up evaluates: the gradient (EquilibriumSetup.cpp:238-263), the constraints (:299-312), the serialized properties
(EquilibriumProps.cpp:156), the objective value (:224-235), and where temperature and pressure are (EquilibriumProps.cpp:35-58). -/
structure Problem (Nn Nq Np Nw Nu : Nat) where
  f : (Var Nn Np Nw → ℝ) → ℝ
  g : Fin (Nn + Nq) → Fun (Var Nn Np Nw)
  v : Fin Np → Fun (Var Nn Np Nw)
  u : Fin Nu → Fun (Var Nn Np Nw)
  iT : Fin Np ⊕ Fin Nw
  iP : Fin Np ⊕ Fin Nw

/-- What changes in the set-up: temperature and pressure of the properties, and the recorded derivatives of the serialized properties. -/
structure Setup (Nn Np Nw Nu : Nat) where
  T : Dual ℝ
  P : Dual ℝ
  recording : Bool := false
  columns : Var Nn Np Nw → Option (Fin Nu → ℝ) := fun _ => none

variable {Nn Nq Np Nw Nu : Nat}

open Classical in
/-- `indexOfSeededVariable` (EquilibriumProps.cpp:61-86); `none` for no variable. -/
def seededVar (v : Var Nn Np Nw → Dual ℝ) : Option (Var Nn Np Nw) :=
  ((List.finRange Nn).map Sum.inl ++ (List.finRange Np).map (Sum.inr ∘ Sum.inl) ++ (List.finRange Nw).map (Sum.inr ∘ Sum.inr)).find?
    fun k => (v k).grad = 1

/-- `EquilibriumSetup::Impl::updateChemicalProps` and `EquilibriumProps::Impl::update` (EquilibriumSetup.cpp:218-222, EquilibriumProps.cpp:126-170). -/
def update (pb : Problem Nn Nq Np Nw Nu) (s : Setup Nn Np Nw Nu) (v : Var Nn Np Nw → Dual ℝ) : Setup Nn Np Nw Nu :=
  let s := { s with T := v (Sum.inr pb.iT), P := v (Sum.inr pb.iP) }
  if s.recording then
    match seededVar v with
    | some k => { s with columns := Function.update s.columns k (some fun i => ((pb.u i).eval v).grad) }
    | none => s
  else s

/-- `evalObjectiveGradX` (EquilibriumSetup.cpp:238-263). -/
def gradX (pb : Problem Nn Nq Np Nw Nu) (s : Setup Nn Np Nw Nu) (x : Fin (Nn + Nq) → Dual ℝ) (p : Fin Np → Dual ℝ) (w : Fin Nw → Dual ℝ) :
    Setup Nn Np Nw Nu × (Fin (Nn + Nq) → Dual ℝ) :=
  (update pb s (vars x p w), fun i => (pb.g i).eval (vars x p w))

/-- `evalEquationConstraints` (EquilibriumSetup.cpp:299-312). -/
def constraints (pb : Problem Nn Nq Np Nw Nu) (s : Setup Nn Np Nw Nu) (x : Fin (Nn + Nq) → Dual ℝ) (p : Fin Np → Dual ℝ) (w : Fin Nw → Dual ℝ) :
    Setup Nn Np Nw Nu × (Fin Np → Dual ℝ) :=
  (update pb s (vars x p w), fun i => (pb.v i).eval (vars x p w))

/-- Giving a variable the derivative `a`. -/
def seed {N : Nat} (x : Fin N → Dual ℝ) (j : Fin N) (a : ℝ) : Fin N → Dual ℝ := Function.update x j ⟨(x j).val, a⟩

/-- `autodiff::jacobian(fn, wrt(x), at(x, p, w))`: for each variable in turn, its derivative is set to one, the function is evaluated, the derivatives of
the results are a column, and the derivative of the variable is set to zero. Other derivatives are not changed. -/
def jacobian {N m : Nat} {S : Type} (fn : S → (Fin N → Dual ℝ) → S × (Fin m → Dual ℝ)) (s : S) (x : Fin N → Dual ℝ) : S × (Fin m → Fin N → ℝ) :=
  let step := fun (a : S × (Fin N → Dual ℝ) × (Fin m → Fin N → ℝ)) (j : Fin N) =>
    let x1 := seed a.2.1 j 1
    let r := fn a.1 x1
    (r.1, seed x1 j 0, fun i => Function.update (a.2.2 i) j (r.2 i).grad)
  let r := (List.finRange N).foldl step (s, x, fun _ _ => 0)
  (r.1, r.2.2)

/-- `evalObjectiveHessianX` (EquilibriumSetup.cpp:265-274). -/
def hessianX (pb : Problem Nn Nq Np Nw Nu) (s : Setup Nn Np Nw Nu) (x : Fin (Nn + Nq) → Dual ℝ) (p : Fin Np → Dual ℝ) (w : Fin Nw → Dual ℝ) :=
  jacobian (fun s x => gradX pb s x p w) s x

/-- `evalObjectiveHessianP` (EquilibriumSetup.cpp:276-285). -/
def hessianP (pb : Problem Nn Nq Np Nw Nu) (s : Setup Nn Np Nw Nu) (x : Fin (Nn + Nq) → Dual ℝ) (p : Fin Np → Dual ℝ) (w : Fin Nw → Dual ℝ) :=
  jacobian (fun s p => gradX pb s x p w) s p

/-- `evalObjectiveHessianW` (EquilibriumSetup.cpp:287-297), the columns of `w`; those of the component amounts are zero. -/
def hessianW (pb : Problem Nn Nq Np Nw Nu) (s : Setup Nn Np Nw Nu) (x : Fin (Nn + Nq) → Dual ℝ) (p : Fin Np → Dual ℝ) (w : Fin Nw → Dual ℝ) :=
  jacobian (fun s w => gradX pb s x p w) s w

/-- `evalEquationConstraintsGradX` (EquilibriumSetup.cpp:314-323). -/
def constraintsX (pb : Problem Nn Nq Np Nw Nu) (s : Setup Nn Np Nw Nu) (x : Fin (Nn + Nq) → Dual ℝ) (p : Fin Np → Dual ℝ) (w : Fin Nw → Dual ℝ) :=
  jacobian (fun s x => constraints pb s x p w) s x

/-- `evalEquationConstraintsGradP` (EquilibriumSetup.cpp:325-334). -/
def constraintsP (pb : Problem Nn Nq Np Nw Nu) (s : Setup Nn Np Nw Nu) (x : Fin (Nn + Nq) → Dual ℝ) (p : Fin Np → Dual ℝ) (w : Fin Nw → Dual ℝ) :=
  jacobian (fun s p => constraints pb s x p w) s p

/-- `evalEquationConstraintsGradW` (EquilibriumSetup.cpp:336-346), the columns of `w`. -/
def constraintsW (pb : Problem Nn Nq Np Nw Nu) (s : Setup Nn Np Nw Nu) (x : Fin (Nn + Nq) → Dual ℝ) (p : Fin Np → Dual ℝ) (w : Fin Nw → Dual ℝ) :=
  jacobian (fun s w => constraints pb s x p w) s w

/-- What the optimiser asks for: the objective function (`objective`) or the constraints, at a point given by numbers without derivatives, with or without
derivatives with respect to `x`, `p` and `w`. -/
structure Request (Nn Nq Np : Nat) where
  objective : Bool
  x : Fin (Nn + Nq) → ℝ
  p : Fin Np → ℝ
  dx : Bool
  dp : Bool
  dw : Bool

/-- What it gets: values, and the derivatives it asked for, of the gradient or of the residuals. -/
inductive Answer (Nn Nq Np Nw : Nat) where
  | objective (f : ℝ) (fx : Fin (Nn + Nq) → ℝ) (fxx : Option (Fin (Nn + Nq) → Fin (Nn + Nq) → ℝ)) (fxp : Option (Fin (Nn + Nq) → Fin Np → ℝ))
      (fxw : Option (Fin (Nn + Nq) → Fin Nw → ℝ))
  | constraints (v : Fin Np → ℝ) (ddx : Option (Fin Np → Fin (Nn + Nq) → ℝ)) (ddp : Option (Fin Np → Fin Np → ℝ)) (ddw : Option (Fin Np → Fin Nw → ℝ))

/-- Evaluating if asked for. -/
def when {S α : Type} (b : Bool) (f : S → S × α) (s : S) : S × Option α :=
  if b then ((f s).1, some (f s).2) else (s, none)

/-- The functions given to the optimiser (EquilibriumSolver.cpp:163-201). -/
def answer (pb : Problem Nn Nq Np Nw Nu) (w : Fin Nw → Dual ℝ) (s : Setup Nn Np Nw Nu) (r : Request Nn Nq Np) :
    Setup Nn Np Nw Nu × Answer Nn Nq Np Nw :=
  let x := fun i => plain (r.x i)
  let p := fun i => plain (r.p i)
  if r.objective then
    let s := update pb s (vars x p w)
    let f := pb.f (fun k => (vars x p w k).val)
    let (s, fx) := gradX pb s x p w
    let s := if r.dw then { s with recording := true } else s
    let (s, fxx) := when r.dx (fun s => hessianX pb s x p w) s
    let (s, fxp) := when r.dp (fun s => hessianP pb s x p w) s
    let (s, fxw) := when r.dw (fun s => hessianW pb s x p w) s
    let s := if r.dw then { s with recording := false } else s
    (s, .objective f (fun i => (fx i).val) fxx fxp fxw)
  else
    let (s, v) := constraints pb s x p w
    let (s, ddx) := when r.dx (fun s => constraintsX pb s x p w) s
    let (s, ddp) := when r.dp (fun s => constraintsP pb s x p w) s
    let (s, ddw) := when r.dw (fun s => constraintsW pb s x p w) s
    (s, .constraints (fun i => (v i).val) ddx ddp ddw)

/-- A list of requests. -/
def answers (pb : Problem Nn Nq Np Nw Nu) (w : Fin Nw → Dual ℝ) (s : Setup Nn Np Nw Nu) : List (Request Nn Nq Np) →
    Setup Nn Np Nw Nu × List (Answer Nn Nq Np Nw)
  | [] => (s, [])
  | r :: rs =>
    let a := answer pb w s r
    let b := answers pb w a.1 rs
    (b.1, a.2 :: b.2)

/-- Temperature and pressure of a chemical state (ChemicalState.cpp:48-51). -/
structure State where
  T : Dual ℝ
  P : Dual ℝ

/-- The conditions of a calculation: inputs given by the user as numbers without derivatives, or those of `solve(state)`, where temperature and pressure are
those of the state (EquilibriumSolver.cpp:289-297; EquilibriumConditions.cpp:44-69) and model parameters have their values. -/
inductive Conditions (Nw : Nat) where
  | given (w : Fin Nw → ℝ)
  | ofState (params : Fin Nw → ℝ)

/-- `EquilibriumConditions::inputValues`. -/
def inputs (pb : Problem Nn Nq Np Nw Nu) (st : State) : Conditions Nw → Fin Nw → Dual ℝ
  | .given w => fun k => plain (w k)
  | .ofState a => fun k => if Sum.inr k = pb.iT then st.T else if Sum.inr k = pb.iP then st.P else plain (a k)

/-- A calculation: conditions and the requests of the optimiser. -/
structure Calculation (Nn Nq Np Nw : Nat) where
  conditions : Conditions Nw
  requests : List (Request Nn Nq Np)

/-- `EquilibriumSolver::Impl::solve` and `updateChemicalState` (EquilibriumSolver.cpp:306-318, 235-246), what concerns derivatives: temperature and pressure of
the state become those of the last evaluation. -/
def solve (pb : Problem Nn Nq Np Nw Nu) (a : Setup Nn Np Nw Nu × State) (c : Calculation Nn Nq Np Nw) :
    (Setup Nn Np Nw Nu × State) × List (Answer Nn Nq Np Nw) :=
  let r := answers pb (inputs pb a.2 c.conditions) a.1 c.requests
  ((r.1, ⟨r.1.T, r.1.P⟩), r.2)

/-- A history of calculations on the same solver and state. -/
def history (pb : Problem Nn Nq Np Nw Nu) (a : Setup Nn Np Nw Nu × State) (cs : List (Calculation Nn Nq Np Nw)) : Setup Nn Np Nw Nu × State :=
  cs.foldl (fun a c => (solve pb a c).1) a

end
end Verif.EquilibriumDerivatives
