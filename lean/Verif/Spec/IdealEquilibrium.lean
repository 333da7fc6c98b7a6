import Verif.Model.IdealEquilibrium
import Verif.Spec.ChemicalProps

/-!
# Specification for C105
-/

namespace Verif.IdealEquilibrium

open ChemicalProps Activity
open ArraySerialization (Props)

/-- `Σ aᵢ bᵢ`. -/
def dot (a b : List ℝ) : ℝ := (List.zipWith (· * ·) a b).sum

/-- Mole fractions. -/
noncomputable def fractions (n : List ℝ) : List ℝ := n.map (fun y => y / n.sum)

/-- The system has these properties at these amounts, whatever they were before. -/
def Has (pr : Problem) (n : List ℝ) (props : Props ℝ) : Prop :=
  ∃ old, Shape pr.phases old ∧ update pr.R pr.phases false old pr.T pr.P n = .ok (props, true)

/-- The balance with index `i`, for species amounts `n` and titrant amounts `q`. -/
noncomputable def balance (A : List (List Rat)) (x : List ℝ) (i : Nat) : ℝ :=
  ∑ j ∈ Finset.range x.length, (((A.getD i []).getD j 0 : Rat) : ℝ) * x.getD j 0

/-- The amounts satisfy all balances and bounds. -/
structure Feasible (pr : Problem) (n q : List ℝ) : Prop where
  species : n.length = count pr.phases
  titrants : q.length = pr.uq.length
  balances : ∀ i < pr.A.length, balance pr.A (n ++ q) i = pr.b.getD i 0
  lower : ∀ (j : Nat) (v : Rat), pr.lower[j]? = some (some v) → (v : ℝ) ≤ (n ++ q).getD j 0
  upper : ∀ (j : Nat) (v : Rat), pr.upper[j]? = some (some v) → (n ++ q).getD j 0 ≤ (v : ℝ)

/-- The state is an equilibrium: it is feasible, and with multipliers `y` of the balances the gradient vanishes for all unknowns except
that it may be positive at a lower bound and negative at an upper bound (the first-order conditions that the optimiser solves). -/
def Equilibrium (pr : Problem) (n q : List ℝ) (props : Props ℝ) : Prop :=
  Feasible pr n q ∧ Has pr n props ∧ ∃ y : Nat → ℝ, ∀ j < n.length + q.length,
    let r := (pr.gradient n props.u).getD j 0 - ∑ i ∈ Finset.range pr.A.length, y i * (((pr.A.getD i []).getD j 0 : Rat) : ℝ)
    (0 < r → ∃ v : Rat, pr.lower[j]? = some (some v) ∧ (n ++ q).getD j 0 = (v : ℝ)) ∧
    (r < 0 → ∃ v : Rat, pr.upper[j]? = some (some v) ∧ (n ++ q).getD j 0 = (v : ℝ))

/-- The objective with the work of the reservoirs that keep the chemical potentials of the titrants. Without titrants it is the
objective. -/
noncomputable def energy (pr : Problem) (n q u : List ℝ) : ℝ := pr.objective n u + dot q pr.uq / (pr.R * pr.T)

/-- Gibbs' criterion for a phase: its activities are functions of the mole fractions, and at every composition its Gibbs energy is not below
the tangent plane at any other composition, and touches it only there. -/
structure Stable (ph : PhaseModel ℝ) (T P : ℝ) : Prop where
  function : ∀ x old old' a a', ph.activity T P x old = (a, true) → ph.activity T P x old' = (a', true) → a.ln_a = a'.ln_a
  tangent : ∀ n n' : List ℝ, n.length = ph.size → n'.length = ph.size → (∀ y ∈ n, 0 < y) → (∀ y ∈ n', 0 < y) →
    ∀ old old' a a', ph.activity T P (fractions n) old = (a, true) → ph.activity T P (fractions n') old' = (a', true) →
    dot n' a.ln_a ≤ dot n' a'.ln_a ∧ (dot n' a.ln_a = dot n' a'.ln_a → fractions n = fractions n')

/-- The phases have species, and their activity models write to arrays of fixed size. -/
structure Proper (pr : Problem) : Prop where
  sizes : ModelsOk pr.phases
  nonempty : ∀ ph ∈ pr.phases, ph.size ≠ 0

/-- A problem with physical constants, positive lower bounds for all species (C40), and phases that meet Gibbs' criterion. -/
structure Regular (pr : Problem) : Prop extends Proper pr where
  gas : 0 < pr.R * pr.T
  barrier : 0 ≤ pr.eps * pr.factor
  stable : ∀ ph ∈ pr.phases, Stable ph pr.T pr.P
  positive : ∀ j < count pr.phases, ∃ v : Rat, pr.lower[j]? = some (some v) ∧ 0 < v

/-- The activity models for ideal solutions and gases, and so for pure phases. -/
def Ideal (model : Model) : Prop := model = idealSolution ∨ model = idealGas

end Verif.IdealEquilibrium
