import Verif.Spec.IdealEquilibrium
import Verif.Spec.Repeat
import Mathlib.Topology.Instances.Real.Lemmas
import Mathlib.Topology.Order.LiminfLimsup

/-!
# Specification for C114
-/

namespace Verif.Existence

open ChemicalProps IdealEquilibrium

/-- The compositions of a phase with `m` species that are all present. -/
def Compositions (m : Nat) : Set (Fin m → ℝ) := {x | (∀ k, 0 < x k) ∧ ∑ k, x k = 1}

/-- The activity model of the phase returns for every composition, and its activities are continuous functions of the mole fractions. Nothing is said of
stability: the phase may split into several. -/
structure ContinuousModel (ph : PhaseModel ℝ) (T P : ℝ) : Prop where
  returns : ∀ x a, x.length = ph.size → (∀ y ∈ x, 0 < y) → x.sum = 1 → a.ln_g.length = ph.size → a.ln_a.length = ph.size →
    (ph.activity T P x a).2 = true
  continuous : ∃ f : (Fin ph.size → ℝ) → Fin ph.size → ℝ, ContinuousOn f (Compositions ph.size) ∧
    ∀ x ∈ Compositions ph.size, ∀ old a, ph.activity T P (List.ofFn x) old = (a, true) → a.ln_a = List.ofFn (f x)

/-- The standard properties of all species can be computed, and the activity models are continuous. -/
structure Modelled (pr : Problem) : Prop extends Proper pr where
  standard : ∀ ph ∈ pr.phases, ∀ f ∈ ph.species, (f pr.T pr.P).isSome
  models : ∀ ph ∈ pr.phases, ContinuousModel ph pr.T pr.P

/-- Besides, the amounts of all species have positive lower bounds. -/
structure Computable (pr : Problem) : Prop extends Modelled pr where
  positive : ∀ j < count pr.phases, ∃ v : Rat, pr.lower[j]? = some (some v) ∧ 0 < v

/-- The balances and bounds leave no amount unbounded. -/
def Bounded (pr : Problem) : Prop := ∃ M : ℝ, ∀ n q, Feasible pr n q → ∀ y ∈ n ++ q, -M ≤ y ∧ y ≤ M

/-- No species has a negative number of atoms, and each has some atoms, except that electrons have only their charge. -/
def Material (sys : ChemicalSystem.System) : Prop :=
  ∀ x ∈ sys.species, (∀ e ∈ sys.elements, 0 ≤ ChemicalSystem.elementContent x e.symbol) ∧
    ((∃ e ∈ sys.elements, 0 < ChemicalSystem.elementContent x e.symbol) ∨ x.charge < 0)

/-- The amounts are at least `eps`, and the restrictions allow them. -/
def Allowed (sys : Conditions.Sys) (calls : List Restrictions.Call) (eps : Rat) (n : List Rat) : Prop :=
  ∀ i (hi : i < n.length), eps ≤ n[i] ∧ (∀ a, Restrictions.last (Restrictions.effectDown sys i) calls = .bound a → a ≤ n[i]) ∧
    ∀ a, Restrictions.last (Restrictions.effectUp sys i) calls = .bound a → n[i] ≤ a

/-- The amount of an element in all species together if each has the amount `eps`. -/
def least (sys : ChemicalSystem.System) (eps : Rat) (symbol : Chem.Str) : Rat :=
  ChemicalSystem.total (ChemicalSystem.elementContent · symbol) sys.species (List.replicate sys.species.length eps)

end Verif.Existence
