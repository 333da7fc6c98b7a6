import Verif.Spec.IdealEquilibrium
import Verif.Spec.EquilibriumSetup
import Verif.Spec.EquilibriumSpecs

/-!
# Specification for C108
-/

namespace Verif.Imposed

open ChemicalProps ChemicalSystem EquilibriumSpecs EquilibriumSetup IdealEquilibrium
open ArraySerialization (Props)

/-- The state with amounts `n` of the species, `q` of the implicit titrants and properties `props` is an equilibrium of the problem that the
specification made by `calls` gives for the system `sys` and the values `w` of the inputs. -/
structure Calculated (parse : Str → Option Formula) (db : List EquilibriumSpecs.Species) (calls : List (Call ℝ (Props ℝ))) (sys : System)
    (env : Env ℝ (Props ℝ)) (w : List ℝ) (pr : Problem) (n q : List ℝ) (props : Props ℝ) : Prop where
  /-- the system has been made from phases, and its species and the titrants list no element twice (C41) -/
  system : ∃ phases, Constructs phases sys
  symbols : ∀ x ∈ sys.species, x.symbols.Nodup
  formulas : ∀ f ∈ (run parse db calls).titrantsImplicit, (f.elements.map (·.1)).Nodup
  /-- the problem has the species of the system, the matrix of the specification and the constants of the program -/
  species : sys.species.length = count pr.phases
  proper : Proper pr
  matrix : matrixAex sys (run parse db calls) = .ok pr.A
  gas : env.R = pr.R
  nonzero : pr.R * pr.T ≠ 0
  temperature : env.temperature = Props.T
  pressure : env.pressure = Props.P
  /-- there is a value for each input, and the potentials of the titrants are those that the constraints compute in this state -/
  inputs : w.length = (run parse db calls).inputs.length
  potentials : evalPotentials env (run parse db calls) props w = .ok pr.uq
  /-- titrants have no bounds (EquilibriumSetup.cpp:193, 209) -/
  free : ∀ k, count pr.phases ≤ k → pr.lower[k]?.join = none ∧ pr.upper[k]?.join = none
  /-- the state is an equilibrium -/
  equilibrium : Equilibrium pr n q props

/-- The amount of species `j` is not at a bound. -/
def Inside (pr : Problem) (n : List ℝ) (j : Nat) : Prop :=
  ∀ v : Rat, (pr.lower[j]? = some (some v) → n.getD j 0 ≠ v) ∧ (pr.upper[j]? = some (some v) → n.getD j 0 ≠ v)

/-- Species `j` of the system consists of the same elements as the substance and has its charge. -/
def SameAs (sys : System) (j : Nat) (f : Formula) : Prop :=
  ∃ x, sys.species[j]? = some x ∧ (∀ e ∈ sys.elements, elementContent x e.symbol = formulaContent f e.symbol) ∧ x.charge = f.charge

/-- A call that asks for the activity of a species: the name of its input, the species of the database, and the natural logarithm of the activity
that a value of the input means. -/
inductive Asks (parse : Str → Option Formula) (db : List EquilibriumSpecs.Species) :
    Call ℝ (Props ℝ) → Str → EquilibriumSpecs.Species → (ℝ → ℝ) → Prop
  | pH (g sp) : parse c!"H+" = some g → sp ∈ db → sp.state = .Aqueous → g.equivalent sp.formula = true →
      Asks parse db .pH c!"pH" sp (fun v => -(v * Real.log 10))
  | pMg (g sp) : parse c!"Mg+2" = some g → sp ∈ db → sp.state = .Aqueous → g.equivalent sp.formula = true →
      Asks parse db .pMg c!"pMg" sp (fun v => -(v * Real.log 10))
  | fugacity (gas g sp) : parse gas = some g → sp ∈ db → sp.state = .Gas → g.equivalent sp.formula = true →
      Asks parse db (.fugacity gas) (c!"f[" ++ gas ++ c!"]") sp Real.log
  | lnActivity (name sp) : sp ∈ db → sp.name = name → Asks parse db (.lnActivity name) (c!"lnActivity[" ++ name ++ c!"]") sp id
  | species (sp) : Asks parse db (.lnActivitySpecies sp) (c!"lnActivity[" ++ sp.name ++ c!"]") sp id

/-- The call asks for an activity. -/
def IsActivity : Call ℝ (Props ℝ) → Prop
  | .pH | .pMg | .fugacity _ | .lnActivity _ | .lnActivitySpecies _ => True
  | _ => False

/-- pH, pMg and pE from the natural logarithm of an activity. -/
noncomputable def minusLg (lnA : ℝ) : ℝ := - (lnA / Real.log 10)

end Verif.Imposed
