import Verif.Model.ChemicalProps
import Verif.Model.ActivityModels
import Verif.Model.EquilibriumSetup
import Verif.Model.Restrictions

/-!
# Model for C105: the problem that an equilibrium calculation at given temperature and pressure solves

The parts are modelled elsewhere: activity models (`ActivityModels`), chemical potentials (`ChemicalProps.update`), gradient and
objective (`EquilibriumSetup`), bounds (`Restrictions`). Here they are put together.
-/

namespace Verif.IdealEquilibrium

open ChemicalProps Activity

/-- `GenericPhase::convert`, `Phases.cpp:149-155`: the functions of the phase are the models applied to its species. An activity
function that does not return leaves the properties as they are (the models used here do not read what other models left in
`extra`). -/
noncomputable def activityFn (model : Model) (species : List (Aqueous.Species ℝ)) :
    ℝ → ℝ → List ℝ → AProps ℝ → AProps ℝ × Bool :=
  fun T P x a =>
    match Res.bind (model species) (fun f => f T P x { props := a }) with
    | .ok m => (m.props, true)
    | _ => (a, false)

/-- A phase with an activity model and the model for ideal properties; `standard` are the models of the species,
`Phases.cpp:149-155`. -/
noncomputable def phase (standard : List (ℝ → ℝ → Option (Std ℝ))) (species : List (Aqueous.Species ℝ)) (model ideal : Model) :
    PhaseModel ℝ where
  species := standard
  activity := activityFn model species
  ideal := activityFn ideal species

/-- What is given to the optimiser for a calculation at temperature `T` and pressure `P`, `EquilibriumSolver.cpp:147-230`: the phases of
the system, the matrix and the right-hand side of the balances, the bounds of the unknowns, the options `epsilon` and
`logarithm_barrier_factor`, and the given chemical potentials of the implicit titrants, which do not depend on the amounts of the
species (`EquilibriumSetup.cpp:259-260`). -/
structure Problem where
  phases : List (PhaseModel ℝ)
  R : ℝ
  T : ℝ
  P : ℝ
  eps : ℝ
  factor : ℝ
  A : List (List Rat)
  b : List ℝ
  lower : List (Option Rat)
  upper : List (Option Rat)
  uq : List ℝ

/-- The gradient the optimiser gets for the chemical potentials `u`, `EquilibriumSetup.cpp:237-263`. -/
noncomputable def Problem.gradient (pr : Problem) (n u : List ℝ) : List ℝ :=
  EquilibriumSetup.gradX pr.R pr.T pr.eps pr.factor n u pr.uq

/-- `evalObjectiveValue`, `EquilibriumSetup.cpp:224-235`. -/
noncomputable def Problem.objective (pr : Problem) (n u : List ℝ) : ℝ :=
  EquilibriumSetup.objective pr.R pr.T pr.eps pr.factor (fun i : Fin n.length => n.getD i 0) (fun i => u.getD i 0)

end Verif.IdealEquilibrium
