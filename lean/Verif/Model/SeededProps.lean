import Verif.Model.ThermoProps
import Mathlib.Data.Real.Basic
/-!
# Model of the updates with derivatives in `Reaktoro/Core/ThermoProps.cpp` and `Reaktoro/Core/ThermoPropsPhase.hpp`

A `real` is its value and its derivative with respect to the variable that is seeded.  The arrays of the system are lists with the data of
each phase (`Verif/Model/ThermoProps.lean` has the arrays and their segments).  The models of the species do not throw.  The comparison of
two `real` numbers belongs to the library autodiff, which is not in the repository, so it is a parameter `same`.
-/
namespace Verif.SeededProps
open ThermoProps
open ChemicalProps (Std)

/-- A `real`: value and derivative. -/
structure Num where
  val : ℝ
  der : ℝ

noncomputable instance : Zero Num := ⟨⟨0, 0⟩⟩

/-- The standard model of a species, empty if it has none (ThermoPropsPhase.hpp:172). -/
abbrev SpeciesModel := Option (Num → Num → Std Num)

/-- The call of the standard model of a species (ThermoPropsPhase.hpp:172-173). -/
noncomputable def eval (T P : Num) : SpeciesModel → Std Num
  | some f => f T P
  | none => zeroStd

/-- The constructors (ThermoPropsPhase.hpp:112-122, ThermoProps.cpp:59-72). -/
noncomputable def initPhase (ph : List SpeciesModel) : PhaseData Num := ⟨0, 0, ph.map fun _ => zeroStd⟩

/-- `ThermoPropsPhaseBase::update` (ThermoPropsPhase.hpp:144-180); each entry of the arrays is assigned, so the arrays are built anew. -/
noncomputable def updatePhase (same : Num → Num → Bool) (T P : Num) (ph : List SpeciesModel) (d : PhaseData Num) : PhaseData Num :=
  if same T d.T && same P d.P then d else ⟨T, P, ph.map (eval T P)⟩

/-- The loop over the phases (ThermoProps.cpp:75-82). -/
noncomputable def update (same : Num → Num → Bool) (phases : List (List SpeciesModel)) (T P : Num) (ds : List (PhaseData Num)) :
    List (PhaseData Num) :=
  List.zipWith (updatePhase same T P) phases ds

/-- The variable that is seeded: the caller's variable for the temperature, that for the pressure, or one that is neither. -/
inductive Wrt where
  | T | P | other

/-- `autodiff::seed` and `autodiff::unseed` of a variable: the derivative is set, the value stays. -/
def setDer (x : Num) (d : ℝ) : Num := { x with der := d }

/-- The caller's variables for temperature and pressure once the derivative of variable `x` is set. -/
def seedVars (x : Wrt) (d : ℝ) (v : Num × Num) : Num × Num :=
  match x with
  | .T => (setDer v.1 d, v.2)
  | .P => (v.1, setDer v.2 d)
  | .other => v

/-- `update(T, P, wrtvar)` (ThermoProps.cpp:85-90, ThermoPropsPhase.hpp:186-191): the properties and the caller's variables afterwards. -/
noncomputable def updateWrt (same : Num → Num → Bool) (phases : List (List SpeciesModel)) (x : Wrt) (v : Num × Num)
    (ds : List (PhaseData Num)) : List (PhaseData Num) × (Num × Num) :=
  let s := seedVars x 1 v
  (update same phases s.1 s.2 ds, seedVars x 0 s)

/-- A call of a program that holds temperatures and pressures in variables without derivatives. -/
inductive Call where
  | plain (T P : ℝ)
  | wrt (x : Wrt) (T P : ℝ)

/-- One call. -/
noncomputable def step (same : Num → Num → Bool) (phases : List (List SpeciesModel)) (ds : List (PhaseData Num)) :
    Call → List (PhaseData Num)
  | .plain T P => update same phases ⟨T, 0⟩ ⟨P, 0⟩ ds
  | .wrt x T P => (updateWrt same phases x (⟨T, 0⟩, ⟨P, 0⟩) ds).1

/-- A history of calls on new properties. -/
noncomputable def run (same : Num → Num → Bool) (phases : List (List SpeciesModel)) (calls : List Call) : List (PhaseData Num) :=
  calls.foldl (step same phases) (phases.map initPhase)

end Verif.SeededProps
