import Verif.Model.ThermoProps

/-!
# Specification for C74
-/

namespace Verif.ThermoProps

open ChemicalProps (Std)

variable {K W : Type}

/-- What the model of a species gives at the temperature and pressure with the given parameters; zero without model. -/
def Gives [Zero K] (w : W) (T P : K) (m : Model W K) (s : Std K) : Prop :=
  match m with
  | some f => f w T P = some s
  | none => s = zeroStd

/-- The properties are those of the temperature and pressure, in the system and in each phase, with one entry for each species of each
phase, in order. -/
structure UpToDate [Zero K] (w : W) (phases : List (List (Model W K))) (T P : K) (p : Props K) : Prop where
  temperature : p.T = T
  pressure : p.P = P
  temperatures : p.Ts = List.replicate phases.length T
  pressures : p.Ps = List.replicate phases.length P
  standard : List.Forall₂ (Gives w T P) phases.flatten p.std

/-- No model throws. -/
def Defined (w : W) (phases : List (List (Model W K))) (T P : K) : Prop :=
  ∀ ph ∈ phases, ∀ f, some f ∈ ph → (f w T P).isSome

end Verif.ThermoProps
