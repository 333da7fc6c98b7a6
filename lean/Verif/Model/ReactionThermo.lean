import Verif.Base
import Verif.Model.ChemicalProps
import Mathlib.Analysis.SpecialFunctions.Log.Base

/-!
# Model of formation reactions and of the thermodynamic models of reactions

`Reaktoro/Core/FormationReaction.cpp`, `Reaktoro/Core/Model.hpp` (`apply`, `operator()`, `chain`) and
`Reaktoro/Models/ReactionThermoModel*.cpp`, `StandardVolumeModelConstant.cpp`.

Numbers are reals; `log`, `log10` and `sqrt` are exact and the constant `ln10` (Constants.hpp:50) is the natural logarithm of ten.
A `Param` is the number of the cell that holds its value, and a `Store` gives the current values of all cells (Param.cpp, C06).
A model is the function of the store computed by its evaluator; memoization is modelled separately (C05).
-/

namespace Verif.ReactionThermo

open ChemicalProps (Std)

/-- The current values of all parameters. -/
abbrev Store := Nat → ℝ

/-- `universalGasConstant` (Constants.hpp:26). -/
noncomputable def R : ℝ := 83144621 / 10000000

/-- `ln10` (Constants.hpp:50), as an exact number. -/
noncomputable def ln10 : ℝ := Real.log 10

/-- `ReactionThermoProps` (ReactionThermoProps.hpp:34-41); both members are zero at construction. -/
structure RxnProps where
  dG0 : ℝ
  dH0 : ℝ

/-- `ReactionThermoModel` (ReactionThermoProps.hpp:57): the evaluator gets the properties to be changed and the arguments
`T`, `P`, `dV0`. -/
abbrev RxnModel := Store → RxnProps → ℝ → ℝ → ℝ → RxnProps

/-- `ReactionThermoModelConstLgK` (ReactionThermoModelConstLgK.cpp:44-64). -/
noncomputable def constLgK (lgKr : Nat) (Pr : ℝ) : RxnModel := fun s _ T P dV0 =>
  let RT := R * T
  let lnKr := s lgKr * ln10
  let dE := dV0 * (P - Pr)
  ⟨-RT * lnKr + dE, dE⟩

/-- `ReactionThermoModelVantHoff` (ReactionThermoModelVantHoff.cpp:44-64). -/
noncomputable def vantHoff (lgKr dHr : Nat) (Tr Pr : ℝ) : RxnModel := fun s _ T P dV0 =>
  let RT := R * T
  let lnKr := s lgKr * ln10
  let lnK := lnKr - s dHr * (Tr - T) / (RT * Tr)
  let dE := dV0 * (P - Pr)
  ⟨-RT * lnK + dE, s dHr + dE⟩

/-- `ReactionThermoModelGemsLgK` (ReactionThermoModelGemsLgK.cpp:44-65). -/
noncomputable def gemsLgK (A0 A1 A2 A3 A4 A5 A6 : Nat) (Pr : ℝ) : RxnModel := fun s _ T P dV0 =>
  let T2 := T * T
  let T3 := T * T2
  let T05 := √T
  let dE := dV0 * (P - Pr)
  ⟨-R * T * (s A0 + s A1 * T + s A2 / T + s A3 * Real.log T + s A4 / T2 + s A5 * T2 + s A6 / T05) * ln10 + dE,
   R * (s A1 * T2 - s A2 + s A3 * T - 2 * s A4 / T + 2 * s A5 * T3 - 0.5 * s A6 * T05) * ln10 + dE⟩

/-- `ReactionThermoModelPhreeqcLgK` (ReactionThermoModelPhreeqcLgK.cpp:44-63). -/
noncomputable def phreeqcLgK (A1 A2 A3 A4 A5 A6 : Nat) (Pr : ℝ) : RxnModel := fun s _ T P dV0 =>
  let T2 := T * T
  let T3 := T * T2
  let dE := dV0 * (P - Pr)
  ⟨-R * T * (s A1 + s A2 * T + s A3 / T + s A4 * Real.logb 10 T + s A5 / T2 + s A6 * T2) * ln10 + dE,
   R * (s A2 * T2 - s A3 + s A4 * T / ln10 - 2 * s A5 / T + 2 * s A6 * T3) * ln10 + dE⟩

/-- `ReactionThermoModelPressureCorrection` (ReactionThermoModelPressureCorrection.cpp:25-40): adds to the given properties. -/
noncomputable def pressureCorrection (Pr : Nat) : RxnModel := fun s props _ P dV0 =>
  let dE := (P - s Pr) * dV0
  ⟨props.dG0 + dE, props.dH0 + dE⟩

/-- `chain` (Model.hpp:206-232): the evaluators change the properties one after the other. -/
noncomputable def chain (models : List RxnModel) : RxnModel := fun s props T P dV0 =>
  models.foldl (fun props m => m s props T P dV0) props

/-- `operator()` (Model.hpp:124-128, with the calculator of 68-73): evaluates the model on default properties. -/
noncomputable def call (m : RxnModel) (s : Store) (T P dV0 : ℝ) : RxnProps := m s ⟨0, 0⟩ T P dV0

/-- A reactant: a species with a name and a standard thermodynamic model, which may throw (`none`), and its stoichiometric
coefficient (FormationReaction.cpp:33). -/
structure Reactant where
  name : List Char
  props : Store → ℝ → ℝ → Option (Std ℝ)
  coeff : ℝ

/-- `FormationReaction::Impl` (FormationReaction.cpp:30-42). `none` is a model that was not initialised. -/
structure FormationReaction where
  reactants : List Reactant
  volumeModel : Option (Store → ℝ → ℝ → ℝ)
  rxnModel : Option RxnModel

/-- `FormationReaction()` (FormationReaction.cpp:109-111). -/
def FormationReaction.empty : FormationReaction := ⟨[], none, none⟩

/-- `withReactants` (FormationReaction.cpp:120-125). -/
def FormationReaction.withReactants (f : FormationReaction) (l : List Reactant) : FormationReaction := { f with reactants := l }

/-- `withProductStandardVolumeModel` (FormationReaction.cpp:140-145). -/
def FormationReaction.withProductStandardVolumeModel (f : FormationReaction) (m : Store → ℝ → ℝ → ℝ) : FormationReaction :=
  { f with volumeModel := some m }

/-- `withReactionThermoModel` (FormationReaction.cpp:147-152). -/
def FormationReaction.withReactionThermoModel (f : FormationReaction) (m : RxnModel) : FormationReaction :=
  { f with rxnModel := some m }

/-- `StandardVolumeModelConstant` (StandardVolumeModelConstant.cpp:43-51); the argument is the value of its parameter. -/
def volumeConstant (V0 : Store → ℝ) : Store → ℝ → ℝ → ℝ := fun s _ _ => V0 s

/-- `withProductStandardVolume` (FormationReaction.cpp:135-138): the argument is not used, the new model has a new
parameter with value zero, which nobody else can reach. -/
def FormationReaction.withProductStandardVolume (f : FormationReaction) (_V0p : Nat) : FormationReaction :=
  f.withProductStandardVolumeModel (volumeConstant fun _ => 0)

/-- `withEquilibriumConstant` (FormationReaction.cpp:127-133); the reference pressure has its default value
(ReactionThermoModelConstLgK.hpp: `Pr`). The `Param` made from `0.0` is not used, any cell will do. -/
noncomputable def FormationReaction.withEquilibriumConstant (f : FormationReaction) (lgK0 : Nat) : FormationReaction :=
  (f.withReactionThermoModel (constLgK lgK0 100000)).withProductStandardVolume lgK0

/-- `initialized` (FormationReaction.cpp:154-157). -/
def FormationReaction.initialized (f : FormationReaction) : Bool := !f.reactants.isEmpty && f.rxnModel.isSome

/-- `stoichiometry` (FormationReaction.cpp:164-170). -/
noncomputable def FormationReaction.stoichiometry (f : FormationReaction) (name : List Char) : ℝ :=
  match f.reactants.find? (fun r => r.name == name) with
  | some r => r.coeff
  | none => 0

/-- The loop of FormationReaction.cpp:67-71: the properties of all reactants, or an exception. -/
def allProps (s : Store) (T P : ℝ) : List Reactant → Option (List (ℝ × Std ℝ))
  | [] => some []
  | r :: l =>
    match r.props s T P with
    | none => none
    | some p =>
      match allProps s T P l with
      | none => none
      | some ps => some ((r.coeff, p) :: ps)

/-- `calcfn` of `createStandardThermoModel` (FormationReaction.cpp:64-103); `Cp0` and `Cv0` keep their initial values. -/
noncomputable def productProps (reactants : List Reactant) (volumeModel : Option (Store → ℝ → ℝ → ℝ)) (rxnModel : RxnModel)
    (s : Store) (T P : ℝ) : Option (Std ℝ) :=
  match allProps s T P reactants with
  | none => none
  | some rprops =>
    let V0p := match volumeModel with
      | some m => m s T P
      | none => 0
    let dV0 := rprops.foldl (fun dV0 r => dV0 - r.1 * r.2.V0) V0p
    let rxn := rxnModel s ⟨0, 0⟩ T P dV0
    some {
      V0 := V0p
      G0 := rprops.foldl (fun g r => g + r.1 * r.2.G0) rxn.dG0
      H0 := rprops.foldl (fun h r => h + r.1 * r.2.H0) rxn.dH0
      Cp0 := 0
      Cv0 := 0 }

/-- `createStandardThermoModel` (FormationReaction.cpp:45-106): throws without reactants or reaction model. -/
noncomputable def FormationReaction.createStandardThermoModel (f : FormationReaction) : Res (Store → ℝ → ℝ → Option (Std ℝ)) :=
  if f.reactants.isEmpty then .throw
  else match f.rxnModel with
    | none => .throw
    | some m => .ok (productProps f.reactants f.volumeModel m)

/-- The calls that set up a formation reaction. -/
inductive Call where
  | reactants (l : List Reactant)
  | equilibriumConstant (lgK0 : Nat)
  | standardVolume (V0p : Nat)
  | volumeModel (m : Store → ℝ → ℝ → ℝ)
  | rxnModel (m : RxnModel)

/-- One call. -/
noncomputable def FormationReaction.step (f : FormationReaction) : Call → FormationReaction
  | .reactants l => f.withReactants l
  | .equilibriumConstant k => f.withEquilibriumConstant k
  | .standardVolume v => f.withProductStandardVolume v
  | .volumeModel m => f.withProductStandardVolumeModel m
  | .rxnModel m => f.withReactionThermoModel m

/-- A sequence of calls, beginning with a new formation reaction. -/
noncomputable def FormationReaction.run (calls : List Call) : FormationReaction := calls.foldl FormationReaction.step .empty

end Verif.ReactionThermo
