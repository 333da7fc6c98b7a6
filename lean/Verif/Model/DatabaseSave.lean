import Verif.Model.DatabaseYAML
import Verif.Model.NumberText
import Verif.Model.ModelsYAML

/-!
# Saving databases

Models the encoders of `Element`, `Species`, `FormationReaction` and `Database` in `Reaktoro/Serialization/Core.YAML.cpp`.  The document they
make is the `Doc` that `Model/DatabaseYAML.lean` loads; the texts `Elements` and `Reactants` are the texts of
`Model/NumberText.lean` as read by the loader.
-/

namespace Verif.DatabaseSave

open Chem DatabaseYAML

/-- `encode<Element>` (`Core.YAML.cpp:94-100`); a name or tags that are empty are left out, which reads as empty. -/
def encodeElement (e : Element) : ElementNode where
  symbol := some e.symbol
  molarMass := some e.molarMass
  name := e.name
  tags := e.tags

/-- `encode<ElementalComposition>` (`Core.YAML.cpp:133-136`) and the text `Reactants` (`Core.YAML.cpp:148-155`), written and read. -/
def throughText (l : List (Str × Rat)) : List (Str × Rat) := NumberText.parseNumberStringPairs (NumberText.repr 0 l)

/-- `Species::substance` (Species.cpp:248-253). -/
def getSubstance (s : Species) : Res Str := if s.rawSubstance = [] then ValueObjects.removeSuffix s.name else .ok s.rawSubstance

/-- `encode<Species>` (`Core.YAML.cpp:218-230`).  `models` tells, for each species, how the node of its standard or reaction model reads :
`valid` for the models of C71, `invalid` for models without serializer. -/
def encodeSpecies (models : Str → ModelNode) (s : Species) : Res SpeciesNode :=
  (getSubstance s).bind fun substance =>
  s.aggregateState.bind fun st => .ok {
    name := some s.name
    formula := some s.formula
    aggregateState := some (AggregateState.print st)
    elements := some (throughText (s.elements.map fun p => (p.1.symbol, p.2)))
    reaction := if s.reactants.length ≠ 0 then some (some (throughText s.reactants), models s.name) else none
    model := if s.reactants.length ≠ 0 then .absent else models s.name
    charge := s.charge
    tags := s.tags
    substance := substance }

/-- The loop over all species (`Core.YAML.cpp:239-243`). -/
def encodeAll (models : Str → ModelNode) : List Species → Res (List SpeciesNode)
  | [] => .ok []
  | s :: l => (encodeSpecies models s).bind fun n => (encodeAll models l).bind fun ns => .ok (n :: ns)

/-- `encode<Database>` (`Core.YAML.cpp:79-85`). -/
def encode (models : Str → ModelNode) (db : Database.Db) : Res Doc :=
  (encodeAll models db.species).bind fun ns => .ok { elements := db.elements.map encodeElement, species := ns }

/-! ### Formation reactions with their models -/

open ModelsYAML (Node RxnModel child at' loadReaction)

/-- The parts of a formation reaction that are saved; the standard volume model is constant or not set. -/
structure Reaction where
  reactants : List (Str × Rat)
  model : RxnModel
  volume : Option ℝ

/-- `encode<FormationReaction>` (`Core.YAML.cpp:148-160`) for a reaction with a reaction model; the serializer of the volume model is
`StandardVolumeModelConstant.cpp:33-41`. -/
noncomputable def encodeReaction (r : Reaction) : Node :=
  .map ([(c!"Reactants", .text (NumberText.repr 0 r.reactants)), (c!"ReactionThermoModel", r.model.serialize)] ++
    match r.volume with
    | some V0 => [(c!"StandardVolumeModel", .map [(c!"Constant", .map [(c!"V0", .num V0)])])]
    | none => [])

/-- `createFormationReaction` (`DatabaseParserYAML.cpp:187-196`) : the standard volume model is not read. -/
noncomputable def decodeReaction (node : Node) : Res Reaction :=
  (child node c!"Reactants").bind fun c =>
  match c with
  | some (.text s) =>
    (child node c!"ReactionThermoModel").bind fun c =>
    match c with
    | some m => (loadReaction m).bind fun model => .ok ⟨NumberText.parseNumberStringPairs s, model, none⟩
    | none => .throw
  | _ => .throw

/-- The standard properties of the product of a reaction, at the values of the parameters, for reactants with the given properties
(`Model/ReactionThermo.lean`). -/
noncomputable def Reaction.productProps (species : Str → ReactionThermo.Store → ℝ → ℝ → Option (ChemicalProps.Std ℝ)) (r : Reaction) :
    ReactionThermo.Store → ℝ → ℝ → Option (ChemicalProps.Std ℝ) :=
  ReactionThermo.productProps (r.reactants.map fun p => ⟨p.1, species p.1, (p.2 : ℝ)⟩)
    (r.volume.map fun V0 => ReactionThermo.volumeConstant fun _ => V0) (fun _ => r.model.eval)

end Verif.DatabaseSave
