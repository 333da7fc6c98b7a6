import Verif.Model.ValueObjects
import Verif.Model.Lists
import Verif.Model.Param

/-!
# Core values as YAML nodes

Models the encoders and decoders of `Reaktoro/Serialization/Core.YAML.cpp` for aggregate states, formulas, elements, lists of elements, parameters and lists of parameters,
with the accessors of `Reaktoro/Common/YAML.hpp`. A node of yaml-cpp is nothing (null), a scalar, which is a text, a sequence or a map; how numbers are written and
read as texts is a parameter. (Databases and models are in `Model/DatabaseSave.lean` and `Model/ModelsYAML.lean`.)
-/

namespace Verif.CoreYAML

abbrev Str := List Char
abbrev Formula := EquilibriumSpecs.Formula

/-- `YAML::Node`. -/
inductive Node where
  | null
  | scalar (s : Str)
  | seq (l : List Node)
  | map (l : List (Str × Node))

/-- The conversions of numbers in yaml-cpp. -/
structure Numbers where
  print : Rat → Str
  read : Str → Option Rat

/-- `as<std::string>()`. -/
def asText : Node → Res Str
  | .scalar s => .ok s
  | _ => .throw

/-- `as<double>()`. -/
def asNumber (n : Numbers) : Node → Res Rat
  | .scalar s => match n.read s with
    | some x => .ok x
    | none => .throw
  | _ => .throw

/-- The items of a sequence, one after the other (`convert<std::vector<T>>::decode` in yaml-cpp). -/
def eachItem {α : Type} (f : Node → Res α) : List Node → Res (List α)
  | [] => .ok []
  | x :: l => (f x).bind fun a => (eachItem f l).bind fun as => .ok (a :: as)

/-- `as<Vec<T>>()`: a node that is no sequence cannot be converted. -/
def asList {α : Type} (f : Node → Res α) : Node → Res (List α)
  | .seq l => eachItem f l
  | _ => .throw

/-- `operator[](key) const` (`YAML.hpp:74-76`): `none` is an undefined node; a scalar has no children, yaml-cpp throws. -/
def child : Node → Str → Res (Option Node)
  | .map l, key => .ok ((l.find? (fun p => p.1 = key)).map Prod.snd)
  | .scalar _, _ => .throw
  | _, _ => .ok none

/-- `copyRequiredChildValueTo` (`YAML.hpp:123-130`). -/
def required {α : Type} (conv : Node → Res α) (node : Node) (key : Str) : Res α :=
  (child node key).bind fun c => match c with
    | some c => conv c
    | none => .throw

/-- `copyOptionalChildValueTo` (`YAML.hpp:113-121`). -/
def optional {α : Type} (conv : Node → Res α) (node : Node) (key : Str) (dflt : α) : Res α :=
  (child node key).bind fun c => match c with
    | some c => conv c
    | none => .ok dflt

/-- `push_back` of yaml-cpp for a node that is null or a sequence. -/
def pushBack : Node → Node → Node
  | .seq l, x => .seq (l ++ [x])
  | _, x => .seq [x]

/-- `encode<AggregateState>` (`Core.YAML.cpp:41-46`). -/
def encodeState (s : AggregateState.State) : Node := .scalar (AggregateState.print s)

/-- `decode<AggregateState>` (`Core.YAML.cpp:48-51`). -/
def decodeState (node : Node) : Res AggregateState.State := (asText node).bind fun s => .ok (AggregateState.parse s)

/-- `encode<ChemicalFormula>` (`Core.YAML.cpp:55-58`). -/
def encodeFormula (f : Formula) : Node := .scalar f.str

/-- `decode<ChemicalFormula>` (`Core.YAML.cpp:60-63`). -/
def decodeFormula (node : Node) : Res Formula := (asText node).bind Lists.Formula.ofString

/-- `encode<Element>` (`Core.YAML.cpp:95-101`) with `appendIfNotDefault` (`YAML.hpp:56-62`). -/
def encodeElement (n : Numbers) (e : Chem.Element) : Node :=
  .map ([(c!"Symbol", .scalar e.symbol), (c!"MolarMass", .scalar (n.print e.molarMass))] ++
    (if e.name ≠ [] then [(c!"Name", .scalar e.name)] else []) ++
    (if e.tags ≠ [] then [(c!"Tags", .seq (e.tags.map .scalar))] else []))

/-- `decode<Element>` (`Core.YAML.cpp:103-111`). -/
def decodeElement (n : Numbers) (node : Node) : Res Chem.Element :=
  (required asText node c!"Symbol").bind fun symbol =>
  (required (asNumber n) node c!"MolarMass").bind fun molarMass =>
  (optional asText node c!"Name" []).bind fun name =>
  (optional (asList asText) node c!"Tags" []).bind fun tags =>
  ValueObjects.newElement { symbol := symbol, molarMass := molarMass, name := name, tags := tags }

/-- `encode<ElementList>` (`Core.YAML.cpp:115-119`): a new node is null. -/
def encodeElements (n : Numbers) (l : List Chem.Element) : Node := l.foldl (fun node e => pushBack node (encodeElement n e)) .null

/-- `decode<ElementList>` (`Core.YAML.cpp:121-124`). -/
def decodeElements (n : Numbers) (node : Node) : Res (List Chem.Element) := asList (decodeElement n) node

/-- `encode<Param>` (`Core.YAML.cpp:169-172`) with `encode<real>` (`Common.YAML.cpp:22-25`): the value of the parameter, without its derivative. -/
def encodeParam (n : Numbers) (p : Param.Impl Rat) : Node := .scalar (n.print p.value)

/-- `decode<Param>` (`Core.YAML.cpp:174-177`): `as<Param>()` starts from a new parameter and sets its value. -/
def decodeParam (n : Numbers) (node : Node) : Res (Param.Impl Rat) := (asNumber n node).bind fun x => .ok { value := x }

/-- `encode<Params>` (`Core.YAML.cpp:181-184`): a vector is a sequence, also if it is empty. -/
def encodeParams (n : Numbers) (l : List (Param.Impl Rat)) : Node := .seq (l.map (encodeParam n))

/-- `decode<Params>` (`Core.YAML.cpp:186-190`): `Param(double)` for each value. -/
def decodeParams (n : Numbers) (node : Node) : Res (List (Param.Impl Rat)) :=
  (asList (asNumber n) node).bind fun values => .ok (values.map fun x => { value := x })

/-! The decoders of `ChemicalSystem` (`Core.YAML.cpp:72-75`), `ElementalComposition` (141-144), `FormationReaction` (162-165), `Phase` (199-202), `Species` (232-235) and
`SpeciesList` (245-248) do nothing but raise an error. -/

end Verif.CoreYAML
