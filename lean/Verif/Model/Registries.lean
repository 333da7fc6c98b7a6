import Verif.Model.RegistryTables

/-!
# Model of `Reaktoro/Singletons`: `DissociationReactions`, `CriticalProps`, `Elements`

Each registry is a global object; its content is the state passed through the calls.
-/

namespace Verif.Registries

abbrev Formula := EquilibriumSpecs.Formula

/-- `ChemicalFormula(String)` (ChemicalFormula.cpp:43-45). -/
def formula (s : Str) : Res Formula :=
  Res.bind (FormulaParser.parseChemicalFormula s) fun e =>
  Res.bind (ChargeParser.parseElectricCharge s) fun z => .ok ⟨s, e, z⟩

/-- `ChemicalFormula::coefficient` (ChemicalFormula.cpp:65-71). -/
def coefficientIn : List (Str × Rat) → Str → Rat
  | [], _ => 0
  | (k, v) :: rest, s => if k = s then v else coefficientIn rest s

/-! ## Dissociation reactions -/

/-- `DissociationReaction` (DissociationReactions.hpp:31-38). -/
structure Reaction where
  complex : Formula
  ions : List (Rat × Formula)
  deriving DecidableEq, Repr

/-- The construction of one default reaction from its texts (DissociationReactions.cpp:26-200). -/
def mkReaction (row : Str × List (Rat × Str)) : Res Reaction :=
  Res.bind (formula row.1) fun c =>
  Res.bind (row.2.mapM (m := Res) fun p => Res.bind (formula p.2) fun f => .ok (p.1, f)) fun ions => .ok ⟨c, ions⟩

/-- `detail::default_reactions` (DissociationReactions.cpp:26-200). -/
def defaultReactions : Res (List Reaction) := defaultReactionTexts.mapM (m := Res) mkReaction

/-- `DissociationReactions::append` (DissociationReactions.cpp:225-237). -/
def appendReaction (r : Reaction) : List Reaction → List Reaction
  | [] => [r]
  | cur :: rest =>
    if r.complex.equivalent cur.complex then { cur with ions := r.ions } :: rest
    else cur :: appendReaction r rest

/-- `DissociationReactions::get` (DissociationReactions.cpp:244-249). -/
def getReaction (reactions : List Reaction) (complex : Formula) : Option Reaction :=
  let idx := Chem.indexfn reactions (fun r => r.complex.equivalent complex)
  if idx < reactions.length then reactions[idx]? else none

/-- The loop of `DissociationReactions::coefficient` (DissociationReactions.cpp:255-258). -/
def ionCoefficient (ion : Formula) : List (Rat × Formula) → Rat
  | [] => 0
  | (coeff, product) :: rest => if product.equivalent ion then coeff else ionCoefficient ion rest

/-- `DissociationReactions::coefficient` (DissociationReactions.cpp:251-259). -/
def coefficient (reactions : List Reaction) (complex ion : Formula) : Rat :=
  match getReaction reactions complex with
  | some r => ionCoefficient ion r.ions
  | none => 0

/-- The calls that change the registry of dissociation reactions. -/
inductive DOp where
  | append (r : Reaction)
  | reset

/-- One call: `append` (225-237) or `reset` (220-223), with `d0` the default reactions. -/
def stepD (d0 : List Reaction) (reactions : List Reaction) : DOp → List Reaction
  | .append r => appendReaction r reactions
  | .reset => d0

/-- A history of calls from the start of the program (constructor, DissociationReactions.cpp:202-204). -/
def runD (d0 : List Reaction) (ops : List DOp) : List Reaction := ops.foldl (stepD d0) d0

/-! ## Critical properties -/

/-- `SubstanceCriticalProps` (CriticalProps.hpp:44-97). -/
structure Substance where
  data : Data
  names : List Str
  deriving DecidableEq, Repr

/-- `::toupper` in the "C" locale. -/
def toUpper (c : Char) : Char := if c.isLower then Char.ofNat (c.toNat - 32) else c

/-- `detail::correctName` (CriticalProps.cpp:132-139). `replace(name, " ", "-")` (StringUtils.hpp:75-85) with one-character
texts replaces every occurrence. -/
def correctName (name : Str) : Res Str :=
  Res.bind (ChargeParser.splitSpeciesNameSuffix name) fun p =>
  .ok ((p.1.map (fun c => if c = ' ' then '-' else c)).map toUpper)

/-- `detail::correctNames` (CriticalProps.cpp:142-147). -/
def correctNames (names : List Str) : Res (List Str) := names.mapM (m := Res) correctName

/-- `SubstanceCriticalProps(data, names)` (CriticalProps.cpp:155-157). -/
def mkSubstance (data : Data) (names : List Str) : Res Substance :=
  Res.bind (correctNames names) fun ns => .ok ⟨data, ns⟩

/-- `detail::default_substances` (CriticalProps.cpp:31-125). -/
def defaultSubstances : Res (List Substance) :=
  defaultSubstanceTexts.mapM (m := Res) fun row => mkSubstance row.1 row.2

/-- `disjoint` (Algorithms.hpp:161-168). -/
def disjoint (a b : List Str) : Bool := a.all fun x => !Chem.contains b x

/-- `CriticalProps::append` (CriticalProps.cpp:235-251): the new content and whether the call returned normally. -/
def appendSubstance (substances : List Substance) (s : Substance) : List Substance × Bool :=
  if substances.any (fun cur => !disjoint s.names cur.names) then (substances, false) else (substances ++ [s], true)

/-- `CriticalProps::overwrite` (CriticalProps.cpp:253-267). -/
def overwriteSubstance (s : Substance) : List Substance → List Substance
  | [] => [s]
  | cur :: rest => if !disjoint s.names cur.names then s :: rest else cur :: overwriteSubstance s rest

/-- The search of `CriticalProps::get(String)` (CriticalProps.cpp:277-279), with a corrected name. -/
def lookup (substances : List Substance) (name : Str) : Option Substance :=
  let idx := Chem.indexfn substances (fun s => Chem.contains s.names name)
  if idx < substances.length then substances[idx]? else none

/-- `CriticalProps::get(String)` (CriticalProps.cpp:274-280). -/
def getSubstance (substances : List Substance) (name : Str) : Res (Option Substance) :=
  Res.bind (correctName name) fun n => .ok (lookup substances n)

/-- `CriticalProps::get(const StringList&)` (CriticalProps.cpp:282-288). -/
def getSubstanceAny (substances : List Substance) : List Str → Res (Option Substance)
  | [] => .ok none
  | name :: rest =>
    Res.bind (getSubstance substances name) fun
      | some s => .ok (some s)
      | none => getSubstanceAny substances rest

/-- The calls that change the registry of critical properties. -/
inductive COp where
  | append (s : Substance)
  | overwrite (s : Substance)

/-- One call. -/
def stepC (substances : List Substance) : COp → List Substance
  | .append s => (appendSubstance substances s).1
  | .overwrite s => overwriteSubstance s substances

/-- A history of calls. -/
def runC (c0 : List Substance) (ops : List COp) : List Substance := ops.foldl stepC c0

/-- `SubstanceCriticalProps::setTemperature(value)` (CriticalProps.cpp:159-163): the object and whether the call returned. -/
def setTemperature (s : Substance) (value : Rat) : Substance × Bool :=
  if value ≤ 0 then (s, false) else ({ s with data := { s.data with Tcr := value } }, true)

/-- `setTemperature(value, unit)` (CriticalProps.cpp:165-168); `conv` is `units::convert(·, unit, "K")`. -/
def setTemperatureUnit (conv : Rat → Res Rat) (s : Substance) (value : Rat) : Res (Substance × Bool) :=
  Res.bind (conv value) fun v => .ok (setTemperature s v)

/-- `setPressure(value)` (CriticalProps.cpp:170-174). -/
def setPressure (s : Substance) (value : Rat) : Substance × Bool :=
  if value ≤ 0 then (s, false) else ({ s with data := { s.data with Pcr := value } }, true)

/-- `setPressure(value, unit)` (CriticalProps.cpp:176-180); `conv` is `units::convert(·, unit, "Pa")`. -/
def setPressureUnit (conv : Rat → Res Rat) (s : Substance) (value : Rat) : Res (Substance × Bool) :=
  if value ≤ 0 then .ok (s, false)
  else Res.bind (conv value) fun v => .ok ({ s with data := { s.data with Pcr := v } }, true)

/-! ## Elements -/

/-- `Elements::append` (Elements.cpp:170-174). -/
def appendElement (elements : List Chem.Element) (e : Chem.Element) : List Chem.Element := elements ++ [e]

/-- `Elements::withSymbol` (Elements.cpp:181-186). -/
def withSymbol (elements : List Chem.Element) (symbol : Str) : Option Chem.Element :=
  let idx := Chem.indexfn elements (fun e => e.symbol = symbol)
  if idx < elements.length then elements[idx]? else none

/-- `Elements::withName` (Elements.cpp:188-193). -/
def withName (elements : List Chem.Element) (name : Str) : Option Chem.Element :=
  let idx := Chem.indexfn elements (fun e => e.name = name)
  if idx < elements.length then elements[idx]? else none

/-- `Elements::withTags` (Elements.cpp:200-203). -/
def withTags (elements : List Chem.Element) (tags : List Str) : List Chem.Element :=
  elements.filter fun e => Chem.contained tags e.tags

end Verif.Registries
