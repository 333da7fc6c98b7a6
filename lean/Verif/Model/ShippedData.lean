import Verif.Model.DatabaseYAML
import Verif.Model.FormulaParser
import Verif.Model.ChargeParser
import Verif.Model.NumberText
import Verif.Model.Registries

/-!
# The databases in `databases/reaktoro`

The species of a file are kept as texts (`Verif.Model.ShippedSupcrt98` and so on), one text per species. A text is stored as a
number, which the kernel handles faster than a list of characters.
-/

namespace Verif.ShippedData

open Chem

/-- `n!"ab"` is the number `97 + 256 * 98`: the characters of the text are its digits in base 256. -/
macro:max "n!" s:str : term => do
  let n := s.getString.toList.foldr (fun c a => c.toNat + 256 * a) 0
  `($(Lean.Syntax.mkNumLit (toString n)))

/-- The character whose code is the remainder of a number by 256. -/
def charOf (n : Nat) : Char :=
  ⟨⟨⟨n % 256, Nat.lt_trans (Nat.mod_lt n (by decide)) (by decide)⟩⟩, Or.inl (Nat.lt_trans (Nat.mod_lt n (by decide)) (by decide))⟩

/-- The text with at most `fuel` characters stored in a number. -/
def decode : Nat → Nat → Str
  | 0, _ => []
  | fuel + 1, n => if n = 0 then [] else charOf n :: decode fuel (n / 256)

/-- The parts of a text between bars. -/
def fields : Str → List Str
  | [] => [[]]
  | c :: s =>
    if c = '|' then [] :: fields s
    else match fields s with
      | f :: fs => (c :: f) :: fs
      | [] => [[c]]

/-- The values written for a species in a file: `Name`, `Formula`, `Elements`, `Charge`, `AggregateState`, the kind of its
`StandardThermoModel`, and the parameters of that model whose value is `.nan`. -/
structure Entry where
  name : Str
  formula : Str
  elements : Str
  charge : Str
  state : Str
  model : Str
  undefined : List Str
  deriving DecidableEq, Repr

/-- A row of a generated table: the name, the number of the composition, and the state, model and undefined parameters. -/
structure Row where
  name : Nat
  composition : Nat
  rest : Nat
  deriving DecidableEq

/-- The formula, elements and charge stored in a number. -/
def compositionTexts (n : Nat) : Str × Str × Str :=
  match fields (decode 1000 n) with
  | [a, b, c] => (a, b, c)
  | _ => ([], [], [])

/-- The state, the model and the undefined parameters stored in a number. -/
def restTexts (n : Nat) : Str × Str × List Str :=
  match fields (decode 1000 n) with
  | [a, b, c] => (a, b, if c = [] then [] else Strings.split c [' '])
  | _ => ([], [], [])

/-- The entry of a row. -/
def entry (compositions : List Nat) (r : Row) : Entry :=
  let c := compositionTexts (compositions.getD r.composition 0)
  let t := restTexts r.rest
  ⟨decode 1000 r.name, c.1, c.2.1, c.2.2, t.1, t.2.1, t.2.2⟩

/-- The entries of a file. -/
def entries (compositions : List Nat) (parts : List (List Row)) : List Entry := parts.flatten.map (entry compositions)

/-- The kinds of models known to `StandardThermoModelYAML` (Models/StandardThermoModelYAML.cpp:29-54). -/
def knownModels : List Str :=
  [c!"Constant", c!"HKF", c!"HollandPowell", c!"MaierKelley", c!"MineralHKF", c!"WaterHKF"]

/-- The node of a species, with the texts read as in `DatabaseParserYAML::addSpecies` (DatabaseParserYAML.cpp:117-145): the
composition by `parseNumberStringPairs`, the charge as a number, zero when absent. -/
def node (e : Entry) : DatabaseYAML.SpeciesNode where
  name := some e.name
  formula := some e.formula
  aggregateState := some e.state
  elements := some (NumberText.parseNumberStringPairs e.elements)
  reaction := none
  model := if e.model ∈ knownModels then .valid else .invalid
  charge := if e.charge = [] then 0 else NumberText.tofloat e.charge

/-- The document: the files have no node `Elements`. -/
def document (entries : List Entry) : DatabaseYAML.Doc := ⟨[], entries.map node⟩

/-- `Elements::withSymbol` for the default elements (Elements.cpp:28-148,181-186). -/
def defaults (symbol : Str) : Option Element := Registries.withSymbol Registries.defaultElements symbol

end Verif.ShippedData
