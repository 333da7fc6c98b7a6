import Verif.Base
import Verif.Model.Strings
import Verif.Model.ChargeParser

/-!
# Model of `Reaktoro/Core/AggregateState.cpp`
-/

namespace Verif.AggregateState

abbrev Str := List Char

/-- `enum class AggregateState` (AggregateState.hpp:27-49). -/
inductive State
  | Gas | Liquid | Solid | Plasma | CondensedPhase | Fluid | LiquidCrystal | CrystallineSolid | AmorphousSolid
  | Vitreous | Adsorbed | Monomeric | Polymeric | SolidSolution | IonExchange | Aqueous | Undefined
  deriving DecidableEq, Repr

/-- `operator<<` (AggregateState.cpp:29-51). -/
def print : State → Str
  | .Gas => "Gas".toList
  | .Liquid => "Liquid".toList
  | .Solid => "Solid".toList
  | .Plasma => "Plasma".toList
  | .CondensedPhase => "CondensedPhase".toList
  | .Fluid => "Fluid".toList
  | .LiquidCrystal => "LiquidCrystal".toList
  | .CrystallineSolid => "CrystallineSolid".toList
  | .AmorphousSolid => "AmorphousSolid".toList
  | .Vitreous => "Vitreous".toList
  | .Adsorbed => "Adsorbed".toList
  | .Monomeric => "Monomeric".toList
  | .Polymeric => "Polymeric".toList
  | .SolidSolution => "SolidSolution".toList
  | .IonExchange => "IonExchange".toList
  | .Aqueous => "Aqueous".toList
  | .Undefined => "Undefined".toList

/-- `parseAggregateState` (AggregateState.cpp:53-72). -/
def parse (symbol : Str) : State :=
  if symbol = "g".toList ∨ symbol = "Gas".toList then .Gas
  else if symbol = "l".toList ∨ symbol = "Liquid".toList then .Liquid
  else if symbol = "s".toList ∨ symbol = "Solid".toList then .Solid
  else if symbol = "pl".toList ∨ symbol = "Plasma".toList then .Plasma
  else if symbol = "cd".toList ∨ symbol = "CondensedPhase".toList then .CondensedPhase
  else if symbol = "fl".toList ∨ symbol = "Fluid".toList then .Fluid
  else if symbol = "lc".toList ∨ symbol = "LiquidCrystal".toList then .LiquidCrystal
  else if symbol = "cr".toList ∨ symbol = "CrystallineSolid".toList then .CrystallineSolid
  else if symbol = "am".toList ∨ symbol = "AmorphousSolid".toList then .AmorphousSolid
  else if symbol = "vit".toList ∨ symbol = "Vitreous".toList then .Vitreous
  else if symbol = "ads".toList ∨ symbol = "Adsorbed".toList then .Adsorbed
  else if symbol = "mon".toList ∨ symbol = "Monomeric".toList then .Monomeric
  else if symbol = "pol".toList ∨ symbol = "Polymeric".toList then .Polymeric
  else if symbol = "ss".toList ∨ symbol = "SolidSolution".toList then .SolidSolution
  else if symbol = "ex".toList ∨ symbol = "IonExchange".toList then .IonExchange
  else if symbol = "aq".toList ∨ symbol = "Aqueous".toList then .Aqueous
  else .Undefined

/-- `identifyAggregateState` (AggregateState.cpp:74-97). -/
def identify (substance : Str) : Res State :=
  (ChargeParser.splitSpeciesNameSuffix substance).bind fun (name, suffix) =>
    let words := Strings.split suffix [' ', ',']
    if words.contains "g".toList then .ok .Gas
    else if words.contains "l".toList then .ok .Liquid
    else if words.contains "s".toList then .ok .Solid
    else if words.contains "pl".toList then .ok .Plasma
    else if words.contains "cd".toList then .ok .CondensedPhase
    else if words.contains "fl".toList then .ok .Fluid
    else if words.contains "lc".toList then .ok .LiquidCrystal
    else if words.contains "cr".toList then .ok .CrystallineSolid
    else if words.contains "am".toList then .ok .AmorphousSolid
    else if words.contains "vit".toList then .ok .Vitreous
    else if words.contains "ads".toList then .ok .Adsorbed
    else if words.contains "mon".toList then .ok .Monomeric
    else if words.contains "pol".toList then .ok .Polymeric
    else if words.contains "ss".toList then .ok .SolidSolution
    else if words.contains "ex".toList then .ok .IonExchange
    else if words.contains "aq".toList then .ok .Aqueous
    else (ChargeParser.parseElectricCharge name).bind fun charge =>
      if charge ≠ 0 then .ok .Aqueous else .ok .Undefined

end Verif.AggregateState
