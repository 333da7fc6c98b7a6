import Verif.Model.AggregateState

/-!
# Specification: the documented short notation of aggregate states

The table printed by `supportedAggregateStateValues` (AggregateState.cpp:99-126).
-/

namespace Verif.AggregateState

def codeTable : List (String × State) :=
  [("g", .Gas), ("l", .Liquid), ("s", .Solid), ("pl", .Plasma), ("cd", .CondensedPhase), ("fl", .Fluid),
   ("lc", .LiquidCrystal), ("cr", .CrystallineSolid), ("am", .AmorphousSolid), ("vit", .Vitreous), ("ads", .Adsorbed),
   ("mon", .Monomeric), ("pol", .Polymeric), ("ss", .SolidSolution), ("ex", .IonExchange), ("aq", .Aqueous)]

/-- The word `w` is the short notation of state `s`. -/
def Denotes (w : List Char) (s : State) : Prop := ∃ e ∈ codeTable, w = e.1.toList ∧ s = e.2

/-- A parenthesised suffix read as such: no upper case letter and no inner opening bracket. -/
def SuffixText (t : List Char) : Prop := ∀ c ∈ t, c ≠ '(' ∧ c.isUpper = false

end Verif.AggregateState
