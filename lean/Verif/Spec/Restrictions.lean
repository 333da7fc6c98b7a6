import Verif.Model.Restrictions

/-!
# Specification for C39 and C40
-/

namespace Verif.Restrictions

open Chem Conditions

/-- A restriction in one direction: none, the amount cannot change, or the amount cannot pass a value. -/
inductive Lim where
  | free
  | fixed
  | bound (v : Rat)
  deriving DecidableEq, Repr

/-- The given index or name is that of species `i`; with equal names, of the first. -/
def Ref.is (sys : Sys) (i : Nat) : Ref → Bool
  | .index j => i == j && decide (i < sys.species.length)
  | .name s => ((sys.species.map (·.name)).idxOf s == i) && decide (i < sys.species.length)

/-- What a call says about the increase of species `i`. -/
def effectUp (sys : Sys) (i : Nat) : Call → Option Lim
  | .cannotReact s => if s.is sys i then some .fixed else none
  | .cannotIncrease s => if s.is sys i then some .fixed else none
  | .cannotIncreaseAbove s v u => if s.is sys i then
      match computeSpeciesAmount sys i v u with | .ok a => some (.bound a) | _ => none else none
  | .canReactFreely s => if s.is sys i then some .free else none
  | .canIncreaseFreely s => if s.is sys i then some .free else none
  | .cannotDecrease _ => none
  | .cannotDecreaseBelow _ _ _ => none
  | .canDecreaseFreely _ => none

/-- What a call says about the decrease of species `i`. -/
def effectDown (sys : Sys) (i : Nat) : Call → Option Lim
  | .cannotReact s => if s.is sys i then some .fixed else none
  | .cannotDecrease s => if s.is sys i then some .fixed else none
  | .cannotDecreaseBelow s v u => if s.is sys i then
      match computeSpeciesAmount sys i v u with | .ok a => some (.bound a) | _ => none else none
  | .canReactFreely s => if s.is sys i then some .free else none
  | .canDecreaseFreely s => if s.is sys i then some .free else none
  | .cannotIncrease _ => none
  | .cannotIncreaseAbove _ _ _ => none
  | .canIncreaseFreely _ => none

/-- The last thing said in a history, or `free`. -/
def last (effect : Call → Option Lim) (calls : List Call) : Lim := (calls.filterMap effect).getLast?.getD .free

/-- A set of species that cannot change and a map of bounds say `lim` of species `i`, and nothing else. -/
def Says (fixed : List Nat) (bounds : List (Nat × Rat)) (i : Nat) : Lim → Prop
  | .free => i ∉ fixed ∧ ∀ v, (i, v) ∉ bounds
  | .fixed => i ∈ fixed ∧ ∀ v, (i, v) ∉ bounds
  | .bound a => i ∉ fixed ∧ ∀ v, (i, v) ∈ bounds ↔ v = a

/-- The lower bound that implements a restriction on decrease. -/
def Lim.lower (n0 eps : Rat) : Lim → Rat
  | .free => eps
  | .fixed => max n0 eps
  | .bound a => max a eps

/-- The upper bound that implements a restriction on increase; `none` is infinity. -/
def Lim.upper (n0 eps : Rat) : Lim → Option Rat
  | .free => none
  | .fixed => some (max n0 eps)
  | .bound a => some (max a eps)

end Verif.Restrictions
