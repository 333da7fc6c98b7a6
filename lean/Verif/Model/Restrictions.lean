import Verif.Model.Conditions

/-!
# Model of `Reaktoro/Equilibrium/EquilibriumRestrictions.cpp` and of the bounds made from it in `EquilibriumSetup.cpp`

The unordered set and map of the C++ library are lists without duplicates, whose order has no meaning: functions that iterate over
them take the order of iteration as an argument. Lower bounds are numbers or minus infinity, upper bounds numbers or infinity.
-/

namespace Verif.Restrictions

open Chem Conditions

/-- `std::unordered_set<Index>::insert`. -/
def insert (s : List Nat) (i : Nat) : List Nat := if i ∈ s then s else i :: s

/-- `std::unordered_set<Index>::erase`. -/
def erase (s : List Nat) (i : Nat) : List Nat := s.filter (fun j => j ≠ i)

/-- `std::unordered_map<Index, double>::erase`. -/
def eraseKey (m : List (Nat × Rat)) (i : Nat) : List (Nat × Rat) := m.filter (fun p => p.1 ≠ i)

/-- `std::unordered_map<Index, double>::insert_or_assign`. -/
def insertOrAssign (m : List (Nat × Rat)) (i : Nat) (v : Rat) : List (Nat × Rat) := (i, v) :: eraseKey m i

/-- The members of `EquilibriumRestrictions` (EquilibriumRestrictions.hpp:120-134). -/
structure Restr where
  cannotIncrease : List Nat := []
  cannotDecrease : List Nat := []
  cannotIncreaseAbove : List (Nat × Rat) := []
  cannotDecreaseBelow : List (Nat × Rat) := []
  deriving DecidableEq, Repr

/-- The state after a call and whether it returned. -/
abbrev Out := Restr × End

/-- `cannotIncrease(ispecies)` (EquilibriumRestrictions.cpp:41-47). -/
def cannotIncrease (sys : Sys) (r : Restr) (i : Nat) : Out :=
  if i ≥ sys.species.length then (r, .threw)
  else ({ r with cannotIncreaseAbove := eraseKey r.cannotIncreaseAbove i, cannotIncrease := insert r.cannotIncrease i }, .returned)

/-- `cannotDecrease(ispecies)` (EquilibriumRestrictions.cpp:70-76). -/
def cannotDecrease (sys : Sys) (r : Restr) (i : Nat) : Out :=
  if i ≥ sys.species.length then (r, .threw)
  else ({ r with cannotDecreaseBelow := eraseKey r.cannotDecreaseBelow i, cannotDecrease := insert r.cannotDecrease i }, .returned)

/-- Continue if the first call returned. -/
def andThen (o : Out) (f : Restr → Out) : Out :=
  match o with
  | (r, .returned) => f r
  | (r, e) => (r, e)

/-- `cannotReact(ispecies)` (EquilibriumRestrictions.cpp:29-33). -/
def cannotReact (sys : Sys) (r : Restr) (i : Nat) : Out := andThen (cannotIncrease sys r i) fun r => cannotDecrease sys r i

/-- `cannotIncreaseAbove(ispecies, value, unit)` (EquilibriumRestrictions.cpp:55-62). -/
def cannotIncreaseAbove (sys : Sys) (r : Restr) (i : Nat) (value : Rat) (unit : Str) : Out :=
  if i ≥ sys.species.length then (r, .threw)
  else match computeSpeciesAmount sys i value unit with
    | .ok a => ({ r with cannotIncrease := erase r.cannotIncrease i, cannotIncreaseAbove := insertOrAssign r.cannotIncreaseAbove i a }, .returned)
    | .throw => (r, .threw)
    | .ub => (r, .undefined)

/-- `cannotDecreaseBelow(ispecies, value, unit)` (EquilibriumRestrictions.cpp:84-91). -/
def cannotDecreaseBelow (sys : Sys) (r : Restr) (i : Nat) (value : Rat) (unit : Str) : Out :=
  if i ≥ sys.species.length then (r, .threw)
  else match computeSpeciesAmount sys i value unit with
    | .ok a => ({ r with cannotDecrease := erase r.cannotDecrease i, cannotDecreaseBelow := insertOrAssign r.cannotDecreaseBelow i a }, .returned)
    | .throw => (r, .threw)
    | .ub => (r, .undefined)

/-- `canIncreaseFreely(ispecies)` (EquilibriumRestrictions.cpp:111-117). -/
def canIncreaseFreely (sys : Sys) (r : Restr) (i : Nat) : Out :=
  if i ≥ sys.species.length then (r, .threw)
  else ({ r with cannotIncrease := erase r.cannotIncrease i, cannotIncreaseAbove := eraseKey r.cannotIncreaseAbove i }, .returned)

/-- `canDecreaseFreely(ispecies)` (EquilibriumRestrictions.cpp:125-131). -/
def canDecreaseFreely (sys : Sys) (r : Restr) (i : Nat) : Out :=
  if i ≥ sys.species.length then (r, .threw)
  else ({ r with cannotDecrease := erase r.cannotDecrease i, cannotDecreaseBelow := eraseKey r.cannotDecreaseBelow i }, .returned)

/-- `canReactFreely(ispecies)` (EquilibriumRestrictions.cpp:99-103). -/
def canReactFreely (sys : Sys) (r : Restr) (i : Nat) : Out := andThen (canIncreaseFreely sys r i) fun r => canDecreaseFreely sys r i

/-- A species is given by its index or its name. -/
inductive Ref where
  | index (i : Nat)
  | name (s : Str)
  deriving DecidableEq, Repr

/-- `system().species().indexWithName(species)` in the functions taking a name. -/
def withIndex (sys : Sys) (r : Restr) (ref : Ref) (f : Nat → Out) : Out :=
  match ref with
  | .index i => f i
  | .name s => match ChemicalState.index sys.species s with
    | .ok i => f i
    | .throw => (r, .threw)
    | .ub => (r, .undefined)

/-- The calls on `EquilibriumRestrictions` that change it. -/
inductive Call where
  | cannotReact (s : Ref)
  | cannotIncrease (s : Ref)
  | cannotIncreaseAbove (s : Ref) (value : Rat) (unit : Str)
  | cannotDecrease (s : Ref)
  | cannotDecreaseBelow (s : Ref) (value : Rat) (unit : Str)
  | canReactFreely (s : Ref)
  | canIncreaseFreely (s : Ref)
  | canDecreaseFreely (s : Ref)
  deriving DecidableEq, Repr

/-- One call. -/
def step (sys : Sys) (r : Restr) : Call → Out
  | .cannotReact s => withIndex sys r s (cannotReact sys r)
  | .cannotIncrease s => withIndex sys r s (cannotIncrease sys r)
  | .cannotIncreaseAbove s v u => withIndex sys r s fun i => cannotIncreaseAbove sys r i v u
  | .cannotDecrease s => withIndex sys r s (cannotDecrease sys r)
  | .cannotDecreaseBelow s v u => withIndex sys r s fun i => cannotDecreaseBelow sys r i v u
  | .canReactFreely s => withIndex sys r s (canReactFreely sys r)
  | .canIncreaseFreely s => withIndex sys r s (canIncreaseFreely sys r)
  | .canDecreaseFreely s => withIndex sys r s (canDecreaseFreely sys r)

/-- A sequence of calls, continued after exceptions and ended by undefined behaviour. -/
def run (sys : Sys) (r : Restr) : List Call → Out
  | [] => (r, .returned)
  | c :: cs =>
    match step sys r c with
    | (r', .undefined) => (r', .undefined)
    | (r', _) => run sys r' cs

/-- `v[i] = x` for all pairs, in the given order; writing outside the vector is undefined. -/
def writeAll {α : Type} : List α → List (Nat × α) → Res (List α)
  | v, [] => .ok v
  | v, (i, x) :: rest => if i < v.length then writeAll (v.set i x) rest else .ub

/-- The values `n0[i]` of the species in a set. -/
def amountsAt (n0 : List Rat) : List Nat → Res (List (Nat × Rat))
  | [] => .ok []
  | i :: is => (at! n0 i).bind fun x => (amountsAt n0 is).bind fun l => .ok ((i, x) :: l)

/-- `std::max(val, epsilon)` for a lower bound; `none` is minus infinity. -/
def maxLower (eps : Rat) : Option Rat → Option Rat
  | none => some eps
  | some v => some (if v < eps then eps else v)

/-- `std::max(val, epsilon)` for an upper bound; `none` is infinity. -/
def maxUpper (eps : Rat) : Option Rat → Option Rat
  | none => none
  | some v => some (if v < eps then eps else v)

/-- `assembleLowerBoundsVector` (EquilibriumSetup.cpp:188-200) for `nq` implicit titrants; `below` and `fixed` list the restrictions in
the order of iteration; `none` is minus infinity. -/
def lowerBounds (below : List (Nat × Rat)) (fixed : List Nat) (n0 : List Rat) (nn nq : Nat) (eps : Rat) : Res (List (Option Rat)) :=
  (writeAll (List.replicate nn none) (below.map fun p => (p.1, some p.2))).bind fun v1 =>
  (amountsAt n0 fixed).bind fun l =>
  (writeAll v1 (l.map fun p => (p.1, some p.2))).bind fun v2 =>
  .ok (v2.map (maxLower eps) ++ List.replicate nq none)

/-- `assembleUpperBoundsVector` (EquilibriumSetup.cpp:203-215); `none` is infinity. -/
def upperBounds (above : List (Nat × Rat)) (fixed : List Nat) (n0 : List Rat) (nn nq : Nat) (eps : Rat) : Res (List (Option Rat)) :=
  (writeAll (List.replicate nn none) (above.map fun p => (p.1, some p.2))).bind fun v1 =>
  (amountsAt n0 fixed).bind fun l =>
  (writeAll v1 (l.map fun p => (p.1, some p.2))).bind fun v2 =>
  .ok (v2.map (maxUpper eps) ++ List.replicate nq none)

end Verif.Restrictions
