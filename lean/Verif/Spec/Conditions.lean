import Verif.Model.Conditions

/-!
# Specification for C38
-/

namespace Verif.Conditions

open Chem

/-- The value of an input. -/
def valueOf (c : Cond) (name : Str) : Option Rat := (c.inputs.zip c.values).lookup name

/-- What the documentation says about the calls that set an input: its name and the value it gets. A conversion `convert x a b` is
that of the number `x` from unit `a` to unit `b` (C14, C15). -/
def documented (ln10 : Rat) (log : Rat → Rat) : Call → Option (Str × Res Rat)
  | .temperature v u => some (c!"T", Units.convert v u c!"K")
  | .pressure v u => some (c!"P", Units.convert v u c!"Pa")
  | .volume v u => some (c!"V", Units.convert v u c!"m3")
  | .internalEnergy v u => some (c!"U", Units.convert v u c!"J")
  | .enthalpy v u => some (c!"H", Units.convert v u c!"J")
  | .gibbsEnergy v u => some (c!"G", Units.convert v u c!"J")
  | .helmholtzEnergy v u => some (c!"A", Units.convert v u c!"J")
  | .entropy v u => some (c!"S", Units.convert v u c!"J/K")
  | .chemicalPotential s v u => some (c!"u[" ++ s ++ c!"]", Units.convert v u c!"J/mol")
  | .lnActivity s v => some (c!"lnActivity[" ++ s ++ c!"]", .ok v)
  | .lgActivity s v => some (c!"lnActivity[" ++ s ++ c!"]", .ok (ln10 * v))
  | .activity s v => some (c!"lnActivity[" ++ s ++ c!"]", .ok (log v))
  | .fugacity g v u => some (c!"f[" ++ g ++ c!"]", Units.convert v u c!"bar")
  | .pH v => some (c!"pH", .ok v)
  | .pMg v => some (c!"pMg", .ok v)
  | .pE v => some (c!"pE", .ok v)
  | .Eh v u => some (c!"Eh", Units.convert v u c!"V")
  | .set name v => some (name, .ok v)
  | _ => none

/-- The call is not `Eh` with a unit other than volt. -/
def NotEhOtherUnit : Call → Prop
  | .Eh _ u => u = c!"V"
  | _ => True

/-- The value of an input after a history of calls: that of the last call that set it. -/
def lastValue (ln10 : Rat) (log : Rat → Rat) (name : Str) (old : Option Rat) (calls : List Call) : Option Rat :=
  calls.foldl (fun old call =>
    match documented ln10 log call with
    | some (n, .ok v) => if n = name then some v else old
    | _ => old) old

/-- The initial condition given by the user: none, amounts of the species, or amounts of the components. -/
inductive Start where
  | none
  | species (n : Nat → Rat)
  | components (b : List Rat)

/-- The amounts given so far; zero for species without a given amount. -/
def Start.amount : Start → Nat → Rat
  | .species n => n
  | _ => fun _ => 0

/-- The amount of species `i`, in mol, meant by a value with a unit of mass or amount. -/
def AmountMeant (sys : Sys) (i : Nat) (value : Rat) (unit : Str) (a : Rat) : Prop :=
  (unit = c!"mol" ∧ a = value) ∨
  (Units.convertible unit c!"kg" = .ok true ∧ ∃ s m, sys.species[i]? = some s ∧ Units.convert value unit c!"kg" = .ok m ∧
    a = m / s.molarMass sys.me) ∨
  (Units.convertible unit c!"kg" = .ok false ∧ Units.convert value unit c!"mol" = .ok a)

/-- The effect of a call that returns on the initial condition. -/
inductive StartStep (sys : Sys) : Start → Call → Start → Prop
  | index (st i v u a) : i < sys.species.length → AmountMeant sys i v u a → StartStep sys st (.startWithIndex i v u)
      (.species (fun j => if j = i then a else st.amount j))
  | name (st s i v u a) : i < sys.species.length → sys.species[i]?.map (·.name) = some s →
      (∀ j < i, sys.species[j]?.map (·.name) ≠ some s) → AmountMeant sys i v u a → StartStep sys st (.startWithName s v u)
      (.species (fun j => if j = i then a else st.amount j))
  | state (st n) : n.length = sys.species.length → StartStep sys st (.startWithState n) (.species (fun j => n.getD j 0))
  | components (st b) : b.length = sys.numElements + 1 → StartStep sys st (.startWithComponents b) (.components b)
  | other (st call) : (∀ i v u, call ≠ .startWithIndex i v u) → (∀ s v u, call ≠ .startWithName s v u) →
      (∀ n, call ≠ .startWithState n) → (∀ b, call ≠ .startWithComponents b) → StartStep sys st call st

/-- The conditions hold the initial condition. -/
def Holds (sys : Sys) (c : Cond) : Start → Prop
  | .none => c.amounts = [] ∧ c.components = []
  | .species n => c.amounts = (List.range sys.species.length).map n ∧ c.components = []
  | .components b => c.amounts = [] ∧ c.components = b ∧ b.length = sys.numElements + 1

end Verif.Conditions
