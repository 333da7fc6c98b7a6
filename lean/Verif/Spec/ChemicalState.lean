import Verif.Model.ChemicalState

/-!
# Specification for C31
-/

namespace Verif.ChemicalState

open Chem

/-- A physically meaningful state of a system with the given number of species. -/
structure Valid (count : Nat) (st : St) : Prop where
  T : 0 < st.T
  P : 0 < st.P
  len : st.n.length = count
  n : ∀ x ∈ st.n, 0 ≤ x

/-- The call ended without ending the program or undefined behaviour. -/
def Alive (e : End) : Prop := e = .returned ∨ e = .threw

/-- The species meant by an index or a name. -/
inductive Ref where
  | index (i : Nat)
  | name (name : Str)

/-- The index a reference stands for: the first species with the name. -/
def Ref.Means (species : List Species) : Ref → Nat → Prop
  | .index j, i => j = i
  | .name s, i => (species[i]?).map Species.name = some s ∧ ∀ j < i, (species[j]?).map Species.name ≠ some s

/-- What a call asks for: a number `x` in a unit (none is the base unit). -/
def InBase (base : Str) (unit : Option Str) (x y : Rat) : Prop :=
  match unit with
  | none => y = x
  | some u => Units.convert x u base = .ok y

/-- What the setters that return should do. -/
inductive Effect (me : Rat) (species : List Species) (st : St) : Op → St → Prop
  | temperature (op : Op) (unit : Option Str) (x y : Rat)
      (hop : op = match unit with | none => .temperature x | some u => .temperatureUnit x u) (hy : InBase c!"K" unit x y) :
      Effect me species st op { st with T := y }
  | pressure (op : Op) (unit : Option Str) (x y : Rat)
      (hop : op = match unit with | none => .pressure x | some u => .pressureUnit x u) (hy : InBase c!"Pa" unit x y) :
      Effect me species st op { st with P := y }
  | allAmounts (x : Rat) (n : List Rat) (hlen : n.length = st.n.length) (hn : ∀ y ∈ n, y = x) :
      Effect me species st (.allAmounts x) { st with n := n }
  | amounts (xs : List Rat) : Effect me species st (.amounts xs) { st with n := xs }
  | amount (op : Op) (ref : Ref) (unit : Option Str) (x y : Rat) (i : Nat) (n : List Rat)
      (hop : op = match ref, unit with
        | .index i, none => .amount i x | .index i, some u => .amountUnit i x u
        | .name s, none => .amountName s x | .name s, some u => .amountNameUnit s x u)
      (hi : ref.Means species i) (hy : InBase c!"mol" unit x y)
      (hn : n[i]? = some y) (hlen : n.length = st.n.length) (hother : ∀ j, j ≠ i → n[j]? = st.n[j]?) :
      Effect me species st op { st with n := n }
  | mass (op : Op) (ref : Ref) (unit : Option Str) (x y : Rat) (i : Nat) (s : Species) (n : List Rat)
      (hop : op = match ref, unit with
        | .index i, none => .mass i x | .index i, some u => .massUnit i x u
        | .name s, none => .massName s x | .name s, some u => .massNameUnit s x u)
      (hi : ref.Means species i) (hs : species[i]? = some s) (hy : InBase c!"kg" unit x y)
      (hn : n[i]? = some (y / s.molarMass me)) (hlen : n.length = st.n.length) (hother : ∀ j, j ≠ i → n[j]? = st.n[j]?) :
      Effect me species st op { st with n := n }

/-- The values given to setters that only check their arguments with assertions are meaningful. -/
def GoodArgs (count : Nat) : Op → Prop
  | .amounts xs => xs.length = count ∧ ∀ x ∈ xs, 0 ≤ x
  | .amount _ x | .amountName _ x => 0 ≤ x
  | .amountUnit _ x u | .amountNameUnit _ x u => ∀ y, Units.convert x u c!"mol" = .ok y → 0 ≤ y
  | .mass _ x | .massName _ x => 0 ≤ x
  | .massUnit _ x u | .massNameUnit _ x u => ∀ y, Units.convert x u c!"kg" = .ok y → 0 ≤ y
  | _ => True

end Verif.ChemicalState
