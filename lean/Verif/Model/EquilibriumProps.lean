import Verif.Model.EquilibriumSpecs
import Verif.Model.Chem

/-!
# Model of `Reaktoro/Equilibrium/EquilibriumProps.cpp`

Numbers are pairs of a value and a derivative (`autodiff::real`). The values of the parameters are in cells of a heap that is shared with the
models of the chemical system, so the evaluation of the chemical properties is a function of that heap and of temperature, pressure and
amounts. It can throw; it then leaves the properties in some state. A matrix is the list of its columns.
-/

namespace Verif.EquilibriumProps

open EquilibriumSpecs

/-- `autodiff::real`: a value and a derivative. -/
structure Dual (K : Type) where
  val : K
  grad : K
  deriving DecidableEq, Repr

/-- The values of all parameters. -/
abbrev Heap (K : Type) := Nat → Dual K

/-- The chemical properties: their state after an evaluation, and whether it returned. -/
abbrev Eval (K Pr : Type) := Heap K → Dual K → Dual K → List (Dual K) → Pr → Pr × Bool

/-- The members of `EquilibriumProps::Impl` that change (EquilibriumProps.cpp:92-117). -/
structure EProps (K Pr : Type) where
  props : Pr
  columns : List (List K) := []
  recording : Bool := false

/-- Ways a call ends. -/
inductive End where
  | returned | threw | undefined
  deriving DecidableEq, Repr

variable {K Pr : Type}

/-- `index(names, name)` (Algorithms.hpp:47-51). -/
def index (names : List Str) (name : Str) : Nat := Chem.indexfn names (fun x => x = name)

/-- `createTemperatureGetterFn` and `createPressureGetterFn` (EquilibriumProps.cpp:35-58) for the variable with that name. -/
def getter {α : Type} (s : Specs K Pr) (name : Str) (p w : List α) : Res α :=
  if index s.inputs name < s.inputs.length then at! w (index s.inputs name) else at! p (index (namesControlVariables s) name)

/-- Writing a cell. -/
def write (h : Heap K) (cell : Nat) (v : Dual K) : Heap K := fun c => if c = cell then v else h c

/-- The loop that changes the parameters (EquilibriumProps.cpp:142-143). -/
def setParams (w : List (Dual K)) : List Par → List Nat → Heap K → Res (Heap K)
  | p :: ps, i :: is, h => (at! w i).bind fun v => setParams w ps is (write h p.cell v)
  | [], _, h => .ok h
  | _ :: _, [], _ => .ub

/-- The loop that recovers the parameters (EquilibriumProps.cpp:151-152). -/
def restoreParams : List Par → List (Dual K) → Heap K → Heap K
  | p :: ps, v :: vs, h => restoreParams ps vs (write h p.cell v)
  | _, _, h => h

/-- `indexOfSeededVariable` (EquilibriumProps.cpp:61-86). -/
def seeded [DecidableEq K] [One K] (n p w : List (Dual K)) : Nat := (n ++ p ++ w).findIdx (fun v => v.grad = 1)

/-- `dudnpw.resize(rows, cols)`: nothing happens if the matrix has that size, otherwise its entries are indeterminate (`junk`). -/
def resize (columns : List (List K)) (rows cols : Nat) (junk : K) : List (List K) :=
  if columns.length = cols ∧ ∀ c ∈ columns, c.length = rows then columns else List.replicate cols (List.replicate rows junk)

/-- `EquilibriumProps::Impl::update` (EquilibriumProps.cpp:126-170); `serialize` gives the numbers of `ChemicalProps::serialize`. -/
def update [DecidableEq K] [One K] (s : Specs K Pr) (eval : Eval K Pr) (serialize : Pr → List (Dual K)) (junk : K) (h : Heap K)
    (e : EProps K Pr) (n p w : List (Dual K)) : Heap K × EProps K Pr × End :=
  match getter s c!"T" p w, getter s c!"P" p w, setParams w s.params s.paramsIdxs h with
  | .ok T, .ok P, .ok h1 =>
    match eval h1 T P n e.props with
    | (props, false) => (h1, { e with props := props }, .threw)
    | (props, true) =>
      let h2 := restoreParams s.params (s.params.map fun p => h p.cell) h1
      let e := { e with props := props }
      if e.recording then
        let u := serialize props
        let idx := seeded n p w
        let cols := n.length + p.length + w.length
        if idx < cols then (h2, { e with columns := (resize e.columns u.length cols junk).set idx (u.map (·.grad)) }, .returned)
        else (h2, e, .returned)
      else (h2, e, .returned)
  | _, _, _ => (h, e, .undefined)

/-- A sequence of updates that all return. -/
def updates [DecidableEq K] [One K] (s : Specs K Pr) (eval : Eval K Pr) (serialize : Pr → List (Dual K)) (junk : K) (h : Heap K) :
    EProps K Pr → List (List (Dual K) × List (Dual K) × List (Dual K)) → Option (EProps K Pr)
  | e, [] => some e
  | e, (n, p, w) :: rest =>
    match update s eval serialize junk h e n p w with
    | (h', e', .returned) => updates s eval serialize junk h' e' rest
    | _ => none

/-- `dudn` (EquilibriumProps.cpp:173-176), as columns. -/
def dudn (e : EProps K Pr) (Nn : Nat) : List (List K) := e.columns.take Nn

/-- `dudp` (EquilibriumProps.cpp:179-182). -/
def dudp (e : EProps K Pr) (Nn Np : Nat) : List (List K) := (e.columns.drop Nn).take Np

/-- `dudw` (EquilibriumProps.cpp:185-188). -/
def dudw (e : EProps K Pr) (Nw : Nat) : List (List K) := e.columns.drop (e.columns.length - Nw)

end Verif.EquilibriumProps
