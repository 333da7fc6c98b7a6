import Verif.Base
import Verif.Model.Param

/-!
# Lists of parameters

Model of `/repo/Reaktoro/Core/Params.cpp`. A `Params` object is a vector of `Param` objects, each a pointer to a
record (`Verif/Model/Param.lean`). The program has `Param` objects (`handles`) and `Params` objects
(`lists`).
-/

namespace Verif.Params

open Param

/-- The records, the address held by each `Param` object and the addresses in each `Params` object. -/
structure World (V : Type) where
  cells : List (Impl V)
  handles : List Nat
  lists : List (List Nat)

variable {V : Type}

/-- `find(id)` (`Params.cpp` 82-85): the position of the first parameter with this id, else the size. -/
def find (cells : List (Impl V)) (id : String) : List Nat → Nat
  | [] => 0
  | a :: l => if (cells[a]?).map (·.id) = some id then 0 else find cells id l + 1

/-- `index(id)` (`Params.cpp` 87-93). -/
def index (cells : List (Impl V)) (id : String) (l : List Nat) : Res Nat :=
  if find cells id l < l.length then .ok (find cells id l) else .throw

/-- `exists(id)` (`Params.cpp` 105-108). -/
def hasId (cells : List (Impl V)) (id : String) (l : List Nat) : Bool :=
  l.any fun a => (cells[a]?).map (·.id) = some id

/-- The values (`Params.cpp` 115-129). -/
def values (cells : List (Impl V)) (l : List Nat) : List (Option V) := l.map fun a => (cells[a]?).map (·.value)

/-- A statement. -/
inductive Op (V : Type) where
  | newParam (d : Impl V)
  | newParams
  /-- `params.append(param)` -/
  | append (L h : Nat)
  /-- `params.append(id, value)` -/
  | appendNew (L : Nat) (id : String) (v : V)
  /-- `params.clone()` -/
  | clone (L : Nat)
  /-- the implicit copy constructor -/
  | copy (L : Nat)
  /-- `param = v` -/
  | setHandle (h : Nat) (v : V)
  /-- `params[i] = v` -/
  | setAt (L i : Nat) (v : V)
  /-- `params[id] = v` -/
  | setId (L : Nat) (id : String) (v : V)

/-- Change of the value of a record. -/
def write (cells : List (Impl V)) (a : Nat) (v : V) : List (Impl V) := cells.modify a fun d => { d with value := v }

/-- Copies of records at the end of the heap (`Params.cpp` 33-39): the heap and the new addresses. -/
def cloneAll (cells : List (Impl V)) : List Nat → List (Impl V) × List Nat
  | [] => (cells, [])
  | a :: l =>
    match cells[a]? with
    | some d =>
      let r := cloneAll (cells ++ [d]) l
      (r.1, cells.length :: r.2)
    | none => cloneAll cells l

/-- Effect of a statement (`Params.cpp` 26-108); those about objects that do not exist are not programs and do
nothing. `operator[]` with a position outside of the vector is undefined, and `get` of an unknown id
throws, which changes nothing. -/
def step (w : World V) : Op V → Res (World V)
  | .newParam d => .ok { w with cells := w.cells ++ [d], handles := w.handles ++ [w.cells.length] }
  | .newParams => .ok { w with lists := w.lists ++ [[]] }
  | .append L h =>
    match w.handles[h]? with
    | some a => .ok { w with lists := w.lists.modify L (· ++ [a]) }
    | none => .ok w
  | .appendNew L id v =>
    if L < w.lists.length then
      .ok { w with
        cells := w.cells ++ [{ value := v, id := id }]
        lists := w.lists.modify L (· ++ [w.cells.length]) }
    else .ok w
  | .clone L =>
    match w.lists[L]? with
    | some l =>
      let r := cloneAll w.cells l
      .ok { w with cells := r.1, lists := w.lists ++ [r.2] }
    | none => .ok w
  | .copy L =>
    match w.lists[L]? with
    | some l => .ok { w with lists := w.lists ++ [l] }
    | none => .ok w
  | .setHandle h v =>
    match w.handles[h]? with
    | some a => .ok { w with cells := write w.cells a v }
    | none => .ok w
  | .setAt L i v =>
    match w.lists[L]? with
    | some l =>
      match l[i]? with
      | some a => .ok { w with cells := write w.cells a v }
      | none => .ub
    | none => .ok w
  | .setId L id v =>
    match w.lists[L]? with
    | some l =>
      match index w.cells id l with
      | .ok i =>
        match l[i]? with
        | some a => .ok { w with cells := write w.cells a v }
        | none => .ub
      | _ => .ok w
    | none => .ok w

/-- A program. -/
def run (w : World V) : List (Op V) → Res (World V)
  | [] => .ok w
  | op :: ops => (step w op).bind fun w' => run w' ops

end Verif.Params
