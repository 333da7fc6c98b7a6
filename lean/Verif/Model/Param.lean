import Verif.Base

/-!
# Model of `Param` handles (`Reaktoro/Core/Param.hpp`, `Param.cpp`)

A `Param` object is a shared pointer (`SharedPtr<Impl> pimpl`). The program state is a heap of `Impl` records, addressed by
position, and for every `Param` object the address it points to. Nothing is ever freed in the model.
-/

namespace Verif.Param

/-- `Param::Impl` (Param.cpp:37-53); `none` bounds are infinite. -/
structure Impl (V : Type u) where
  value : V
  id : String := ""
  lowerbound : Option V := none
  upperbound : Option V := none
  isconst : Bool := false
deriving DecidableEq, Repr

/-- Heap cells and the pointer held by each `Param` object. -/
structure World (V : Type u) where
  cells : List (Impl V)
  ptr : List Nat

inductive Op (V : Type u) where
  /-- constructors `Param(val)`, `Param(id, val)`, `Param::Constant` (Param.cpp:55-69) -/
  | new (d : Impl V)
  /-- copy constructor (implicit) -/
  | copy (h : Nat)
  /-- `h = h'` (implicit copy assignment): rebinds the pointer -/
  | rebind (h h' : Nat)
  /-- `h.clone()` (Param.cpp:71-76) -/
  | clone (h : Nat)
  /-- `h.assign(h')` (Param.cpp:78-82) -/
  | assign (h h' : Nat)
  /-- `h.value(v)`, `h = v` (Param.cpp:84-89; bounds only warn) -/
  | setValue (h : Nat) (v : V)
  | setId (h : Nat) (s : String)
  | setLower (h : Nat) (v : V)
  | setUpper (h : Nat) (v : V)
  | setConst (h : Nat) (b : Bool)

/-- `*pimpl` of object `h`. -/
def World.get? (w : World V) (h : Nat) : Option (Impl V) :=
  match w.ptr[h]? with
  | some a => w.cells[a]?
  | none => none

/-- Apply `g` to the record object `h` points to. -/
def World.update (w : World V) (h : Nat) (g : Impl V → Impl V) : World V :=
  match w.ptr[h]? with
  | some a => { w with cells := w.cells.modify a g }
  | none => w

/-- One statement; statements naming objects that do not exist are not programs and do nothing. -/
def step (w : World V) : Op V → World V
  | .new d => { cells := w.cells ++ [d], ptr := w.ptr ++ [w.cells.length] }
  | .copy h =>
    match w.ptr[h]? with
    | some a => { w with ptr := w.ptr ++ [a] }
    | none => w
  | .rebind h h' =>
    match w.ptr[h']? with
    | some a => { w with ptr := w.ptr.set h a }
    | none => w
  | .clone h =>
    match w.get? h with
    | some d => { cells := w.cells ++ [d], ptr := w.ptr ++ [w.cells.length] }
    | none => w
  | .assign h h' =>
    match w.get? h' with
    | some d => w.update h (fun _ => d)
    | none => w
  | .setValue h v => w.update h (fun d => { d with value := v })
  | .setId h s => w.update h (fun d => { d with id := s })
  | .setLower h v => w.update h (fun d => { d with lowerbound := some v })
  | .setUpper h v => w.update h (fun d => { d with upperbound := some v })
  | .setConst h b => w.update h (fun d => { d with isconst := b })

/-- State after a program. -/
def exec (ops : List (Op V)) : World V := ops.foldl step ⟨[], []⟩

end Verif.Param
