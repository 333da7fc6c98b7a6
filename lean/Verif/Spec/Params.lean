import Verif.Model.Params

/-!
# What a program does with lists of parameters
-/

namespace Verif.Params

variable {V : Type}

/-- The list that a statement names, if it names one. -/
def Op.list : Op V → Option Nat
  | .append L _ | .appendNew L _ _ | .clone L | .copy L | .setAt L _ _ | .setId L _ _ => some L
  | _ => none

/-- A statement that changes values of the given list, and nothing else. -/
def Op.sets (L : Nat) : Op V → Prop
  | .setAt L' _ _ | .setId L' _ _ => L' = L
  | _ => False

/-- The records (ids and values) that a list shows. -/
def shown (w : World V) (L : Nat) : Option (List (Option (Param.Impl V))) :=
  w.lists[L]?.map fun l => l.map fun a => w.cells[a]?

/-- The record that a `Param` object shows. -/
def shownParam (w : World V) (h : Nat) : Option (Option (Param.Impl V)) := w.handles[h]?.map fun a => w.cells[a]?

/-- The value shown at a position of a list. -/
def valueAt (w : World V) (L i : Nat) : Option V :=
  match w.lists[L]? with
  | some l => match l[i]? with | some a => (w.cells[a]?).map (·.value) | none => none
  | none => none

/-- The value of a `Param` object. -/
def valueOf (w : World V) (h : Nat) : Option V :=
  match w.handles[h]? with
  | some a => (w.cells[a]?).map (·.value)
  | none => none

/-- The world of a program at its start. -/
def start : World V := ⟨[], [], []⟩

end Verif.Params
