import Verif.Model.EquilibriumRecord

/-!
# Objects as values

A program on objects that are plain values: what happens to one object happens to no other.
-/

namespace Verif.EquilibriumRecord

/-- Effect of a statement on a list of values. -/
def valueStep (objects : List Data) : Op → Res (List Data)
  | .new s e => .ok (objects ++ [Data.new s e])
  | .copy i => .ok (match objects[i]? with | some d => objects ++ [d] | none => objects)
  | .assign i j => .ok (match objects[j]? with | some d => objects.set i d | none => objects)
  | .set i v =>
    match objects[i]? with
    | some d => (d.set v).bind fun d' => .ok (objects.set i d')
    | none => .ok objects

/-- A program on values. -/
def valueRun (objects : List Data) : List Op → Res (List Data)
  | [] => .ok objects
  | op :: ops => (valueStep objects op).bind fun o => valueRun o ops

/-- A sequence of setters applied to one record. -/
def setAll (d : Data) : List Setter → Res Data
  | [] => .ok d
  | v :: vs => (d.set v).bind fun d' => setAll d' vs

/-- The last value that was stored by setters of the kind `pick`, or what there was before. -/
def lastStored {α : Type} (pick : Setter → Option α) (vs : List Setter) (before : α) : α :=
  ((vs.filterMap pick).getLast?).getD before

end Verif.EquilibriumRecord
