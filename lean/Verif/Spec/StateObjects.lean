import Verif.Model.StateObjects

/-!
# States as values

Programs in which states are plain values: a copy equals the original and is independent of it.
-/

namespace Verif.StateObjects

open ChemicalState

/-- Effect of a statement on a list of values. -/
def valueStep (debug : Bool) (me : Rat) (objects : List Data) : Stmt → Res (List Data)
  | .new s => .ok (objects ++ [⟨s, 29815 / 100, 100000, List.replicate s.length 0⟩])
  | .copy i => .ok (match objects[i]? with | some d => objects ++ [d] | none => objects)
  | .assign i j => .ok (match objects[j]? with | some d => objects.set i d | none => objects)
  | .call i op =>
    match objects[i]? with
    | some d =>
      match ChemicalState.step debug me d.species d.st op with
      | (st, .returned) => .ok (objects.set i { d with st := st })
      | (st, .threw) => .ok (objects.set i { d with st := st })
      | (_, .aborted) => .ub
      | (_, .undefined) => .ub
    | none => .ok objects

/-- A program on values. -/
def valueRun (debug : Bool) (me : Rat) (objects : List Data) : List Stmt → Res (List Data)
  | [] => .ok objects
  | x :: xs => (valueStep debug me objects x).bind fun o => valueRun debug me o xs

end Verif.StateObjects
