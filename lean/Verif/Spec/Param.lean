import Verif.Model.Param

/-!
# Specification of `Param` objects, without a heap

`hist` is a program, last statement first. `count hist` objects exist after it. Each object belongs to a group of objects that
share their contents: construction and `clone` start a new group (named by the length of the program so far), copying and
rebinding join the group of the source. `read hist h` is the contents of object `h`, defined by what the last statement did.
-/

namespace Verif.Param

/-- Number of objects after the program. -/
def count : List (Op V) → Nat
  | [] => 0
  | .new _ :: hist => count hist + 1
  | .copy h :: hist => if h < count hist then count hist + 1 else count hist
  | .clone h :: hist => if h < count hist then count hist + 1 else count hist
  | _ :: hist => count hist

/-- Sharing group of object `h` after the program. -/
def group : List (Op V) → Nat → Nat
  | [], _ => 0
  | .new _ :: hist, h => if h = count hist then hist.length + 1 else group hist h
  | .copy h0 :: hist, h => if h = count hist then group hist h0 else group hist h
  | .clone _ :: hist, h => if h = count hist then hist.length + 1 else group hist h
  | .rebind h0 h1 :: hist, h => if h = h0 ∧ h1 < count hist then group hist h1 else group hist h
  | _ :: hist, h => group hist h

/-- `h0` exists and shares its contents with `h`. -/
def Shares (hist : List (Op V)) (h0 h : Nat) : Prop := h0 < count hist ∧ group hist h = group hist h0

instance (hist : List (Op V)) (h0 h : Nat) : Decidable (Shares hist h0 h) := by unfold Shares; infer_instance

/-- Contents of object `h` after the program (`none` if there is no such object). -/
def read : List (Op V) → Nat → Option (Impl V)
  | [], _ => none
  | .new d :: hist, h => if h = count hist then some d else read hist h
  | .copy h0 :: hist, h => if h = count hist then read hist h0 else read hist h
  | .clone h0 :: hist, h => if h = count hist then read hist h0 else read hist h
  | .rebind h0 h1 :: hist, h => if h = h0 ∧ h < count hist ∧ h1 < count hist then read hist h1 else read hist h
  | .assign h0 h1 :: hist, h =>
    if Shares hist h0 h ∧ h < count hist ∧ h1 < count hist then read hist h1 else read hist h
  | .setValue h0 v :: hist, h =>
    if Shares hist h0 h then (read hist h).map (fun d => { d with value := v }) else read hist h
  | .setId h0 s :: hist, h =>
    if Shares hist h0 h then (read hist h).map (fun d => { d with id := s }) else read hist h
  | .setLower h0 v :: hist, h =>
    if Shares hist h0 h then (read hist h).map (fun d => { d with lowerbound := some v }) else read hist h
  | .setUpper h0 v :: hist, h =>
    if Shares hist h0 h then (read hist h).map (fun d => { d with upperbound := some v }) else read hist h
  | .setConst h0 b :: hist, h =>
    if Shares hist h0 h then (read hist h).map (fun d => { d with isconst := b }) else read hist h

end Verif.Param
