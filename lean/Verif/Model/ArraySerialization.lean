import Verif.Base

/-!
# Model of `Reaktoro/Common/ArraySerialization.hpp`, `Reaktoro/Common/ArrayStream.hpp` and of the conversion of
`ChemicalProps` to and from arrays

An argument is a scalar or an array. `cast` converts the numbers of the arguments into those of the array (`real` to `real` or
`real` to `double`), `lift` converts back. `debug` says whether `assert` is active; a failed assertion ends the program
(`.throw`), without it the access is out of range (`.ub`).
-/

namespace Verif.ArraySerialization

/-- A scalar or an array argument. -/
inductive Item (α : Type) where
  | scalar (a : α)
  | array (xs : List α)
  deriving DecidableEq, Repr

/-- `detail::length` of one argument (ArraySerialization.hpp:54-61). -/
def Item.length {α : Type} : Item α → Nat
  | .scalar _ => 1
  | .array xs => xs.length

/-- `detail::length` of several arguments (ArraySerialization.hpp:63-69). -/
def totalLength {α : Type} : List (Item α) → Nat
  | [] => 0
  | x :: xs => x.length + totalLength xs

/-- What an access outside the array does. -/
def outOfRange {β : Type} (debug : Bool) : Res β := if debug then .throw else .ub

/-- Writing `values` at position `pos`. -/
def write {β : Type} (array : List β) (pos : Nat) (values : List β) : List β :=
  array.take pos ++ values ++ array.drop (pos + values.length)

/-- `detail::serialize` of one argument (ArraySerialization.hpp:71-86). -/
def serializeOne {α β : Type} (debug : Bool) (cast : α → β) (array : List β) (pos : Nat) : Item α → Res (List β)
  | .scalar a => if array.length ≥ pos + 1 then .ok (write array pos [cast a]) else outOfRange debug
  | .array xs => if array.length ≥ pos + xs.length then .ok (write array pos (xs.map cast)) else outOfRange debug

/-- `detail::serialize` of several arguments (ArraySerialization.hpp:88-94). -/
def serializeAt {α β : Type} (debug : Bool) (cast : α → β) : List β → Nat → List (Item α) → Res (List β)
  | array, _, [] => .ok array
  | array, pos, x :: xs =>
    (serializeOne debug cast array pos x).bind fun array' => serializeAt debug cast array' (pos + x.length) xs

/-- `detail::deserialize` of one argument (ArraySerialization.hpp:96-109): the new value of the argument. -/
def deserializeOne {α β : Type} (debug : Bool) (lift : β → α) (array : List β) (pos : Nat) : Item α → Res (Item α)
  | .scalar _ =>
    if array.length ≥ pos + 1 then (at! array pos).bind fun v => .ok (.scalar (lift v)) else outOfRange debug
  | .array xs =>
    if array.length ≥ pos + xs.length then .ok (.array (((array.drop pos).take xs.length).map lift)) else outOfRange debug

/-- `detail::deserialize` of several arguments (ArraySerialization.hpp:111-117): the new values of the arguments. -/
def deserializeAt {α β : Type} (debug : Bool) (lift : β → α) (array : List β) : Nat → List (Item α) → Res (List (Item α))
  | _, [] => .ok []
  | pos, x :: xs =>
    (deserializeOne debug lift array pos x).bind fun x' =>
    (deserializeAt debug lift array (pos + x'.length) xs).bind fun xs' => .ok (x' :: xs')

/-- `array.resize(size)`: the contents afterwards are unspecified; `fill` is an arbitrary choice of them. -/
def resize {β : Type} (fill : List β → Nat → List β) (array : List β) (size : Nat) : List β := fill array size

/-- `ArrayStream::from` (ArrayStream.hpp:46-50): `ArraySerialization::resize` and `serialize`. -/
def streamFrom {α β : Type} (debug : Bool) (cast : α → β) (fill : List β → Nat → List β) (array : List β) (args : List (Item α)) :
    Res (List β) :=
  serializeAt debug cast (resize fill array (totalLength args)) 0 args

/-- `ArrayStream::to` (ArrayStream.hpp:54-57) and `ArraySerialization::deserialize` (ArraySerialization.hpp:138-142). -/
def streamTo {α β : Type} (debug : Bool) (lift : β → α) (array : List β) (args : List (Item α)) : Res (List (Item α)) :=
  deserializeAt debug lift array 0 args

/-- The data members of `ChemicalProps::Impl` (ChemicalProps.cpp:29-92), other than the system. -/
structure Props (α : Type) where
  T : α
  P : α
  Ts : List α
  Ps : List α
  n : List α
  nsum : List α
  x : List α
  G0 : List α
  H0 : List α
  V0 : List α
  Cp0 : List α
  Cv0 : List α
  Vex : List α
  VexT : List α
  VexP : List α
  Gex : List α
  Hex : List α
  Cpex : List α
  Cvex : List α
  ln_g : List α
  ln_a : List α
  u : List α
  deriving DecidableEq, Repr

/-- `ChemicalProps::Impl::serialize` (ChemicalProps.cpp:192-196) and the conversions to arrays (ChemicalProps.cpp:419-431). -/
def Props.serialize {α β : Type} (debug : Bool) (cast : α → β) (fill : List β → Nat → List β) (p : Props α) : Res (List β) :=
  streamFrom debug cast fill [] [.scalar p.T, .scalar p.P, .array p.Ts, .array p.Ps, .array p.n, .array p.nsum, .array p.x,
    .array p.G0, .array p.H0, .array p.V0, .array p.Cp0, .array p.Cv0, .array p.Vex, .array p.VexT, .array p.VexP,
    .array p.Gex, .array p.Hex, .array p.Cpex, .array p.Cvex, .array p.ln_g, .array p.ln_a, .array p.u]

/-- Assigning the deserialized arguments to the members they refer to. -/
def Props.assign {α : Type} : List (Item α) → Res (Props α)
  | [.scalar T, .scalar P, .array Ts, .array Ps, .array n, .array nsum, .array x, .array G0, .array H0, .array V0, .array Cp0,
      .array Cv0, .array Vex, .array VexT, .array VexP, .array Gex, .array Hex, .array Cpex, .array Cvex, .array ln_g,
      .array ln_a, .array u] =>
    .ok ⟨T, P, Ts, Ps, n, nsum, x, G0, H0, V0, Cp0, Cv0, Vex, VexT, VexP, Gex, Hex, Cpex, Cvex, ln_g, ln_a, u⟩
  | _ => .ub

/-- `ChemicalProps::Impl::update(data)` and `deserialize` (ChemicalProps.cpp:162-167, 199-203). -/
def Props.update {α β : Type} (debug : Bool) (lift : β → α) (p : Props α) (data : List β) : Res (Props α) :=
  (streamTo debug lift data [.scalar p.T, .scalar p.P, .array p.Ts, .array p.Ps, .array p.n, .array p.nsum, .array p.x,
    .array p.G0, .array p.H0, .array p.V0, .array p.Cp0, .array p.Cv0, .array p.Vex, .array p.VexT, .array p.VexP,
    .array p.Gex, .array p.Hex, .array p.Cpex, .array p.Cvex, .array p.ln_g, .array p.ln_a, .array p.u]).bind Props.assign

end Verif.ArraySerialization
