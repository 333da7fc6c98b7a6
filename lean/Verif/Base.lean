/-!
# Outcomes of modelled C++ functions

`Res α` is the result of running a modelled C++ function: it returns a value, throws a C++ exception
(`error`, `errorif`, `throw`), or runs into undefined behaviour (out-of-range access, read of
uninitialised data, unbounded recursion).
-/

namespace Verif

/-- `c!"abc"` is the list of characters `['a', 'b', 'c']`. -/
macro:max "c!" s:str : term => do
  let elems := s.getString.toList.toArray.map Lean.Syntax.mkCharLit
  `([$elems,*])

/-- Outcome of a C++ call: normal return, exception, or undefined behaviour. -/
inductive Res (α : Type u) where
  | ok (a : α)
  | throw
  | ub
  deriving DecidableEq, Repr

namespace Res

/-- Sequencing of C++ statements: the first exception or undefined behaviour ends the execution. -/
def bind {α : Type u} {β : Type v} : Res α → (α → Res β) → Res β
  | ok a, f => f a
  | throw, _ => throw
  | ub, _ => ub

instance : Monad Res where
  pure := ok
  bind := bind

@[simp] theorem pure_eq {α : Type u} (a : α) : (pure a : Res α) = ok a := rfl
@[simp] theorem ok_bind {α β : Type u} (a : α) (f : α → Res β) : (ok a >>= f) = f a := rfl
@[simp] theorem throw_bind {α β : Type u} (f : α → Res β) : ((throw : Res α) >>= f) = throw := rfl
@[simp] theorem ub_bind {α β : Type u} (f : α → Res β) : ((ub : Res α) >>= f) = ub := rfl
@[simp] theorem bind_ok' {α : Type u} {β : Type v} (a : α) (f : α → Res β) : bind (ok a) f = f a := rfl
@[simp] theorem bind_throw' {α : Type u} {β : Type v} (f : α → Res β) : bind (throw : Res α) f = throw := rfl
@[simp] theorem bind_ub' {α : Type u} {β : Type v} (f : α → Res β) : bind (ub : Res α) f = ub := rfl

/-- The call returned normally. -/
def isOk {α : Type u} : Res α → Bool
  | ok _ => true
  | _ => false

@[simp] theorem isOk_ok {α : Type u} (a : α) : (ok a).isOk = true := rfl
@[simp] theorem isOk_throw {α : Type u} : (throw : Res α).isOk = false := rfl
@[simp] theorem isOk_ub {α : Type u} : (ub : Res α).isOk = false := rfl

instance : LawfulMonad Res := LawfulMonad.mk' (m := Res)
  (id_map := by intro α x; cases x <;> rfl)
  (pure_bind := by intros; rfl)
  (bind_assoc := by intro α β γ x f g; cases x <;> rfl)

theorem bind_eq_ok {α β : Type u} {x : Res α} {f : α → Res β} {b : β} :
    (x >>= f) = ok b ↔ ∃ a, x = ok a ∧ f a = ok b := by
  cases x <;> simp

end Res

/-- Vector access `v[i]` of C++: undefined behaviour out of range. -/
def at! {α : Type u} (v : List α) (i : Nat) : Res α :=
  match v[i]? with
  | some a => .ok a
  | none => .ub

@[simp] theorem at!_of_lt {α : Type u} (v : List α) (i : Nat) (h : i < v.length) : at! v i = .ok v[i] := by
  simp [at!, h]

theorem at!_of_ge {α : Type u} (v : List α) (i : Nat) (h : v.length ≤ i) : at! v i = .ub := by
  simp [at!, h]

end Verif
