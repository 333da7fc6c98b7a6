import Verif.Base

/-!
# Model of `Reaktoro/Common/Memoization.hpp` and `Memoization.cpp`

The three wrappers are closures with private state (`memoizeLast`, `memoizeLastUsingRef`) or with a
shared cache (`memoize`), and one global switch. A program is a list of operations: flipping the
switch, copying a closure (`std::function` copies its captured state) and calling a closure.

Simplifications: the wrapped function `f` is a pure function of its arguments, possibly throwing;
all arguments are packed into one value of type `A`; comparison of cached and new arguments
(`detail::sameValues`, Memoization.hpp:82-95) is a parameter `same`, and assignment of arguments to the
cache (`detail::assignValues`, Memoization.hpp:98-109) is a copy (value types).
-/

namespace Verif.Memo

/-- Operations of a program using memoized closures. -/
inductive Op (A : Type u) where
  /-- `Memoization::enable()` (Memoization.cpp:39-42) -/
  | enable
  /-- `Memoization::disable()` (Memoization.cpp:44-47) -/
  | disable
  /-- copy the closure number `i`; the copy gets the next number -/
  | copy (i : Nat)
  /-- call the closure number `i` -/
  | call (i : Nat) (a : A)
  deriving DecidableEq, Repr

/-- Captured state of the closure made by `memoizeLast`/`memoizeLastUsingRef`:
variables `cache`, `result`, `firsttime` (Memoization.hpp:160-162 and 186-188). -/
structure Cell (A : Type u) (R : Type v) where
  cache : A
  result : R
  first : Bool

/-- Initial captured state: default-constructed tuple and result, `firsttime = true`
(Memoization.hpp:160-162 and 186-188). -/
def Cell.init (a0 : A) (r0 : R) : Cell A R := { cache := a0, result := r0, first := true }

/-- Body of the closure made by `memoizeLast` (Memoization.hpp:163-172). The arguments are stored
*before* `f` is called, so they stay stored if `f` throws. -/
def callLast (f : A → Res R) (same : A → A → Bool) (enabled : Bool) (s : Cell A R) (a : A) :
    Cell A R × Res R :=
  if enabled = false then (s, f a)                                    -- 165-166
  else if same s.cache a && !s.first then (s, .ok s.result)           -- 167-168
  else
    let s1 : Cell A R := { s with cache := a, first := false }        -- 169-170
    match f a with                                                    -- 171
    | .ok r => ({ s1 with result := r }, .ok r)
    | .throw => (s1, .throw)
    | .ub => (s1, .ub)

/-- Body of the closure made by `memoizeLastUsingRef` (Memoization.hpp:189-202); the result is the value left
in the output argument `res`. Simplification: `f` overwrites its output argument completely. -/
def callRef (f : A → Res R) (same : A → A → Bool) (enabled : Bool) (s : Cell A R) (a : A) :
    Cell A R × Res R :=
  if enabled = false then                                             -- 191-192
    match f a with
    | .ok r => ({ s with first := false }, .ok r)                     -- 201
    | .throw => (s, .throw)
    | .ub => (s, .ub)
  else if same s.cache a && !s.first then                             -- 193-194
    ({ s with first := false }, .ok s.result)
  else
    match f a with                                                    -- 197-199
    | .ok r => ({ cache := a, result := r, first := false }, .ok r)
    | .throw => (s, .throw)
    | .ub => (s, .ub)

/-- State of a program with closures made by `memoizeLast` (or `memoizeLastUsingRef`): the global switch
(Memoization.cpp:22-27) and the captured state of each closure. -/
structure World (A : Type u) (R : Type v) where
  enabled : Bool
  cells : List (Cell A R)

/-- The program starts with memoization active (Memoization.cpp:25) and one fresh closure. -/
def World.init (a0 : A) (r0 : R) : World A R := { enabled := true, cells := [Cell.init a0 r0] }

/-- One operation. Operations on closures that do not exist are not programs; they do nothing. -/
def step (callfn : Bool → Cell A R → A → Cell A R × Res R) (w : World A R) : Op A → World A R × Option (Res R)
  | .enable => ({ w with enabled := true }, none)
  | .disable => ({ w with enabled := false }, none)
  | .copy i =>
    match w.cells[i]? with
    | some c => ({ w with cells := w.cells ++ [c] }, none)
    | none => (w, none)
  | .call i a =>
    match w.cells[i]? with
    | some c =>
      let (c', r) := callfn w.enabled c a
      ({ w with cells := w.cells.set i c' }, some r)
    | none => (w, none)

/-- Run a program; returns the list of observable results, one entry per operation. -/
def run (callfn : Bool → Cell A R → A → Cell A R × Res R) : World A R → List (Op A) → World A R × List (Option (Res R))
  | w, [] => (w, [])
  | w, op :: ops =>
    let (w1, o) := step callfn w op
    let (w2, os) := run callfn w1 ops
    (w2, o :: os)

/-- Outputs of a program using `memoizeLast`. -/
def runLast (f : A → Res R) (same : A → A → Bool) (a0 : A) (r0 : R) (ops : List (Op A)) : List (Option (Res R)) :=
  (run (callLast f same) (World.init a0 r0) ops).2

/-- Outputs of a program using `memoizeLastUsingRef`. -/
def runRef (f : A → Res R) (same : A → A → Bool) (a0 : A) (r0 : R) (ops : List (Op A)) : List (Option (Res R)) :=
  (run (callRef f same) (World.init a0 r0) ops).2

/-! ### `memoize`: one cache shared by all copies of the closure -/

/-- State of a program using `memoize`: the switch, the shared cache (`std::make_shared<Map<..>>`,
Memoization.hpp:137) as an association list, the number of copies of the closure, and a ghost log of the arguments on
which `f` was called by an enabled wrapper and returned. -/
structure MapWorld (A : Type u) (R : Type v) where
  enabled : Bool
  cache : List (A × R)
  copies : Nat
  log : List A

/-- The program starts enabled with an empty cache and one closure. -/
def MapWorld.init : MapWorld A R := { enabled := true, cache := [], copies := 1, log := [] }

/-- Body of the closure made by `memoize` (Memoization.hpp:138-146). In `(*cache)[t] = f(args...)` the right-hand side is
evaluated first (C++17), so a throwing `f` leaves the cache unchanged. -/
def callMap [DecidableEq A] (f : A → Res R) (w : MapWorld A R) (a : A) : MapWorld A R × Res R :=
  if w.enabled = false then (w, f a)                                   -- 140-141
  else
    match w.cache.lookup a with                                        -- 143
    | some r => (w, .ok r)                                             -- 145
    | none =>
      match f a with                                                   -- 144
      | .ok r => ({ w with cache := (a, r) :: w.cache, log := a :: w.log }, .ok r)
      | .throw => (w, .throw)
      | .ub => (w, .ub)

/-- One operation of a program using `memoize`. -/
def stepMap [DecidableEq A] (f : A → Res R) (w : MapWorld A R) : Op A → MapWorld A R × Option (Res R)
  | .enable => ({ w with enabled := true }, none)
  | .disable => ({ w with enabled := false }, none)
  | .copy i => if i < w.copies then ({ w with copies := w.copies + 1 }, none) else (w, none)
  | .call i a =>
    if i < w.copies then
      let (w', r) := callMap f w a
      (w', some r)
    else (w, none)

/-- Run a program using `memoize`. -/
def runMap [DecidableEq A] (f : A → Res R) : MapWorld A R → List (Op A) → MapWorld A R × List (Option (Res R))
  | w, [] => (w, [])
  | w, op :: ops =>
    let (w1, o) := stepMap f w op
    let (w2, os) := runMap f w1 ops
    (w2, o :: os)

end Verif.Memo
