import Verif.Base

/-!
# Model of `Model::withMemoization` over shared parameters (`Reaktoro/Core/Model.hpp`, `Param.hpp`, `Params.hpp`)

A `Param` is a shared pointer to its data, so its value lives in a heap cell that user code can write at any time.
A memoized `Model` holds the addresses of its declared parameters (`m_params`) and the closure made by `memoizeLast`
(Memoization.hpp:158-173) for its calculator, whose cached copy of the parameters is itself a `Params` object, i.e. a list
of addresses of cells. Copying the closure copies these addresses, not the cells.

`f m a h` is the formula of model `m` for arguments `a` when the heap is `h`; it may read any cell.
-/

namespace Verif.ModelMemo

/-- A memoized model object: `m_params` and the state captured by `memoizeLast`. -/
structure Closure (M : Type u) (A : Type v) (R : Type w) where
  model : M
  cacheArg : A
  cacheCells : List Nat
  result : R
  first : Bool

/-- The global switch, the heap (`next` is the first unused address) and the model objects. -/
structure World (M : Type u) (A : Type v) (R : Type w) (V : Type x) where
  enabled : Bool
  heap : Nat → V
  next : Nat
  closures : List (Closure M A R)

inductive Op (A : Type v) (V : Type x) where
  | enable
  | disable
  /-- `param = v` through any copy of the parameter with address `p` (Param.cpp:84-89) -/
  | set (p : Nat) (v : V)
  /-- copy model object `i` (also `Species::clone`, which copies the model, Species.cpp:153-158) -/
  | copy (i : Nat)
  /-- `model(args)` (Model.hpp:124-128) on model object `i` -/
  | call (i : Nat) (a : A)

/-- Write `v` in cell `p`. -/
def put (h : Nat → V) (p : Nat) (v : V) : Nat → V := fun x => if x = p then v else h x

/-- `Params::resize` (Params.cpp:52-55): drops surplus parameters or appends newly allocated ones. -/
def resize (cells : List Nat) (next n : Nat) : List Nat :=
  cells.take n ++ List.range' next (n - cells.length)

/-- The loop of `AssignValue<Params>::apply` (Params.hpp:154-155): cell by cell copy of values. -/
def copyValues (h : Nat → V) : List (Nat × Nat) → (Nat → V)
  | [] => h
  | (c, d) :: rest => copyValues (put h c (h d)) rest

/-- The loop of `SameValue<Params>::check` (Params.hpp:141-144). -/
def sameCells [DecidableEq V] (h : Nat → V) : List (Nat × Nat) → Bool
  | [] => true
  | (c, d) :: rest => if h c ≠ h d then false else sameCells h rest

/-- `model(args)` on a memoized model: `memoizeLast` (Memoization.hpp:163-172) applied to the calculator with
arguments `(args..., m_params)` (Model.hpp:112, 127). `sameValues` compares `args` first and, if they are the same,
`SameValue<Params>::check`, which throws if the sizes differ (Params.hpp:140). -/
def callModel [DecidableEq V] (f : M → A → (Nat → V) → Res R) (decl : M → List Nat) (same : A → A → Bool)
    (w : World M A R V) (c : Closure M A R) (a : A) : (Nat → V) × Nat × Closure M A R × Res R :=
  let ps := decl c.model
  if w.enabled = false then (w.heap, w.next, c, f c.model a w.heap)                      -- 165-166
  else if same c.cacheArg a && (c.cacheCells.length != ps.length) then
    (w.heap, w.next, c, .throw)                                                          -- Params.hpp:140
  else if same c.cacheArg a && sameCells w.heap (c.cacheCells.zip ps) && !c.first then
    (w.heap, w.next, c, .ok c.result)                                                    -- 167-168
  else
    let cells := resize c.cacheCells w.next ps.length                                    -- 169, Params.hpp:153
    let h1 := copyValues w.heap (cells.zip ps)                                           -- 169, Params.hpp:154-155
    let c1 : Closure M A R := { c with cacheArg := a, cacheCells := cells, first := false }  -- 169-170
    let next1 := w.next + (ps.length - c.cacheCells.length)
    match f c.model a h1 with                                                            -- 171
    | .ok r => (h1, next1, { c1 with result := r }, .ok r)
    | .throw => (h1, next1, c1, .throw)
    | .ub => (h1, next1, c1, .ub)

/-- One operation; the output of a call is its result. -/
def step [DecidableEq V] (f : M → A → (Nat → V) → Res R) (decl : M → List Nat) (same : A → A → Bool)
    (w : World M A R V) : Op A V → World M A R V × Option (Res R)
  | .enable => ({ w with enabled := true }, none)
  | .disable => ({ w with enabled := false }, none)
  | .set p v => ({ w with heap := put w.heap p v }, none)
  | .copy i =>
    match w.closures[i]? with
    | some c => ({ w with closures := w.closures ++ [c] }, none)
    | none => (w, none)
  | .call i a =>
    match w.closures[i]? with
    | some c =>
      let (h, n, c', r) := callModel f decl same w c a
      ({ w with heap := h, next := n, closures := w.closures.set i c' }, some r)
    | none => (w, none)

/-- Run a program and collect its observations. -/
def run [DecidableEq V] (f : M → A → (Nat → V) → Res R) (decl : M → List Nat) (same : A → A → Bool) :
    World M A R V → List (Op A V) → List (Option (Res R))
  | _, [] => []
  | w, op :: ops => (step f decl same w op).2 :: run f decl same (step f decl same w op).1 ops

/-- Initial program state: user parameters at addresses `0 … n-1` with values `h`, and one freshly memoized object
(`Model::withMemoization`, Model.hpp:109-114) for each model in `ms`. -/
def World.init (h : Nat → V) (n : Nat) (a0 : A) (r0 : R) (ms : List M) : World M A R V :=
  { enabled := true, heap := h, next := n,
    closures := ms.map fun m => { model := m, cacheArg := a0, cacheCells := [], result := r0, first := true } }

end Verif.ModelMemo
