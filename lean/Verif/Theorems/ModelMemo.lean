import Verif.Lemmas.ModelMemo

/-!
# Theorem C05: a memoized model reflects the current values of its parameters

`fresh f h ms ops` (in `Verif.Spec.ModelMemo`) is what the program observes when every call evaluates the formula
with the parameter values of that moment.
-/

namespace Verif.ModelMemo

variable {M : Type u} {A : Type v} {R : Type w} {V : Type x}

/-- **C05 (partial).** Full statement: `run … = fresh …` for every program. It is false in three ways, shown below.
What holds: for every family of formulas that do not throw and read only their declared parameters (addresses below `n`),
and every program that switches memoization on and off, writes parameters, copies models and calls them, every call
returns the formula at the current parameter values, provided copies are made only of models that have not been called yet
and no call uses the default-constructed arguments `a0`.
Missing: copies of models already called, undeclared parameters, default arguments, formulas that throw (C02). -/
theorem C05_model_reflects_params_partial [DecidableEq V] (f : M → A → (Nat → V) → Res R) (decl : M → List Nat)
    (same : A → A → Bool) (a0 : A) (r0 : R) (n : Nat) (h : Nat → V) (ms : List M)
    (hf : ∀ m a h, (f m a h).isOk = true) (honly : OnlyDeclared f decl)
    (hsame : ∀ a b, same a b = true → ∀ m h, f m a h = f m b h)
    (hdecl : ∀ m, ∀ p ∈ decl m, p < n)
    (ops : List (Op A V))
    (hcopies : CopiesUnused ops)
    (hargs : ∀ i a, Op.call i a ∈ ops → same a0 a = false)
    (hset : ∀ p v, Op.set p v ∈ ops → p < n) :
    run f decl same (World.init h n a0 r0 ms) ops = fresh f h ms ops := by
  have := run_eq_fresh f decl same a0 n hf honly hsame hdecl ops [] (World.init h n a0 r0 ms) h
    (by simpa using hcopies) hargs hset
    ⟨Nat.le_refl _, ?_, ?_, ?_⟩ (fun _ _ => rfl)
  · rw [this]
    congr 1
    simp [World.init, Function.comp_def]
  · intro i hi
    simp only [World.init, List.getElem_map]
    exact ⟨by simp, by simp, by simp, by simp, by simp⟩
  · intro i j hi hj hij x hx
    simp [World.init] at hx
  · intro i hi _
    simp [World.init]

/-- The formula `T + p0` with the declared parameter `p0`, used in the examples. -/
def addParam : Unit → Nat → (Nat → Nat) → Res Nat := fun _ T h => .ok (T + h 0)

example : (∀ m a h, (addParam m a h).isOk = true) ∧ OnlyDeclared addParam (fun _ => [0]) ∧
    (∀ a b : Nat, (a == b) = true → ∀ m h, addParam m a h = addParam m b h) ∧
    CopiesUnused ([.copy 0, .call 0 7, .call 0 7, .set 0 5, .call 1 7, .call 0 7] : List (Op Nat Nat)) ∧
    run addParam (fun _ => [0]) (· == ·) (World.init (fun _ => 2) 1 0 0 [()])
      [.copy 0, .call 0 7, .call 0 7, .set 0 5, .call 1 7, .call 0 7] =
      [none, some (.ok 9), some (.ok 9), none, some (.ok 12), some (.ok 12)] := by
  refine ⟨fun _ _ _ => rfl, ?_, ?_, ?_, by decide⟩
  · intro m a h h' hp
    simp [addParam, hp 0 (by simp)]
  · intro a b hab; simp only [beq_iff_eq] at hab; simp [hab]
  · intro pre i post heq a hm
    rcases pre with _ | ⟨x, _ | ⟨y, _ | ⟨z, _ | ⟨u, _ | ⟨v, _ | ⟨w, _ | _⟩⟩⟩⟩⟩⟩ <;> simp at heq hm

/-- **C05 is false of the code (copies).** Two copies of a model that was already called share the cached parameter cells:
after `p0` changes from 2 to 5, the first copy recomputes and the other one, compared with the refreshed cells,
returns the result for the old value. -/
theorem C05_copy_after_call_stale :
    run addParam (fun _ => [0]) (· == ·) (World.init (fun _ => 2) 1 0 0 [()])
      [.call 0 7, .copy 0, .set 0 5, .call 1 7, .call 0 7] =
      [some (.ok 9), none, none, some (.ok 12), some (.ok 9)] ∧
    fresh addParam (fun _ => 2) [()] [.call 0 7, .copy 0, .set 0 5, .call 1 7, .call 0 7] =
      [some (.ok 9), none, none, some (.ok 12), some (.ok 12)] := by decide

/-- **C05 is false of the code (undeclared parameters).** A formula that reads a parameter missing from `m_params`
(as the standard model of a `FormationReaction` product does: it evaluates the reactants' models but declares only the
parameters of the reaction and volume models, FormationReaction.cpp:45-61) returns the old result after that
parameter changes. -/
theorem C05_undeclared_param_stale :
    run (fun _ T h => .ok (T + h 0 + h 1)) (fun _ : Unit => [0]) (· == ·) (World.init (fun _ => 2) 2 (0 : Nat) 0 [()])
      [.call 0 7, .set 1 5, .call 0 7] = [some (.ok 11), none, some (.ok 11)] ∧
    fresh (fun (_ : Unit) T h => .ok (T + h 0 + h 1)) (fun _ => 2) [()]
      [.call 0 7, .set 1 5, .call 0 7] = [some (.ok 11), none, some (.ok 14)] := by decide

/-- **C05 is false of the code (default arguments).** The first call of a memoized model with parameters throws if its
arguments equal the default-constructed ones (`T = 0`, `P = 0`), because the cached parameter list is still empty. -/
theorem C05_default_arguments_throw :
    run addParam (fun _ => [0]) (· == ·) (World.init (fun _ => 2) 1 0 0 [()]) [.call 0 0] = [some .throw] ∧
    fresh addParam (fun _ => 2) [()] [.call 0 0] = [some (.ok 2)] := by decide

end Verif.ModelMemo
