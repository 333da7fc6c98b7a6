import Verif.Model.ModelMemo

/-!
# Specification: a model evaluation uses the current parameter values

The reference program keeps only the current parameter values and which formula each object has.
-/

namespace Verif.ModelMemo

/-- Observations when every call evaluates the formula with the current parameter values. -/
def fresh (f : M → A → (Nat → V) → Res R) : (Nat → V) → List M → List (Op A V) → List (Option (Res R))
  | _, _, [] => []
  | h, ms, .enable :: ops => none :: fresh f h ms ops
  | h, ms, .disable :: ops => none :: fresh f h ms ops
  | h, ms, .set p v :: ops => none :: fresh f (fun x => if x = p then v else h x) ms ops
  | h, ms, .copy i :: ops => none :: fresh f h (ms ++ (ms[i]?).toList) ops
  | h, ms, .call i a :: ops => ((ms[i]?).map fun m => f m a h) :: fresh f h ms ops

/-- The formula of each model depends only on its declared parameters. -/
def OnlyDeclared (f : M → A → (Nat → V) → Res R) (decl : M → List Nat) : Prop :=
  ∀ m a h h', (∀ p ∈ decl m, h p = h' p) → f m a h = f m a h'

/-- Every copy in the program is made of an object that has not been called before. -/
def CopiesUnused (ops : List (Op A V)) : Prop :=
  ∀ pre i post, ops = pre ++ Op.copy i :: post → ∀ a, Op.call i a ∉ pre

end Verif.ModelMemo
