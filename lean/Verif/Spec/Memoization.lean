import Verif.Model.Memoization

/-!
# Specification: memoization is invisible

The reference behaviour of a program is the one with every closure replaced by the plain function `f`.
It only uses the operation type of the model.
-/

namespace Verif.Memo

/-- Observable results of the program when closures are the plain function `f`; `n` closures exist. -/
def plain (f : A → Res R) : Nat → List (Op A) → List (Option (Res R))
  | _, [] => []
  | n, .enable :: ops => none :: plain f n ops
  | n, .disable :: ops => none :: plain f n ops
  | n, .copy i :: ops => none :: plain f (if i < n then n + 1 else n) ops
  | n, .call i a :: ops => (if i < n then some (f a) else none) :: plain f n ops

/-- Two observations agree on all calls whose argument satisfies `p`. -/
def AgreeOn (p : A → Prop) : List (Op A) → List (Option (Res R)) → List (Option (Res R)) → Prop
  | [], [], [] => True
  | .call _ a :: ops, x :: xs, y :: ys => (p a → x = y) ∧ AgreeOn p ops xs ys
  | _ :: ops, x :: xs, y :: ys => x = y ∧ AgreeOn p ops xs ys
  | _, _, _ => False

end Verif.Memo
