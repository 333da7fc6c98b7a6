import Verif.Spec.SeededProps
import Verif.Theorems.Memoization
import Mathlib.Tactic.NormNum
/-!
# C124: memoized functions of numbers with derivatives
-/
namespace Verif.SeededProps
open Memo

/-- A result without its derivative. -/
def valRes : Res Num → Res ℝ
  | .ok r => .ok r.val
  | .throw => .throw
  | .ub => .ub

/-- The captured state of a closure without derivatives of results. -/
def valCell {A : Type} (c : Cell A Num) : Cell A ℝ := ⟨c.cache, c.result.val, c.first⟩

theorem callLast_val {A : Type} (f : A → Res Num) (same : A → A → Bool) (e : Bool) (c : Cell A Num) (a : A) :
    callLast (fun a => valRes (f a)) same e (valCell c) a =
      (valCell (callLast f same e c a).1, valRes (callLast f same e c a).2) := by
  unfold callLast valCell
  cases e with
  | false => rfl
  | true =>
    simp only [Bool.true_eq_false, if_false]
    by_cases h : (same c.cache a && !c.first) = true
    · rw [if_pos h, if_pos h]; rfl
    · rw [if_neg h, if_neg h]
      cases f a <;> rfl

theorem run_val {A : Type} (f : A → Res Num) (same : A → A → Bool) (ops : List (Op A)) (w : World A Num) :
    (Memo.run (callLast (fun a => valRes (f a)) same) ⟨w.enabled, w.cells.map valCell⟩ ops).2 =
      (Memo.run (callLast f same) w ops).2.map (Option.map valRes) := by
  induction ops generalizing w with
  | nil => rfl
  | cons op ops ih =>
    cases op with
    | enable => simpa [Memo.run, Memo.step] using ih { w with enabled := true }
    | disable => simpa [Memo.run, Memo.step] using ih { w with enabled := false }
    | copy i =>
      cases h : w.cells[i]? with
      | none => simpa [Memo.run, Memo.step, h] using ih w
      | some c => simpa [Memo.run, Memo.step, h] using ih { w with cells := w.cells ++ [c] }
    | call i a =>
      cases h : w.cells[i]? with
      | none => simpa [Memo.run, Memo.step, h] using ih w
      | some c =>
        have := ih { w with cells := w.cells.set i (callLast f same w.enabled c a).1 }
        simpa [Memo.run, Memo.step, h, callLast_val, List.map_set] using this

/-- C124: whatever the history of a program with memoized functions of temperature and pressure, the values of results are right, even
if arguments are compared by value. -/
theorem C124_memoized_values (f : Num × Num → Res Num) (g : ℝ → ℝ → ℝ) (hf : ∀ a, ∃ d, f a = .ok ⟨g a.1.val a.2.val, d⟩)
    (same : Num × Num → Num × Num → Bool) (hs : ∀ a b, same a b = true ↔ a.1.val = b.1.val ∧ a.2.val = b.2.val) (a0 : Num × Num) (r0 : Num)
    (ops : List (Op (Num × Num))) :
    (runLast f same a0 r0 ops).map (Option.map valRes) = plain (fun a => .ok (g a.1.val a.2.val)) 1 ops := by
  have hv : (fun a => valRes (f a)) = fun a : Num × Num => Res.ok (g a.1.val a.2.val) := by
    funext a
    obtain ⟨d, h⟩ := hf a
    rw [h]
    rfl
  have h1 := run_val f same ops (World.init a0 r0)
  have h2 := C01_memoizeLast_invisible (fun a : Num × Num => Res.ok (g a.1.val a.2.val)) same a0 r0.val
    (fun a b h => by rw [((hs a b).1 h).1, ((hs a b).1 h).2]) (fun _ => rfl) ops
  rw [← h2]
  unfold runLast
  rw [← h1, hv]
  rfl

/-- C124 is false with memoized functions when arguments are compared by value: a call with the arguments of the call before and with
derivatives gives the result of the call before, derivatives included. -/
theorem C124_memoized_wrong (f : Num × Num → Res Num) (hf : ∀ a, ∃ r, f a = .ok r) (same : Num × Num → Num × Num → Bool)
    (hs : ∀ a b, same a b = true ↔ a.1.val = b.1.val ∧ a.2.val = b.2.val) (a0 : Num × Num) (r0 : Num) (a b : Num × Num)
    (hab : a.1.val = b.1.val ∧ a.2.val = b.2.val) :
    runLast f same a0 r0 [.call 0 a, .call 0 b] = [some (f a), some (f a)] := by
  obtain ⟨r, h⟩ := hf a
  simp [runLast, Memo.run, Memo.step, World.init, Cell.init, callLast, h, (hs a b).2 hab]

/-- The square of the temperature: its derivative at 3 is 6, and 0 is returned. -/
example : ∃ f : Num × Num → Res Num, (∀ a, ∃ d, f a = .ok ⟨a.1.val ^ 2, d⟩) ∧ f (⟨3, 1⟩, ⟨1, 0⟩) = .ok ⟨9, 6⟩ ∧
    runLast f (fun a b => @decide (a.1.val = b.1.val ∧ a.2.val = b.2.val) (Classical.propDecidable _)) (0, 0) 0
      [.call 0 (⟨3, 0⟩, ⟨1, 0⟩), .call 0 (⟨3, 1⟩, ⟨1, 0⟩)] = [some (.ok ⟨9, 0⟩), some (.ok ⟨9, 0⟩)] := by
  refine ⟨fun a => .ok ⟨a.1.val ^ 2, 2 * a.1.val * a.1.der⟩, fun a => ⟨_, rfl⟩, by norm_num, ?_⟩
  refine (C124_memoized_wrong _ (fun a => ⟨_, rfl⟩) _ (fun a b => by simp) _ _ (⟨3, 0⟩, ⟨1, 0⟩) (⟨3, 1⟩, ⟨1, 0⟩) ⟨rfl, rfl⟩).trans ?_
  norm_num

end Verif.SeededProps
