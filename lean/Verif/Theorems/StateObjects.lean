import Verif.Spec.StateObjects
import Verif.Lemmas.Owned

/-!
# C88: copies of chemical states
-/

namespace Verif.StateObjects

open Owned ChemicalState Chem

theorem step_refines {w : World Data} {o : List Data} (h : Rep w o) (debug : Bool) (me : Rat) (x : Stmt) :
    match step Data.copy debug me w x, valueStep debug me o x with
    | .ok w', .ok o' => Rep w' o'
    | .throw, .throw => True
    | .ub, .ub => True
    | _, _ => False := by
  cases x with
  | new s => exact h.append _
  | copy i =>
    simp only [step, valueStep]
    rw [h.val i]
    cases o[i]? with
    | none => exact h
    | some d => exact h.append d
  | assign i j =>
    simp only [step, valueStep]
    rw [h.val j]
    cases o[j]? with
    | none => exact h
    | some d => exact h.assign i d
  | call i op =>
    simp only [step, valueStep]
    have hv := h.val i
    cases hp : w.ptr[i]? with
    | none =>
      have : w.get? i = none := by rw [World.get?, hp]
      rw [this] at hv
      rw [← hv]
      exact h
    | some a =>
      cases hg : w.get? i with
      | none => rw [hg] at hv; rw [← hv]; exact h
      | some d =>
        rw [hg] at hv
        rw [← hv]
        simp only
        generalize ChemicalState.step debug me d.species d.st op = r
        obtain ⟨st, e⟩ := r
        cases e with
        | returned => exact h.update i a _ hp
        | threw => exact h.update i a _ hp
        | aborted => trivial
        | undefined => trivial

/-- **C88.** Every program sees chemical states as values: a copy, or the target of an assignment, has the
temperature, pressure and amounts of the original, and later changes of one do not show in the other. -/
theorem C88_values (debug : Bool) (me : Rat) (xs : List Stmt) :
    match run Data.copy debug me ⟨[], []⟩ xs, valueRun debug me [] xs with
    | .ok w, .ok o => ∀ i : Nat, w.get? i = o[i]?
    | .throw, .throw => True
    | .ub, .ub => True
    | _, _ => False := by
  have key : ∀ (xs : List Stmt) (w : World Data) (o : List Data), Rep w o →
      match run Data.copy debug me w xs, valueRun debug me o xs with
      | .ok w, .ok o => Rep w o
      | .throw, .throw => True
      | .ub, .ub => True
      | _, _ => False := by
    intro xs
    induction xs with
    | nil => intro w o h; exact h
    | cons x xs ih =>
      intro w o h
      have hs := step_refines h debug me x
      simp only [run, valueRun]
      revert hs
      cases step Data.copy debug me w x <;> cases valueStep debug me o x <;> intro hs <;>
        first | exact hs | trivial | exact ih _ _ hs
  have := key xs ⟨[], []⟩ [] Rep.empty
  revert this
  cases run Data.copy debug me ⟨[], []⟩ xs <;> cases valueRun debug me [] xs <;> intro h <;>
    first | exact h | exact h.val

/-- **C88, part that holds** for porous rock states: a copy has the same system, and equals the original
exactly when this is still as new. -/
theorem C88_rock_partial (d : Data) :
    d.copyRock.species = d.species ∧ (d.copyRock = d ↔ d.st = initial d.species) := by
  refine ⟨rfl, ⟨fun h => ?_, fun h => ?_⟩⟩
  · rw [← h]; rfl
  · cases d; simp only at h; subst h; rfl

/-- **C88 fails** for porous rock states: an assignment `a = b` resets `a` to 25 °C, 1 bar and zero amounts,
whatever `b` is. -/
theorem C88_rock_wrong (debug : Bool) (me : Rat) (w : World Data) (i j : Nat) (b : Data)
    (hj : w.get? j = some b) (hi : i < w.ptr.length) :
    ∃ w', step Data.copyRock debug me w (.assign i j) = .ok w' ∧
      w'.get? i = some ⟨b.species, 29815 / 100, 100000, List.replicate b.species.length 0⟩ := by
  refine ⟨w.take i (Data.copyRock b).copy, ?_, ?_⟩
  · simp only [step, hj]
  · simp [World.get?, World.take, hi]
    rfl

/-- A program with one species: the second object is a copy, changed afterwards. -/
example (debug : Bool) (me : Rat) (s : Species) :
    valueRun debug me [] [.new [s], .call 0 (.temperature 300), .copy 0, .call 0 (.temperature 310)] =
      .ok [⟨[s], 310, 100000, [0]⟩, ⟨[s], 300, 100000, [0]⟩] := by rfl

/-- With porous rock states the copy has another temperature. -/
example (debug : Bool) (me : Rat) (s : Species) :
    ∃ w, run Data.copyRock debug me ⟨[], []⟩ [.new [s], .call 0 (.temperature 300), .copy 0] = .ok w ∧
      w.get? 0 = some ⟨[s], 300, 100000, [0]⟩ ∧ w.get? 1 = some ⟨[s], 29815 / 100, 100000, [0]⟩ :=
  ⟨_, rfl, rfl, rfl⟩

end Verif.StateObjects
