import Verif.Model.ActivityModels

/-!
# More of C63: the parameters of the Debye-Hückel model that are given for formulas
-/

namespace Verif.Activity

open Verif.Aqueous

/-- What is used for a formula: the number given for the first equivalent formula, else the default. -/
def Chosen (given : List (Formula × ℝ)) (default : ℝ) (f : Formula) (v : ℝ) : Prop :=
  (∃ before g after, given = before ++ (g, v) :: after ∧ f.equivalent g = true ∧ ∀ q ∈ before, f.equivalent q.1 = false) ∨
  ((∀ q ∈ given, f.equivalent q.1 = false) ∧ v = default)

theorem chosen_getParam (given : List (Formula × ℝ)) (default : ℝ) (f : Formula) : Chosen given default f (getParam f given default) := by
  unfold getParam
  induction given with
  | nil => exact .inr ⟨(fun q hq => by cases hq), rfl⟩
  | cons p rest ih =>
    by_cases h : f.equivalent p.1 = true
    · refine .inl ⟨[], p.1, rest, ?_, h, fun q hq => by cases hq⟩
      simp [List.find?_cons, h]
    · have h' : f.equivalent p.1 = false := by simpa using h
      rw [List.find?_cons]
      simp only [h']
      rcases ih with ⟨b, g, a, h1, h2, h3⟩ | ⟨h1, h2⟩
      · refine .inl ⟨p :: b, g, a, by rw [List.cons_append, ← h1], h2, ?_⟩
        intro q hq
        rcases List.mem_cons.1 hq with rfl | hq
        · exact h'
        · exact h3 q hq
      · refine .inr ⟨?_, h2⟩
        intro q hq
        rcases List.mem_cons.1 hq with rfl | hq
        · exact h'
        · exact h1 q hq

/-- **C63 (parameters of the Debye-Hückel model).** The parameters of a species are those given for a formula equivalent to its own, each from its own map, else
the default of that map. -/
theorem C63_given_parameters (p : DHParams) (f : Formula) :
    Chosen p.aions p.aiondefault f (p.aion f) ∧ Chosen p.bions p.biondefault f (p.bion f) ∧ Chosen p.bneutrals p.bneutraldefault f (p.bneutral f) :=
  ⟨chosen_getParam _ _ _, chosen_getParam _ _ _, chosen_getParam _ _ _⟩

/-- A number is given for water only. -/
example : Chosen [(waterFormula, 7)] 3 waterFormula 7 ∧ Chosen [(waterFormula, 7)] 3 protonFormula 3 ∧
    ({ aiondefault := 3, aions := [(waterFormula, 7)] } : DHParams).aion waterFormula = 7 := by
  have hw : waterFormula.equivalent waterFormula = true := by decide +kernel
  have hp : protonFormula.equivalent waterFormula = false := by decide +kernel
  refine ⟨.inl ⟨[], waterFormula, [], rfl, hw, (fun q hq => by cases hq)⟩, .inr ⟨?_, rfl⟩, ?_⟩
  · intro q hq
    rw [List.mem_singleton.1 hq]
    exact hp
  · simp [DHParams.aion, getParam, hw]

end Verif.Activity
