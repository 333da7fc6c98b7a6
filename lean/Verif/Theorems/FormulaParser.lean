import Verif.Lemmas.FormulaParser

/-!
# Theorem C10: parsing a chemical formula recovers its composition
-/

namespace Verif.FormulaParser

open Verif.Numbers Verif.Formula

/-- **C10.** For every formula tree (any nesting, any length, any decimal coefficients), followed by any text that cannot belong
to the composition (such as a charge), parsing its written form succeeds and returns a list of pairs without repeated
symbols, containing exactly the elements written in the formula, each with its total number of atoms. -/
theorem C10_parse_formula (f : Formula) (hf : f.WF) (tail : List Char) (ht : IsTail tail) :
    ∃ pairs, parseChemicalFormula (f.text ++ tail) = .ok pairs ∧ (pairs.map Prod.fst).Nodup ∧
      (∀ e, e ∈ pairs.map Prod.fst ↔ f.Mentions e) ∧ (∀ e n, (e, n) ∈ pairs → n = f.atoms e) := by
  have hstop : Stops tail := by
    intro c hc
    obtain ⟨h1, h2⟩ := ht.2 c hc
    have hmem : c ∈ tail := by
      cases tail with
      | nil => simp at hc
      | cons x t => simp at hc; simp [hc]
    exact ⟨h1, (ht.1 c hmem).2.1, by simp [h2]⟩
  have hnd := addFormula_nodup f 1 [] (by simp)
  refine ⟨addFormula 1 f [], ?_, hnd, ?_, ?_⟩
  · unfold parseChemicalFormula
    rw [parseAux_formula f hf tail [] 1 hstop, parseAux_ignored tail ht.1]
  · intro e; simpa using addFormula_keys f e 1 []
  · intro e n hmem
    have h1 := coeff_of_mem e n _ hnd hmem
    have h2 := addFormula_coeff f e 1 []
    rw [← h1, h2]
    simp [coeff]

/-- `(CaMg)(CO3)2`, used as example. -/
def dolomite : Formula :=
  .group (.elem ['C', 'a'] .implicit (.elem ['M', 'g'] .implicit .nil)) .implicit
    (.group (.elem ['C'] .implicit (.elem ['O'] (.int [3]) .nil)) (.int [2]) .nil)

example : dolomite.WF ∧ IsTail ['+', '2'] ∧ dolomite.text = "(CaMg)(CO3)2".toList ∧ dolomite.atoms ['O'] = 6 ∧
    dolomite.Mentions ['C'] := by
  refine ⟨?_, by constructor <;> decide, by decide, ?_, ?_⟩
  · simp [dolomite, Formula.WF, Num.WF, IsSymbol]
  · simp only [dolomite, Formula.atoms, Num.val, show natVal [3] = 3 from rfl, show natVal [2] = 2 from rfl]
    simp
    norm_num
  · simp [dolomite, Formula.Mentions]

/-- **C10 does not extend to hydrates.** The code has a branch for `.` as in `CaSO4.2H2O`, but the dot is consumed by the
number before it: `O` gets 4.2 + 1 atoms and `H` 2, instead of 6 and 4. -/
theorem C10_hydrate_misread :
    parseChemicalFormula "CaSO4.2H2O".toList =
      .ok [(['C', 'a'], 1), (['S'], 1), (['O'], 26 / 5), (['H'], 2)] := by
  unfold parseChemicalFormula
  rw [show "CaSO4.2H2O".toList = (Formula.elem ['C', 'a'] .implicit (.elem ['S'] .implicit (.elem ['O'] (.dec [4] [2])
    (.elem ['H'] (.int [2]) (.elem ['O'] .implicit .nil))))).text ++ [] by decide]
  rw [parseAux_formula _ _ _ _ _ stops_nil, parseAux]
  · simp only [addFormula, Num.val, show natVal [4] = 4 from rfl, show natVal [2] = 2 from rfl]
    simp [addTo]
    norm_num
  · simp [Formula.WF, Num.WF, IsSymbol]

/-- **C10 does not extend to unmatched parentheses.** An opening parenthesis without a closing one makes the parser
read past the end of the string. -/
theorem C10_unmatched_parenthesis_ub (f : Formula) (hf : f.WF) :
    parseChemicalFormula ('(' :: f.text) = .ub := by
  have hm := findMatching_formula f hf 0 []
  have h0 : Strings.findMatchingBracket ((0 : Nat) : Int) [] = ([], []) := rfl
  rw [h0] at hm
  simp only [List.append_nil] at hm
  have hm' : Strings.findMatchingBracket 0 f.text = (f.text, []) := hm
  unfold parseChemicalFormula
  rw [parseAux, if_neg (by simp), if_pos rfl]
  split
  · rfl
  · rename_i h
    rw [hm'] at h; simp at h

end Verif.FormulaParser
