import Verif.Base
import Verif.Model.Numbers
import Verif.Model.Strings

/-!
# Model of the chemical formula parser (`Reaktoro/Common/ParseUtils.cpp`)

An iterator range `[begin, end)` is the list of its characters.
-/

namespace Verif.FormulaParser

open Verif.Numbers

abbrev Str := List Char

/-- `parseElementAtom` (ParseUtils.cpp:31-38): symbol and the remaining text. -/
def parseElementAtom : Str → Str × Str
  | [] => ([], [])
  | c :: s =>
    let stop := fun (x : Char) => x.isUpper || !x.isAlpha
    let element := c :: s.takeWhile (fun x => !stop x)
    let rest := s.dropWhile (fun x => !stop x)
    if c.isLower then ([], rest) else (element, rest)

/-- `parseNumAtoms` (ParseUtils.cpp:40-47): number and the remaining text. -/
def parseNumAtoms : Str → Rat × Str
  | [] => (1, [])
  | c :: s =>
    if !(c.isDigit || c == '.') then (1, c :: s)
    else
      let isnum := fun (x : Char) => x.isDigit || x == '.'
      (atof ((c :: s).takeWhile isnum), (c :: s).dropWhile isnum)

theorem dropWhile_length (p : Char → Bool) (s : Str) : (s.dropWhile p).length ≤ s.length :=
  (List.dropWhile_sublist p).length_le

theorem parseNumAtoms_length (s : Str) : (parseNumAtoms s).2.length ≤ s.length := by
  unfold parseNumAtoms
  split
  · simp
  · split
    · simp
    · exact dropWhile_length _ _

theorem parseElementAtom_length (c : Char) (s : Str) : (parseElementAtom (c :: s)).2.length ≤ s.length := by
  unfold parseElementAtom
  simp only
  split <;> exact dropWhile_length _ _

/-- Insertion in the result (ParseUtils.cpp:119-123): add to the first pair with that symbol, or append. -/
def addTo (element : Str) (x : Rat) : List (Str × Rat) → List (Str × Rat)
  | [] => [(element, x)]
  | (k, v) :: rest => if k = element then (k, v + x) :: rest else (k, v) :: addTo element x rest

/-- `parseChemicalFormulaAux` (ParseUtils.cpp:77-130). `findMatchedParenthesis` (49-61) has the same loop as
`findMatchingBracket` of StringList.cpp; when there is no match it returns `end` and line 92 reads past the end. -/
def parseAux (s : Str) (result : List (Str × Rat)) (scalar : Rat) : Res (List (Str × Rat)) :=
  match s with
  | [] => .ok result
  | c :: rest =>
    if c ≠ '(' ∧ c ≠ '.' ∧ ¬ c.isUpper then parseAux rest result scalar                     -- 81-84
    else if c = '(' then                                                                     -- 85-99
      match hm : (Strings.findMatchingBracket 0 rest).2 with
      | [] => .ub
      | _ :: after =>
        Res.bind (parseAux (Strings.findMatchingBracket 0 rest).1 result (scalar * (parseNumAtoms after).1))
          (fun result1 => parseAux (parseNumAtoms after).2 result1 scalar)
    else if c = '.' then                                                                     -- 100-110
      parseAux (parseNumAtoms rest).2 result (scalar * (parseNumAtoms rest).1)
    else                                                                                     -- 111-129
      parseAux (parseNumAtoms (parseElementAtom (c :: rest)).2).2
        (addTo (parseElementAtom (c :: rest)).1 (scalar * (parseNumAtoms (parseElementAtom (c :: rest)).2).1) result)
        scalar
termination_by s.length
decreasing_by
  · simp
  · have h : (Strings.findMatchingBracket 0 rest).1.length + (Strings.findMatchingBracket 0 rest).2.length
        = rest.length := by
      have : ∀ (l : Int) (t : Str),
          (Strings.findMatchingBracket l t).1.length + (Strings.findMatchingBracket l t).2.length = t.length := by
        intro l t
        induction t generalizing l with
        | nil => rfl
        | cons x t ih =>
          simp only [Strings.findMatchingBracket]
          split
          · simp
          · simp only [List.length_cons]; have := ih (Strings.nextLevel l x); omega
      exact this 0 rest
    simp only [List.length_cons]; omega
  · have h1 := Strings.findMatchingBracket_length 0 rest
    rw [hm] at h1
    have h2 := parseNumAtoms_length after
    simp only [List.length_cons] at h1 ⊢; omega
  · have h2 := parseNumAtoms_length rest
    simp only [List.length_cons]; omega
  · have h1 := parseElementAtom_length c rest
    have h2 := parseNumAtoms_length (parseElementAtom (c :: rest)).2
    simp only [List.length_cons]; omega

/-- `parseChemicalFormula` (ParseUtils.cpp:132-138). -/
def parseChemicalFormula (formula : Str) : Res (List (Str × Rat)) := parseAux formula [] 1

end Verif.FormulaParser
