import Verif.Base

/-!
# Model of string utilities (`Reaktoro/Common/StringUtils.hpp`, `StringList.cpp`)

Strings are lists of characters.
-/

namespace Verif.Strings

abbrev Str := List Char

/-- `std::isspace` in the "C" locale. -/
def isSpace (c : Char) : Bool :=
  c == ' ' || c == '\t' || c == '\n' || c == '\x0b' || c == '\x0c' || c == '\r'

/-- `trimleft` (StringUtils.hpp:102-107): erase up to the first non-space. -/
def trimleft (s : Str) : Str := s.dropWhile isSpace

/-- `trimright` (StringUtils.hpp:110-115): erase from after the last non-space. -/
def trimright (s : Str) : Str := (s.reverse.dropWhile isSpace).reverse

/-- `trim` (StringUtils.hpp:118-121). -/
def trim (s : Str) : Str := trimleft (trimright s)

/-- `split` (StringUtils.hpp:124-142) without transform. `rest` is the part of the string from `start` on; `find_first_of`
splits it at the first delimiter; the loop ends when there is none. -/
def split (rest : Str) (delims : Str) : List Str :=
  let word := rest.takeWhile (fun c => !delims.contains c)
  let words := if word ≠ [] then [word] else []
  match h : rest.dropWhile (fun c => !delims.contains c) with
  | [] => words
  | _ :: rest' => words ++ split rest' delims
termination_by rest.length
decreasing_by
  have := (List.dropWhile_sublist (fun c => !delims.contains c) (l := rest)).length_le
  rw [h] at this
  simp only [List.length_cons] at this
  omega

/-- The loop of `join` (StringUtils.hpp:145-151) from index `i` with `res` accumulated. -/
def joinGo (sep : Str) (i : Nat) (res : Str) : List Str → Str
  | [] => res
  | s :: strs => joinGo sep (i + 1) (res ++ ((if i = 0 then [] else sep) ++ s)) strs

/-- `join` (StringUtils.hpp:145-151). -/
def join (strs : List Str) (sep : Str) : Str := joinGo sep 0 [] strs

/-- Inner loop of `makeunique` (StringUtils.hpp:166-168). -/
def uniqueWord (suffix : Str) (previous : List Str) (word : Str) : Str :=
  previous.foldl (fun u w => if u == w then u ++ suffix else u) word

/-- `makeunique` (StringUtils.hpp:160-172). The loop starts at the second word; for the first word the inner loop has
no previous words, so starting at the first word is the same. -/
def makeunique (words : List Str) (suffix : Str) : List Str :=
  words.foldl (fun done w => done ++ [uniqueWord suffix done w]) []

/-- Update of `level` by one character (StringList.cpp:41-42). -/
def nextLevel (level : Int) (c : Char) : Int :=
  let level := if c = '(' then level + 1 else level
  if c = ')' then level - 1 else level

/-- `findMatchingBracket` (StringList.cpp:35-47), given the characters after the opening bracket. Returns the characters
before the matching closing bracket and the rest starting with it (nothing if there is none). -/
def findMatchingBracket (level : Int) : Str → Str × Str
  | [] => ([], [])
  | c :: rest =>
    if c = ')' ∧ nextLevel level c = -1 then ([], c :: rest)
    else (c :: (findMatchingBracket (nextLevel level c) rest).1, (findMatchingBracket (nextLevel level c) rest).2)

theorem findMatchingBracket_length (level : Int) (s : Str) : (findMatchingBracket level s).2.length ≤ s.length := by
  induction s generalizing level with
  | nil => simp [findMatchingBracket]
  | cons c rest ih =>
    simp only [findMatchingBracket]
    split
    · simp
    · simp only [List.length_cons]
      exact Nat.le_succ_of_le (ih _)

/-- `convertStringToStringsHelper` (StringList.cpp:53-77): `acc` is the text from `begin` to `current`, the argument the
text from `current` on. -/
def convertHelper (token : Char) (acc : Str) (s : Str) : List Str :=
  match s with
  | [] => [acc]
  | c :: rest =>
    if c = token then acc :: convertHelper token [] rest
    else if c ≠ '(' then convertHelper token (acc ++ [c]) rest
    else
      convertHelper token (acc ++ c :: (findMatchingBracket 0 rest).1) (findMatchingBracket 0 rest).2
termination_by s.length
decreasing_by
  · simp
  · simp
  · have := findMatchingBracket_length 0 rest
    simp only [List.length_cons]; omega

/-- `convertStringToStrings` (StringList.cpp:80-86). -/
def convertStringToStrings (s : Str) (token : Char) : List Str :=
  if s ≠ [] then convertHelper token [] s else []

/-- `StringList(strings, token)` (StringList.cpp:101-116). -/
def stringList (s : Str) (token : Char) : List Str := convertStringToStrings (trim s) token

end Verif.Strings
