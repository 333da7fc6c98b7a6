import Verif.Model.NumberText

/-!
# Reactions written as text

`parseReaction` (`Reaktoro/Common/ParseUtils.cpp:209-219`).
-/

namespace Verif.ParseReaction

abbrev Str := List Char

/-- A word of the text (`ParseUtils.cpp:215-216`): the second part is the name, the first one the number. -/
def parseWord (word : Str) : Res (Str × ℚ) :=
  (at! (Strings.split word [':']) 1).bind fun name => (at! (Strings.split word [':']) 0).bind fun number => .ok (name, NumberText.tofloat number)

/-- The loop over the words (`ParseUtils.cpp:213-217`). -/
def parseWords : List Str → Res (List (Str × ℚ))
  | [] => .ok []
  | w :: ws => (parseWord w).bind fun p => (parseWords ws).bind fun l => .ok (p :: l)

/-- `parseReaction` (`ParseUtils.cpp:209-219`). -/
def parseReaction (reaction : Str) : Res (List (Str × ℚ)) := parseWords (Strings.split reaction [' '])

end Verif.ParseReaction
