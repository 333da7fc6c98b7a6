import Verif.Base

/-!
# Tables of the progress of a calculation

Model of `/repo/Reaktoro/Common/Outputter.cpp`. Texts are lists of characters; the values are the texts made
from them by `addValue`. What is written to the standard output is a text that grows.
-/

namespace Verif.Outputter

abbrev Str := List Char

/-- The options used here (`Outputter.hpp` 30-45). -/
structure Options where
  active : Bool
  width : Nat
  separator : Str

/-- An outputter (`Outputter.hpp` 104-109) and what was written. -/
structure Outp where
  entries : List Str
  values : List Str
  options : Options
  out : Str

/-- `colwidth` (`Outputter.cpp` 27-30). -/
def colwidth (width : Nat) (s : Str) : Nat := if s.length + 4 < width then width else s.length + 4

/-- `barstr` (`Outputter.cpp` 33-36). -/
def barstr (width : Nat) (s : Str) : Str := List.replicate (colwidth width s) '='

/-- Output with `std::setw(w) << std::left`. -/
def padded (w : Nat) (s : Str) : Str := s ++ List.replicate (w - s.length) ' '

/-- The operations. -/
inductive Op where
  | setOptions (o : Options)
  | addEntry (name : Str)
  | addEntrySeparator
  | addValue (text : Str)
  | addValueSeparator
  | outputHeader
  | outputState
  | outputMessage (m : Str)

/-- The cells of a line of bars. -/
def bars (o : Options) (entries : List Str) : List Str :=
  entries.map fun e => if e = o.separator then o.separator else barstr o.width e

/-- The cells of the line of names. -/
def names (o : Options) (entries : List Str) : List Str :=
  entries.map fun e => if e = o.separator then o.separator else padded (colwidth o.width e) e

/-- The loop of `outputState` (`Outputter.cpp` 119-122): the cells of the line of values. The iterator over
the entries moves only at values that are not separators; `*entry` after the last is undefined. -/
def cells (o : Options) : List Str → List Str → Res (List Str)
  | _, [] => .ok []
  | entries, v :: vs =>
    if v = o.separator then (cells o entries vs).bind fun r => .ok (o.separator :: r)
    else
      match entries with
      | [] => .ub
      | e :: es => (cells o es vs).bind fun r => .ok (padded (colwidth o.width e) v :: r)

/-- Effect of an operation (`Outputter.cpp` 49-132). An exception leaves the object as it is; the program
goes on. The second part tells whether an exception was thrown. -/
def step (s : Outp) : Op → Res (Outp × Bool)
  | .setOptions o => .ok ({ s with options := o }, false)
  | .addEntry n => .ok ({ s with entries := s.entries ++ [n] }, false)
  | .addEntrySeparator => .ok ({ s with entries := s.entries ++ [s.options.separator] }, false)
  | .addValue v => .ok ({ s with values := s.values ++ [v] }, false)
  | .addValueSeparator => .ok ({ s with values := s.values ++ [s.options.separator] }, false)
  | .outputHeader =>
    if s.options.active then
      let b := (bars s.options s.entries).flatten
      let n := (names s.options s.entries).flatten
      .ok ({ s with out := s.out ++ b ++ c!"\n" ++ n ++ c!"\n" ++ b ++ c!"\n" }, false)
    else .ok (s, false)
  | .outputState =>
    if s.options.active then
      if s.entries.length = s.values.length then
        (cells s.options s.entries s.values).bind fun c =>
          .ok ({ s with out := s.out ++ c.flatten ++ c!"\n", values := [] }, false)
      else .ok (s, true)
    else .ok (s, false)
  | .outputMessage m => .ok (if s.options.active then { s with out := s.out ++ m ++ c!"\n" } else s, false)

/-- A program. -/
def run (s : Outp) : List Op → Res Outp
  | [] => .ok s
  | op :: ops => (step s op).bind fun r => run r.1 ops

end Verif.Outputter
