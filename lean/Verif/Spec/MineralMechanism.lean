import Verif.Model.MineralMechanism
import Verif.Spec.Strings

/-!
# Texts of mineral mechanisms

A mechanism is described by options separated by semicolons; each option consists of words separated by
spaces and equality signs.
-/

namespace Verif.Mineral

open Verif.Strings

/-- What one option says. -/
inductive Setting where
  | rate (logk : ℚ) (factor : ℚ)      -- `factor`: how many mol/(m2*s) one given unit is
  | energy (Ea : ℚ) (factor : ℚ)      -- `factor`: how many kJ/mol one given unit is
  | powerP (p : ℚ)
  | powerQ (q : ℚ)
  | catalyst (c : Catalyst)

/-- The names of the quantities that may act as catalysts. -/
def quantityNames : List Str := [c!"a", c!"activity", c!"p", c!"pressure"]

/-- The text of one option says this. Numbers are read with `atof`. -/
inductive Says : Str → Setting → Prop
  | rate (o v u : Str) (k : ℚ) (hw : Fields c!"= " o [c!"logk", v, u]) (hb : '[' ∉ o)
      (hu : Units.convert 1 u c!"mol/(m2*s)" = .ok k) : Says o (.rate (Numbers.atof v) k)
  | energy (o v u : Str) (k : ℚ) (hw : Fields c!"= " o [c!"Ea", v, u]) (hb : '[' ∉ o)
      (hu : Units.convert 1 u c!"kJ/mol" = .ok k) : Says o (.energy (Numbers.atof v) k)
  | powerP (o v : Str) (hw : Fields c!"= " o [c!"p", v]) (hb : '[' ∉ o) : Says o (.powerP (Numbers.atof v))
  | powerQ (o v : Str) (hw : Fields c!"= " o [c!"q", v]) (hb : '[' ∉ o) : Says o (.powerQ (Numbers.atof v))
  | catalyst (o v qty sp : Str) (hq : qty ∈ quantityNames) (hs : sp ≠ []) (hb : '[' ∉ sp ∧ ']' ∉ sp)
      (hw : Fields c!"= " o [qty ++ c!"[" ++ sp ++ c!"]", v]) :
      Says o (.catalyst ⟨sp, qty, Numbers.atof v⟩)

/-- The effect of an option: a later one of the same kind replaces the value, catalysts add up. -/
noncomputable def Setting.apply (m : Mechanism) : Setting → Mechanism
  | .rate lk k => { m with kappa := (10 : ℝ) ^ ((lk : ℚ) : ℝ) * (k : ℝ) }
  | .energy Ea k => { m with Ea := (Ea : ℝ) * (k : ℝ) }
  | .powerP p => { m with p := p }
  | .powerQ q => { m with q := q }
  | .catalyst c => { m with catalysts := m.catalysts ++ [c] }

/-- A mechanism about which nothing was said. -/
def blank : Mechanism := ⟨0, 0, 1, 1, []⟩

end Verif.Mineral
