import Mathlib.Analysis.SpecialFunctions.Pow.Real
import Verif.Model.Strings
import Verif.Model.Units
import Verif.Model.Numbers

/-!
# Mineral mechanisms and catalysts

Model of `/repo/Reaktoro/Reactions/Mineral/MineralCatalyst.cpp` and `MineralMechanism.cpp`. Texts are
lists of characters; `atof` is that of `Verif/Model/Numbers.lean` (decimal texts without exponent);
numbers are exact.
-/

namespace Verif.Mineral

open Verif.Strings Verif.Numbers

/-- `MineralCatalyst` (`MineralCatalyst.hpp` 52-59). -/
structure Catalyst where
  species : Str
  quantity : Str
  power : ℚ
  deriving DecidableEq

/-- `checkCatalystQuantity` (`MineralCatalyst.cpp` 35-44). -/
def checkQuantity (quantity : Str) : Res Unit :=
  if quantity ≠ c!"a" ∧ quantity ≠ c!"activity" ∧ quantity ≠ c!"p" ∧ quantity ≠ c!"pressure" then .throw
  else .ok ()

/-- `MineralCatalyst(species, quantity, power)` (`MineralCatalyst.cpp` 51-55). -/
def Catalyst.make (species quantity : Str) (power : ℚ) : Res Catalyst :=
  (checkQuantity quantity).bind fun _ => .ok ⟨species, quantity, power⟩

/-- `MineralCatalyst(catalyst)` (`MineralCatalyst.cpp` 57-77). -/
def Catalyst.ofText (catalyst : Str) : Res Catalyst :=
  let words := split catalyst c!"= "
  if words.length ≠ 2 then .throw
  else
    (at! words 1).bind fun power =>
    (at! words 0).bind fun first =>
    let words := split first c!"[]"
    (at! words 1).bind fun species =>
    (at! words 0).bind fun quantity =>
    (checkQuantity quantity).bind fun _ => .ok ⟨species, quantity, atof power⟩

/-- `operator==` of catalysts (`MineralCatalyst.cpp` 84-87). -/
def Catalyst.eq (l r : Catalyst) : Bool := l.species == r.species

/-- `MineralMechanism` (`MineralMechanism.hpp` 87-100). -/
structure Mechanism where
  kappa : ℝ
  Ea : ℝ
  p : ℚ
  q : ℚ
  catalysts : List Catalyst

/-- `MineralMechanism::MineralMechanism()` with the initial values of the members. -/
def Mechanism.new : Mechanism := ⟨0, 0, 1, 1, []⟩

/-- `units::convert` (`Units.hpp` 47-51) for a real number. -/
noncomputable def convertR (value : ℝ) (src dst : Str) : Res ℝ :=
  if src = dst then .ok value
  else (Units.slope src dst).bind fun a => (Units.intercept src dst).bind fun b =>
    .ok (value * (a : ℝ) + (b : ℝ))

/-- `mol/(m2*s)`. -/
def rateUnit : Str := c!"mol/(m2*s)"

/-- `kJ/mol`. -/
def energyUnit : Str := c!"kJ/mol"

/-- `checkRateConstantUnit`, `checkActivationEnergyUnit` (`MineralMechanism.cpp` 47-59). -/
def checkUnit (unit dst : Str) : Res Unit :=
  (Units.convertible unit dst).bind fun b => if b then .ok () else .throw

/-- `setRateConstant` (`MineralMechanism.cpp` 102-107). -/
noncomputable def Mechanism.setRateConstant (m : Mechanism) (value : ℝ) (unit : Str) : Res Mechanism :=
  (checkUnit unit rateUnit).bind fun _ =>
  (convertR value unit rateUnit).bind fun x => .ok { m with kappa := x }

/-- `setActivationEnergy` (`MineralMechanism.cpp` 109-114). -/
noncomputable def Mechanism.setActivationEnergy (m : Mechanism) (value : ℝ) (unit : Str) : Res Mechanism :=
  (checkUnit unit energyUnit).bind fun _ =>
  (convertR value unit energyUnit).bind fun x => .ok { m with Ea := x }

/-- `setCatalysts(strcatalysts)` (`MineralMechanism.cpp` 128-133): the old ones are cleared before the
text is read; on failure they are lost. -/
def Mechanism.setCatalysts (m : Mechanism) (text : Str) : Mechanism × Res Unit :=
  match Catalyst.ofText text with
  | .ok c => ({ m with catalysts := [c] }, .ok ())
  | .throw => ({ m with catalysts := [] }, .throw)
  | .ub => ({ m with catalysts := [] }, .ub)

/-- `option.find(s) != npos`. -/
def hasInfix (s : Str) : Str → Bool
  | [] => s.isPrefixOf []
  | c :: t => s.isPrefixOf (c :: t) || hasInfix s t

/-- The test for a catalyst (`MineralMechanism.cpp` 74-75). -/
def isCatalystOption (option : Str) : Bool :=
  hasInfix c!"a[" option || hasInfix c!"activity[" option ||
    hasInfix c!"p[" option || hasInfix c!"pressure[" option

/-- The body of the loop over the options (`MineralMechanism.cpp` 72-99). -/
noncomputable def Mechanism.addOption (m : Mechanism) (option : Str) : Res Mechanism :=
  if isCatalystOption option then
    (Catalyst.ofText option).bind fun c => .ok { m with catalysts := m.catalysts ++ [c] }
  else
    let words := split option c!"= "
    if words.isEmpty || 3 < words.length then .throw
    else
      (at! words 0).bind fun quantity =>
      (at! words 1).bind fun text =>
      let value := atof text
      if (quantity = c!"logk" ∨ quantity = c!"Ea") ∧ words.length < 3 then .throw
      else
        let unit := if words.length = 3 then words.getD 2 [] else []
        if quantity = c!"logk" then m.setRateConstant ((10 : ℝ) ^ ((value : ℚ) : ℝ)) unit
        else if quantity = c!"Ea" then m.setActivationEnergy ((value : ℚ) : ℝ) unit
        else if quantity = c!"p" then .ok { m with p := value }
        else if quantity = c!"q" then .ok { m with q := value }
        else .throw

/-- The loop over the options. -/
noncomputable def addOptions (m : Mechanism) : List Str → Res Mechanism
  | [] => .ok m
  | o :: os => (m.addOption o).bind fun m => addOptions m os

/-- `MineralMechanism(mechanism)` (`MineralMechanism.cpp` 68-100). -/
noncomputable def Mechanism.ofText (mechanism : Str) : Res Mechanism :=
  addOptions .new (split mechanism c!";")

/-- `operator==` of mechanisms (`MineralMechanism.cpp` 153-156). -/
def Mechanism.Eq (l r : Mechanism) : Prop := l.kappa = r.kappa

end Verif.Mineral
