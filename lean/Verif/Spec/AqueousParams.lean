import Verif.Base
import Verif.Spec.Lists

/-!
# Specification for C101: the parameters of the aqueous activity models

The published tables, written with the composition and charge of each ion.  Tables of PHREEQC and WATEQ4F: the values of `-gamma` in the database files
`phreeqc.dat` and `wateq4f.dat` as the source states them; table of Kielland (1937): with zirconium(IV); effective radii of Helgeson, Kirkham and
Flowers (1981), table 3: with gallium(III).
-/

namespace Verif.AqueousParams

/-- A row of a published table. -/
structure Row where
  elements : List (List Char × Rat)
  charge : Rat
  value : Rat
  deriving DecidableEq

/-- The row is that of a substance with this composition and charge. -/
def Row.Is (r : Row) (elements : List (List Char × Rat)) (charge : Rat) : Prop :=
  Lists.SameComposition elements r.elements ∧ charge = r.charge

/-- The value of the table for a composition and charge, or the default if the table does not have it. -/
def Tabulated (table : List Row) (default : Rat) (elements : List (List Char × Rat)) (charge v : Rat) : Prop :=
  (∃ r ∈ table, r.Is elements charge ∧ v = r.value) ∨ ((∀ r ∈ table, ¬ r.Is elements charge) ∧ v = default)

/-- PHREEQC: the ion size `å`. -/
def phreeqcSize : List Row := [
  ⟨[(c!"Al", 1), (c!"O", 2), (c!"H", 2)], 1, 54 / 10⟩, ⟨[(c!"Al", 1), (c!"O", 4), (c!"H", 4)], -1, 45 / 10⟩,
  ⟨[(c!"Al", 1), (c!"S", 2), (c!"O", 8)], -1, 45 / 10⟩, ⟨[(c!"Al", 1)], 3, 9⟩, ⟨[(c!"Al", 1), (c!"F", 1)], 2, 54 / 10⟩,
  ⟨[(c!"Al", 1), (c!"F", 2)], 1, 54 / 10⟩, ⟨[(c!"Al", 1), (c!"F", 4)], -1, 45 / 10⟩, ⟨[(c!"Al", 1), (c!"O", 1), (c!"H", 1)], 2, 54 / 10⟩,
  ⟨[(c!"Al", 1), (c!"S", 1), (c!"O", 4)], 1, 45 / 10⟩, ⟨[(c!"Ba", 1)], 2, 4⟩, ⟨[(c!"Ba", 1), (c!"O", 1), (c!"H", 1)], 1, 5⟩, ⟨[(c!"Br", 1)], -1, 3⟩,
  ⟨[(c!"C", 1), (c!"O", 3)], -2, 54 / 10⟩, ⟨[(c!"Ca", 1)], 2, 5⟩, ⟨[(c!"Ca", 1), (c!"H", 2), (c!"P", 1), (c!"O", 4)], 1, 54 / 10⟩,
  ⟨[(c!"Ca", 1), (c!"H", 1), (c!"C", 1), (c!"O", 3)], 1, 6⟩, ⟨[(c!"Ca", 1), (c!"P", 1), (c!"O", 4)], -1, 54 / 10⟩, ⟨[(c!"Cl", 1)], -1, 363 / 100⟩,
  ⟨[(c!"Cu", 1)], 1, 25 / 10⟩, ⟨[(c!"Cu", 1)], 2, 6⟩, ⟨[(c!"Cu", 1), (c!"Cl", 1)], 1, 4⟩, ⟨[(c!"Cu", 1), (c!"Cl", 2)], -1, 4⟩,
  ⟨[(c!"Cu", 1), (c!"Cl", 3)], -1, 4⟩, ⟨[(c!"Cu", 1), (c!"Cl", 3)], -2, 5⟩, ⟨[(c!"Cu", 1), (c!"Cl", 4)], -2, 5⟩,
  ⟨[(c!"Cu", 1), (c!"O", 1), (c!"H", 1)], 1, 4⟩, ⟨[(c!"F", 1)], -1, 35 / 10⟩, ⟨[(c!"Fe", 1), (c!"O", 2), (c!"H", 2)], 1, 54 / 10⟩,
  ⟨[(c!"Fe", 1), (c!"O", 3), (c!"H", 3)], -1, 5⟩, ⟨[(c!"Fe", 1), (c!"O", 4), (c!"H", 4)], -1, 54 / 10⟩, ⟨[(c!"Fe", 1)], 2, 6⟩, ⟨[(c!"Fe", 1)], 3, 9⟩,
  ⟨[(c!"Fe", 1), (c!"Cl", 1)], 2, 5⟩, ⟨[(c!"Fe", 1), (c!"Cl", 2)], 1, 5⟩, ⟨[(c!"Fe", 1), (c!"F", 1)], 2, 5⟩, ⟨[(c!"Fe", 1), (c!"F", 2)], 1, 5⟩,
  ⟨[(c!"Fe", 1), (c!"H", 2), (c!"P", 1), (c!"O", 4)], 1, 54 / 10⟩, ⟨[(c!"Fe", 1), (c!"H", 2), (c!"P", 1), (c!"O", 4)], 2, 54 / 10⟩,
  ⟨[(c!"Fe", 1), (c!"H", 1), (c!"P", 1), (c!"O", 4)], 1, 5⟩, ⟨[(c!"Fe", 1), (c!"O", 1), (c!"H", 1)], 1, 5⟩,
  ⟨[(c!"Fe", 1), (c!"O", 1), (c!"H", 1)], 2, 5⟩, ⟨[(c!"Fe", 1), (c!"S", 1), (c!"O", 4)], 1, 5⟩, ⟨[(c!"H", 1)], 1, 9⟩,
  ⟨[(c!"H", 2), (c!"P", 1), (c!"O", 4)], -1, 54 / 10⟩, ⟨[(c!"H", 2), (c!"Si", 1), (c!"O", 4)], -2, 54 / 10⟩,
  ⟨[(c!"H", 3), (c!"Si", 1), (c!"O", 4)], -1, 4⟩, ⟨[(c!"H", 1), (c!"C", 1), (c!"O", 3)], -1, 54 / 10⟩, ⟨[(c!"H", 1), (c!"P", 1), (c!"O", 4)], -2, 5⟩,
  ⟨[(c!"H", 1), (c!"S", 1)], -1, 35 / 10⟩, ⟨[(c!"K", 1)], 1, 35 / 10⟩, ⟨[(c!"K", 1), (c!"H", 1), (c!"P", 1), (c!"O", 4)], -1, 54 / 10⟩,
  ⟨[(c!"K", 1), (c!"S", 1), (c!"O", 4)], -1, 54 / 10⟩, ⟨[(c!"Li", 1)], 1, 6⟩, ⟨[(c!"Li", 1), (c!"S", 1), (c!"O", 4)], -1, 5⟩,
  ⟨[(c!"Mg", 1)], 2, 55 / 10⟩, ⟨[(c!"Mg", 1), (c!"F", 1)], 1, 45 / 10⟩, ⟨[(c!"Mg", 1), (c!"H", 2), (c!"P", 1), (c!"O", 4)], 1, 54 / 10⟩,
  ⟨[(c!"Mg", 1), (c!"H", 1), (c!"C", 1), (c!"O", 3)], 1, 4⟩, ⟨[(c!"Mg", 1), (c!"O", 1), (c!"H", 1)], 1, 65 / 10⟩,
  ⟨[(c!"Mg", 1), (c!"P", 1), (c!"O", 4)], -1, 54 / 10⟩, ⟨[(c!"Mn", 1), (c!"O", 3), (c!"H", 3)], -1, 5⟩, ⟨[(c!"Mn", 1)], 2, 6⟩, ⟨[(c!"Mn", 1)], 3, 9⟩,
  ⟨[(c!"Mn", 1), (c!"Cl", 1)], 1, 5⟩, ⟨[(c!"Mn", 1), (c!"Cl", 3)], -1, 5⟩, ⟨[(c!"Mn", 1), (c!"F", 1)], 1, 5⟩,
  ⟨[(c!"Mn", 1), (c!"H", 1), (c!"C", 1), (c!"O", 3)], 1, 5⟩, ⟨[(c!"Mn", 1), (c!"O", 1), (c!"H", 1)], 1, 5⟩, ⟨[(c!"N", 1), (c!"H", 4)], 1, 25 / 10⟩,
  ⟨[(c!"N", 1), (c!"O", 2)], -1, 3⟩, ⟨[(c!"N", 1), (c!"O", 3)], -1, 3⟩, ⟨[(c!"Na", 1)], 1, 408 / 100⟩,
  ⟨[(c!"Na", 1), (c!"H", 1), (c!"P", 1), (c!"O", 4)], -1, 54 / 10⟩, ⟨[(c!"Na", 1), (c!"S", 1), (c!"O", 4)], -1, 54 / 10⟩,
  ⟨[(c!"O", 1), (c!"H", 1)], -1, 35 / 10⟩, ⟨[(c!"P", 1), (c!"O", 4)], -3, 4⟩, ⟨[(c!"S", 1)], -2, 5⟩, ⟨[(c!"S", 1), (c!"O", 4)], -2, 5⟩,
  ⟨[(c!"Si", 1), (c!"F", 6)], -2, 5⟩, ⟨[(c!"Sr", 1)], 2, 526 / 100⟩, ⟨[(c!"Sr", 1), (c!"H", 1), (c!"C", 1), (c!"O", 3)], 1, 54 / 10⟩,
  ⟨[(c!"Sr", 1), (c!"O", 1), (c!"H", 1)], 1, 5⟩, ⟨[(c!"Zn", 1)], 2, 5⟩, ⟨[(c!"Zn", 1), (c!"Cl", 1)], 1, 4⟩, ⟨[(c!"Zn", 1), (c!"Cl", 3)], -1, 4⟩,
  ⟨[(c!"Zn", 1), (c!"Cl", 4)], -2, 5⟩]

/-- PHREEQC: the coefficient `b`. -/
def phreeqcB : List Row := [
  ⟨[(c!"Ba", 1)], 2, 153 / 1000⟩, ⟨[(c!"Ca", 1)], 2, 165 / 1000⟩, ⟨[(c!"Cl", 1)], -1, 17 / 1000⟩, ⟨[(c!"K", 1)], 1, 15 / 1000⟩,
  ⟨[(c!"Mg", 1)], 2, 2 / 10⟩, ⟨[(c!"Na", 1)], 1, 82 / 1000⟩, ⟨[(c!"S", 1), (c!"O", 4)], -2, -4 / 100⟩, ⟨[(c!"Sr", 1)], 2, 121 / 1000⟩]

/-- WATEQ4F: the ion size `å`. -/
def wateqSize : List Row := [
  ⟨[(c!"Ag", 1), (c!"H", 1), (c!"S", 5)], -2, 15⟩, ⟨[(c!"Ag", 1), (c!"S", 8)], -3, 22⟩, ⟨[(c!"Ag", 1), (c!"S", 9)], -3, 24⟩,
  ⟨[(c!"C", 1), (c!"O", 3)], -2, 54 / 10⟩, ⟨[(c!"Ca", 1)], 2, 5⟩, ⟨[(c!"Cl", 1)], -1, 35 / 10⟩, ⟨[(c!"Cu", 1), (c!"S", 8)], -3, 23⟩,
  ⟨[(c!"Cu", 1), (c!"S", 9)], -3, 25⟩, ⟨[(c!"H", 1)], 1, 9⟩, ⟨[(c!"H", 1), (c!"C", 1), (c!"O", 3)], -1, 54 / 10⟩, ⟨[(c!"K", 1)], 1, 35 / 10⟩,
  ⟨[(c!"Mg", 1)], 2, 55 / 10⟩, ⟨[(c!"Na", 1)], 1, 4⟩, ⟨[(c!"O", 1), (c!"H", 1)], -1, 35 / 10⟩, ⟨[(c!"S", 2)], -2, 65 / 10⟩, ⟨[(c!"S", 3)], -2, 8⟩,
  ⟨[(c!"S", 4)], -2, 10⟩, ⟨[(c!"S", 5)], -2, 12⟩, ⟨[(c!"S", 6)], -2, 14⟩, ⟨[(c!"S", 1), (c!"O", 4)], -2, 5⟩, ⟨[(c!"Sr", 1)], 2, 526 / 100⟩,
  ⟨[(c!"Sr", 1), (c!"H", 1), (c!"C", 1), (c!"O", 3)], 1, 54 / 10⟩, ⟨[(c!"Sr", 1), (c!"O", 1), (c!"H", 1)], 1, 5⟩]

/-- WATEQ4F: the coefficient `b`. -/
def wateqB : List Row := [
  ⟨[(c!"C", 1), (c!"O", 3)], -2, 0⟩, ⟨[(c!"Ca", 1)], 2, 165 / 1000⟩, ⟨[(c!"Cl", 1)], -1, 15 / 1000⟩, ⟨[(c!"H", 2), (c!"C", 1), (c!"O", 3)], 0, 0⟩,
  ⟨[(c!"H", 1), (c!"C", 1), (c!"O", 3)], -1, 0⟩, ⟨[(c!"K", 1)], 1, 15 / 1000⟩, ⟨[(c!"Mg", 1)], 2, 2 / 10⟩, ⟨[(c!"Na", 1)], 1, 75 / 1000⟩,
  ⟨[(c!"S", 1), (c!"O", 4)], -2, -4 / 100⟩, ⟨[(c!"Sr", 1)], 2, 121 / 1000⟩]

/-- Kielland (1937): the ion size `å`. -/
def kiellandSize : List Row := [
  ⟨[(c!"Ag", 1)], 1, 25 / 10⟩, ⟨[(c!"Al", 1)], 3, 9⟩, ⟨[(c!"Ba", 1)], 2, 5⟩, ⟨[(c!"Be", 1)], 2, 8⟩, ⟨[(c!"Br", 1)], -1, 3⟩,
  ⟨[(c!"Br", 1), (c!"O", 3)], -1, 35 / 10⟩, ⟨[(c!"C", 1), (c!"N", 1)], -1, 3⟩, ⟨[(c!"C", 1), (c!"O", 3)], -2, 45 / 10⟩, ⟨[(c!"Ca", 1)], 2, 6⟩,
  ⟨[(c!"Cd", 1)], 2, 5⟩, ⟨[(c!"Cd", 1), (c!"Cl", 1)], 1, 4⟩, ⟨[(c!"Ce", 1)], 3, 9⟩, ⟨[(c!"Ce", 1)], 4, 11⟩, ⟨[(c!"Cl", 1)], -1, 3⟩,
  ⟨[(c!"Cl", 1), (c!"O", 2)], -1, 4⟩, ⟨[(c!"Cl", 1), (c!"O", 3)], -1, 35 / 10⟩, ⟨[(c!"Cl", 1), (c!"O", 4)], -1, 35 / 10⟩,
  ⟨[(c!"Co", 1), (c!"N", 6), (c!"H", 12), (c!"O", 4)], 1, 4⟩, ⟨[(c!"Co", 1), (c!"N", 5), (c!"H", 15), (c!"Cl", 1)], 2, 45 / 10⟩,
  ⟨[(c!"Co", 1), (c!"N", 5), (c!"H", 17), (c!"O", 1)], 3, 4⟩, ⟨[(c!"Co", 1), (c!"N", 6), (c!"H", 18)], 3, 4⟩,
  ⟨[(c!"Co", 1), (c!"S", 2), (c!"O", 3), (c!"C", 5), (c!"N", 5)], -4, 6⟩, ⟨[(c!"Co", 1), (c!"S", 2), (c!"O", 6), (c!"C", 4), (c!"N", 4)], -5, 9⟩,
  ⟨[(c!"Co", 1)], 2, 6⟩, ⟨[(c!"Cr", 1), (c!"N", 6), (c!"H", 18)], 3, 4⟩, ⟨[(c!"Cr", 1)], 3, 9⟩, ⟨[(c!"Cr", 1), (c!"O", 4)], -2, 4⟩,
  ⟨[(c!"Cs", 1)], 1, 25 / 10⟩, ⟨[(c!"Cu", 1)], 2, 6⟩, ⟨[(c!"F", 1)], -1, 35 / 10⟩, ⟨[(c!"Fe", 1), (c!"C", 5), (c!"N", 6), (c!"O", 1)], -2, 45 / 10⟩,
  ⟨[(c!"Fe", 1), (c!"C", 6), (c!"N", 6)], -3, 4⟩, ⟨[(c!"Fe", 1), (c!"C", 6), (c!"N", 6)], -4, 5⟩, ⟨[(c!"Fe", 1)], 2, 6⟩, ⟨[(c!"Fe", 1)], 3, 9⟩,
  ⟨[(c!"H", 1)], 1, 9⟩, ⟨[(c!"H", 2), (c!"As", 1), (c!"O", 4)], -1, 4⟩, ⟨[(c!"H", 2), (c!"P", 1), (c!"O", 4)], -1, 4⟩,
  ⟨[(c!"H", 1), (c!"C", 1), (c!"O", 3)], -1, 4⟩, ⟨[(c!"H", 1), (c!"P", 1), (c!"O", 4)], -2, 4⟩, ⟨[(c!"H", 1), (c!"S", 1)], -1, 35 / 10⟩,
  ⟨[(c!"H", 1), (c!"S", 1), (c!"O", 3)], -1, 4⟩, ⟨[(c!"Hg", 1)], 2, 5⟩, ⟨[(c!"Hg", 2)], 2, 4⟩, ⟨[(c!"I", 1)], -1, 3⟩,
  ⟨[(c!"I", 1), (c!"O", 3)], -1, 4⟩, ⟨[(c!"I", 1), (c!"O", 4)], -1, 35 / 10⟩, ⟨[(c!"In", 1)], 3, 9⟩, ⟨[(c!"K", 1)], 1, 3⟩, ⟨[(c!"La", 1)], 3, 9⟩,
  ⟨[(c!"Li", 1)], 1, 6⟩, ⟨[(c!"Mg", 1)], 2, 8⟩, ⟨[(c!"Mn", 1)], 2, 6⟩, ⟨[(c!"Mn", 1), (c!"O", 4)], -1, 35 / 10⟩,
  ⟨[(c!"Mo", 1), (c!"O", 4)], -2, 45 / 10⟩, ⟨[(c!"N", 1), (c!"C", 1), (c!"O", 1)], -1, 35 / 10⟩, ⟨[(c!"N", 1), (c!"C", 1), (c!"S", 1)], -1, 35 / 10⟩,
  ⟨[(c!"N", 1), (c!"H", 4)], 1, 25 / 10⟩, ⟨[(c!"N", 1), (c!"O", 2)], -1, 3⟩, ⟨[(c!"N", 1), (c!"O", 3)], -1, 3⟩, ⟨[(c!"Na", 1)], 1, 4⟩,
  ⟨[(c!"Nd", 1)], 3, 9⟩, ⟨[(c!"Ni", 1)], 2, 6⟩, ⟨[(c!"O", 1), (c!"H", 1)], -1, 35 / 10⟩, ⟨[(c!"P", 1), (c!"O", 4)], -3, 4⟩,
  ⟨[(c!"Pb", 1)], 2, 45 / 10⟩, ⟨[(c!"Pr", 1)], 3, 9⟩, ⟨[(c!"Ra", 1)], 2, 5⟩, ⟨[(c!"Rb", 1)], 1, 25 / 10⟩, ⟨[(c!"S", 1)], -2, 5⟩,
  ⟨[(c!"S", 2), (c!"O", 3)], -2, 4⟩, ⟨[(c!"S", 2), (c!"O", 4)], -2, 5⟩, ⟨[(c!"S", 2), (c!"O", 6)], -2, 4⟩, ⟨[(c!"S", 2), (c!"O", 8)], -2, 4⟩,
  ⟨[(c!"S", 1), (c!"O", 3)], -2, 45 / 10⟩, ⟨[(c!"S", 1), (c!"O", 4)], -2, 4⟩, ⟨[(c!"Sc", 1)], 3, 9⟩, ⟨[(c!"Se", 1), (c!"O", 4)], -2, 4⟩,
  ⟨[(c!"Sm", 1)], 3, 9⟩, ⟨[(c!"Sn", 1)], 2, 6⟩, ⟨[(c!"Sn", 1)], 4, 11⟩, ⟨[(c!"Sr", 1)], 2, 5⟩, ⟨[(c!"Th", 1)], 4, 11⟩, ⟨[(c!"Tl", 1)], 1, 25 / 10⟩,
  ⟨[(c!"W", 1), (c!"O", 4)], -2, 5⟩, ⟨[(c!"Y", 1)], 3, 9⟩, ⟨[(c!"Zn", 1)], 2, 6⟩, ⟨[(c!"Zr", 1)], 4, 11⟩]

/-- Helgeson, Kirkham and Flowers (1981), table 3: name without the charge, charge, effective electrostatic radius in Å. -/
def publishedRadii : List (List Char × Int × Rat) := [
  (c!"H", 1, 308 / 100), (c!"Fe", 3, 346 / 100), (c!"Li", 1, 164 / 100), (c!"Al", 3, 333 / 100), (c!"Na", 1, 191 / 100), (c!"Au", 3, 372 / 100),
  (c!"K", 1, 227 / 100), (c!"La", 3, 396 / 100), (c!"Rb", 1, 241 / 100), (c!"Gd", 3, 379 / 100), (c!"Cs", 1, 261 / 100), (c!"In", 3, 363 / 100),
  (c!"NH4", 1, 231 / 100), (c!"Ga", 3, 344 / 100), (c!"Ag", 1, 22 / 10), (c!"F", -1, 133 / 100), (c!"Au", 1, 231 / 100), (c!"Cl", -1, 181 / 100),
  (c!"Cu", 1, 19 / 10), (c!"Br", -1, 196 / 100), (c!"Mg", 2, 254 / 100), (c!"I", -1, 22 / 10), (c!"Sr", 2, 3), (c!"OH", -1, 14 / 10),
  (c!"Ca", 2, 287 / 100), (c!"HS", -1, 184 / 100), (c!"Ba", 2, 322 / 100), (c!"NO3", -1, 281 / 100), (c!"Pb", 2, 308 / 100), (c!"HCO3", -1, 21 / 10),
  (c!"Zn", 2, 262 / 100), (c!"HSO4", -1, 237 / 100), (c!"Cu", 2, 26 / 10), (c!"ClO4", -1, 359 / 100), (c!"Cd", 2, 285 / 100),
  (c!"ReO4", -1, 423 / 100), (c!"Hg", 2, 298 / 100), (c!"SO4", -2, 315 / 100), (c!"Fe", 2, 262 / 100), (c!"CO3", -2, 281 / 100),
  (c!"Mn", 2, 268 / 100)]

/-- The radius of an ion that the table does not have, by its charge: values of TOUGHREACT, and beyond them in proportion to the charge. -/
def estimatedRadius : Int → Rat
  | -1 => 181 / 100
  | -2 => 3
  | -3 => 42 / 10
  | 1 => 231 / 100
  | 2 => 28 / 10
  | 3 => 36 / 10
  | 4 => 45 / 10
  | z => if z < 0 then 14 / 10 * z.natAbs else 1125 / 1000 * z.natAbs

end Verif.AqueousParams
