import Verif.Model.ShippedCompositions
import Verif.Model.ShippedSupcrt98
import Verif.Model.ShippedSupcrt07
import Verif.Model.ShippedSupcrt16
import Verif.Model.ShippedSupcrtbl

/-!
# Specification for C104
-/

namespace Verif.ShippedData

open Chem

/-- The coefficient of an element in a composition, as reported by `ElementalComposition::coefficient` and
`ChemicalFormula::coefficient`: that of the first pair with the symbol, zero if there is none. -/
def coefficient (l : List (Str × Rat)) (symbol : Str) : Rat :=
  ((l.find? (fun p => p.1 = symbol)).map Prod.snd).getD 0

/-- The species has the elements and the charge of its own chemical formula. The charge of a formula with a single character, as
`C` for graphite, has no meaning: the parser of charges reads the character before the first one. -/
def Consistent (s : Species) : Prop :=
  ∃ atoms charge, FormulaParser.parseChemicalFormula s.formula = .ok atoms ∧
    ChargeParser.parseElectricCharge s.formula = .ok charge ∧ s.charge = charge ∧
    ∀ symbol, coefficient (s.elements.map fun p => (p.1.symbol, p.2)) symbol = coefficient atoms symbol

/-- The number of atoms of an element in a list of pairs in which a symbol may be repeated. -/
def total (l : List (Str × Rat)) (symbol : Str) : Rat := ((l.filter (fun p => p.1 = symbol)).map Prod.snd).sum

/-- All compositions of the files. -/
def compositions : List Nat := good.flatten ++ odd

/-- A file: its species, those whose elements or charge are not the ones of their formula, and those with a parameter of the
standard thermodynamic model that enters their Gibbs energy at every temperature and pressure and is not a number. -/
structure File where
  species : List Entry
  wrongComposition : List Str
  undefinedGibbs : List Str

/-- The minerals without a Gibbs energy of formation in `supcrt98.yaml`, `supcrt07.yaml` and `supcrt16.yaml`. -/
def undefinedMinerals : List Str := [
  c!"Amesite,7A", c!"Bromellite", c!"Celadonite", c!"Chabazite", c!"Chloritoid", c!"Cummingtonite", c!"Dickite",
  c!"Fluorphlogopite", c!"Fluortremolite", c!"Glaucophane", c!"Grunerite", c!"Halloysite", c!"Leonhardite",
  c!"Minnesotaite", c!"Richterite", c!"Staurolite", c!"Almandine", c!"Amesite,14A", c!"Daphnite,7A", c!"Edenite",
  c!"Epistilbite", c!"Ferroedenite", c!"Fluoredenite", c!"Heulandite", c!"Natrolite", c!"Phillipsite,Ca",
  c!"Phillipsite,K", c!"Phillipsite,Na", c!"Pyrope", c!"Spessartine", c!"Stilbite", c!"Aegerine", c!"Cronstedtite,7A",
  c!"Ferrogedrite", c!"Hastingsite", c!"Larnite", c!"Magnesiohastingsite", c!"Magnesioriebeckite", c!"Riebeckite",
  c!"Pd-Oxyannite"]

/-- `supcrt98.yaml`. -/
def supcrt98 : File where
  species := entries compositions Supcrt98.parts
  wrongComposition := [
  c!"Graphite", c!"Rh2O", c!"Edenite", c!"Sulfur", c!"HFeO2-", c!"H-Succinate-", c!"Heptanoate-", c!"H2SeO3(aq)",
  c!"HN2O2-", c!"EuF2(aq)", c!"LuH2PO4+2", c!"Zn(Gly)2(aq)", c!"Na(For)2-", c!"Sr(But)2(aq)"]
  undefinedGibbs := undefinedMinerals

/-- `supcrt07.yaml`. -/
def supcrt07 : File where
  species := entries compositions Supcrt07.parts
  wrongComposition := [
  c!"Graphite", c!"Rh2O", c!"Edenite", c!"Sulfur", c!"Aspartate-", c!"HFeO2-", c!"HN2O2-", c!"EuF2(aq)",
  c!"LuH2PO4+2", c!"Sr(But)2(aq)", c!"d+H2(AMP)(aq)", c!"d+H2(GMP)(aq)", c!"H(GDP)-2", c!"Xylose(aq)",
  c!"Arabinose(aq)", c!"Lyxose(aq)", c!"Xylulose(aq)"]
  undefinedGibbs := undefinedMinerals

/-- `supcrt16.yaml`. -/
def supcrt16 : File where
  species := entries compositions Supcrt16.parts
  wrongComposition := [
  c!"Graphite", c!"Rh2O", c!"[Gly](cr)", c!"Asparagine(cr)", c!"Edenite", c!"Sulfur", c!"Pd-Oxyannite",
  c!"Aspartate-", c!"HFeO2-", c!"H2SeO3(aq)", c!"HN2O2-", c!"EuF2(aq)", c!"LuH2PO4+2", c!"Sr(But)2(aq)",
  c!"Xylose(aq)", c!"Arabinose(aq)", c!"Lyxose(aq)", c!"Xylulose(aq)", c!"[Gly](aq)", c!"[di.corr](aq)",
  c!"H2-Aconitate,cis-", c!"Malate-2"]
  undefinedGibbs := undefinedMinerals

/-- `supcrtbl.yaml`. -/
def supcrtbl : File where
  species := entries compositions Supcrtbl.parts
  wrongComposition := [c!"Spurrite", c!"Diamond", c!"Graphite", c!"Sulphur", c!"n-Pentylbenzene(aq)"]
  undefinedGibbs := [c!"HAsO3-2", c!"AsO3-3", c!"As3S4(HS)2-"]

/-- The files in `databases/reaktoro`. -/
def files : List File := [supcrt98, supcrt07, supcrt16, supcrtbl]

/-- The parameters of a model that enter the Gibbs energy of a species at every temperature and pressure: the Gibbs energy of
formation, and all coefficients of the model of solutes. -/
def essential : List Str := [c!"Gf", c!"a1", c!"a2", c!"a3", c!"a4", c!"c1", c!"c2", c!"wref"]

end Verif.ShippedData
