import Verif.Base
import Verif.Model.Chem
import Verif.Model.EquilibriumSpecs
import Verif.Model.FormulaParser
import Verif.Model.ChargeParser

/-!
# Tables of `Reaktoro/Singletons`

The default contents of the registries, copied from the sources.
-/

namespace Verif.Registries

abbrev Str := List Char

/-- `SubstanceCriticalPropsData` (CriticalProps.hpp:31-41). -/
structure Data where
  Tcr : Rat
  Pcr : Rat
  omega : Rat
  deriving DecidableEq, Repr

/-- `detail::default_reactions` (DissociationReactions.cpp:26-200), with the formulas as texts. -/
def defaultReactionTexts : List (Str × List (Rat × Str)) := [
  (c!"AgCl", [(1, c!"Ag+"), (1, c!"Cl-")]),
  (c!"AgF", [(1, c!"Ag+"), (1, c!"F-")]),
  (c!"AgNO3", [(1, c!"Ag+"), (1, c!"NO3-")]),
  (c!"AlF3", [(1, c!"Al+++"), (3, c!"F-")]),
  (c!"As(OH)3", [(1, c!"As+++"), (3, c!"OH-")]),
  (c!"CaCl2", [(1, c!"Ca++"), (2, c!"Cl-")]),
  (c!"CaCO3", [(1, c!"Ca++"), (1, c!"CO3--")]),
  (c!"CaHPO4", [(1, c!"Ca++"), (1, c!"HPO4--")]),
  (c!"CaSO4", [(1, c!"Ca++"), (1, c!"SO4--")]),
  (c!"Cd(CN)2", [(1, c!"Cd++"), (2, c!"CN-")]),
  (c!"Cd(N3)2", [(1, c!"Cd++"), (2, c!"N3-")]),
  (c!"Cd(SCN)2", [(1, c!"Cd++"), (2, c!"SCN-")]),
  (c!"CdBr2", [(1, c!"Cd++"), (2, c!"Br-")]),
  (c!"CdCl2", [(1, c!"Cd++"), (2, c!"Cl-")]),
  (c!"CdI2", [(1, c!"Cd++"), (2, c!"I-")]),
  (c!"CdSeO4", [(1, c!"Cd++"), (1, c!"SeO4--")]),
  (c!"CdSO4", [(1, c!"Cd++"), (1, c!"SO4--")]),
  (c!"CeCl3", [(1, c!"Ce+++"), (3, c!"Cl-")]),
  (c!"CeF3", [(1, c!"Ce+++"), (3, c!"F-")]),
  (c!"Co(HS)2", [(1, c!"Co++"), (2, c!"HS-")]),
  (c!"CoBr2", [(1, c!"Co++"), (2, c!"Br-")]),
  (c!"CoI2", [(1, c!"Co++"), (2, c!"I-")]),
  (c!"CoSeO4", [(1, c!"Co++"), (1, c!"SeO4--")]),
  (c!"CoSO4", [(1, c!"Co++"), (1, c!"SO4--")]),
  (c!"CsBr", [(1, c!"Cs+"), (1, c!"Br-")]),
  (c!"CsCl", [(1, c!"Cs+"), (1, c!"Cl-")]),
  (c!"CsI", [(1, c!"Cs+"), (1, c!"I-")]),
  (c!"Cu(NO2)2", [(1, c!"Cu++"), (2, c!"NO2-")]),
  (c!"CuCl2", [(1, c!"Cu++"), (2, c!"Cl-")]),
  (c!"CuHPO4", [(1, c!"Cu++"), (1, c!"HPO4--")]),
  (c!"CuSO4", [(1, c!"Cu++"), (1, c!"SO4--")]),
  (c!"DyCl3", [(1, c!"Dy+++"), (3, c!"Cl-")]),
  (c!"DyF3", [(1, c!"Dy+++"), (3, c!"F-")]),
  (c!"ErCl3", [(1, c!"Er+++"), (3, c!"Cl-")]),
  (c!"ErF3", [(1, c!"Er+++"), (3, c!"F-")]),
  (c!"EuCl2", [(1, c!"Eu++"), (2, c!"Cl-")]),
  (c!"EuCl3", [(1, c!"Eu+++"), (3, c!"Cl-")]),
  (c!"EuF2", [(1, c!"Eu++"), (2, c!"F-")]),
  (c!"EuF3", [(1, c!"Eu+++"), (3, c!"F-")]),
  (c!"FeCl2", [(1, c!"Fe++"), (2, c!"Cl-")]),
  (c!"FeHPO4", [(1, c!"Fe++"), (1, c!"HPO4--")]),
  (c!"FeSO4", [(1, c!"Fe++"), (1, c!"SO4--")]),
  (c!"GdCl3", [(1, c!"Gd+++"), (3, c!"Cl-")]),
  (c!"GdF3", [(1, c!"Gd+++"), (3, c!"F-")]),
  (c!"H2CrO4", [(2, c!"H+"), (1, c!"CrO4--")]),
  (c!"H2F2", [(2, c!"H+"), (2, c!"F-")]),
  (c!"H2S", [(1, c!"H+"), (1, c!"HS-")]),
  (c!"H2Se", [(2, c!"H+"), (1, c!"Se--")]),
  (c!"H2SeO3", [(2, c!"H+"), (1, c!"SeO3--")]),
  (c!"H2SO3", [(2, c!"H+"), (1, c!"SO3--")]),
  (c!"H2SO4", [(2, c!"H+"), (1, c!"SO4--")]),
  (c!"H2TcO4", [(2, c!"H+"), (1, c!"TcO4--")]),
  (c!"H3AsO4", [(1, c!"H+"), (1, c!"H2AsO4-")]),
  (c!"H3PO4", [(2, c!"H+"), (1, c!"HPO4--")]),
  (c!"HBrO", [(1, c!"H+"), (1, c!"BrO-")]),
  (c!"HCl", [(1, c!"H+"), (1, c!"Cl-")]),
  (c!"HClO", [(1, c!"H+"), (1, c!"ClO-")]),
  (c!"HClO2", [(1, c!"H+"), (1, c!"ClO2-")]),
  (c!"HCN", [(1, c!"H+"), (1, c!"CN-")]),
  (c!"HF", [(1, c!"H+"), (1, c!"F-")]),
  (c!"HIO3", [(1, c!"H+"), (1, c!"IO3-")]),
  (c!"HN3", [(1, c!"H+"), (1, c!"N3-")]),
  (c!"HNO2", [(1, c!"H+"), (1, c!"NO2-")]),
  (c!"HNO3", [(1, c!"H+"), (1, c!"NO3-")]),
  (c!"HoCl3", [(1, c!"Ho+++"), (3, c!"Cl-")]),
  (c!"HoF3", [(1, c!"Ho+++"), (3, c!"F-")]),
  (c!"KBr", [(1, c!"K+"), (1, c!"Br-")]),
  (c!"KCl", [(1, c!"K+"), (1, c!"Cl-")]),
  (c!"KHSO4", [(1, c!"K+"), (1, c!"H+"), (1, c!"SO4--")]),
  (c!"KI", [(1, c!"K+"), (1, c!"I-")]),
  (c!"LaCl3", [(1, c!"La+++"), (3, c!"Cl-")]),
  (c!"LaF3", [(1, c!"La+++"), (3, c!"F-")]),
  (c!"LiCl", [(1, c!"Li+"), (1, c!"Cl-")]),
  (c!"LuCl3", [(1, c!"Lu+++"), (3, c!"Cl-")]),
  (c!"LuF3", [(1, c!"Lu+++"), (3, c!"F-")]),
  (c!"MgCl2", [(1, c!"Mg++"), (2, c!"Cl-")]),
  (c!"MgCO3", [(1, c!"Mg++"), (1, c!"CO3--")]),
  (c!"MgHPO4", [(1, c!"Mg++"), (1, c!"HPO4--")]),
  (c!"MgSO4", [(1, c!"Mg++"), (1, c!"SO4--")]),
  (c!"Mn(NO3)2", [(1, c!"Mn++"), (2, c!"NO3-")]),
  (c!"MnHPO4", [(1, c!"Mn++"), (1, c!"HPO4--")]),
  (c!"MnSeO4", [(1, c!"Mn++"), (1, c!"SeO4--")]),
  (c!"MnSO4", [(1, c!"Mn++"), (1, c!"SO4--")]),
  (c!"NaBr", [(1, c!"Na+"), (1, c!"Br-")]),
  (c!"NaCl", [(1, c!"Na+"), (1, c!"Cl-")]),
  (c!"NaF", [(1, c!"Na+"), (1, c!"F-")]),
  (c!"NaHCO3", [(1, c!"Na+"), (1, c!"HCO3-")]),
  (c!"NaI", [(1, c!"Na+"), (1, c!"I-")]),
  (c!"NaOH", [(1, c!"Na+"), (1, c!"OH-")]),
  (c!"NdCl3", [(1, c!"Nd+++"), (3, c!"Cl-")]),
  (c!"NdF3", [(1, c!"Nd+++"), (3, c!"F-")]),
  (c!"Ni(NO3)2", [(1, c!"Ni++"), (2, c!"NO3-")]),
  (c!"NiSeO4", [(1, c!"Ni++"), (1, c!"SeO4--")]),
  (c!"NiSO4", [(1, c!"Ni++"), (1, c!"SO4--")]),
  (c!"Np(H2PO4)3", [(1, c!"Np+++"), (3, c!"H+"), (3, c!"HPO4--")]),
  (c!"Np(HPO4)2", [(1, c!"Np++++"), (2, c!"HPO4--")]),
  (c!"Np(SO4)2", [(1, c!"Np++++"), (2, c!"SO4--")]),
  (c!"NpO2Cl", [(1, c!"NpO2+"), (1, c!"Cl-")]),
  (c!"NpO2F", [(1, c!"NpO2+"), (1, c!"F-")]),
  (c!"NpO2F2", [(1, c!"NpO2++"), (2, c!"F-")]),
  (c!"NpO2H2PO4", [(1, c!"NpO2+"), (1, c!"H+"), (1, c!"HPO4--")]),
  (c!"NpO2HPO4", [(1, c!"NpO2++"), (1, c!"HPO4--")]),
  (c!"NpO2SO4", [(1, c!"NpO2++"), (1, c!"SO4--")]),
  (c!"Pb(BrO3)2", [(1, c!"Pb++"), (2, c!"BrO3-")]),
  (c!"Pb(ClO3)2", [(1, c!"Pb++"), (2, c!"ClO3-")]),
  (c!"Pb(SCN)2", [(1, c!"Pb++"), (2, c!"SCN-")]),
  (c!"PbBr2", [(1, c!"Pb++"), (2, c!"Br-")]),
  (c!"PbCl2", [(1, c!"Pb++"), (2, c!"Cl-")]),
  (c!"PbF2", [(1, c!"Pb++"), (2, c!"F-")]),
  (c!"PbHPO4", [(1, c!"Pb++"), (1, c!"HPO4--")]),
  (c!"PbI2", [(1, c!"Pb++"), (2, c!"I-")]),
  (c!"PdCl2", [(1, c!"Pd++"), (2, c!"Cl-")]),
  (c!"PrCl3", [(1, c!"Pr+++"), (3, c!"Cl-")]),
  (c!"PrF3", [(1, c!"Pr+++"), (3, c!"F-")]),
  (c!"Pu(HPO4)2", [(1, c!"Pu++++"), (2, c!"HPO4--")]),
  (c!"Pu(SO4)2", [(1, c!"Pu++++"), (2, c!"SO4--")]),
  (c!"PuF4", [(1, c!"Pu++++"), (4, c!"F-")]),
  (c!"PuO2F2", [(1, c!"PuO2++"), (2, c!"F-")]),
  (c!"PuO2SO4", [(1, c!"PuO2++"), (1, c!"SO4--")]),
  (c!"RbBr", [(1, c!"Rb+"), (1, c!"Br-")]),
  (c!"RbCl", [(1, c!"Rb+"), (1, c!"Cl-")]),
  (c!"RbF", [(1, c!"Rb+"), (1, c!"F-")]),
  (c!"RbI", [(1, c!"Rb+"), (1, c!"I-")]),
  (c!"RuCl3", [(1, c!"Ru+++"), (3, c!"Cl-")]),
  (c!"Ru(OH)2Cl2", [(1, c!"Ru(OH)2++"), (2, c!"Cl-")]),
  (c!"Ru(OH)2SO4", [(1, c!"Ru(OH)2++"), (1, c!"SO4--")]),
  (c!"RuSO4", [(1, c!"Ru++"), (1, c!"SO4--")]),
  (c!"SmCl3", [(1, c!"Sm+++"), (3, c!"Cl-")]),
  (c!"SmF3", [(1, c!"Sm+++"), (3, c!"F-")]),
  (c!"Sn(SO4)2", [(1, c!"Sn++++"), (2, c!"SO4--")]),
  (c!"SnCl2", [(1, c!"Sn++"), (2, c!"Cl-")]),
  (c!"SnF2", [(1, c!"Sn++"), (2, c!"F-")]),
  (c!"SrHPO4", [(1, c!"Sr++"), (1, c!"HPO4--")]),
  (c!"SrSO4", [(1, c!"Sr++"), (1, c!"SO4--")]),
  (c!"TbCl3", [(1, c!"Tb+++"), (3, c!"Cl-")]),
  (c!"TbF3", [(1, c!"Tb+++"), (3, c!"F-")]),
  (c!"Th(HPO4)2", [(1, c!"Th++++"), (2, c!"HPO4--")]),
  (c!"Th(SO4)2", [(1, c!"Th++++"), (2, c!"SO4--")]),
  (c!"ThCl4", [(1, c!"Th++++"), (4, c!"Cl-")]),
  (c!"ThF4", [(1, c!"Th++++"), (4, c!"F-")]),
  (c!"TmCl3", [(1, c!"Tm+++"), (3, c!"Cl-")]),
  (c!"TmF3", [(1, c!"Tm+++"), (3, c!"F-")]),
  (c!"U(SO4)2", [(1, c!"U++++"), (2, c!"SO4--")]),
  (c!"UF4", [(1, c!"U++++"), (4, c!"F-")]),
  (c!"UO2(H2PO4)2", [(1, c!"UO2++"), (2, c!"H+"), (2, c!"HPO4--")]),
  (c!"UO2(IO3)2", [(1, c!"UO2++"), (2, c!"IO3-")]),
  (c!"UO2(N3)2", [(1, c!"UO2++"), (2, c!"N3-")]),
  (c!"UO2(SCN)2", [(1, c!"UO2++"), (2, c!"SCN-")]),
  (c!"UO2Cl2", [(1, c!"UO2++"), (2, c!"Cl-")]),
  (c!"UO2F2", [(1, c!"UO2++"), (2, c!"F-")]),
  (c!"UO2HPO4", [(1, c!"UO2++"), (1, c!"HPO4--")]),
  (c!"UO2SO3", [(1, c!"UO2++"), (1, c!"SO3--")]),
  (c!"UO2SO4", [(1, c!"UO2++"), (1, c!"SO4--")]),
  (c!"VO2F", [(1, c!"VO2+"), (1, c!"F-")]),
  (c!"VO2H2PO4", [(1, c!"VO2+"), (1, c!"H+"), (1, c!"HPO4--")]),
  (c!"VOF2", [(1, c!"VO++"), (2, c!"F-")]),
  (c!"VOSO4", [(1, c!"VO++"), (1, c!"SO4--")]),
  (c!"YbCl3", [(1, c!"Yb+++"), (3, c!"Cl-")]),
  (c!"YbF3", [(1, c!"Yb+++"), (3, c!"F-")]),
  (c!"YF3", [(1, c!"Y+++"), (3, c!"F-")]),
  (c!"Zn(N3)2", [(1, c!"Zn++"), (2, c!"N3-")]),
  (c!"Zn(SCN)2", [(1, c!"Zn++"), (2, c!"SCN-")]),
  (c!"ZnBr2", [(1, c!"Zn++"), (2, c!"Br-")]),
  (c!"ZnCl2", [(1, c!"Zn++"), (2, c!"Cl-")]),
  (c!"ZnHPO4", [(1, c!"Zn++"), (1, c!"HPO4--")]),
  (c!"ZnI2", [(1, c!"Zn++"), (2, c!"I-")]),
  (c!"ZnSeO4", [(1, c!"Zn++"), (1, c!"SeO4--")]),
  (c!"ZnSO4", [(1, c!"Zn++"), (1, c!"SO4--")]),
  (c!"Zr(SO4)2", [(1, c!"Zr++++"), (2, c!"SO4--")]),
  (c!"ZrF4", [(1, c!"Zr++++"), (4, c!"F-")])]

/-- `detail::default_substances` (CriticalProps.cpp:31-125), before the correction of names. -/
def defaultSubstanceTexts : List (Data × List Str) := [
  (⟨953 / 5, 4599000, 3 / 250⟩, [c!"METHANE", c!"CH4"]),
  (⟨3053 / 10, 4872000, 1 / 10⟩, [c!"ETHANE", c!"C2H6"]),
  (⟨1849 / 5, 4248000, 19 / 125⟩, [c!"PROPANE", c!"C3H8"]),
  (⟨4251 / 10, 3796000, 1 / 5⟩, [c!"N-BUTANE"]),
  (⟨4697 / 10, 3370000, 63 / 250⟩, [c!"N-PENTANE", c!"C5H12"]),
  (⟨2538 / 5, 3025000, 301 / 1000⟩, [c!"N-HEXANE", c!"C6H14"]),
  (⟨2701 / 5, 2740000, 7 / 20⟩, [c!"N-HEPTANE"]),
  (⟨5687 / 10, 2490000, 2 / 5⟩, [c!"N-OCTANE"]),
  (⟨2973 / 5, 2290000, 111 / 250⟩, [c!"N-NONANE"]),
  (⟨6177 / 10, 2110000, 123 / 250⟩, [c!"N-DECANE"]),
  (⟨4081 / 10, 3648000, 181 / 1000⟩, [c!"ISOBUTANE"]),
  (⟨544, 2568000, 151 / 500⟩, [c!"ISOOCTANE"]),
  (⟨2559 / 5, 4502000, 49 / 250⟩, [c!"CYCLOPENTANE"]),
  (⟨2768 / 5, 4073000, 21 / 100⟩, [c!"CYCLOHEXANE", c!"C6H12"]),
  (⟨2664 / 5, 3785000, 23 / 100⟩, [c!"METHYLCYCLOPENTANE"]),
  (⟨2861 / 5, 3471000, 47 / 200⟩, [c!"METHYLCYCLOHEXANE"]),
  (⟨2823 / 10, 5040000, 87 / 1000⟩, [c!"ETHYLENE", c!"C2H4"]),
  (⟨1828 / 5, 4665000, 7 / 50⟩, [c!"PROPYLENE", c!"C3H6"]),
  (⟨420, 4043000, 191 / 1000⟩, [c!"1-BUTENE", c!"C4H8"]),
  (⟨2178 / 5, 4243000, 41 / 200⟩, [c!"CIS-2-BUTENE"]),
  (⟨2143 / 5, 4100000, 109 / 500⟩, [c!"TRANS-2-BUTENE"]),
  (⟨504, 3140000, 7 / 25⟩, [c!"1-HEXENE"]),
  (⟨4179 / 10, 4000000, 97 / 500⟩, [c!"ISOBUTYLENE"]),
  (⟨2126 / 5, 4277000, 19 / 100⟩, [c!"1,3-BUTADIENE"]),
  (⟨2802 / 5, 4350000, 53 / 250⟩, [c!"CYCLOHEXENE"]),
  (⟨3083 / 10, 6139000, 187 / 1000⟩, [c!"ACETYLENE", c!"C2H2"]),
  (⟨2811 / 5, 4898000, 21 / 100⟩, [c!"BENZENE", c!"C6H6"]),
  (⟨2959 / 5, 4106000, 131 / 500⟩, [c!"TOLUENE", c!"C7H8"]),
  (⟨3086 / 5, 3606000, 303 / 1000⟩, [c!"ETHYLBENZENE"]),
  (⟨6311 / 10, 3209000, 163 / 500⟩, [c!"CUMENE"]),
  (⟨6303 / 10, 3734000, 31 / 100⟩, [c!"O-XYLENE"]),
  (⟨6171 / 10, 3536000, 163 / 500⟩, [c!"M-XYLENE"]),
  (⟨3081 / 5, 3511000, 161 / 500⟩, [c!"P-XYLENE"]),
  (⟨636, 3840000, 297 / 1000⟩, [c!"STYRENE"]),
  (⟨3742 / 5, 4051000, 151 / 500⟩, [c!"NAPHTHALENE"]),
  (⟨7893 / 10, 3850000, 73 / 200⟩, [c!"BIPHENYL"]),
  (⟨408, 6590000, 141 / 500⟩, [c!"FORMALDEHYDE"]),
  (⟨466, 5550000, 291 / 1000⟩, [c!"ACETALDEHYDE"]),
  (⟨2533 / 5, 4750000, 331 / 1000⟩, [c!"METHYL-ACETATE"]),
  (⟨5233 / 10, 3880000, 183 / 500⟩, [c!"ETHYL-ACETATE"]),
  (⟨2541 / 5, 4701000, 307 / 1000⟩, [c!"ACETONE"]),
  (⟨1071 / 2, 4150000, 323 / 1000⟩, [c!"METHYL-ETHYL-KETONE"]),
  (⟨4667 / 10, 3640000, 281 / 1000⟩, [c!"DIETHYL-ETHER"]),
  (⟨4971 / 10, 3430000, 133 / 500⟩, [c!"METHYL-T-BUTYL-ETHER"]),
  (⟨2563 / 5, 8097000, 141 / 250⟩, [c!"METHANOL", c!"CH4O"]),
  (⟨5139 / 10, 6148000, 129 / 200⟩, [c!"ETHANOL", c!"C2H6O"]),
  (⟨2684 / 5, 5175000, 311 / 500⟩, [c!"1-PROPANOL"]),
  (⟨5631 / 10, 4423000, 297 / 500⟩, [c!"1-BUTANOL"]),
  (⟨3057 / 5, 3510000, 579 / 1000⟩, [c!"1-HEXANOL"]),
  (⟨5083 / 10, 4762000, 167 / 250⟩, [c!"2-PROPANOL"]),
  (⟨6943 / 10, 6130000, 111 / 250⟩, [c!"PHENOL"]),
  (⟨7197 / 10, 7700000, 487 / 1000⟩, [c!"ETHYLENE-GLYCOL"]),
  (⟨592, 5786000, 467 / 1000⟩, [c!"ACETIC-ACID"]),
  (⟨6157 / 10, 4064000, 681 / 1000⟩, [c!"N-BUTYRIC-ACID"]),
  (⟨751, 4470000, 603 / 1000⟩, [c!"BENZOIC-ACID"]),
  (⟨1091 / 2, 4830000, 169 / 500⟩, [c!"ACETONITRILE"]),
  (⟨4301 / 10, 7460000, 281 / 1000⟩, [c!"METHYLAMINE"]),
  (⟨2281 / 5, 5620000, 57 / 200⟩, [c!"ETHYLAMINE"]),
  (⟨2941 / 5, 6310000, 87 / 250⟩, [c!"NITROMETHANE"]),
  (⟨2782 / 5, 4560000, 193 / 1000⟩, [c!"CARBON-TETRACHLORIDE"]),
  (⟨2682 / 5, 5472000, 111 / 500⟩, [c!"CHLOROFORM"]),
  (⟨510, 6080000, 199 / 1000⟩, [c!"DICHLOROMETHANE"]),
  (⟨4163 / 10, 6680000, 153 / 1000⟩, [c!"METHYL-CHLORIDE"]),
  (⟨2302 / 5, 5270000, 19 / 100⟩, [c!"ETHYL-CHLORIDE"]),
  (⟨3162 / 5, 4520000, 1 / 4⟩, [c!"CHLOROBENZENE"]),
  (⟨1871 / 5, 4060000, 327 / 1000⟩, [c!"TETRAFLUOROETHANE"]),
  (⟨1509 / 10, 4898000, 0⟩, [c!"ARGON", c!"Ar"]),
  (⟨1047 / 5, 5502000, 0⟩, [c!"KRYPTON", c!"Kr"]),
  (⟨2897 / 10, 5840000, 0⟩, [c!"XENON", c!"Xe"]),
  (⟨26 / 5, 228000, -39 / 100⟩, [c!"HELIUM", c!"He"]),
  (⟨3319 / 100, 1313000, -27 / 125⟩, [c!"HYDROGEN", c!"H2"]),
  (⟨773 / 5, 5043000, 11 / 500⟩, [c!"OXYGEN", c!"O2"]),
  (⟨631 / 5, 3400000, 19 / 500⟩, [c!"NITROGEN", c!"N2"]),
  (⟨661 / 5, 3745000, 7 / 200⟩, [c!"AIR"]),
  (⟨2086 / 5, 7710000, 69 / 1000⟩, [c!"CHLORINE", c!"Cl2"]),
  (⟨1329 / 10, 3499000, 6 / 125⟩, [c!"CARBON-MONOXIDE", c!"CO"]),
  (⟨1521 / 5, 7383000, 28 / 125⟩, [c!"CARBON-DIOXIDE", c!"CO2"]),
  (⟨552, 7900000, 111 / 1000⟩, [c!"CARBON-DISULFIDE", c!"CS2"]),
  (⟨747 / 2, 8963000, 47 / 500⟩, [c!"HYDROGEN-SULFIDE", c!"H2S"]),
  (⟨2154 / 5, 7884000, 49 / 200⟩, [c!"SULFUR-DIOXIDE", c!"SO2"]),
  (⟨4909 / 10, 8210000, 53 / 125⟩, [c!"SULFUR-TRIOXIDE", c!"SO3"]),
  (⟨901 / 5, 6480000, 583 / 1000⟩, [c!"NITRIC-OXIDE", c!"NO"]),
  (⟨1548 / 5, 7245000, 141 / 1000⟩, [c!"NITROUS-OXIDE", c!"N2O"]),
  (⟨3247 / 10, 8310000, 33 / 250⟩, [c!"HYDROGEN-CHLORIDE", c!"HCl"]),
  (⟨4567 / 10, 5390000, 41 / 100⟩, [c!"HYDROGEN-CYANIDE", c!"HCN"]),
  (⟨6471 / 10, 22055000, 69 / 200⟩, [c!"WATER", c!"H2O"]),
  (⟨4057 / 10, 11280000, 253 / 1000⟩, [c!"AMMONIA", c!"NH3"]),
  (⟨520, 6890000, 357 / 500⟩, [c!"NITRIC-ACID", c!"HNO3"]),
  (⟨924, 6400000, 0⟩, [c!"SULFURIC-ACID", c!"H2SO4"]),
  (⟨377, 6280000, 0⟩, [c!"RADON", c!"Ra"]),
  (⟨222 / 5, 2760000, 0⟩, [c!"NEON", c!"Ne"])]

/-- `detail::default_elements` (Elements.cpp:28-148). -/
def defaultElements : List Chem.Element := [
  ⟨c!"H", 50397 / 50000000, c!"Hydrogen", []⟩,
  ⟨c!"He", 2001301 / 500000000, c!"Helium", []⟩,
  ⟨c!"Li", 6941 / 1000000, c!"Lithium", []⟩,
  ⟨c!"Be", 450609 / 50000000, c!"Beryllium", []⟩,
  ⟨c!"B", 10811 / 1000000, c!"Boron", []⟩,
  ⟨c!"C", 12011 / 1000000, c!"Carbon", []⟩,
  ⟨c!"N", 700337 / 50000000, c!"Nitrogen", []⟩,
  ⟨c!"O", 79997 / 5000000, c!"Oxygen", []⟩,
  ⟨c!"F", 18998403 / 1000000000, c!"Fluorine", []⟩,
  ⟨c!"Ne", 201797 / 10000000, c!"Neon", []⟩,
  ⟨c!"Na", 2873721 / 125000000, c!"Sodium", []⟩,
  ⟨c!"Mg", 4861 / 200000, c!"Magnesium", []⟩,
  ⟨c!"Al", 26981539 / 1000000000, c!"Aluminum", []⟩,
  ⟨c!"Si", 56171 / 2000000, c!"Silicon", []⟩,
  ⟨c!"P", 15486881 / 500000000, c!"Phosphorus", []⟩,
  ⟨c!"S", 16033 / 500000, c!"Sulfur", []⟩,
  ⟨c!"Cl", 354527 / 10000000, c!"Chlorine", []⟩,
  ⟨c!"Ar", 9987 / 250000, c!"Argon", []⟩,
  ⟨c!"K", 390983 / 10000000, c!"Potassium", []⟩,
  ⟨c!"Ca", 20039 / 500000, c!"Calcium", []⟩,
  ⟨c!"Sc", 4495591 / 100000000, c!"Scandium", []⟩,
  ⟨c!"Ti", 1197 / 25000, c!"Titanium", []⟩,
  ⟨c!"V", 101883 / 2000000, c!"Vanadium", []⟩,
  ⟨c!"Cr", 519961 / 10000000, c!"Chromium", []⟩,
  ⟨c!"Mn", 1098761 / 20000000, c!"Manganese", []⟩,
  ⟨c!"Fe", 55847 / 1000000, c!"Iron", []⟩,
  ⟨c!"Co", 147333 / 2500000, c!"Cobalt", []⟩,
  ⟨c!"Ni", 293467 / 5000000, c!"Nickel", []⟩,
  ⟨c!"Cu", 31773 / 500000, c!"Copper", []⟩,
  ⟨c!"Zn", 6539 / 100000, c!"Zinc", []⟩,
  ⟨c!"Ga", 69723 / 1000000, c!"Gallium", []⟩,
  ⟨c!"Ge", 7261 / 100000, c!"Germanium", []⟩,
  ⟨c!"As", 7492159 / 100000000, c!"Arsenic", []⟩,
  ⟨c!"Se", 987 / 12500, c!"Selenium", []⟩,
  ⟨c!"Br", 2497 / 31250, c!"Bromine", []⟩,
  ⟨c!"Kr", 419 / 5000, c!"Krypton", []⟩,
  ⟨c!"Rb", 427339 / 5000000, c!"Rubidium", []⟩,
  ⟨c!"Sr", 4381 / 50000, c!"Strontium", []⟩,
  ⟨c!"Y", 1778117 / 20000000, c!"Yttrium", []⟩,
  ⟨c!"Zr", 11403 / 125000, c!"Zirconium", []⟩,
  ⟨c!"Nb", 4645319 / 50000000, c!"Niobium", []⟩,
  ⟨c!"Mo", 4797 / 50000, c!"Molybdenum", []⟩,
  ⟨c!"Tc", 7649 / 78125, c!"Technetium", []⟩,
  ⟨c!"Ru", 10107 / 100000, c!"Ruthenium", []⟩,
  ⟨c!"Rh", 205811 / 2000000, c!"Rhodium", []⟩,
  ⟨c!"Pd", 5321 / 50000, c!"Palladium", []⟩,
  ⟨c!"Ag", 539341 / 5000000, c!"Silver", []⟩,
  ⟨c!"Cd", 112411 / 1000000, c!"Cadmium", []⟩,
  ⟨c!"In", 57409 / 500000, c!"Indium", []⟩,
  ⟨c!"Sn", 11871 / 100000, c!"Tin", []⟩,
  ⟨c!"Sb", 761 / 6250, c!"Antimony", []⟩,
  ⟨c!"Te", 319 / 2500, c!"Tellurium", []⟩,
  ⟨c!"I", 12690447 / 100000000, c!"Iodine", []⟩,
  ⟨c!"Xe", 13129 / 100000, c!"Xenon", []⟩,
  ⟨c!"Cs", 13290543 / 100000000, c!"Cesium", []⟩,
  ⟨c!"Ba", 137327 / 1000000, c!"Barium", []⟩,
  ⟨c!"La", 277811 / 2000000, c!"Lanthanum", []⟩,
  ⟨c!"Ce", 28023 / 200000, c!"Cerium", []⟩,
  ⟨c!"Pr", 2818153 / 20000000, c!"Praseodymium", []⟩,
  ⟨c!"Nd", 1803 / 12500, c!"Neodymium", []⟩,
  ⟨c!"Pm", 1449127 / 10000000, c!"Promethium", []⟩,
  ⟨c!"Sm", 3759 / 25000, c!"Samarium", []⟩,
  ⟨c!"Eu", 30393 / 200000, c!"Europium", []⟩,
  ⟨c!"Gd", 629 / 4000, c!"Gadolinium", []⟩,
  ⟨c!"Tb", 7946267 / 50000000, c!"Terbium", []⟩,
  ⟨c!"Dy", 13 / 80, c!"Dysprosium", []⟩,
  ⟨c!"Ho", 2061629 / 12500000, c!"Holmium", []⟩,
  ⟨c!"Er", 8363 / 50000, c!"Erbium", []⟩,
  ⟨c!"Tm", 16893421 / 100000000, c!"Thulium", []⟩,
  ⟨c!"Yb", 2163 / 12500, c!"Ytterbium", []⟩,
  ⟨c!"Lu", 174967 / 1000000, c!"Lutetium", []⟩,
  ⟨c!"Hf", 17849 / 100000, c!"Hafnium", []⟩,
  ⟨c!"Ta", 1809479 / 10000000, c!"Tantalum", []⟩,
  ⟨c!"W", 1149 / 6250, c!"Tungsten", []⟩,
  ⟨c!"Re", 186207 / 1000000, c!"Rhenium", []⟩,
  ⟨c!"Os", 19023 / 100000, c!"Osmium", []⟩,
  ⟨c!"Ir", 9611 / 50000, c!"Iridium", []⟩,
  ⟨c!"Pt", 4877 / 25000, c!"Platinum", []⟩,
  ⟨c!"Au", 9848327 / 50000000, c!"Gold", []⟩,
  ⟨c!"Hg", 20059 / 100000, c!"Mercury", []⟩,
  ⟨c!"Tl", 2043833 / 10000000, c!"Thallium", []⟩,
  ⟨c!"Pb", 259 / 1250, c!"Lead", []⟩,
  ⟨c!"Bi", 20898037 / 100000000, c!"Bismuth", []⟩,
  ⟨c!"Po", 65307 / 312500, c!"Polonium", []⟩,
  ⟨c!"At", 2099871 / 10000000, c!"Astatine", []⟩,
  ⟨c!"Rn", 138761 / 625000, c!"Radon", []⟩,
  ⟨c!"Fr", 2230197 / 10000000, c!"Francium", []⟩,
  ⟨c!"Ra", 1130127 / 5000000, c!"Radium", []⟩,
  ⟨c!"Ac", 1135139 / 5000000, c!"Actinium", []⟩,
  ⟨c!"Th", 2320381 / 10000000, c!"Thorium", []⟩,
  ⟨c!"Pa", 5775897 / 25000000, c!"Protactinium", []⟩,
  ⟨c!"U", 2380289 / 10000000, c!"Uranium", []⟩,
  ⟨c!"Np", 29631 / 125000, c!"Neptunium", []⟩,
  ⟨c!"Pu", 1220321 / 5000000, c!"Plutonium", []⟩,
  ⟨c!"Am", 1215307 / 5000000, c!"Americium", []⟩,
  ⟨c!"Cm", 2470703 / 10000000, c!"Curium", []⟩,
  ⟨c!"Bk", 2470703 / 10000000, c!"Berkelium", []⟩,
  ⟨c!"Cf", 627699 / 2500000, c!"Californium", []⟩,
  ⟨c!"Es", 252083 / 1000000, c!"Einsteinium", []⟩,
  ⟨c!"Fm", 2570951 / 10000000, c!"Fermium", []⟩,
  ⟨c!"Md", 2581 / 10000, c!"Mendelevium", []⟩,
  ⟨c!"No", 2591009 / 10000000, c!"Nobelium", []⟩,
  ⟨c!"Lr", 26211 / 100000, c!"Lawrencium", []⟩,
  ⟨c!"Rf", 261 / 1000, c!"Rutherfordium", []⟩,
  ⟨c!"Db", 131 / 500, c!"Dubnium", []⟩,
  ⟨c!"Sg", 133 / 500, c!"Seaborgium", []⟩,
  ⟨c!"Bh", 33 / 125, c!"Bohrium", []⟩,
  ⟨c!"Hs", 269 / 1000, c!"Hassium", []⟩,
  ⟨c!"Mt", 67 / 250, c!"Meitnerium", []⟩,
  ⟨c!"Ds", 269 / 1000, c!"Darmstadtium", []⟩,
  ⟨c!"Rg", 34 / 125, c!"Roentgenium", []⟩,
  ⟨c!"Cn", 277 / 1000, c!"Copernicium", []⟩,
  ⟨c!"Nh", 0, c!"Nihonium", []⟩,
  ⟨c!"Fl", 289 / 1000, c!"Flerovium", []⟩,
  ⟨c!"Mc", 0, c!"Moscovium", []⟩,
  ⟨c!"Lv", 0, c!"Livermorium", []⟩,
  ⟨c!"Ts", 0, c!"Tennessine", []⟩,
  ⟨c!"Og", 0, c!"Oganesson", []⟩]

end Verif.Registries
