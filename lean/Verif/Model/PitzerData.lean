import Verif.Model.AqueousMixture

/-!
# The data tables of `Reaktoro/Thermodynamics/Aqueous/ActivityModelPitzerHMW.cpp`

The numbers are the decimals written in the code. The formulas are what `ChemicalFormula` makes of the strings in the tables.
-/

namespace Verif.Pitzer

open Verif.Aqueous

/-! ## The formulas in the tables -/

def fBapp : Formula := ⟨c!"Ba++", [(c!"Ba", 1)], 2⟩
def fBrm : Formula := ⟨c!"Br-", [(c!"Br", 1)], -1⟩
def fClm : Formula := ⟨c!"Cl-", [(c!"Cl", 1)], -1⟩
def fOHm : Formula := ⟨c!"OH-", [(c!"O", 1), (c!"H", 1)], -1⟩
def fCapp : Formula := ⟨c!"Ca++", [(c!"Ca", 1)], 2⟩
def fHCO3m : Formula := ⟨c!"HCO3-", [(c!"H", 1), (c!"C", 1), (c!"O", 3)], -1⟩
def fHSO4m : Formula := ⟨c!"HSO4-", [(c!"H", 1), (c!"S", 1), (c!"O", 4)], -1⟩
def fSO4mm : Formula := ⟨c!"SO4--", [(c!"S", 1), (c!"O", 4)], -2⟩
def fCaB_OH_4p : Formula := ⟨c!"CaB(OH)4+", [(c!"Ca", 1), (c!"B", 1), (c!"O", 4), (c!"H", 4)], 1⟩
def fFepp : Formula := ⟨c!"Fe++", [(c!"Fe", 1)], 2⟩
def fHp : Formula := ⟨c!"H+", [(c!"H", 1)], 1⟩
def fKp : Formula := ⟨c!"K+", [(c!"K", 1)], 1⟩
def fB_OH_4m : Formula := ⟨c!"B(OH)4-", [(c!"B", 1), (c!"O", 4), (c!"H", 4)], -1⟩
def fB3O3_OH_4m : Formula := ⟨c!"B3O3(OH)4-", [(c!"B", 3), (c!"O", 7), (c!"H", 4)], -1⟩
def fB4O5_OH_4mm : Formula := ⟨c!"B4O5(OH)4--", [(c!"B", 4), (c!"O", 9), (c!"H", 4)], -2⟩
def fCO3mm : Formula := ⟨c!"CO3--", [(c!"C", 1), (c!"O", 3)], -2⟩
def fLip : Formula := ⟨c!"Li+", [(c!"Li", 1)], 1⟩
def fMgpp : Formula := ⟨c!"Mg++", [(c!"Mg", 1)], 2⟩
def fMgB_OH_4p : Formula := ⟨c!"MgB(OH)4+", [(c!"Mg", 1), (c!"B", 1), (c!"O", 4), (c!"H", 4)], 1⟩
def fMgOHp : Formula := ⟨c!"MgOH+", [(c!"Mg", 1), (c!"O", 1), (c!"H", 1)], 1⟩
def fMnpp : Formula := ⟨c!"Mn++", [(c!"Mn", 1)], 2⟩
def fNap : Formula := ⟨c!"Na+", [(c!"Na", 1)], 1⟩
def fSrpp : Formula := ⟨c!"Sr++", [(c!"Sr", 1)], 2⟩
def fB_OH_3 : Formula := ⟨c!"B(OH)3", [(c!"B", 1), (c!"O", 3), (c!"H", 3)], 0⟩
def fCO2 : Formula := ⟨c!"CO2", [(c!"C", 1), (c!"O", 2)], 0⟩

/-! ## The tables -/

/-- `beta0_data` (ActivityModelPitzerHMW.cpp:67-123). -/
def beta0Data : List (Formula × Formula × List ℚ) := [
  (fBapp, fBrm, [6291 / 20000, -1353 / 4000000]),
  (fBapp, fClm, [657 / 2500, 1281 / 2000000]),
  (fBapp, fOHm, [687 / 4000]),
  (fCapp, fBrm, [477 / 1250, -2091 / 4000000]),
  (fCapp, fClm, [3159 / 10000, -69 / 400000]),
  (fCapp, fHCO3m, [2 / 5]),
  (fCapp, fHSO4m, [429 / 2000]),
  (fCapp, fOHm, [-1747 / 10000]),
  (fCapp, fSO4mm, [1 / 5]),
  (fCaB_OH_4p, fClm, [3 / 25]),
  (fFepp, fClm, [33593 / 100000]),
  (fFepp, fHSO4m, [4273 / 10000]),
  (fFepp, fSO4mm, [321 / 1250]),
  (fHp, fBrm, [49 / 250, -2049 / 10000000]),
  (fHp, fClm, [71 / 400, -3081 / 10000000]),
  (fHp, fHSO4m, [413 / 2000]),
  (fHp, fSO4mm, [149 / 5000]),
  (fKp, fB_OH_4m, [7 / 200]),
  (fKp, fB3O3_OH_4m, [-13 / 100]),
  (fKp, fB4O5_OH_4mm, [-11 / 500]),
  (fKp, fBrm, [569 / 10000, 739 / 1000000]),
  (fKp, fClm, [967 / 20000, 2897 / 5000000]),
  (fKp, fCO3mm, [93 / 625, 447 / 250000]),
  (fKp, fHCO3m, [37 / 1250, 249 / 250000]),
  (fKp, fHSO4m, [-3 / 10000]),
  (fKp, fOHm, [649 / 5000]),
  (fKp, fSO4mm, [999 / 20000, 9 / 6250]),
  (fLip, fBrm, [437 / 2500, -1819 / 10000000]),
  (fLip, fClm, [747 / 5000, -337 / 2000000]),
  (fLip, fOHm, [3 / 200]),
  (fLip, fSO4mm, [3407 / 25000, 1011 / 2000000]),
  (fMgpp, fBrm, [4327 / 10000, -9 / 160000]),
  (fMgpp, fClm, [7047 / 20000, -1943 / 10000000]),
  (fMgpp, fHCO3m, [329 / 1000]),
  (fMgpp, fHSO4m, [2373 / 5000]),
  (fMgpp, fSO4mm, [221 / 1000, -69 / 100000]),
  (fMgB_OH_4p, fClm, [4 / 25]),
  (fMgOHp, fClm, [-1 / 10]),
  (fMnpp, fClm, [32723 / 100000]),
  (fMnpp, fSO4mm, [413 / 2000]),
  (fNap, fB_OH_4m, [-427 / 10000]),
  (fNap, fB3O3_OH_4m, [-7 / 125]),
  (fNap, fB4O5_OH_4mm, [-11 / 100]),
  (fNap, fBrm, [973 / 10000, 1923 / 2500000]),
  (fNap, fClm, [153 / 2000, -77703 / 100, -22353 / 5000, 4473 / 500000, -16579 / 5000000000]),
  (fNap, fCO3mm, [399 / 10000, 179 / 100000]),
  (fNap, fHCO3m, [277 / 10000, 1 / 1000]),
  (fNap, fHSO4m, [227 / 5000]),
  (fNap, fOHm, [54 / 625, 7 / 10000]),
  (fNap, fSO4mm, [979 / 50000, 2367 / 1000000]),
  (fSrpp, fBrm, [33113 / 100000, -1311 / 4000000]),
  (fSrpp, fClm, [1429 / 5000, 717 / 1000000]),
  (fSrpp, fHCO3m, [3 / 25]),
  (fSrpp, fSO4mm, [1 / 5, -29 / 10000])]

/-- `beta1_data` (ActivityModelPitzerHMW.cpp:125-175). -/
def beta1Data : List (Formula × Formula × List ℚ) := [
  (fBapp, fBrm, [6279 / 4000, 339 / 50000]),
  (fBapp, fClm, [1197 / 800, 1293 / 400000]),
  (fBapp, fOHm, [6 / 5]),
  (fCapp, fBrm, [1613 / 1000, 483 / 80000]),
  (fCapp, fClm, [807 / 500, 39 / 10000]),
  (fCapp, fHCO3m, [2977 / 1000]),
  (fCapp, fHSO4m, [253 / 100]),
  (fCapp, fOHm, [-2303 / 10000]),
  (fCapp, fSO4mm, [31973 / 10000, 273 / 5000]),
  (fFepp, fClm, [6129 / 4000]),
  (fFepp, fHSO4m, [87 / 25]),
  (fFepp, fSO4mm, [3063 / 1000]),
  (fHp, fBrm, [891 / 2500, 4467 / 10000000]),
  (fHp, fClm, [589 / 2000, 1419 / 10000000]),
  (fHp, fHSO4m, [1389 / 2500]),
  (fKp, fB_OH_4m, [7 / 50]),
  (fKp, fBrm, [553 / 2500, 87 / 50000]),
  (fKp, fClm, [1061 / 5000, 1071 / 1000000]),
  (fKp, fCO3mm, [143 / 100, 2051 / 1000000]),
  (fKp, fHCO3m, [-13 / 1000, 69 / 62500]),
  (fKp, fHSO4m, [347 / 2000]),
  (fKp, fOHm, [8 / 25]),
  (fKp, fSO4mm, [7793 / 10000, 2679 / 400000]),
  (fLip, fBrm, [2547 / 10000, 1659 / 2500000]),
  (fLip, fClm, [1537 / 5000, 2683 / 5000000]),
  (fLip, fOHm, [7 / 50]),
  (fLip, fSO4mm, [2541 / 2000, 141 / 100000]),
  (fMgpp, fBrm, [1753 / 1000, 309 / 80000]),
  (fMgpp, fClm, [3363 / 2000, 1461 / 400000]),
  (fMgpp, fHCO3m, [759 / 1250]),
  (fMgpp, fHSO4m, [1729 / 1000]),
  (fMgpp, fSO4mm, [3343 / 1000, 153 / 10000]),
  (fMgOHp, fClm, [829 / 500]),
  (fMnpp, fClm, [6201 / 4000]),
  (fMnpp, fSO4mm, [29511 / 10000]),
  (fNap, fB_OH_4m, [89 / 1000]),
  (fNap, fB3O3_OH_4m, [-91 / 100]),
  (fNap, fB4O5_OH_4mm, [-2 / 5]),
  (fNap, fBrm, [2791 / 10000, 1079 / 1000000]),
  (fNap, fClm, [333 / 1250, 0, 0, 7701 / 125000000, 2143 / 2000000000]),
  (fNap, fCO3mm, [1389 / 1000, 41 / 20000]),
  (fNap, fHCO3m, [411 / 10000, 11 / 10000]),
  (fNap, fHSO4m, [199 / 500]),
  (fNap, fOHm, [253 / 1000, 67 / 500000]),
  (fNap, fSO4mm, [1113 / 1000, 2253 / 400000]),
  (fSrpp, fBrm, [3423 / 2000, 2613 / 400000]),
  (fSrpp, fClm, [1667 / 1000, 1137 / 400000]),
  (fSrpp, fSO4mm, [31973 / 10000, 27 / 1000])]

/-- `beta2_data` (ActivityModelPitzerHMW.cpp:177-185). -/
def beta2Data : List (Formula × Formula × List ℚ) := [
  (fCapp, fOHm, [-143 / 25]),
  (fCapp, fSO4mm, [-1356 / 25, -129 / 250]),
  (fFepp, fSO4mm, [-42]),
  (fMgpp, fSO4mm, [-3723 / 100, -253 / 1000]),
  (fMnpp, fSO4mm, [-40]),
  (fSrpp, fSO4mm, [-1356 / 25, -21 / 50])]

/-- `Cphi_data` (ActivityModelPitzerHMW.cpp:187-219). -/
def cphiData : List (Formula × Formula × List ℚ) := [
  (fBapp, fBrm, [-19947 / 1250000]),
  (fBapp, fClm, [-96891 / 5000000, -38449 / 250000000]),
  (fCapp, fBrm, [-257 / 100000]),
  (fCapp, fClm, [-17 / 50000]),
  (fFepp, fClm, [-34429 / 4000000]),
  (fFepp, fSO4mm, [209 / 10000]),
  (fHp, fBrm, [827 / 100000, -1137 / 20000000]),
  (fHp, fClm, [1 / 1250, 6213 / 100000000]),
  (fHp, fSO4mm, [219 / 5000]),
  (fKp, fBrm, [-9 / 5000, -1751 / 25000000]),
  (fKp, fClm, [-21 / 25000, -1019 / 20000000]),
  (fKp, fCO3mm, [-3 / 2000]),
  (fKp, fHCO3m, [-1 / 125]),
  (fKp, fOHm, [41 / 10000]),
  (fLip, fBrm, [53 / 10000, -2813 / 100000000]),
  (fLip, fClm, [359 / 100000, -113 / 2500000]),
  (fLip, fSO4mm, [-199669 / 50000000, -46669 / 200000000]),
  (fMgpp, fBrm, [39 / 12500]),
  (fMgpp, fClm, [519 / 100000, -164933 / 1000000000]),
  (fMgpp, fSO4mm, [1 / 40, 523 / 1000000]),
  (fMnpp, fClm, [-51243 / 2500000]),
  (fMnpp, fSO4mm, [409 / 25000]),
  (fNap, fB_OH_4m, [57 / 5000]),
  (fNap, fBrm, [29 / 25000, -93 / 1000000]),
  (fNap, fClm, [127 / 100000, 33317 / 1000, 9421 / 100000, -931 / 20000000, 0]),
  (fNap, fCO3mm, [11 / 2500]),
  (fNap, fOHm, [11 / 2500, -947 / 5000000]),
  (fNap, fSO4mm, [497 / 100000, -15247 / 31250000]),
  (fSrpp, fBrm, [61253 / 50000000]),
  (fSrpp, fClm, [-13 / 10000])]

/-- `theta_data` (ActivityModelPitzerHMW.cpp:221-252). -/
def thetaData : List (Formula × Formula × List ℚ) := [
  (fB_OH_4m, fClm, [-13 / 200]),
  (fB_OH_4m, fSO4mm, [-3 / 250]),
  (fB3O3_OH_4m, fClm, [3 / 25]),
  (fB3O3_OH_4m, fHCO3m, [-1 / 10]),
  (fB3O3_OH_4m, fSO4mm, [1 / 10]),
  (fB4O5_OH_4mm, fClm, [37 / 500]),
  (fB4O5_OH_4mm, fHCO3m, [-87 / 1000]),
  (fB4O5_OH_4mm, fSO4mm, [3 / 25]),
  (fBrm, fOHm, [-13 / 200]),
  (fCapp, fHp, [23 / 250]),
  (fCapp, fKp, [4 / 125]),
  (fCapp, fMgpp, [7 / 1000]),
  (fCapp, fNap, [7 / 100]),
  (fClm, fCO3mm, [-1 / 50]),
  (fClm, fHCO3m, [3 / 100]),
  (fClm, fHSO4m, [-3 / 500]),
  (fClm, fOHm, [-1 / 20]),
  (fClm, fSO4mm, [1 / 50]),
  (fCO3mm, fOHm, [1 / 10]),
  (fCO3mm, fSO4mm, [1 / 50]),
  (fHp, fKp, [1 / 200]),
  (fHp, fMgpp, [1 / 10]),
  (fHp, fNap, [9 / 250]),
  (fHCO3m, fCO3mm, [-1 / 25]),
  (fHCO3m, fSO4mm, [1 / 100]),
  (fKp, fNap, [-3 / 250]),
  (fMgpp, fNap, [7 / 100]),
  (fNap, fSrpp, [51 / 1000]),
  (fOHm, fSO4mm, [-13 / 1000])]

/-- `lambda_data` (ActivityModelPitzerHMW.cpp:315-329). -/
def lambdaData : List (Formula × Formula × List ℚ) := [
  (fB_OH_3, fClm, [91 / 1000]),
  (fB_OH_3, fKp, [-7 / 50]),
  (fB_OH_3, fNap, [-97 / 1000]),
  (fB_OH_3, fSO4mm, [9 / 500]),
  (fB_OH_3, fB3O3_OH_4m, [-1 / 5]),
  (fCO2, fCapp, [183 / 1000]),
  (fCO2, fClm, [-1 / 200]),
  (fCO2, fHSO4m, [-3 / 1000]),
  (fCO2, fKp, [51 / 1000]),
  (fCO2, fMgpp, [183 / 1000]),
  (fCO2, fNap, [17 / 200]),
  (fCO2, fSO4mm, [97 / 1000])]

/-- `psi_data` (ActivityModelPitzerHMW.cpp:254-313). -/
def psiData : List (Formula × Formula × Formula × List ℚ) := [
  (fB_OH_4m, fClm, fNap, [-73 / 10000]),
  (fB3O3_OH_4m, fClm, fNap, [-3 / 125]),
  (fB4O5_OH_4mm, fClm, fNap, [13 / 500]),
  (fBrm, fKp, fNap, [-11 / 5000]),
  (fBrm, fKp, fOHm, [-7 / 500]),
  (fBrm, fNap, fHp, [-3 / 250]),
  (fBrm, fNap, fOHm, [-9 / 500]),
  (fCapp, fClm, fHp, [-3 / 200]),
  (fCapp, fClm, fKp, [-1 / 40]),
  (fCapp, fClm, fMgpp, [-3 / 250]),
  (fCapp, fClm, fNap, [-7 / 1000]),
  (fCapp, fClm, fOHm, [-1 / 40]),
  (fCapp, fClm, fSO4mm, [-9 / 500]),
  (fCapp, fMgpp, fSO4mm, [3 / 125]),
  (fCapp, fNap, fSO4mm, [-11 / 200]),
  (fClm, fBrm, fKp, [0]),
  (fClm, fCO3mm, fKp, [1 / 250]),
  (fClm, fCO3mm, fNap, [17 / 2000]),
  (fClm, fHp, fKp, [-11 / 1000]),
  (fClm, fHp, fMgpp, [-11 / 1000]),
  (fClm, fHp, fNap, [-1 / 250]),
  (fClm, fHCO3m, fMgpp, [-12 / 125]),
  (fClm, fHCO3m, fNap, [-3 / 200]),
  (fClm, fHSO4m, fHp, [13 / 1000]),
  (fClm, fHSO4m, fNap, [-3 / 500]),
  (fClm, fKp, fMgpp, [-11 / 500]),
  (fClm, fKp, fNap, [-9 / 5000]),
  (fClm, fKp, fOHm, [-3 / 500]),
  (fClm, fMgpp, fMgOHp, [7 / 250]),
  (fClm, fMgpp, fNap, [-3 / 250]),
  (fClm, fMgpp, fSO4mm, [-1 / 250]),
  (fClm, fNap, fOHm, [-3 / 500]),
  (fClm, fNap, fSO4mm, [7 / 5000]),
  (fClm, fNap, fSrpp, [-21 / 10000]),
  (fCO3mm, fHCO3m, fKp, [3 / 250]),
  (fCO3mm, fHCO3m, fNap, [1 / 500]),
  (fCO3mm, fKp, fNap, [3 / 1000]),
  (fCO3mm, fKp, fOHm, [-1 / 100]),
  (fCO3mm, fKp, fSO4mm, [-9 / 1000]),
  (fCO3mm, fNap, fOHm, [-17 / 1000]),
  (fCO3mm, fNap, fSO4mm, [-1 / 200]),
  (fHp, fHSO4m, fKp, [-53 / 2000]),
  (fHp, fHSO4m, fMgpp, [-89 / 5000]),
  (fHp, fHSO4m, fNap, [-129 / 10000]),
  (fHp, fKp, fBrm, [-21 / 1000]),
  (fHp, fKp, fSO4mm, [197 / 1000]),
  (fHCO3m, fKp, fNap, [-3 / 1000]),
  (fHCO3m, fMgpp, fSO4mm, [-161 / 1000]),
  (fHCO3m, fNap, fSO4mm, [-1 / 200]),
  (fHSO4m, fKp, fSO4mm, [-677 / 10000]),
  (fHSO4m, fMgpp, fSO4mm, [-17 / 400]),
  (fHSO4m, fNap, fSO4mm, [-47 / 5000]),
  (fKp, fMgpp, fSO4mm, [-6 / 125]),
  (fKp, fNap, fSO4mm, [-1 / 100]),
  (fKp, fOHm, fSO4mm, [-1 / 20]),
  (fMgpp, fNap, fSO4mm, [-3 / 200]),
  (fNap, fOHm, fSO4mm, [-9 / 1000])]

/-- `zeta_data` (ActivityModelPitzerHMW.cpp:331-336). -/
def zetaData : List (Formula × Formula × Formula × List ℚ) := [
  (fB_OH_3, fClm, fHp, [-51 / 5000]),
  (fB_OH_3, fNap, fSO4mm, [23 / 500]),
  (fCO2, fNap, fSO4mm, [-3 / 200])]

/-- `J0region1` (ActivityModelPitzerHMW.cpp:339-351). -/
def J0region1 : List ℚ := [
  0, 353103779 / 5000000000000, 119272323 / 500000000000, 480518193 / 1000000000000, 392492987 / 500000000000, 11443057 / 10000000000,
  77642909 / 50000000000, 100312911 / 50000000000, 250094831 / 100000000000, 303396197 / 100000000000, 180138703 / 50000000000, 420520037 / 100000000000,
  241966353 / 50000000000, 550345931 / 100000000000, 619608287 / 100000000000, 21611983 / 3125000000, 191536979 / 25000000000, 52699319 / 6250000000,
  230650981 / 25000000000, 50214877 / 5000000000, 21763647 / 2000000000, 29354429 / 2500000000, 15777581 / 1250000000, 135219989 / 10000000000,
  144409153 / 10000000000, 76890983 / 5000000000, 16333263 / 1000000000, 540799 / 31250000, 36589193 / 2000000000, 96499307 / 5000000000,
  203209017 / 10000000000, 133483 / 6250000, 56021453 / 2500000000, 29343013 / 1250000000, 61385979 / 2500000000, 128240831 / 5000000000,
  267553921 / 10000000000, 139378711 / 5000000000, 145044519 / 5000000000, 75386443 / 2500000000, 313124753 / 10000000000, 324823227 / 10000000000,
  6732771 / 200000000, 174284089 / 5000000000, 360609669 / 10000000000, 37276067 / 1000000000, 192509457 / 5000000000, 397382219 / 10000000000,
  102462119 / 2500000000, 84483131 / 2000000000, 435081791 / 10000000000, 447844989 / 10000000000, 230351707 / 5000000000, 118413823 / 2500000000,
  121674727 / 2500000000, 249916299 / 5000000000, 513054751 / 10000000000, 16448869 / 312500000, 539758253 / 10000000000, 553236619 / 10000000000,
  566797479 / 10000000000, 580439451 / 10000000000, 148540297 / 2500000000, 303980693 / 5000000000, 621838773 / 10000000000, 127158423 / 2000000000,
  64982021 / 1000000000, 20747559 / 312500000, 678096011 / 10000000000, 692341471 / 10000000000, 706657187 / 10000000000, 180260527 / 2500000000,
  367747603 / 5000000000, 375007741 / 5000000000, 764601961 / 10000000000, 77925369 / 1000000000, 793969741 / 10000000000, 404374603 / 5000000000,
  823591201 / 10000000000, 838494861 / 10000000000, 426729671 / 5000000000, 434241909 / 5000000000, 441783741 / 5000000000, 179741909 / 2000000000,
  456954619 / 5000000000, 185833161 / 2000000000, 236119627 / 2500000000, 959846627 / 10000000000, 487634727 / 5000000000, 495373149 / 5000000000,
  1572307 / 15625000, 51092967 / 500000000, 103749423 / 1000000000, 105318051 / 1000000000, 26722939 / 250000000, 27117619 / 250000000,
  13756769 / 125000000, 55821363 / 500000000, 113236139 / 1000000000, 22966867 / 200000000, 58218629 / 500000000]

/-- `J0region2` (ActivityModelPitzerHMW.cpp:354-365). -/
def J0region2 : List ℚ := [
  58218629 / 500000000, 132715063 / 1000000000, 74705883 / 500000000, 83243031 / 500000000, 22987863 / 125000000, 2520403 / 12500000,
  27456007 / 125000000, 29740957 / 125000000, 25645109 / 100000000, 34400089 / 125000000, 36770103 / 125000000, 313317387 / 1000000000,
  332657787 / 1000000000, 4402133 / 12500000, 726261 / 1953125, 195836693 / 500000000, 82329069 / 200000000, 215876839 / 500000000,
  451991199 / 1000000000, 118087823 / 250000000, 123206963 / 250000000, 102683047 / 200000000, 534108209 / 1000000000, 69362739 / 125000000,
  28789591 / 50000000, 596773717 / 1000000000, 30892183 / 50000000, 127799593 / 200000000, 26409327 / 40000000, 681546049 / 1000000000,
  351466769 / 500000000, 362196387 / 500000000, 745921053 / 1000000000, 30700633 / 40000000, 19729367 / 25000000, 405447669 / 500000000,
  832675641 / 1000000000, 854513543 / 1000000000, 13693861 / 15625000, 898354481 / 1000000000, 1438053 / 1562500, 235600939 / 250000000,
  964502399 / 1000000000, 493324169 / 500000000, 100884013 / 100000000, 103107639 / 100000000, 52667791 / 50000000, 53783857 / 50000000,
  27450979 / 25000000, 14005509 / 12500000, 114288073 / 100000000, 116535811 / 100000000, 59393593 / 50000000, 121042101 / 100000000,
  123300461 / 100000000, 125562177 / 100000000, 127827163 / 100000000, 26019067 / 20000000, 66183307 / 50000000, 67320461 / 50000000,
  68459093 / 50000000, 139198333 / 100000000, 28296259 / 20000000, 71883503 / 50000000, 146055401 / 100000000, 74173209 / 50000000,
  75319999 / 50000000, 76468041 / 50000000, 31046923 / 20000000, 157535543 / 100000000, 159838813 / 100000000, 259431 / 160000,
  164452179 / 100000000, 166762179 / 100000000, 169074329 / 100000000, 171388583 / 100000000, 173704899 / 100000000, 35204647 / 20000000,
  3566871 / 2000000, 36133161 / 20000000, 182989961 / 100000000, 185315981 / 100000000, 18764383 / 10000000, 5936671 / 3125000,
  192304873 / 100000000, 97319 / 50000, 9848641 / 5000000, 199309303 / 100000000, 201647419 / 100000000, 3187299 / 1562500,
  206328427 / 100000000]

/-- `J0region3` (ActivityModelPitzerHMW.cpp:368-379). -/
def J0region3 : List ℚ := [
  206328427 / 100000000, 57455511 / 25000000, 253446209 / 100000000, 3464771 / 1250000, 37626641 / 12500000, 16246407 / 5000000,
  348916529 / 100000000, 372969829 / 100000000, 198540467 / 50000000, 210621911 / 50000000, 445453343 / 100000000, 234852531 / 50000000,
  3859337 / 781250, 518320209 / 100000000, 108535467 / 20000000, 567063917 / 100000000, 591477653 / 100000000, 615916491 / 100000000,
  320189299 / 50000000, 83107791 / 12500000, 3446831 / 500000, 356944437 / 50000000, 147685827 / 20000000, 762985879 / 100000000,
  7875581 / 1000000, 203036219 / 25000000, 167349073 / 20000000, 107669849 / 12500000, 885984443 / 100000000, 910621661 / 100000000,
  467634919 / 50000000, 959928411 / 100000000, 984596857 / 100000000, 100927469 / 10000000, 51698073 / 5000000, 4234627 / 400000,
  21667203 / 2000000, 110807131 / 10000000, 28319747 / 2500000, 57875777 / 5000000, 59112399 / 5000000, 30174673 / 2500000,
  12317321 / 1000000, 5025933 / 400000, 64062007 / 5000000, 26120051 / 2000000, 133077027 / 10000000, 33888577 / 2500000,
  69016041 / 5000000, 17563791 / 1250000, 142989031 / 10000000, 72734087 / 5000000, 73973871 / 5000000, 150427719 / 10000000,
  152908093 / 10000000, 3107777 / 200000, 157869977 / 10000000, 80175731 / 5000000, 81416647 / 5000000, 165315461 / 10000000,
  83898977 / 5000000, 85140381 / 5000000, 1382111 / 80000, 35049457 / 2000000, 177730983 / 10000000, 2252687 / 125000,
  22837401 / 1250000, 185183719 / 10000000, 93834243 / 5000000, 95076751 / 5000000, 4815969 / 250000, 97562127 / 5000000,
  24701247 / 1250000, 100047961 / 5000000, 50645521 / 2500000, 102534229 / 5000000, 103777519 / 5000000, 210041819 / 10000000,
  42505759 / 2000000, 107507981 / 5000000, 43500663 / 2000000, 4399817 / 200000, 222478561 / 10000000, 112483223 / 5000000,
  227454499 / 10000000, 114971359 / 5000000, 232431097 / 10000000, 117459817 / 5000000, 59352081 / 2500000, 59974291 / 2500000,
  30298269 / 1250000]

/-- `J0region4` (ActivityModelPitzerHMW.cpp:382-385). -/
def J0region4 : List ℚ := [
  30298269 / 1250000, 491709893 / 10000000, 74138819 / 1000000, 198238139 / 2000000, 31026347 / 250000, 29819041 / 200000,
  21760907 / 125000, 199080833 / 1000000, 22407551 / 100000, 249071007 / 1000000]

/-- `J0region5` (ActivityModelPitzerHMW.cpp:388-391). -/
def J0region5 : List ℚ := [
  249071007 / 1000000, 249523409 / 500000, 187259091 / 250000, 499515141 / 500000, 62451311 / 50000, 18737791 / 12500,
  21862763 / 12500, 99950963 / 50000, 11245089 / 5000, 249901659 / 100000]

/-- `J1region1` (ActivityModelPitzerHMW.cpp:394-406). -/
def J1region1 : List ℚ := [
  0, 244437 / 1953125000, 207374659 / 500000000000, 824176731 / 1000000000000, 133185071 / 100000000000, 192376087 / 100000000000,
  129488481 / 50000000000, 332207863 / 100000000000, 411444419 / 100000000000, 62021539 / 12500000000, 585958733 / 100000000000, 85054167 / 12500000000,
  389637467 / 50000000000, 1411523 / 160000000, 988964869 / 100000000000, 109934151 / 10000000000, 121313201 / 10000000000, 26603117 / 2000000000,
  1450249 / 100000000, 78663089 / 5000000000, 84952849 / 5000000000, 91375419 / 5000000000, 195849943 / 10000000000, 104596111 / 5000000000,
  55691913 / 2500000000, 236566899 / 10000000000, 250581251 / 10000000000, 264802559 / 10000000000, 13961159 / 500000000, 293835939 / 10000000000,
  308634081 / 10000000000, 8090281 / 250000000, 169380703 / 5000000000, 70815779 / 2000000000, 369558327 / 10000000000, 1925973 / 50000000,
  400982869 / 10000000000, 104229633 / 2500000000, 54124651 / 1250000000, 112303681 / 2500000000, 465567101 / 10000000000, 482050541 / 10000000000,
  62332677 / 1250000000, 16106133 / 312500000, 532251741 / 10000000000, 54922469 / 1000000000, 113262411 / 2000000000, 58351091 / 1000000000,
  37551153 / 625000000, 618231971 / 10000000000, 635748887 / 10000000000, 653366701 / 10000000000, 671083013 / 10000000000, 68889551 / 1000000000,
  141360393 / 2000000000, 724800229 / 10000000000, 742888229 / 10000000000, 152212793 / 2000000000, 389662753 / 5000000000, 99708873 / 1250000000,
  816098597 / 10000000000, 417303299 / 5000000000, 853193299 / 10000000000, 217964267 / 2500000000, 445298161 / 5000000000, 113676191 / 1250000000,
  1160369 / 12500000, 9472519 / 100000000, 966278229 / 10000000000, 197074567 / 2000000000, 313917 / 3125000, 20475233 / 200000000,
  52152667 / 500000000, 106240827 / 1000000000, 211294 / 1953125, 110130321 / 1000000000, 875657 / 7812500, 57021873 / 500000000,
  116009167 / 1000000000, 23596051 / 200000000, 7497307 / 62500000, 60969521 / 500000000, 123926549 / 1000000000, 125919343 / 1000000000,
  63958667 / 500000000, 64960217 / 500000000, 1649107 / 12500000, 133941627 / 1000000000, 33989889 / 250000000, 137982267 / 1000000000,
  140009683 / 1000000000, 14204173 / 100000000, 72039167 / 500000000, 73059711 / 500000000, 148164927 / 1000000000, 75107389 / 500000000,
  152268909 / 1000000000, 19290907 / 125000000, 156389753 / 1000000000, 158456339 / 1000000000, 160526953 / 1000000000]

/-- `J1region2` (ActivityModelPitzerHMW.cpp:409-420). -/
def J1region2 : List ℚ := [
  160526953 / 1000000000, 36288421 / 200000000, 101350881 / 500000000, 224262453 / 1000000000, 15380517 / 62500000, 268149211 / 1000000000,
  145209963 / 500000000, 156439409 / 500000000, 335507329 / 1000000000, 179144699 / 500000000, 95302759 / 250000000, 80851997 / 200000000,
  427425447 / 1000000000, 56337233 / 125000000, 1851831 / 3906250, 19901219 / 40000000, 521076279 / 1000000000, 54470003 / 100000000,
  568396207 / 1000000000, 148039953 / 250000000, 153996577 / 250000000, 159967891 / 250000000, 663811811 / 1000000000, 687803601 / 1000000000,
  177960943 / 250000000, 36796471 / 50000000, 76005787 / 100000000, 156845331 / 200000000, 101054187 / 125000000, 832676281 / 1000000000,
  26779783 / 31250000, 881262001 / 1000000000, 905601427 / 1000000000, 5812311 / 6250000, 238591383 / 250000000, 97878737 / 100000000,
  100323399 / 100000000, 5138521 / 5000000, 105219687 / 100000000, 53835547 / 50000000, 110124543 / 100000000, 112579939 / 100000000,
  23007439 / 20000000, 117496229 / 100000000, 119956963 / 100000000, 61209661 / 50000000, 62441619 / 50000000, 31837161 / 25000000,
  129815479 / 100000000, 132283683 / 100000000, 134753201 / 100000000, 137223979 / 100000000, 139695969 / 100000000, 888557 / 625000,
  14464339 / 10000000, 147118733 / 100000000, 14959511 / 10000000, 152072481 / 100000000, 154550809 / 100000000, 78515029 / 50000000,
  39877549 / 25000000, 40497797 / 25000000, 32894601 / 20000000, 166955617 / 100000000, 42359749 / 25000000, 34384623 / 20000000,
  43601987 / 25000000, 176893471 / 100000000, 8968983 / 5000000, 45466623 / 25000000, 92176973 / 50000000, 186842001 / 100000000,
  189330637 / 100000000, 38363967 / 20000000, 24288697 / 12500000, 196799843 / 100000000, 199290619 / 100000000, 1576421 / 781250,
  204273633 / 100000000, 206765841 / 100000000, 817416 / 390625, 6617237 / 3125000, 214245093 / 100000000, 216739009 / 100000000,
  219233319 / 100000000, 55432003 / 25000000, 56055769 / 25000000, 453437 / 200000, 114607137 / 50000000, 115855193 / 50000000,
  234206827 / 100000000]

/-- `J1region3` (ActivityModelPitzerHMW.cpp:423-434). -/
def J1region3 : List ℚ := [
  234206827 / 100000000, 64796837 / 25000000, 284191919 / 100000000, 154607339 / 50000000, 83562829 / 25000000, 359298607 / 100000000,
  384354101 / 100000000, 102353979 / 25000000, 217241293 / 50000000, 459552961 / 100000000, 484626133 / 100000000, 4077611 / 800000,
  133694527 / 25000000, 111971173 / 20000000, 292467133 / 50000000, 610013007 / 100000000, 635091839 / 100000000, 660170559 / 100000000,
  685249003 / 100000000, 355163519 / 50000000, 147080911 / 20000000, 380240733 / 50000000, 392778851 / 50000000, 810633207 / 100000000,
  26115873 / 3125000, 172156371 / 20000000, 442927469 / 50000000, 182185433 / 20000000, 37439941 / 4000000, 480534503 / 50000000,
  493069303 / 50000000, 25280183 / 2500000, 25906879 / 2500000, 106134211 / 10000000, 5432041 / 500000, 55573671 / 5000000,
  56826889 / 5000000, 116160129 / 10000000, 118666397 / 10000000, 121172583 / 10000000, 123678687 / 10000000, 126184711 / 10000000,
  4021583 / 312500, 131196523 / 10000000, 66851157 / 5000000, 13620803 / 1000000, 138713673 / 10000000, 141219243 / 10000000,
  71862371 / 5000000, 146230171 / 10000000, 37183883 / 2500000, 6049633 / 400000, 153746053 / 10000000, 31250243 / 2000000,
  79378157 / 5000000, 3225227 / 200000, 6550653 / 400000, 166271241 / 10000000, 168776097 / 10000000, 34256179 / 2000000,
  43446409 / 2500000, 88145161 / 5000000, 178794953 / 10000000, 18129953 / 1000000, 36760811 / 2000000, 11644283 / 625000,
  3776259 / 200000, 95658661 / 5000000, 38764329 / 2000000, 1227037 / 62500, 198830149 / 10000000, 20133433 / 1000000,
  203838467 / 10000000, 103171279 / 5000000, 104423303 / 5000000, 211350611 / 10000000, 213854573 / 10000000, 108179247 / 5000000,
  218862373 / 10000000, 221366213 / 10000000, 223870013 / 10000000, 113186887 / 5000000, 228877497 / 10000000, 231381183 / 10000000,
  7308901 / 312500, 59097111 / 2500000, 238892021 / 10000000, 241395563 / 10000000, 24389907 / 1000000, 15400159 / 625000,
  1944578 / 78125]

/-- `J1region4` (ActivityModelPitzerHMW.cpp:437-440). -/
def J1region4 : List ℚ := [
  1944578 / 78125, 124785303 / 2500000, 749270387 / 10000000, 499677809 / 5000000, 124941747 / 1000000, 149946507 / 1000000,
  2186879 / 12500, 99976733 / 500000, 112478059 / 500000, 49991679 / 200000]

/-- `J1region5` (ActivityModelPitzerHMW.cpp:443-446). -/
def J1region5 : List ℚ := [
  49991679 / 200000, 499971193 / 1000000, 749977057 / 1000000, 499990289 / 500000, 62499149 / 50000, 74999237 / 50000,
  174998611 / 100000, 1249992 / 625, 22499881 / 10000, 124999443 / 50000]

/-- `Aphi_temperatures` (ActivityModelPitzerHMW.cpp:449-452). -/
def aphiTemperatures : List ℚ := [
  0, 25, 50, 75, 100, 125,
  150, 175, 200, 225, 250, 275,
  300, 325, 350]

/-- `Aphi_pressures` (ActivityModelPitzerHMW.cpp:455-458). -/
def aphiPressures : List ℚ := [
  1, 100, 200, 400, 600, 800,
  1000, 1500, 2000, 3000, 4000, 5000]

/-- `Aphi_data` (ActivityModelPitzerHMW.cpp:466-480). -/
def aphiData : List ℚ := [
  18837111 / 50000000, 19573639 / 50000000, 1641279 / 4000000, 21665099 / 50000000, 4605891 / 10000000, 4924863 / 10000000,
  26477453 / 50000000, 57258689 / 100000000, 7785119 / 12500000, 13641611 / 20000000, 9417981 / 12500000, 84226817 / 100000000,
  47966031 / 50000000, 113030749 / 100000000, 35970451 / 25000000, 37511283 / 100000000, 4870263 / 12500000, 40816127 / 100000000,
  43071699 / 100000000, 11435383 / 25000000, 24427473 / 50000000, 26230503 / 50000000, 2831791 / 5000000, 61497721 / 100000000,
  67238823 / 100000000, 74195091 / 100000000, 16604233 / 20000000, 95211387 / 100000000, 113030749 / 100000000, 35970451 / 25000000,
  37349119 / 100000000, 38778969 / 100000000, 40603633 / 100000000, 8563687 / 20000000, 9086451 / 20000000, 48468653 / 100000000,
  25983861 / 50000000, 55991097 / 100000000, 60632611 / 100000000, 66040079 / 100000000, 72461917 / 100000000, 8035697 / 10000000,
  90695201 / 100000000, 53001397 / 50000000, 67980609 / 50000000, 578623 / 1562500, 960599 / 2500000, 8038893 / 20000000,
  42334123 / 100000000, 44845489 / 100000000, 9548529 / 20000000, 51051253 / 100000000, 54810417 / 100000000, 7384673 / 12500000,
  31968627 / 50000000, 434517 / 625000, 76056419 / 100000000, 10493883 / 12500000, 18816851 / 20000000, 54376309 / 50000000,
  18361853 / 50000000, 38083131 / 100000000, 19902517 / 50000000, 20938609 / 50000000, 4429741 / 10000000, 11768101 / 25000000,
  50217061 / 100000000, 10750859 / 20000000, 57716443 / 100000000, 62148709 / 100000000, 33558169 / 50000000, 72719329 / 100000000,
  79124059 / 100000000, 10829683 / 12500000, 19181167 / 20000000, 36424217 / 100000000, 37755559 / 100000000, 7886769 / 20000000,
  41445319 / 100000000, 21892043 / 50000000, 23225673 / 50000000, 24726917 / 50000000, 52802729 / 100000000, 56513171 / 100000000,
  30302239 / 50000000, 6510141 / 10000000, 7003733 / 10000000, 75461241 / 100000000, 40726733 / 50000000, 88162611 / 100000000,
  18066521 / 50000000, 7488081 / 20000000, 781591 / 2000000, 41036291 / 100000000, 4330209 / 10000000, 2867117 / 6250000,
  48752239 / 100000000, 25969899 / 50000000, 27719841 / 50000000, 59254133 / 100000000, 31691517 / 50000000, 13564453 / 20000000,
  72561799 / 100000000, 7758343 / 10000000, 20714523 / 25000000, 17719751 / 50000000, 18351017 / 50000000, 19130003 / 50000000,
  20050893 / 50000000, 42215421 / 100000000, 22295587 / 50000000, 23610051 / 50000000, 50092041 / 100000000, 664917 / 1250000,
  7063049 / 12500000, 11999249 / 20000000, 15906657 / 25000000, 33667031 / 50000000, 71029469 / 100000000, 74583251 / 100000000,
  3479199 / 10000000, 36026613 / 100000000, 18761319 / 50000000, 39274277 / 100000000, 41269203 / 100000000, 43494673 / 100000000,
  11484279 / 25000000, 24290217 / 50000000, 10280783 / 20000000, 5437979 / 10000000, 28735149 / 50000000, 12124797 / 20000000,
  63770811 / 100000000, 66815393 / 100000000, 34813537 / 50000000, 4202721 / 12500000, 34833639 / 100000000, 7249259 / 20000000,
  18934731 / 50000000, 1984733 / 5000000, 4170849 / 10000000, 43894731 / 100000000, 46233761 / 100000000, 12175299 / 25000000,
  10253233 / 20000000, 53889233 / 100000000, 28259927 / 50000000, 2363723 / 4000000, 30762497 / 50000000, 31853007 / 50000000,
  32597289 / 100000000, 33811759 / 100000000, 35176187 / 100000000, 36716097 / 100000000, 19214603 / 50000000, 40304427 / 100000000,
  8465267 / 20000000, 2779731 / 6250000, 46728781 / 100000000, 24528089 / 50000000, 51421251 / 100000000, 26889093 / 50000000,
  56069387 / 100000000, 58221783 / 100000000, 7517643 / 12500000, 6339093 / 20000000, 32925197 / 100000000, 6852517 / 20000000,
  35747187 / 100000000, 1168227 / 3125000, 7832589 / 20000000, 41072659 / 100000000, 43094633 / 100000000, 9041349 / 20000000,
  47381721 / 100000000, 49585921 / 100000000, 25888851 / 50000000, 13476289 / 25000000, 27951401 / 50000000, 57686399 / 100000000]

end Verif.Pitzer
