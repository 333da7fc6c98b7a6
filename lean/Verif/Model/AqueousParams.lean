import Verif.Model.Lists
import Verif.Model.NamingUtils
import Verif.Model.Bilinear

/-!
# Model of the parameters of the aqueous activity models

The tables, look-ups and setters of `Reaktoro/Thermodynamics/Aqueous/ActivityModelDebyeHuckel.cpp` and the tables, radii and interpolators of
`ActivityModelHKF.cpp`.  Numbers are exact; the tables were copied from the source by a script, in the order of the source.
-/

namespace Verif.AqueousParams

open Lists

abbrev Str := List Char

/-! ### Maps with texts as keys -/

/-- Order of the keys of `std::map<std::string, ...>`. -/
def before : Str → Str → Bool
  | [], [] => false
  | [], _ :: _ => true
  | _ :: _, [] => false
  | a :: s, b :: t => if a = b then before s t else decide (a.toNat < b.toNat)

/-- `std::map::insert`: an existing entry stays. -/
def insertNew (k : Str) (v : Rat) : List (Str × Rat) → List (Str × Rat)
  | [] => [(k, v)]
  | (a, b) :: rest => if a = k then (a, b) :: rest else if before k a then (k, v) :: (a, b) :: rest else (a, b) :: insertNew k v rest

/-- `map[k] = v`. -/
def assign (k : Str) (v : Rat) : List (Str × Rat) → List (Str × Rat)
  | [] => [(k, v)]
  | (a, b) :: rest => if a = k then (a, v) :: rest else if before k a then (k, v) :: (a, b) :: rest else (a, b) :: assign k v rest

/-- A map made from an initializer list. -/
def mapOf (l : List (Str × Rat)) : List (Str × Rat) := l.foldl (fun m q => insertNew q.1 q.2 m) []

/-! ### Tables of the Debye-Hückel model -/

/-- `aions_phreeqc` (ActivityModelDebyeHuckel.cpp:35-123). -/
def aions_phreeqc : List (Str × Rat) := [
  (c!"Al(OH)2+", 54 / 10), (c!"Al(OH)4-", 45 / 10), (c!"Al(SO4)2-", 45 / 10), (c!"Al+++", 9), (c!"AlF++", 54 / 10), (c!"AlF2+", 54 / 10),
  (c!"AlF4-", 45 / 10), (c!"AlOH++", 54 / 10), (c!"AlSO4+", 45 / 10), (c!"Ba++", 4), (c!"BaOH+", 5), (c!"Br-", 3), (c!"CO3--", 54 / 10),
  (c!"Ca++", 5), (c!"CaH2PO4+", 54 / 10), (c!"CaHCO3+", 6), (c!"CaPO4-", 54 / 10), (c!"Cl-", 363 / 100), (c!"Cu+", 25 / 10), (c!"Cu++", 6),
  (c!"CuCl+", 4), (c!"CuCl2-", 4), (c!"CuCl3-", 4), (c!"CuCl3--", 5), (c!"CuCl4--", 5), (c!"CuOH+", 4), (c!"F-", 35 / 10), (c!"Fe(OH)2+", 54 / 10),
  (c!"Fe(OH)3-", 5), (c!"Fe(OH)4-", 54 / 10), (c!"Fe++", 6), (c!"Fe+++", 9), (c!"FeCl++", 5), (c!"FeCl2+", 5), (c!"FeF++", 5), (c!"FeF2+", 5),
  (c!"FeH2PO4+", 54 / 10), (c!"FeH2PO4++", 54 / 10), (c!"FeHPO4+", 5), (c!"FeOH+", 5), (c!"FeOH++", 5), (c!"FeSO4+", 5), (c!"H+", 9),
  (c!"H2PO4-", 54 / 10), (c!"H2SiO4--", 54 / 10), (c!"H3SiO4-", 4), (c!"HCO3-", 54 / 10), (c!"HPO4--", 5), (c!"HS-", 35 / 10), (c!"K+", 35 / 10),
  (c!"KHPO4-", 54 / 10), (c!"KSO4-", 54 / 10), (c!"Li+", 6), (c!"LiSO4-", 5), (c!"Mg++", 55 / 10), (c!"MgF+", 45 / 10), (c!"MgH2PO4+", 54 / 10),
  (c!"MgHCO3+", 4), (c!"MgOH+", 65 / 10), (c!"MgPO4-", 54 / 10), (c!"Mn(OH)3-", 5), (c!"Mn++", 6), (c!"Mn+++", 9), (c!"MnCl+", 5), (c!"MnCl3-", 5),
  (c!"MnF+", 5), (c!"MnHCO3+", 5), (c!"MnOH+", 5), (c!"NH4+", 25 / 10), (c!"NO2-", 3), (c!"NO3-", 3), (c!"Na+", 408 / 100), (c!"NaHPO4-", 54 / 10),
  (c!"NaSO4-", 54 / 10), (c!"OH-", 35 / 10), (c!"PO4---", 4), (c!"S--", 5), (c!"SO4--", 5), (c!"SiF6--", 5), (c!"Sr++", 526 / 100),
  (c!"SrHCO3+", 54 / 10), (c!"SrOH+", 5), (c!"Zn++", 5), (c!"ZnCl+", 4), (c!"ZnCl3-", 4), (c!"ZnCl4--", 5)]

/-- `bions_phreeqc` (ActivityModelDebyeHuckel.cpp:126-136). -/
def bions_phreeqc : List (Str × Rat) := [
  (c!"Ba++", 153 / 1000), (c!"Ca++", 165 / 1000), (c!"Cl-", 17 / 1000), (c!"K+", 15 / 1000), (c!"Mg++", 2 / 10), (c!"Na+", 82 / 1000),
  (c!"SO4--", -4 / 100), (c!"Sr++", 121 / 1000)]

/-- `aions_wateq4f` (ActivityModelDebyeHuckel.cpp:139-164). -/
def aions_wateq4f : List (Str × Rat) := [
  (c!"Ca++", 5), (c!"Mg++", 55 / 10), (c!"Na+", 4), (c!"K+", 35 / 10), (c!"Cl-", 35 / 10), (c!"SO4--", 5), (c!"HCO3-", 54 / 10),
  (c!"CO3--", 54 / 10), (c!"Sr++", 526 / 100), (c!"H+", 9), (c!"OH-", 35 / 10), (c!"SrHCO3+", 54 / 10), (c!"SrOH+", 5), (c!"Cu(S4)2---", 23),
  (c!"CuS4S5---", 25), (c!"S2--", 65 / 10), (c!"S3--", 8), (c!"S4--", 10), (c!"S5--", 12), (c!"S6--", 14), (c!"Ag(S4)2---", 22), (c!"AgS4S5---", 24),
  (c!"Ag(HS)S4--", 15)]

/-- `bions_wateq4f` (ActivityModelDebyeHuckel.cpp:167-179). -/
def bions_wateq4f : List (Str × Rat) := [
  (c!"Ca++", 165 / 1000), (c!"Mg++", 2 / 10), (c!"Na+", 75 / 1000), (c!"K+", 15 / 1000), (c!"Cl-", 15 / 1000), (c!"SO4--", -4 / 100), (c!"HCO3-", 0),
  (c!"CO3--", 0), (c!"H2CO3(aq)", 0), (c!"Sr++", 121 / 1000)]

/-- `aions_kielland` (ActivityModelDebyeHuckel.cpp:182-272). -/
def aions_kielland : List (Str × Rat) := [
  (c!"H+", 9), (c!"Li+", 6), (c!"Rb+", 25 / 10), (c!"Cs+", 25 / 10), (c!"NH4+", 25 / 10), (c!"Tl+", 25 / 10), (c!"Ag+", 25 / 10), (c!"K+", 3),
  (c!"Cl-", 3), (c!"Br-", 3), (c!"I-", 3), (c!"CN-", 3), (c!"NO2-", 3), (c!"NO3-", 3), (c!"OH-", 35 / 10), (c!"F-", 35 / 10), (c!"NCS-", 35 / 10),
  (c!"NCO-", 35 / 10), (c!"HS-", 35 / 10), (c!"ClO3-", 35 / 10), (c!"ClO4-", 35 / 10), (c!"BrO3-", 35 / 10), (c!"IO4-", 35 / 10),
  (c!"MnO4-", 35 / 10), (c!"Na+", 4), (c!"CdCl+", 4), (c!"ClO2-", 4), (c!"IO3-", 4), (c!"HCO3-", 4), (c!"H2PO4-", 4), (c!"HSO3-", 4),
  (c!"H2AsO4-", 4), (c!"Co(NH3)4(NO2)2+", 4), (c!"Hg2++", 4), (c!"SO4--", 4), (c!"S2O3--", 4), (c!"S2O6--", 4), (c!"S2O8--", 4), (c!"SeO4--", 4),
  (c!"CrO4--", 4), (c!"HPO4--", 4), (c!"Pb++", 45 / 10), (c!"CO3--", 45 / 10), (c!"SO3--", 45 / 10), (c!"MoO4--", 45 / 10),
  (c!"Co(NH3)5Cl++", 45 / 10), (c!"Fe(CN)5NO--", 45 / 10), (c!"Sr++", 5), (c!"Ba++", 5), (c!"Ra++", 5), (c!"Cd++", 5), (c!"Hg++", 5), (c!"S--", 5),
  (c!"S2O4--", 5), (c!"WO4--", 5), (c!"Ca++", 6), (c!"Cu++", 6), (c!"Zn++", 6), (c!"Sn++", 6), (c!"Mn++", 6), (c!"Fe++", 6), (c!"Ni++", 6),
  (c!"Co++", 6), (c!"Mg++", 8), (c!"Be++", 8), (c!"PO4---", 4), (c!"Fe(CN)6---", 4), (c!"Cr(NH3)6+++", 4), (c!"Co(NH3)6+++", 4),
  (c!"Co(NH3)5H2O+++", 4), (c!"Al+++", 9), (c!"Fe+++", 9), (c!"Cr+++", 9), (c!"Sc+++", 9), (c!"Y+++", 9), (c!"La+++", 9), (c!"In+++", 9),
  (c!"Ce+++", 9), (c!"Pr+++", 9), (c!"Nd+++", 9), (c!"Sm+++", 9), (c!"Fe(CN)6----", 5), (c!"Co(S2O3)(CN)5----", 6), (c!"Th++++", 11),
  (c!"Zn++++", 11), (c!"Ce++++", 11), (c!"Sn++++", 11), (c!"Co(SO3)2(CN)4-----", 9)]

/-- `get` (ActivityModelDebyeHuckel.cpp:275-281): the key of each entry is converted to a formula when it is compared. -/
def get (formula : Formula) : List (Str × Rat) → Rat → Res Rat
  | [], defaultvalue => .ok defaultvalue
  | (key, value) :: rest, defaultvalue =>
    (Formula.ofString key).bind fun k => if formula.equivalent k then .ok value else get formula rest defaultvalue

/-- `ActivityModelDebyeHuckelParams` (ActivityModelDebyeHuckel.hpp:27-45). -/
structure Params where
  aiondefault : Rat := 0
  biondefault : Rat := 0
  bneutraldefault : Rat := 1 / 10
  aions : List (Str × Rat) := []
  bions : List (Str × Rat) := []
  bneutrals : List (Str × Rat) := []

/-- `aion`, `bion`, `bneutral` (ActivityModelDebyeHuckel.cpp:429-442). -/
def Params.aion (p : Params) (ion : Formula) : Res Rat := get ion p.aions p.aiondefault
def Params.bion (p : Params) (ion : Formula) : Res Rat := get ion p.bions p.biondefault
def Params.bneutral (p : Params) (neutral : Formula) : Res Rat := get neutral p.bneutrals p.bneutraldefault

/-- `setLimitingLaw`, `setKielland`, `setWATEQ4F`, `setPHREEQC` (ActivityModelDebyeHuckel.cpp:444-471). -/
def Params.setLimitingLaw (p : Params) : Params := { p with aiondefault := 0, biondefault := 0, aions := [], bions := [] }
def Params.setKielland (p : Params) : Params := { p with aiondefault := 0, biondefault := 0, aions := mapOf aions_kielland, bions := [] }
def Params.setWATEQ4F (p : Params) : Params := { p with aions := mapOf aions_wateq4f, bions := mapOf bions_wateq4f }
def Params.setPHREEQC (p : Params) : Params :=
  { p with aions := mapOf aions_phreeqc, bions := mapOf bions_phreeqc, bneutraldefault := 1 / 10 }

/-- What the code of a user does with the parameters: call a setter, or change a member (the members are public). -/
inductive Op where
  | setLimitingLaw | setKielland | setWATEQ4F | setPHREEQC
  | aiondefault (v : Rat) | biondefault (v : Rat) | bneutraldefault (v : Rat)
  | aion (k : Str) (v : Rat) | bion (k : Str) (v : Rat) | bneutral (k : Str) (v : Rat)

def Params.run (p : Params) : Op → Params
  | .setLimitingLaw => p.setLimitingLaw
  | .setKielland => p.setKielland
  | .setWATEQ4F => p.setWATEQ4F
  | .setPHREEQC => p.setPHREEQC
  | .aiondefault v => { p with aiondefault := v }
  | .biondefault v => { p with biondefault := v }
  | .bneutraldefault v => { p with bneutraldefault := v }
  | .aion k v => { p with aions := assign k v p.aions }
  | .bion k v => { p with bions := assign k v p.bions }
  | .bneutral k v => { p with bneutrals := assign k v p.bneutrals }

/-- The parameters of `ActivityModelDebyeHuckel`, `...LimitingLaw`, `...Kielland`, `...PHREEQC`, `...WATEQ4F`
(ActivityModelDebyeHuckel.cpp:473-512). -/
inductive Preset where
  | plain | limitingLaw | kielland | phreeqc | wateq4f

def Preset.params : Preset → Params
  | .plain => ({} : Params).setPHREEQC
  | .limitingLaw => ({} : Params).setLimitingLaw
  | .kielland => ({} : Params).setKielland
  | .phreeqc => ({} : Params).setPHREEQC
  | .wateq4f => ({} : Params).setWATEQ4F

/-- The parameters collected for the ions (ActivityModelDebyeHuckel.cpp:316-330). -/
def Params.collect (p : Params) : List Formula → Res (List (Rat × Rat))
  | [] => .ok []
  | f :: rest => (p.aion f).bind fun a => (p.bion f).bind fun b => (p.collect rest).bind fun l => .ok ((a, b) :: l)

/-! ### Tables of the HKF model -/

/-- Decimal numbers written as integers. -/
def scaled (n : Nat) (l : List Int) : List Rat := l.map fun (i : Int) => (i : Rat) / n

/-- `Agamma_data` (ActivityModelHKF.cpp:76-99). -/
def Agamma_data : List Rat := scaled 10000 [
  4939, 4871, 4810, 4755, 4705, 4617, 4544, 4427, 4337, 4266, 5114, 5047, 4985, 4928, 4875, 4782, 4701, 4568, 4462, 4375, 5354, 5281, 5213, 5151,
  5094, 4991, 4901, 4750, 4628, 4526, 5649, 5565, 5488, 5418, 5353, 5236, 5134, 4963, 4824, 4707, 5996, 5897, 5807, 5725, 5649, 5515, 5398, 5202,
  5043, 4910, 6396, 6276, 6168, 6070, 5981, 5823, 5688, 5463, 5282, 5131, 6855, 6707, 6573, 6455, 6348, 6161, 6003, 5743, 5536, 5365, 7383, 7195,
  7028, 6881, 6751, 6528, 6341, 6040, 5803, 5609, 7995, 7753, 7538, 7355, 7194, 6925, 6703, 6352, 6081, 5861, 8718, 8401, 8117, 7882, 7682, 7353,
  7088, 6678, 6367, 6118, 9596, 9169, 8783, 8476, 8221, 7815, 7498, 7018, 6662, 6381, 10704, 10111, 9563, 9152, 8823, 8317, 7934, 7372, 6964, 6646,
  12183, 11325, 10500, 9934, 9502, 8865, 8400, 7739, 7272, 6915, 14357, 13019, 11668, 10856, 10277, 9467, 8900, 8122, 7588, 7186, 18233, 15767,
  13188, 11970, 11175, 10132, 9438, 8521, 7910, 7460, 22948, 22948, 15300, 13350, 12230, 10871, 10019, 8937, 8241, 7737, 18509, 18509, 18509, 15114,
  13490, 11700, 10648, 9373, 8581, 8019, 23997, 23997, 23997, 17439, 15014, 12632, 11333, 9831, 8930, 8305, 33844, 33844, 33844, 20579, 16877, 13685,
  12078, 10311, 9291, 8597, 47805, 47805, 47805, 24810, 19161, 14874, 12889, 10815, 9662, 8895, 60949, 60949, 60949, 30235, 21930, 16213, 13770,
  11344, 10047, 9202]

/-- `Bgamma_data` (ActivityModelHKF.cpp:102-125). -/
def Bgamma_data : List Rat := scaled 10000 [
  3253, 3251, 3250, 3249, 3248, 3248, 3248, 3250, 3253, 3257, 3288, 3285, 3283, 3281, 3280, 3277, 3275, 3273, 3272, 3273, 3328, 3325, 3322, 3319,
  3317, 3312, 3309, 3304, 3300, 3298, 3373, 3369, 3365, 3361, 3358, 3352, 3347, 3339, 3333, 3329, 3421, 3416, 3411, 3406, 3402, 3394, 3388, 3377,
  3369, 3363, 3472, 3465, 3459, 3453, 3448, 3439, 3431, 3417, 3407, 3398, 3526, 3517, 3509, 3502, 3495, 3484, 3474, 3458, 3445, 3435, 3581, 3570,
  3560, 3551, 3543, 3529, 3518, 3499, 3483, 3471, 3639, 3625, 3612, 3601, 3591, 3575, 3561, 3538, 3521, 3506, 3700, 3683, 3666, 3652, 3640, 3620,
  3604, 3577, 3557, 3540, 3767, 3744, 3722, 3705, 3690, 3666, 3646, 3615, 3592, 3573, 3840, 3810, 3781, 3759, 3740, 3711, 3688, 3652, 3625, 3604,
  3925, 3885, 3845, 3815, 3792, 3756, 3729, 3688, 3657, 3633, 4031, 3976, 3915, 3875, 3845, 3801, 3769, 3722, 3688, 3661, 4180, 4096, 3994, 3940,
  3901, 3848, 3809, 3755, 3717, 3687, 4324, 4324, 4089, 4011, 3961, 3894, 3849, 3787, 3745, 3712, 4209, 4209, 4209, 4090, 4024, 3942, 3889, 3819,
  3771, 3736, 4366, 4366, 4366, 4180, 4092, 3991, 3929, 3849, 3797, 3759, 4560, 4560, 4560, 4282, 4165, 4042, 3969, 3879, 3822, 3780, 4718, 4718,
  4718, 4393, 4243, 4093, 4009, 3909, 3846, 3801, 4780, 4780, 4780, 4503, 4322, 4145, 4049, 3937, 3869, 3822]

/-- `bNaCl_data` (ActivityModelHKF.cpp:132-155). -/
def bNaCl_data : List Rat := scaled 1000 [
  21962, 22211, 22437, 22643, 22831, 23162, 23444, 23901, 24258, 24548, 18081, 18321, 18542, 18746, 18934, 19273, 19569, 20063, 20461, 20792, 14530,
  14783, 15016, 15232, 15432, 15794, 16112, 16648, 17088, 17458, 11235, 11516, 11775, 12012, 12233, 12630, 12979, 13570, 14055, 14465, 8125, 8449,
  8745, 9015, 9264, 9710, 10100, 10757, 11295, 11749, 5138, 5521, 5868, 6183, 6470, 6980, 7421, 8158, 8757, 9260, 2214, 2678, 3095, 3467, 3804, 4395,
  4900, 5733, 6402, 6960, -710, -137, 376, 826, 1227, 1919, 2503, 3449, 4200, 4821, -3703, -2981, -2336, -1783, -1298, -477, 201, 1283, 2127, 2817,
  -6858, -5930, -5096, -4402, -3807, -2824, -2028, -787, 164, 932, -10304, -9082, -7969, -7080, -6339, -5147, -4209, -2779, -1707, -852, -14247,
  -12590, -11042, -9873, -8934, -7476, -6362, -4709, -3498, -2547, -19060, -16716, -14437, -12856, -11643, -9837, -8506, -6592, -5223, -4166, -25556,
  -21993, -18343, -16122, -14524, -12262, -10663, -8439, -6893, -5718, -36227, -29865, -23076, -19806, -17650, -14783, -12853, -10265, -8519, -7214,
  -48639, -48639, -29220, -24100, -21113, -17436, -15095, -12080, -10108, -8663, -38002, -38002, -38002, -29287, -25032, -20261, -17410, -13895,
  -11671, -10072, -52214, -52214, -52214, -35791, -29554, -23299, -19818, -15719, -13214, -11449, -76652, -76652, -76652, -44209, -34857, -26594,
  -22338, -17561, -14746, -12801, -110790, -110790, -110790, -55166, -41133, -30187, -24986, -19429, -16271, -14134, -143760, -143760, -143760,
  -68878, -48527, -34113, -27778, -21329, -17796, -15455]

/-- `bNapClm_data` (ActivityModelHKF.cpp:159-182). -/
def bNapClm_data : List Rat := scaled 1000 [
  -15448, -14872, -14390, -14002, -13708, -13401, -13471, -14739, -17512, -21789, -9752, -9563, -9404, -9276, -9178, -9073, -9090, -9487, -10370,
  -11739, -5630, -5603, -5579, -5560, -5544, -5524, -5518, -5552, -5647, -5801, -2411, -2466, -2510, -2546, -2571, -2594, -2577, -2430, -2128, -1672,
  244, 145, 63, -2, -51, -97, -75, 172, 691, 1482, 2529, 2405, 2301, 2218, 2156, 2097, 2122, 2426, 3069, 4052, 4559, 4421, 4305, 4212, 4142, 4074,
  4101, 4438, 5153, 6246, 6406, 6263, 6139, 6040, 5966, 5894, 5921, 6276, 7032, 8187, 8119, 7976, 7848, 7746, 7670, 7595, 7623, 7987, 8763, 9950,
  9729, 9591, 9462, 9359, 9282, 9205, 9233, 9600, 10384, 11583, 11259, 11130, 11001, 10897, 10820, 10743, 10771, 11138, 11921, 13119, 12723, 12608,
  12479, 12377, 12300, 12224, 12251, 12614, 13391, 14581, 14133, 14036, 13909, 13807, 13731, 13656, 13682, 14041, 14808, 15984, 15496, 15421, 15296,
  15196, 15121, 15047, 15073, 15426, 16182, 17339, 16818, 16771, 16648, 16550, 16476, 16403, 16428, 16775, 17517, 18654, 18090, 18090, 17969, 17872,
  17800, 17728, 17753, 18093, 18821, 19935, 19380, 19380, 19262, 19167, 19096, 19026, 19050, 19383, 20096, 21188, 20645, 20645, 20529, 20437, 20367,
  20298, 20322, 20648, 21346, 22415, 21887, 21887, 21774, 21683, 21615, 21547, 21570, 21890, 22572, 23618, 23108, 23108, 22997, 22908, 22841, 22775,
  22798, 23110, 23777, 24801, 24308, 24308, 24199, 24113, 24048, 23983, 24005, 24310, 24963, 25964]

/-- `temperature_range` (ActivityModelHKF.cpp:185-192). -/
def temperature_range : List Rat := scaled 1 [
  0, 25, 50, 75, 100, 125, 150, 175, 200, 225, 250, 275, 300, 325, 350, 375, 400, 425, 450, 475, 500]

/-- `pressure_range` (ActivityModelHKF.cpp:195-199). -/
def pressure_range : List Rat := scaled 1 [
  1, 250, 500, 750, 1000, 1500, 2000, 3000, 4000, 5000]

/-- `effective_radii` (ActivityModelHKF.cpp:203-226). -/
def effective_radii : List (Str × Rat) := [
  (c!"H+", 308 / 100), (c!"Fe+++", 346 / 100), (c!"Li+", 164 / 100), (c!"Al+++", 333 / 100), (c!"Na+", 191 / 100), (c!"Au+++", 372 / 100),
  (c!"K+", 227 / 100), (c!"La+++", 396 / 100), (c!"Rb+", 241 / 100), (c!"Gd+++", 379 / 100), (c!"Cs+", 261 / 100), (c!"In+++", 363 / 100),
  (c!"NH4+", 231 / 100), (c!"Ca+++", 344 / 100), (c!"Ag+", 22 / 10), (c!"F-", 133 / 100), (c!"Au+", 231 / 100), (c!"Cl-", 181 / 100),
  (c!"Cu+", 19 / 10), (c!"Br-", 196 / 100), (c!"Mg++", 254 / 100), (c!"I-", 22 / 10), (c!"Sr++", 3), (c!"OH-", 14 / 10), (c!"Ca++", 287 / 100),
  (c!"HS-", 184 / 100), (c!"Ba++", 322 / 100), (c!"NO3-", 281 / 100), (c!"Pb++", 308 / 100), (c!"HCO3-", 21 / 10), (c!"Zn++", 262 / 100),
  (c!"HSO4-", 237 / 100), (c!"Cu++", 26 / 10), (c!"ClO4-", 359 / 100), (c!"Cd++", 285 / 100), (c!"ReO4-", 423 / 100), (c!"Hg++", 298 / 100),
  (c!"SO4--", 315 / 100), (c!"Fe++", 262 / 100), (c!"CO3--", 281 / 100), (c!"Mn++", 268 / 100)]

/-- The loop of `effectiveIonicRadius` (ActivityModelHKF.cpp:270-276). The state are the maps of names of `NamingUtils.cpp`. -/
def searchRadius (name : Str) : Naming.Maps → List (Str × Rat) → Naming.Maps × Res (Option Rat)
  | s, [] => (s, .ok none)
  | s, (key, value) :: rest =>
    match s.isAlternativeCharged name key with
    | (s', .ok true) => (s', .ok (some value))
    | (s', .ok false) => searchRadius name s' rest
    | (s', .throw) => (s', .throw)
    | (s', .ub) => (s', .ub)

/-- The estimates of `effectiveIonicRadius` (ActivityModelHKF.cpp:278-290). -/
def estimate (Zi : Rat) : Rat :=
  if Zi = -1 then 181 / 100
  else if Zi = -2 then 300 / 100
  else if Zi = -3 then 420 / 100
  else if Zi = 1 then 231 / 100
  else if Zi = 2 then 280 / 100
  else if Zi = 3 then 360 / 100
  else if Zi = 4 then 450 / 100
  else if Zi < -3 then -Zi * (42 / 10) / 3
  else Zi * (45 / 10) / 4

/-- `effectiveIonicRadius` (ActivityModelHKF.cpp:268-291). -/
def effectiveIonicRadius (s : Naming.Maps) (name : Str) (charge : Rat) : Naming.Maps × Res Rat :=
  match searchRadius name s (mapOf effective_radii) with
  | (s', .ok (some r)) => (s', .ok r)
  | (s', .ok none) => (s', .ok (estimate charge))
  | (s', .throw) => (s', .throw)
  | (s', .ub) => (s', .ub)

variable {K : Type} [Field K] [LinearOrder K]

/-- The interpolators (ActivityModelHKF.cpp:228-238): the first coordinate is the pressure. -/
def interpolator (data : List Rat) : Bilinear.Interpolator K :=
  ⟨pressure_range.map (fun (q : Rat) => (q : K)), temperature_range.map (fun (q : Rat) => (q : K)), data.map (fun (q : Rat) => (q : K))⟩

/-- Evaluation at `convertPascalToBar(P)`, `convertKelvinToCelsius(T)` (ConvertUtils.hpp:26, 35; ActivityModelHKF.cpp:242-244). -/
def interpolate (data : List Rat) (T P : K) : Res K :=
  Bilinear.eval (interpolator data) (P * (1 / 100000)) (T - 27315 / 100)

/-- `debyeHuckelParamA`, `debyeHuckelParamB`, `solventParamNaCl`, `shortRangeInteractionParamNaCl` (ActivityModelHKF.cpp:240-266). -/
def paramA (T P : K) : Res K := interpolate Agamma_data T P
def paramB (T P : K) : Res K := interpolate Bgamma_data T P
def paramNaCl (T P : K) : Res K := (interpolate bNaCl_data T P).bind fun b => .ok (1 / 10000000 * b)
def paramNapClm (T P : K) : Res K := (interpolate bNapClm_data T P).bind fun b => .ok (1 / 100 * b)

end Verif.AqueousParams
