import Verif.Model.StandardModels
import Verif.Model.HKF
import Verif.Model.ReactionThermo

/-!
# Saving and loading thermodynamic models

Models `Reaktoro/Common/YAML.hpp`, `YAML.cpp`, `Reaktoro/Serialization/Models.YAML.cpp`,
`Reaktoro/Models/StandardThermoModelYAML.cpp`, `ReactionThermoModelYAML.cpp` and the serializers of the models.

The library yaml-cpp is represented by its data : a node is nothing (null), a number, a text, a sequence or a map.  A number that is
written is taken to be read back as the same number (yaml-cpp writes as many digits as needed for that); infinities and NaN are
left out.  Parameters are given by their values; the serializer of a model reads the values they have when it is called
(`Model.hpp:167-170`).
-/

namespace Verif.ModelsYAML

noncomputable section

abbrev Str := List Char

/-- A YAML node. -/
inductive Node where
  | null
  | num (x : ℝ)
  | int (n : Nat)
  | text (s : Str)
  | seq (l : List Node)
  | map (l : List (Str × Node))

/-- `operator[](key) const` (`YAML.hpp:83`) : `none` is an undefined node.  On a scalar yaml-cpp throws. -/
def child : Node → Str → Res (Option Node)
  | .map l, key => .ok ((l.find? (fun p => p.1 = key)).map Prod.snd)
  | .null, _ => .ok none
  | .seq _, _ => .ok none
  | _, _ => .throw

/-- `yaml::at` (`YAML.cpp:75-80`). -/
def at' (node : Node) (key : Str) : Res Node :=
  (child node key).bind fun c => match c with | none => .throw | some c => .ok c

/-- `as<double>()`, `as<real>()` and `as<Param>()` (`Common.YAML.cpp:28-31`, `Core.YAML.cpp:170-173`); an integer is a number as well.
A text is not a number : texts that look like numbers are numbers here. -/
def asNum : Node → Res ℝ
  | .num x => .ok x
  | .int n => .ok n
  | _ => .throw

/-- `as<Index>()`. -/
def asNat : Node → Res Nat
  | .int n => .ok n
  | _ => .throw

/-- `as<Vec<Param>>()`. -/
def asNums : Node → Res (List ℝ)
  | .seq l => go l
  | _ => .throw
where
  go : List Node → Res (List ℝ)
    | [] => .ok []
    | n :: ns => (asNum n).bind fun x => (go ns).bind fun xs => .ok (x :: xs)

/-- `node.at(key).to(x)` for a number (`YAML.hpp:101-110`). -/
def reqNum (node : Node) (key : Str) : Res ℝ := (at' node key).bind asNum
/-- `node.at(key).to(x)` for an index. -/
def reqNat (node : Node) (key : Str) : Res Nat := (at' node key).bind asNat
/-- `node.at(key).to(x)` for a vector of parameters. -/
def reqNums (node : Node) (key : Str) : Res (List ℝ) := (at' node key).bind asNums
/-- `node[key].to(x, fallback)` (`YAML.hpp:113-118`). -/
def optNum (node : Node) (key : Str) (fallback : ℝ) : Res ℝ :=
  (child node key).bind fun c => match c with | none => .ok fallback | some c => asNum c

/-- A vector of parameters as a sequence. -/
def nums (l : List ℝ) : Node := .seq (l.map .num)

/-! ### Parameters of reaction models -/

/-- `ReactionThermoModelParamsConstLgK` (`ReactionThermoModelConstLgK.hpp:26-33`). -/
structure ConstLgK where
  lgKr : ℝ
  Pr : ℝ

/-- `Models.YAML.cpp:41-45`. -/
def ConstLgK.encode (p : ConstLgK) : Node := .map [(c!"lgKr", .num p.lgKr), (c!"Pr", .num p.Pr)]

/-- `Models.YAML.cpp:47-52`. -/
def ConstLgK.decode (node : Node) : Res ConstLgK :=
  (reqNum node c!"lgKr").bind fun lgKr => (optNum node c!"Pr" 100000).bind fun Pr => .ok ⟨lgKr, Pr⟩

/-- `ReactionThermoModelParamsGemsLgK` (`ReactionThermoModelGemsLgK.hpp:26-51`). -/
structure GemsLgK where
  A0 : ℝ
  A1 : ℝ
  A2 : ℝ
  A3 : ℝ
  A4 : ℝ
  A5 : ℝ
  A6 : ℝ
  Pr : ℝ

/-- `Models.YAML.cpp:56-66`. -/
def GemsLgK.encode (p : GemsLgK) : Node :=
  .map [(c!"A0", .num p.A0), (c!"A1", .num p.A1), (c!"A2", .num p.A2), (c!"A3", .num p.A3), (c!"A4", .num p.A4), (c!"A5", .num p.A5),
    (c!"A6", .num p.A6), (c!"Pr", .num p.Pr)]

/-- `Models.YAML.cpp:68-79`. -/
def GemsLgK.decode (node : Node) : Res GemsLgK :=
  (reqNum node c!"A0").bind fun A0 => (reqNum node c!"A1").bind fun A1 => (reqNum node c!"A2").bind fun A2 =>
  (reqNum node c!"A3").bind fun A3 => (reqNum node c!"A4").bind fun A4 => (reqNum node c!"A5").bind fun A5 =>
  (reqNum node c!"A6").bind fun A6 => (optNum node c!"Pr" 100000).bind fun Pr => .ok ⟨A0, A1, A2, A3, A4, A5, A6, Pr⟩

/-- `ReactionThermoModelParamsPhreeqcLgK` (`ReactionThermoModelPhreeqcLgK.hpp:26-48`). -/
structure PhreeqcLgK where
  A1 : ℝ
  A2 : ℝ
  A3 : ℝ
  A4 : ℝ
  A5 : ℝ
  A6 : ℝ
  Pr : ℝ

/-- `Models.YAML.cpp:83-92`. -/
def PhreeqcLgK.encode (p : PhreeqcLgK) : Node :=
  .map [(c!"A1", .num p.A1), (c!"A2", .num p.A2), (c!"A3", .num p.A3), (c!"A4", .num p.A4), (c!"A5", .num p.A5), (c!"A6", .num p.A6),
    (c!"Pr", .num p.Pr)]

/-- `Models.YAML.cpp:94-104`. -/
def PhreeqcLgK.decode (node : Node) : Res PhreeqcLgK :=
  (reqNum node c!"A1").bind fun A1 => (reqNum node c!"A2").bind fun A2 =>
  (reqNum node c!"A3").bind fun A3 => (reqNum node c!"A4").bind fun A4 => (reqNum node c!"A5").bind fun A5 =>
  (reqNum node c!"A6").bind fun A6 => (optNum node c!"Pr" 100000).bind fun Pr => .ok ⟨A1, A2, A3, A4, A5, A6, Pr⟩

/-- `ReactionThermoModelParamsVantHoff` (`ReactionThermoModelVantHoff.hpp:26-39`). -/
structure VantHoff where
  lgKr : ℝ
  dHr : ℝ
  Tr : ℝ
  Pr : ℝ

/-- `Models.YAML.cpp:108-114`. -/
def VantHoff.encode (p : VantHoff) : Node :=
  .map [(c!"lgKr", .num p.lgKr), (c!"dHr", .num p.dHr), (c!"Tr", .num p.Tr), (c!"Pr", .num p.Pr)]

/-- `Models.YAML.cpp:116-123`. -/
def VantHoff.decode (node : Node) : Res VantHoff :=
  (reqNum node c!"lgKr").bind fun lgKr => (reqNum node c!"dHr").bind fun dHr => (optNum node c!"Tr" 298.15).bind fun Tr =>
  (optNum node c!"Pr" 100000).bind fun Pr => .ok ⟨lgKr, dHr, Tr, Pr⟩

/-! ### Parameters of standard models -/

/-- `Models.YAML.cpp:129-136`; the parameters of the constant model are the properties it gives. -/
def encodeConstant (p : StandardModels.Props) : Node :=
  .map [(c!"G0", .num p.G0), (c!"H0", .num p.H0), (c!"V0", .num p.V0), (c!"Cp0", .num p.Cp0), (c!"Cv0", .num p.Cv0)]

/-- `Models.YAML.cpp:138-145`. -/
def decodeConstant (node : Node) : Res StandardModels.Props :=
  (reqNum node c!"G0").bind fun G0 => (optNum node c!"H0" 0).bind fun H0 => (optNum node c!"V0" 0).bind fun V0 =>
  (optNum node c!"Cp0" 0).bind fun Cp0 => (optNum node c!"Cv0" 0).bind fun Cv0 => .ok ⟨G0, H0, V0, Cp0, Cv0⟩

/-- `StandardThermoModelParamsHKF` (`StandardThermoModelHKF.hpp:26-63`). -/
structure HKFParams extends HKF.Params where
  Tmax : ℝ

/-- `Models.YAML.cpp:149-163`. -/
def HKFParams.encode (p : HKFParams) : Node :=
  .map [(c!"Gf", .num p.Gf), (c!"Hf", .num p.Hf), (c!"Sr", .num p.Sr), (c!"a1", .num p.a1), (c!"a2", .num p.a2), (c!"a3", .num p.a3),
    (c!"a4", .num p.a4), (c!"c1", .num p.c1), (c!"c2", .num p.c2), (c!"wref", .num p.wref), (c!"charge", .num p.charge),
    (c!"Tmax", .num p.Tmax)]

/-- `Models.YAML.cpp:165-178` : `Tmax` is not read and stays zero. -/
def HKFParams.decode (node : Node) : Res HKFParams :=
  (reqNum node c!"Gf").bind fun Gf => (reqNum node c!"Hf").bind fun Hf => (reqNum node c!"Sr").bind fun Sr =>
  (reqNum node c!"a1").bind fun a1 => (reqNum node c!"a2").bind fun a2 => (reqNum node c!"a3").bind fun a3 =>
  (reqNum node c!"a4").bind fun a4 => (reqNum node c!"c1").bind fun c1 => (reqNum node c!"c2").bind fun c2 =>
  (reqNum node c!"wref").bind fun wref => (reqNum node c!"charge").bind fun charge =>
  .ok { Gf := Gf, Hf := Hf, Sr := Sr, a1 := a1, a2 := a2, a3 := a3, a4 := a4, c1 := c1, c2 := c2, wref := wref, charge := charge, Tmax := 0 }

/-- `StandardThermoModelParamsHollandPowell` (`StandardThermoModelHollandPowell.hpp:26-82`). -/
structure HollandPowellParams extends StandardModels.HollandPowell where
  Tmax : ℝ

/-- `Models.YAML.cpp:182-201`. -/
def HollandPowellParams.encode (p : HollandPowellParams) : Node :=
  .map ([(c!"Gf", .num p.Gf), (c!"Hf", .num p.Hf), (c!"Sr", .num p.Sr), (c!"Vr", .num p.Vr), (c!"a", .num p.a), (c!"b", .num p.b),
      (c!"c", .num p.c), (c!"d", .num p.d)] ++
    (if p.kappa0 ≠ 0 then [(c!"alpha0", Node.num p.alpha0), (c!"kappa0", .num p.kappa0), (c!"kappa0p", .num p.kappa0p),
      (c!"kappa0pp", .num p.kappa0pp), (c!"numatoms", .num p.numatoms)] else []) ++
    [(c!"Tmax", .num p.Tmax)])

/-- The values of the parameters of thermal expansion and compressibility (`Models.YAML.cpp:213-220`); default parameters are zero
(`Param.cpp:40`). -/
def decodeExpansion (node : Node) : Res (ℝ × ℝ × ℝ × ℝ × ℝ) :=
  (child node c!"kappa0").bind fun c => match c with
  | none => .ok (0, 0, 0, 0, 0)
  | some _ =>
    (reqNum node c!"alpha0").bind fun alpha0 => (reqNum node c!"kappa0").bind fun kappa0 => (reqNum node c!"kappa0p").bind fun kappa0p =>
    (reqNum node c!"kappa0pp").bind fun kappa0pp => (reqNum node c!"numatoms").bind fun numatoms =>
    .ok (alpha0, kappa0, kappa0p, kappa0pp, numatoms)

/-- `Models.YAML.cpp:203-222`. -/
def HollandPowellParams.decode (node : Node) : Res HollandPowellParams :=
  (reqNum node c!"Gf").bind fun Gf => (reqNum node c!"Hf").bind fun Hf => (reqNum node c!"Sr").bind fun Sr =>
  (reqNum node c!"Vr").bind fun Vr => (reqNum node c!"a").bind fun a => (reqNum node c!"b").bind fun b =>
  (reqNum node c!"c").bind fun c => (reqNum node c!"d").bind fun d => (decodeExpansion node).bind fun e =>
  (reqNum node c!"Tmax").bind fun Tmax =>
  .ok { Gf := Gf, Hf := Hf, Sr := Sr, Vr := Vr, a := a, b := b, c := c, d := d, alpha0 := e.1, kappa0 := e.2.1, kappa0p := e.2.2.1,
        kappa0pp := e.2.2.2.1, numatoms := e.2.2.2.2, Tmax := Tmax }

/-- `StandardThermoModelParamsMaierKelley` (`StandardThermoModelMaierKelley.hpp:26-51`). -/
structure MaierKelleyParams extends StandardModels.MaierKelley where
  Tmax : ℝ

/-- `Models.YAML.cpp:226-236`. -/
def MaierKelleyParams.encode (p : MaierKelleyParams) : Node :=
  .map [(c!"Gf", .num p.Gf), (c!"Hf", .num p.Hf), (c!"Sr", .num p.Sr), (c!"Vr", .num p.Vr), (c!"a", .num p.a), (c!"b", .num p.b),
    (c!"c", .num p.c), (c!"Tmax", .num p.Tmax)]

/-- `Models.YAML.cpp:238-248`. -/
def MaierKelleyParams.decode (node : Node) : Res MaierKelleyParams :=
  (reqNum node c!"Gf").bind fun Gf => (reqNum node c!"Hf").bind fun Hf => (reqNum node c!"Sr").bind fun Sr =>
  (reqNum node c!"Vr").bind fun Vr => (reqNum node c!"a").bind fun a => (reqNum node c!"b").bind fun b =>
  (reqNum node c!"c").bind fun c => (reqNum node c!"Tmax").bind fun Tmax =>
  .ok { Gf := Gf, Hf := Hf, Sr := Sr, Vr := Vr, a := a, b := b, c := c, Tmax := Tmax }

/-- `StandardThermoModelParamsMineralHKF` (`StandardThermoModelMineralHKF.hpp:26-66`). -/
structure MineralParams extends StandardModels.Mineral where
  Tmax : ℝ

/-- `Models.YAML.cpp:252-267`. -/
def MineralParams.encode (p : MineralParams) : Node :=
  .map [(c!"Gf", .num p.Gf), (c!"Hf", .num p.Hf), (c!"Sr", .num p.Sr), (c!"Vr", .num p.Vr), (c!"ntr", .int p.ntr), (c!"a", nums p.a),
    (c!"b", nums p.b), (c!"c", nums p.c), (c!"Ttr", nums p.Ttr), (c!"Htr", nums p.Htr), (c!"Vtr", nums p.Vtr),
    (c!"dPdTtr", nums p.dPdTtr), (c!"Tmax", .num p.Tmax)]

/-- `Models.YAML.cpp:269-284`. -/
def MineralParams.decode (node : Node) : Res MineralParams :=
  (reqNum node c!"Gf").bind fun Gf => (reqNum node c!"Hf").bind fun Hf => (reqNum node c!"Sr").bind fun Sr =>
  (reqNum node c!"Vr").bind fun Vr => (reqNat node c!"ntr").bind fun ntr => (reqNums node c!"a").bind fun a =>
  (reqNums node c!"b").bind fun b => (reqNums node c!"c").bind fun c => (reqNums node c!"Ttr").bind fun Ttr =>
  (reqNums node c!"Htr").bind fun Htr => (reqNums node c!"Vtr").bind fun Vtr => (reqNums node c!"dPdTtr").bind fun dPdTtr =>
  (reqNum node c!"Tmax").bind fun Tmax =>
  .ok { Gf := Gf, Hf := Hf, Sr := Sr, Vr := Vr, ntr := ntr, a := a, b := b, c := c, Ttr := Ttr, Htr := Htr, Vtr := Vtr,
        dPdTtr := dPdTtr, Tmax := Tmax }

/-- `Models.YAML.cpp:288-294`. -/
def encodeWater (p : HKF.WaterParams) : Node :=
  .map [(c!"Ttr", .num p.Ttr), (c!"Str", .num p.Str), (c!"Gtr", .num p.Gtr), (c!"Htr", .num p.Htr)]

/-- `Models.YAML.cpp:296-302`. -/
def decodeWater (node : Node) : Res HKF.WaterParams :=
  (reqNum node c!"Ttr").bind fun Ttr => (reqNum node c!"Str").bind fun Str => (reqNum node c!"Gtr").bind fun Gtr =>
  (reqNum node c!"Htr").bind fun Htr => .ok { Ttr := Ttr, Str := Str, Gtr := Gtr, Htr := Htr }

/-! ### Models -/

/-- A standard thermodynamic model with its parameters; `other` is a model without serializer, such as one given by the user as a
function (`Model.hpp:100-105`). -/
inductive StdModel where
  | constant (p : StandardModels.Props)
  | hkf (p : HKFParams)
  | hollandPowell (p : HollandPowellParams)
  | maierKelley (p : MaierKelleyParams)
  | mineral (p : MineralParams)
  | water (p : HKF.WaterParams)
  | other (f : ℝ → ℝ → Res StandardModels.Props)

/-- The properties a model gives. -/
def StdModel.eval : StdModel → ℝ → ℝ → Res StandardModels.Props
  | .constant p => StandardModels.constant p
  | .hkf p => HKF.standardHKF p.toParams
  | .hollandPowell p => StandardModels.hollandPowell p.toHollandPowell
  | .maierKelley p => StandardModels.maierKelley p.toMaierKelley
  | .mineral p => StandardModels.mineral p.toMineral
  | .water p => HKF.standardWaterHKF p
  | .other f => f

/-- `Model::serialize` (`Model.hpp:167-170`) with the serializers in `StandardThermoModelConstant.cpp:38`, `StandardThermoModelHKF.cpp:89`,
`StandardThermoModelHollandPowell.cpp:46`, `StandardThermoModelMaierKelley.cpp:43`, `StandardThermoModelMineralHKF.cpp:51` and
`StandardThermoModelWaterHKF.cpp:40`. -/
def StdModel.serialize : StdModel → Node
  | .constant p => .map [(c!"Constant", encodeConstant p)]
  | .hkf p => .map [(c!"HKF", p.encode)]
  | .hollandPowell p => .map [(c!"HollandPowell", p.encode)]
  | .maierKelley p => .map [(c!"MaierKelley", p.encode)]
  | .mineral p => .map [(c!"MineralHKF", p.encode)]
  | .water p => .map [(c!"WaterHKF", encodeWater p)]
  | .other _ => .null

/-- `StandardThermoModelYAML` (`StandardThermoModelYAML.cpp:31-54`). -/
def loadStandard : Node → Res StdModel
  | .map [(model, params)] =>
    if model = c!"Constant" then (decodeConstant params).bind fun p => .ok (.constant p)
    else if model = c!"HKF" then (HKFParams.decode params).bind fun p => .ok (.hkf p)
    else if model = c!"HollandPowell" then (HollandPowellParams.decode params).bind fun p => .ok (.hollandPowell p)
    else if model = c!"MaierKelley" then (MaierKelleyParams.decode params).bind fun p => .ok (.maierKelley p)
    else if model = c!"MineralHKF" then (MineralParams.decode params).bind fun p => .ok (.mineral p)
    else if model = c!"WaterHKF" then (decodeWater params).bind fun p => .ok (.water p)
    else .throw
  | _ => .throw

/-- A reaction model with its parameters; `chain` and `pressureCorrection` have no serializer (`Model.hpp:245`,
`ReactionThermoModelPressureCorrection.cpp:39`). -/
inductive RxnModel where
  | constLgK (p : ConstLgK)
  | gemsLgK (p : GemsLgK)
  | phreeqcLgK (p : PhreeqcLgK)
  | vantHoff (p : VantHoff)
  | pressureCorrection (Pr : ℝ)
  | chain (models : List RxnModel)

mutual
/-- The change a model makes to the properties of a reaction at `T`, `P`, `dV0`, with the functions of `Model/ReactionThermo.lean`; the
cells of its parameters hold the values given here. -/
def RxnModel.eval : RxnModel → ReactionThermo.RxnProps → ℝ → ℝ → ℝ → ReactionThermo.RxnProps
  | .constLgK p => ReactionThermo.constLgK 0 p.Pr fun _ => p.lgKr
  | .gemsLgK p => ReactionThermo.gemsLgK 0 1 2 3 4 5 6 p.Pr fun i => [p.A0, p.A1, p.A2, p.A3, p.A4, p.A5, p.A6].getD i 0
  | .phreeqcLgK p => ReactionThermo.phreeqcLgK 1 2 3 4 5 6 p.Pr fun i => [0, p.A1, p.A2, p.A3, p.A4, p.A5, p.A6].getD i 0
  | .vantHoff p => ReactionThermo.vantHoff 0 1 p.Tr p.Pr fun i => [p.lgKr, p.dHr].getD i 0
  | .pressureCorrection Pr => ReactionThermo.pressureCorrection 0 fun _ => Pr
  | .chain models => evalAll models

/-- The models of a chain, one after the other (`Model.hpp:226-230`). -/
def evalAll : List RxnModel → ReactionThermo.RxnProps → ℝ → ℝ → ℝ → ReactionThermo.RxnProps
  | [] => fun props _ _ _ => props
  | m :: models => fun props T P dV0 => evalAll models (m.eval props T P dV0) T P dV0
end

/-- `Model::serialize` with the serializers in `ReactionThermoModelConstLgK.cpp:39` and the like. -/
def RxnModel.serialize : RxnModel → Node
  | .constLgK p => .map [(c!"ConstLgK", p.encode)]
  | .gemsLgK p => .map [(c!"GemsLgK", p.encode)]
  | .phreeqcLgK p => .map [(c!"PhreeqcLgK", p.encode)]
  | .vantHoff p => .map [(c!"VantHoff", p.encode)]
  | .pressureCorrection _ => .null
  | .chain _ => .null

/-- `ReactionThermoModelYAML` (`ReactionThermoModelYAML.cpp:29-48`). -/
def loadReaction : Node → Res RxnModel
  | .map [(model, params)] =>
    if model = c!"ConstLgK" then (ConstLgK.decode params).bind fun p => .ok (.constLgK p)
    else if model = c!"GemsLgK" then (GemsLgK.decode params).bind fun p => .ok (.gemsLgK p)
    else if model = c!"PhreeqcLgK" then (PhreeqcLgK.decode params).bind fun p => .ok (.phreeqcLgK p)
    else if model = c!"VantHoff" then (VantHoff.decode params).bind fun p => .ok (.vantHoff p)
    else .throw
  | _ => .throw

end

end Verif.ModelsYAML
