import Verif.Model.ModelsYAML

/-!
# Saving and loading models : what is expected
-/

namespace Verif.ModelsYAML

/-- A standard model with a serializer. -/
def StdModel.BuiltIn : StdModel → Prop
  | .other _ => False
  | _ => True

/-- A reaction model with a serializer. -/
def RxnModel.BuiltIn : RxnModel → Prop
  | .pressureCorrection _ => False
  | .chain _ => False
  | _ => True

/-- Two standard models give the same properties, or fail in the same way, at every temperature and pressure. -/
def StdModel.Same (m m' : StdModel) : Prop := ∀ T P, m'.eval T P = m.eval T P

/-- Two reaction models change the properties of a reaction in the same way. -/
def RxnModel.Same (m m' : RxnModel) : Prop := ∀ props T P dV0, m'.eval props T P dV0 = m.eval props T P dV0

/-- The entry `key` of the map is the number `x`. -/
def HasNum (node : Node) (key : Str) (x : ℝ) : Prop :=
  ∃ l, node = .map l ∧ ∃ c, l.find? (fun p => p.1 = key) = some (key, c) ∧ (c = .num x ∨ ∃ n : Nat, c = .int n ∧ x = n)

/-- There is no entry `key`. -/
def Absent (node : Node) (key : Str) : Prop := ∀ l, node = .map l → ∀ c, (key, c) ∉ l

/-- The entry `key` of the map is the number `x`, or there is no such entry and `x` is the default value. -/
def HasNumOr (node : Node) (key : Str) (fallback x : ℝ) : Prop :=
  HasNum node key x ∨ (x = fallback ∧ Absent node key)

/-- The entry `key` of the map is a sequence with the numbers `xs`. -/
def HasNums (node : Node) (key : Str) (xs : List ℝ) : Prop :=
  ∃ l, node = .map l ∧ ∃ cs, l.find? (fun p => p.1 = key) = some (key, .seq cs) ∧
    List.Forall₂ (fun (c : Node) (x : ℝ) => c = .num x ∨ ∃ n : Nat, c = .int n ∧ x = n) cs xs

/-- The numbers a loaded standard model has, entry by entry.  `HKF.Tmax` is missing : it is not read. -/
def StdModel.ReadFrom (node : Node) : StdModel → Prop
  | .constant p => HasNum node c!"G0" p.G0 ∧ HasNumOr node c!"H0" 0 p.H0 ∧ HasNumOr node c!"V0" 0 p.V0 ∧ HasNumOr node c!"Cp0" 0 p.Cp0 ∧
      HasNumOr node c!"Cv0" 0 p.Cv0
  | .hkf p => HasNum node c!"Gf" p.Gf ∧ HasNum node c!"Hf" p.Hf ∧ HasNum node c!"Sr" p.Sr ∧ HasNum node c!"a1" p.a1 ∧
      HasNum node c!"a2" p.a2 ∧ HasNum node c!"a3" p.a3 ∧ HasNum node c!"a4" p.a4 ∧ HasNum node c!"c1" p.c1 ∧
      HasNum node c!"c2" p.c2 ∧ HasNum node c!"wref" p.wref ∧ HasNum node c!"charge" p.charge
  | .hollandPowell p => HasNum node c!"Gf" p.Gf ∧ HasNum node c!"Hf" p.Hf ∧ HasNum node c!"Sr" p.Sr ∧ HasNum node c!"Vr" p.Vr ∧
      HasNum node c!"a" p.a ∧ HasNum node c!"b" p.b ∧ HasNum node c!"c" p.c ∧ HasNum node c!"d" p.d ∧ HasNum node c!"Tmax" p.Tmax ∧
      (HasNum node c!"kappa0" p.kappa0 ∧ HasNum node c!"alpha0" p.alpha0 ∧ HasNum node c!"kappa0p" p.kappa0p ∧
        HasNum node c!"kappa0pp" p.kappa0pp ∧ HasNum node c!"numatoms" p.numatoms ∨
       Absent node c!"kappa0" ∧ p.kappa0 = 0)
  | .maierKelley p => HasNum node c!"Gf" p.Gf ∧ HasNum node c!"Hf" p.Hf ∧ HasNum node c!"Sr" p.Sr ∧ HasNum node c!"Vr" p.Vr ∧
      HasNum node c!"a" p.a ∧ HasNum node c!"b" p.b ∧ HasNum node c!"c" p.c ∧ HasNum node c!"Tmax" p.Tmax
  | .mineral p => HasNum node c!"Gf" p.Gf ∧ HasNum node c!"Hf" p.Hf ∧ HasNum node c!"Sr" p.Sr ∧ HasNum node c!"Vr" p.Vr ∧
      HasNum node c!"ntr" p.ntr ∧ HasNums node c!"a" p.a ∧ HasNums node c!"b" p.b ∧ HasNums node c!"c" p.c ∧
      HasNums node c!"Ttr" p.Ttr ∧ HasNums node c!"Htr" p.Htr ∧ HasNums node c!"Vtr" p.Vtr ∧ HasNums node c!"dPdTtr" p.dPdTtr ∧
      HasNum node c!"Tmax" p.Tmax
  | .water p => HasNum node c!"Ttr" p.Ttr ∧ HasNum node c!"Str" p.Str ∧ HasNum node c!"Gtr" p.Gtr ∧ HasNum node c!"Htr" p.Htr
  | .other _ => False

/-- The names under which standard models are saved. -/
def StdModel.key : StdModel → Str
  | .constant _ => c!"Constant"
  | .hkf _ => c!"HKF"
  | .hollandPowell _ => c!"HollandPowell"
  | .maierKelley _ => c!"MaierKelley"
  | .mineral _ => c!"MineralHKF"
  | .water _ => c!"WaterHKF"
  | .other _ => []

/-- The numbers a loaded reaction model has, entry by entry. -/
def RxnModel.ReadFrom (node : Node) : RxnModel → Prop
  | .constLgK p => HasNum node c!"lgKr" p.lgKr ∧ HasNumOr node c!"Pr" 100000 p.Pr
  | .gemsLgK p => HasNum node c!"A0" p.A0 ∧ HasNum node c!"A1" p.A1 ∧ HasNum node c!"A2" p.A2 ∧ HasNum node c!"A3" p.A3 ∧
      HasNum node c!"A4" p.A4 ∧ HasNum node c!"A5" p.A5 ∧ HasNum node c!"A6" p.A6 ∧ HasNumOr node c!"Pr" 100000 p.Pr
  | .phreeqcLgK p => HasNum node c!"A1" p.A1 ∧ HasNum node c!"A2" p.A2 ∧ HasNum node c!"A3" p.A3 ∧
      HasNum node c!"A4" p.A4 ∧ HasNum node c!"A5" p.A5 ∧ HasNum node c!"A6" p.A6 ∧ HasNumOr node c!"Pr" 100000 p.Pr
  | .vantHoff p => HasNum node c!"lgKr" p.lgKr ∧ HasNum node c!"dHr" p.dHr ∧ HasNumOr node c!"Tr" 298.15 p.Tr ∧
      HasNumOr node c!"Pr" 100000 p.Pr
  | _ => False

/-- The names under which reaction models are saved. -/
def RxnModel.key : RxnModel → Str
  | .constLgK _ => c!"ConstLgK"
  | .gemsLgK _ => c!"GemsLgK"
  | .phreeqcLgK _ => c!"PhreeqcLgK"
  | .vantHoff _ => c!"VantHoff"
  | _ => []

end Verif.ModelsYAML
