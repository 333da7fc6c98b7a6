import Verif.Model.CubicEOS
import Verif.Model.Registries

/-!
# Model of `Reaktoro/Thermodynamics/Fluids/ActivityModelCubicEOS.cpp`

The registry of critical properties is the one of `Model/Registries.lean`, the equation of state the one of `Model/CubicEOS.lean`. Numbers are
reals, those of the registry being rational.
-/

namespace Verif.ActivityCubicEOS

open CubicEOS Registries

/-- What the model reads of `AggregateState` (Core/AggregateState.hpp). -/
inductive Aggregate where
  | gas | liquid | other
  deriving DecidableEq

/-- What the model reads of a `Species`. -/
structure Sp where
  substance : Str
  formula : Str
  name : Str
  aggregate : Aggregate

/-- The critical properties of a species (ActivityModelCubicEOS.cpp:40-49). -/
def critical (registry : List Substance) (s : Sp) : Res Data :=
  (getSubstanceAny registry [s.substance, s.formula, s.name]).bind fun
    | some c => .ok c.data
    | none => .throw

/-- The type of fluid (ActivityModelCubicEOS.cpp:55-67): decided by the first species, which is read without a check that there is one. -/
def fluidOf (species : List Sp) : Res Fluid :=
  match species with
  | [] => .ub
  | s :: _ => match s.aggregate with
    | .gas => .ok .vapor
    | .liquid => .ok .liquid
    | .other => .throw

/-- The construction of the equation of state (ActivityModelCubicEOS.cpp:31-71). -/
noncomputable def build (registry : List Substance) (kind : Kind) (method : Method) (species : List Sp) (ip : ℝ → Ip species.length) :
    Res (Eos species.length) :=
  (species.mapM (m := Res) (critical registry)).bind fun data =>
  (fluidOf species).bind fun fluid =>
  .ok { fluidtype := fluid
        model := kind
        method := method
        Tcr := fun i => ((data.getD i ⟨0, 0, 0⟩).Tcr : ℝ)
        Pcr := fun i => ((data.getD i ⟨0, 0, 0⟩).Pcr : ℝ)
        omega := fun i => ((data.getD i ⟨0, 0, 0⟩).omega : ℝ)
        interaction := ip }

/-- What the activity model writes to `ActivityProps` (ActivityModelCubicEOS.cpp:87-95). -/
structure Activity (n : Nat) where
  Vex : ℝ
  VexT : ℝ
  VexP : ℝ
  Gex : ℝ
  Hex : ℝ
  Cpex : ℝ
  Cvex : ℝ
  ln_g : Fin n → ℝ
  ln_a : Fin n → ℝ

/-- An evaluation of the activity model (ActivityModelCubicEOS.cpp:78-96). `res` is the object that lives between the calls, with whatever there was in
its array `ln_phi` before the first of them (73-74). The result is the new object and the activity properties. -/
noncomputable def eval {n : Nat} (solve3 : ℝ → ℝ → ℝ → List ℝ) (solve4 : List ℝ → List ℝ) (e : Eos n) (res : Props n) (T P : ℝ) (x : Fin n → ℝ) :
    Res (Props n × Activity n) :=
  (compute solve3 solve4 e res T P x).bind fun res =>
  let Pbar := P * 1.0e-5
  .ok (res,
    { Vex := res.Vres
      VexT := res.VresT
      VexP := res.VresP
      Gex := res.Gres
      Hex := res.Hres
      Cpex := res.Cpres
      Cvex := res.Cvres
      ln_g := res.ln_phi
      ln_a := fun i => res.ln_phi i + Real.log (x i) + Real.log Pbar })

end Verif.ActivityCubicEOS
