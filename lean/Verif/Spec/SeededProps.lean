import Verif.Model.SeededProps
import Mathlib.Analysis.Calculus.Deriv.Basic
/-!
# Derivatives of standard properties
-/
namespace Verif.SeededProps
open ThermoProps
open ChemicalProps (Std)

/-- The five standard properties. -/
inductive Which where
  | G0 | H0 | V0 | Cp0 | Cv0

/-- A standard property of a species. -/
def get {K : Type} (s : Std K) : Which → K
  | .G0 => s.G0
  | .H0 => s.H0
  | .V0 => s.V0
  | .Cp0 => s.Cp0
  | .Cv0 => s.Cv0

/-- The model of a species computes property `q` as the function `g` of temperature and pressure, and derivatives by the chain rule
(without model the property is zero). -/
def Computes (m : SpeciesModel) (q : Which) (g : ℝ → ℝ → ℝ) : Prop :=
  match m with
  | some f => ∀ T P : Num, (get (f T P) q).val = g T.val P.val ∧
      (get (f T P) q).der = deriv (fun t => g t P.val) T.val * T.der + deriv (fun p => g T.val p) P.val * P.der
  | none => g = fun _ _ => 0

/-- The derivative of `g` with respect to the variable that is named. -/
noncomputable def dWrt (g : ℝ → ℝ → ℝ) (x : Wrt) (T P : ℝ) : ℝ :=
  match x with
  | .T => deriv (fun t => g t P) T
  | .P => deriv (fun p => g T p) P
  | .other => 0

/-- Property `q` of species `i` in phase `j`. -/
def Property (ds : List (PhaseData Num)) (j i : Nat) (q : Which) (r : Num) : Prop :=
  ∃ d s, ds[j]? = some d ∧ d.std[i]? = some s ∧ get s q = r

/-- Species `i` of phase `j` has model `m`. -/
def HasModel (phases : List (List SpeciesModel)) (j i : Nat) (m : SpeciesModel) : Prop :=
  ∃ ph, phases[j]? = some ph ∧ ph[i]? = some m

/-- The operator `==` of the library autodiff compares values only. -/
def ByValue (same : Num → Num → Bool) : Prop := ∀ a b : Num, same a b = true ↔ a.val = b.val

/-- The operator `==` of the library autodiff compares values and derivatives. -/
def WithDerivatives (same : Num → Num → Bool) : Prop := ∀ a b : Num, same a b = true ↔ a = b

/-- Temperature and pressure of a call. -/
def Call.TP : Call → ℝ × ℝ
  | .plain T P => (T, P)
  | .wrt _ T P => (T, P)

end Verif.SeededProps
