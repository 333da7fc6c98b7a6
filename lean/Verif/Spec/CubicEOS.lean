import Verif.Model.CubicEOS
import Mathlib.Analysis.Calculus.Deriv.Basic

/-!
# Specification for C46, C47, C48, C57, C58
-/

namespace Verif.CubicEOS

variable {n : Nat}

/-- The cubic equation of state: pressure as a function of temperature and molar volume. -/
def EquationOfState (e : Eos n) (T P : ℝ) (x : Fin n → ℝ) (V : ℝ) : Prop :=
  P = R * T / (V - bmix e x) - amix e T x / ((V + epsilon e.model * bmix e x) * (V + sigma e.model * bmix e x))

/-- The molar volume for a compressibility factor. -/
noncomputable def volume (T P Z : ℝ) : ℝ := Z * R * T / P

/-- The cubic polynomial of the code. -/
noncomputable def poly (e : Eos n) (T P : ℝ) (x : Fin n → ℝ) (Z : ℝ) : ℝ :=
  Z ^ 3 + cA (epsilon e.model) (sigma e.model) (beta e T P x) * Z ^ 2 + cB (epsilon e.model) (sigma e.model) (beta e T P x) (q e T x) * Z +
    cC (epsilon e.model) (sigma e.model) (beta e T P x) (q e T x)

/-- The interaction parameters and the derivatives given with them; an empty matrix is zero. -/
noncomputable def kij (e : Eos n) (T : ℝ) (i j : Fin n) : ℝ := ((e.interaction T).k.map fun k => k i j).getD 0
noncomputable def kijT (e : Eos n) (T : ℝ) (i j : Fin n) : ℝ := ((e.interaction T).kT.map fun k => k i j).getD 0
noncomputable def kijTT (e : Eos n) (T : ℝ) (i j : Fin n) : ℝ := ((e.interaction T).kTT.map fun k => k i j).getD 0

/-- Conditions on the data: positive critical properties and temperature, positive attraction parameters, and interaction parameters with the right
derivatives. -/
structure Admissible (e : Eos n) (T : ℝ) : Prop where
  T_pos : 0 < T
  Tcr : ∀ i, 0 < e.Tcr i
  a : ∀ i, 0 < a e T i
  kT : ∀ i j, HasDerivAt (fun T => kij e T i j) (kijT e T i j) T
  kTT : ∀ i j, HasDerivAt (fun T => kijT e T i j) (kijTT e T i j) T

/-- A physical state: positive temperature, pressure and co-volume, and a volume greater than the co-volume. -/
structure Regular (e : Eos n) (T P : ℝ) (x : Fin n → ℝ) (Z : ℝ) : Prop where
  Tpos : 0 < T
  Ppos : 0 < P
  a : amix e T x ≠ 0
  bpos : 0 < bmix e x
  Zbeta : beta e T P x < Z

/-- The derivative of the polynomial with respect to `Z` does not vanish: the root is simple. -/
def Simple (e : Eos n) (T P : ℝ) (x : Fin n → ℝ) (Z : ℝ) : Prop :=
  3 * Z * Z + 2 * cA (epsilon e.model) (sigma e.model) (beta e T P x) * Z + cB (epsilon e.model) (sigma e.model) (beta e T P x) (q e T x) ≠ 0

/-- Mole fractions of amounts. -/
noncomputable def fractions (m : Fin n → ℝ) : Fin n → ℝ := fun i => m i / ∑ j, m j

/-- The logarithm of the fugacity coefficient in the textbook (Smith et al., Eq. 14.50 in the 7th and 13.99 in the 8th edition). -/
noncomputable def lnPhiTextbook (e : Eos n) (T P : ℝ) (x : Fin n → ℝ) (Z : ℝ) (k : Fin n) : ℝ :=
  bbar e k / bmix e x * (Z - 1) - Real.log (Z - beta e T P x) -
    (1 + abar e T x k / amix e T x - bbar e k / bmix e x) * q e T x * cI (epsilon e.model) (sigma e.model) (beta e T P x) Z

/-- The value of a polynomial given by its coefficients, lowest degree first. -/
def evalPoly (l : List ℝ) (v : ℝ) : ℝ := l.foldr (fun c s => c + v * s) 0

/-- A volume above the co-volume at which the pressure along the isotherm is stationary. -/
def Stationary (ε σ T amix bmix V : ℝ) : Prop := bmix < V ∧ HasDerivAt (pressure ε σ T amix bmix) 0 V

end Verif.CubicEOS
