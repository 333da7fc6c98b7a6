import Verif.Model.Pitzer
import Verif.Spec.ActivityModels
import Mathlib.Analysis.Calculus.Deriv.Basic

/-!
# Specification for the Pitzer model (C80)

The excess Gibbs energy of Pitzer's equations, per kilogram of water and divided by `R T`, as a function of the molalities. The equations
for the activity coefficients are its partial derivatives, and the equation for the osmotic coefficient follows from it.
-/

namespace Verif.Pitzer

open Verif.Aqueous

/-- The cations, anions and neutral solutes of a solution: formulas and charges. -/
structure Kinds (nc na nn : Nat) where
  fc : Fin nc → Formula
  zc : Fin nc → ℝ
  fa : Fin na → Formula
  za : Fin na → ℝ
  fn : Fin nn → Formula

variable {nc na nn : Nat}

/-- Molalities of the cations, the anions and the neutral solutes. -/
structure Molalities (nc na nn : Nat) where
  c : Fin nc → ℝ
  a : Fin na → ℝ
  n : Fin nn → ℝ

/-- The ionic strength. -/
noncomputable def Kinds.ionicStrength (k : Kinds nc na nn) (m : Molalities nc na nn) : ℝ :=
  1 / 2 * (∑ c, k.zc c ^ 2 * m.c c + ∑ a, k.za a ^ 2 * m.a a)

/-- The sum of molalities times absolute charges. -/
noncomputable def Kinds.chargeSum (k : Kinds nc na nn) (m : Molalities nc na nn) : ℝ :=
  ∑ c, m.c c * |k.zc c| + ∑ a, m.a a * |k.za a|

/-- The sum of the molalities. -/
noncomputable def Molalities.sum (m : Molalities nc na nn) : ℝ := ∑ c, m.c c + ∑ a, m.a a + ∑ n, m.n n

noncomputable def Kinds.cation (k : Kinds nc na nn) (m : Molalities nc na nn) (c : Fin nc) : Solute := ⟨k.fc c, k.zc c, m.c c⟩
noncomputable def Kinds.anion (k : Kinds nc na nn) (m : Molalities nc na nn) (a : Fin na) : Solute := ⟨k.fa a, k.za a, m.a a⟩
noncomputable def Kinds.neutral (k : Kinds nc na nn) (m : Molalities nc na nn) (n : Fin nn) : Solute := ⟨k.fn n, 0, m.n n⟩

/-- The solution with given molalities. -/
noncomputable def Kinds.solution (k : Kinds nc na nn) (T A : ℝ) (m : Molalities nc na nn) : Solution where
  T := T
  I := k.ionicStrength m
  A := A
  Z := k.chargeSum m
  sum := m.sum
  cations := List.ofFn (k.cation m)
  anions := List.ofFn (k.anion m)
  neutrals := List.ofFn (k.neutral m)

/-- The dependence of the second virial coefficients on ionic strength. -/
noncomputable def shape (x : ℝ) : ℝ := 2 * (1 - (1 + x) * Real.exp (-x)) / x ^ 2

/-- The second virial coefficient of a salt: with two terms in the ionic strength if both ions have two charges. -/
noncomputable def secondVirial (f g : Formula) (zc za T I : ℝ) : ℝ :=
  open Classical in
  salt beta0Data f g T + (if |zc| = 2 ∧ |za| = 2
    then salt beta1Data f g T * shape (14 / 10 * √I) + salt beta2Data f g T * shape (12 * √I)
    else salt beta1Data f g T * shape (2 * √I))

/-- The third virial coefficient of a salt. -/
noncomputable def thirdVirial (f g : Formula) (zc za T : ℝ) : ℝ := salt cphiData f g T / (2 * √|zc * za|)

/-- The electrostatic mixing term of two ions of the same sign, with the function `J` of the electrostatic theory. -/
noncomputable def electrostatic (J : ℝ → ℝ) (A zi zj I : ℝ) : ℝ :=
  zi * zj / (4 * I) * (J (6 * zi * zj * A * √I) - 1 / 2 * J (6 * zi * zi * A * √I) - 1 / 2 * J (6 * zj * zj * A * √I))

/-- The excess Gibbs energy. Pairs of ions of the same sign are summed in both orders, hence the factors `1 / 2`. -/
noncomputable def Kinds.excessGibbs (k : Kinds nc na nn) (J : ℝ → ℝ) (T A : ℝ) (m : Molalities nc na nn) : ℝ :=
  let I := k.ionicStrength m
  let Z := k.chargeSum m;
  -(4 * A * I / (12 / 10)) * Real.log (1 + 12 / 10 * √I)
    + ∑ c, ∑ a, m.c c * m.a a * (2 * secondVirial (k.fc c) (k.fa a) (k.zc c) (k.za a) T I
        + Z * thirdVirial (k.fc c) (k.fa a) (k.zc c) (k.za a) T)
    + 1 / 2 * ∑ i, ∑ j, m.c i * m.c j * (2 * ((theta (k.fc i) (k.fc j) : ℚ) + electrostatic J A (k.zc i) (k.zc j) I)
        + ∑ a, m.a a * (psi (k.fc i) (k.fc j) (k.fa a) : ℚ))
    + 1 / 2 * ∑ i, ∑ j, m.a i * m.a j * (2 * ((theta (k.fa i) (k.fa j) : ℚ) + electrostatic J A (k.za i) (k.za j) I)
        + ∑ c, m.c c * (psi (k.fa i) (k.fa j) (k.fc c) : ℚ))
    + ∑ n, ∑ c, m.n n * m.c c * (2 * (lambda (k.fn n) (k.fc c) : ℚ))
    + ∑ n, ∑ a, m.n n * m.a a * (2 * (lambda (k.fn n) (k.fa a) : ℚ))
    + ∑ n, ∑ c, ∑ a, m.n n * m.c c * m.a a * (zeta (k.fn n) (k.fc c) (k.fa a) : ℚ)

/-- All the cations have the same charge, and all the anions. -/
def Kinds.OneCharge (k : Kinds nc na nn) : Prop :=
  (∀ i j, k.zc i = k.zc j) ∧ (∀ i j, k.za i = k.za j)

/-- No neutral solute has a table entry with a cation and an anion of the solution. -/
def Kinds.NoTriplets (k : Kinds nc na nn) : Prop := ∀ n c a, zeta (k.fn n) (k.fc c) (k.fa a) = 0

/-- The exact functions of the electrostatic theory: `J1` is `x` times the derivative of `J0`. -/
def exact (J J1 : ℝ → ℝ) : Screening := ⟨fun x => .ok (J x), fun x => .ok (J1 x)⟩

/-- Molalities along a path. -/
def path (x : Fin nc → ℝ → ℝ) (y : Fin na → ℝ → ℝ) (u : Fin nn → ℝ → ℝ) (t : ℝ) : Molalities nc na nn :=
  ⟨fun c => x c t, fun a => y a t, fun n => u n t⟩

/-- The functions of the model return at the molalities `m`; the ln activity coefficients are the partial derivatives of the excess Gibbs
energy `G`, in the sense that along every differentiable path through `m` the derivative of `G` is the sum of the ln activity coefficients
times the derivatives of the molalities; and the ln activity of water is `-Mw (∑ m + ∑ m ln γ - G)`, which is the derivative of the Gibbs
energy with respect to the amount of water. -/
def DerivedFrom (G : Molalities nc na nn → ℝ) (S : Screening) (k : Kinds nc na nn) (T A : ℝ) (m : Molalities nc na nn) : Prop :=
  ∃ (lc : Fin nc → ℝ) (la : Fin na → ℝ) (ln : Fin nn → ℝ),
    (∀ c, lnGammaCation S (k.solution T A m) (k.cation m c) = .ok (lc c)) ∧
    (∀ a, lnGammaAnion S (k.solution T A m) (k.anion m a) = .ok (la a)) ∧
    (∀ n, lnGammaNeutral (k.solution T A m) (k.neutral m n) = ln n) ∧
    (∀ (x : Fin nc → ℝ → ℝ) (y : Fin na → ℝ → ℝ) (u : Fin nn → ℝ → ℝ) (dx : Fin nc → ℝ) (dy : Fin na → ℝ) (du : Fin nn → ℝ) (s : ℝ),
      path x y u s = m → (∀ c, HasDerivAt (x c) (dx c) s) → (∀ a, HasDerivAt (y a) (dy a) s) → (∀ n, HasDerivAt (u n) (du n) s) →
      HasDerivAt (fun t => G (path x y u t)) (∑ c, dx c * lc c + ∑ a, dy a * la a + ∑ n, du n * ln n) s) ∧
    lnActivityWater S (k.solution T A m) = .ok (-waterMolarMass * (m.sum
      + (∑ c, m.c c * lc c + ∑ a, m.a a * la a + ∑ n, m.n n * ln n) - G m))

/-- The number in an outcome. -/
def valueOf (r : Res ℝ) : ℝ :=
  match r with
  | .ok a => a
  | _ => 0

/-- The species with a given index. -/
def speciesAt (species : List (Species ℝ)) (i : Nat) : Species ℝ := species.getD i ⟨[], waterFormula, 0⟩

/-- The solutes of a phase, with the indices of its cations, its anions and its neutral solutes. -/
noncomputable def kindsOf (species : List (Species ℝ)) (cs as ns : List Nat) : Kinds cs.length as.length ns.length where
  fc c := (speciesAt species cs[c]).formula
  zc c := (speciesAt species cs[c]).charge
  fa a := (speciesAt species as[a]).formula
  za a := (speciesAt species as[a]).charge
  fn n := (speciesAt species ns[n]).formula

/-- The molalities of these solutes for the mole fractions `x`, when water is species `w`. -/
noncomputable def molalitiesOf (x : List ℝ) (w : Nat) (cs as ns : List Nat) : Molalities cs.length as.length ns.length where
  c c := Activity.molality x w cs[c]
  a a := Activity.molality x w as[a]
  n n := Activity.molality x w ns[n]

end Verif.Pitzer
