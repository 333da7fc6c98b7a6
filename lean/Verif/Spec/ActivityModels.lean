import Verif.Model.ActivityModels
import Mathlib.Analysis.Calculus.Deriv.Basic

/-!
# Specification for activity models (C51, C59–C63)
-/

namespace Verif.Activity

open Verif.Aqueous Verif.ChemicalProps

/-- The properties after an evaluation that returns. -/
def propsOf (r : Res Mem) : AProps ℝ :=
  match r with
  | .ok m => m.props
  | _ => ⟨0, 0, 0, 0, 0, 0, 0, [], []⟩

/-- The ln activity of species `i` after an evaluation. -/
def lnA (r : Res Mem) (i : Nat) : ℝ := (propsOf r).ln_a.getD i 0

/-- The ln activity coefficient of species `i` after an evaluation. -/
def lnG (r : Res Mem) (i : Nat) : ℝ := (propsOf r).ln_g.getD i 0

/-- A memory with one entry per species. -/
def Fits (m : Mem) (N : Nat) : Prop := m.props.ln_g.length = N ∧ m.props.ln_a.length = N

/-- The composition along a path, one function per species. -/
def along {N : Nat} (x : Fin N → ℝ → ℝ) (s : ℝ) : List ℝ := List.ofFn fun i => x i s

/-- Gibbs–Duhem at constant temperature and pressure, along the path of amounts (or mole fractions) `x` at the point `s`: the quantities
`q i` have derivatives whose sum weighted by the amounts is zero. -/
def GibbsDuhem {N : Nat} (x : Fin N → ℝ → ℝ) (q : Fin N → ℝ → ℝ) (s : ℝ) : Prop :=
  ∃ d : Fin N → ℝ, (∀ i, HasDerivAt (q i) (d i) s) ∧ ∑ i, x i s * d i = 0

/-- The molality of species `i` from mole fractions, when water is species `w`. -/
noncomputable def molality (x : List ℝ) (w i : Nat) : ℝ := x.getD i 0 / (waterMolarMass * x.getD w 0)

/-- The Debye–Hückel ln activity coefficient of an ion of charge `z`, size `a` and parameter `b` at ionic strength `I`. -/
noncomputable def extendedDebyeHuckel (A B a b z I : ℝ) : ℝ := Real.log 10 * (-A * z ^ 2 * √I / (1 + a * B * √I) + b * I)

/-- The function in the integrated Debye–Hückel term. -/
noncomputable def sigma (B a I : ℝ) : ℝ :=
  if a = 0 then 2 else 3 / (a * B * √I) ^ 3 * ((a * B * √I) ^ 2 - 2 * (a * B * √I) + 2 * Real.log (1 + a * B * √I))

end Verif.Activity
