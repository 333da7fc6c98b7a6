import Verif.Theorems.HKF
import Verif.Theorems.Accessors

/-!
# C70: the water in the standard properties of aqueous species
-/

namespace Verif.HKF

open Verif.Water

theorem densityLoop_defined (model : ℝ → HState) (P : ℝ) (n : Nat) (D : ℝ) : densityLoop model P n D ≠ .ub := by
  induction n generalizing D with
  | zero => simp [densityLoop]
  | succ n ih =>
    unfold densityLoop
    dsimp only
    split
    · simp
    · exact ih _

/-- **C70 (one water for all species).** At each temperature and pressure either the density of liquid water is not found, and then no aqueous species, water or solute, has
standard properties (the evaluations throw), or there is one state of liquid water by the equation of Wagner and Pruss from which the standard properties of water and of all
solutes are evaluated: the molar volume of water is its molar mass over the density of that state, its heat capacities are those of that state per mole, its enthalpy and Gibbs
energy are those of that state per mole up to the triple point's. -/
theorem C70_one_water (T P : ℝ) :
    (waterDensityWagnerPruss T P .liquid = .throw ∧ (∀ p, standardHKF p T P = .throw) ∧ ∀ p, standardWaterHKF p T P = .throw) ∨
    ∃ w, thermoStateWagnerPruss T P .liquid = .ok w ∧ StateOf wagnerPruss T P w ∧ (∀ p, standardHKF p T P = .ok (hkf p T P w)) ∧
      ∀ p, ∃ r, standardWaterHKF p T P = .ok r ∧ r.V0 = Mw / w.density ∧ r.Cp0 = Mw * w.cp ∧ r.Cv0 = Mw * w.cv ∧ r.H0 = Mw * w.enthalpy + p.Htr ∧
        r.G0 = Mw * w.gibbs + p.Gtr - (T - p.Ttr) * p.Str := by
  cases h : waterDensityWagnerPruss T P .liquid with
  | ub => exact absurd h (densityLoop_defined _ _ _ _)
  | throw =>
    refine .inl ⟨rfl, fun p => ?_, fun p => ?_⟩
    · simp [standardHKF, thermoStateWagnerPruss, h, Res.bind_throw']
    · simp [standardWaterHKF, thermoStateWagnerPruss, h, Res.bind_throw']
  | ok D =>
    have hw : thermoStateWagnerPruss T P .liquid = .ok (thermoState T P (wagnerPruss T D)) := by
      simp [thermoStateWagnerPruss, h, Res.bind_ok']
    refine .inr ⟨_, hw, stateOf h, fun p => ?_, fun p => ⟨_, by rw [standardWaterHKF, hw, Res.bind_ok'], ?_, ?_, ?_, ?_, ?_⟩⟩
    · rw [standardHKF, hw, Res.bind_ok']
    · simp only [waterHKF, thermoState]; ring
    · simp only [waterHKF]; ring
    · simp only [waterHKF]; ring
    · simp only [waterHKF]
    · simp only [waterHKF, thermoState]; ring

/-- At zero pressure and temperature the evaluation has an outcome, and it is the same for all species. -/
example : (∀ p, standardHKF p 0 0 = .throw) ∨ ∃ w, ∀ p, standardHKF p 0 0 = .ok (hkf p 0 0 w) := by
  rcases C70_one_water 0 0 with ⟨_, h, _⟩ | ⟨w, _, _, h, _⟩
  · exact .inl h
  · exact .inr ⟨w, h⟩

end Verif.HKF
