import Verif.Theorems.EquilibriumPredictor
import Verif.Theorems.EquilibriumSpecs
import Verif.Theorems.MathUtils
import Verif.Theorems.Farey
import Verif.Theorems.ModelsYAML
import Verif.Theorems.ReactionThermo

/-!
# Predictions that fail, accepted constraints, cleaned numbers and models that were read (C36, C44, C71, C106)
-/

namespace Verif.EquilibriumPredictor

open Matrix EquilibriumSpecs EquilibriumSolver ChemicalState

variable {Nn Nq Np Nw Nb Nu : Nat}

/-- **C44 (predictions that fail).** A temperature that is not positive leaves the state as it was; a pressure that is not positive leaves it with the new
temperature; a negative amount stops a debug build with both new. Amounts and the record are those of before. -/
theorem C44_failed (debug : Bool) (r : Ref Nn Nq Np Nw Nb Nu) (s : Sens Nn Nq Np Nw Nb Nu Rat) (x : State Nn Nq Np Nw Nb Nu) (w : Fin Nw → Rat)
    (b : Fin Nb → Rat) (T P : Rat) (p : Fin Np → Rat) (n : Fin Nn → Rat)
    (hp : p = r.p0 + s.dpdw.mulVec (w - r.w0) + s.dpdb.mulVec (b - r.b0)) (hn : n = r.n0 + s.dndw.mulVec (w - r.w0) + s.dndb.mulVec (b - r.b0))
    (hT : getT r.inputs (List.ofFn p) (List.ofFn w) = .ok T) (hP : getP r.inputs (List.ofFn p) (List.ofFn w) = .ok P) :
    (T ≤ 0 → predict debug r s x w b = (x, .threw)) ∧
    (0 < T → P ≤ 0 → predict debug r s x w b = ({ x with st := { x.st with T := T } }, .threw)) ∧
    (0 < T → 0 < P → (∃ i, n i < 0) → predict true r s x w b = ({ x with st := { x.st with T := T, P := P } }, .aborted)) := by
  subst hp hn
  refine ⟨fun h => ?_, fun h h' => ?_, fun h h' hi => ?_⟩
  · unfold predict predicted
    simp only [hT, hP, setTemperature, if_pos h]
  · unfold predict predicted
    simp only [hT, hP, setTemperature, setPressure, if_neg (not_le.2 h), if_pos h']
  · obtain ⟨i, hi⟩ := hi
    unfold predict predicted
    have ha : (List.ofFn (r.n0 + s.dndw.mulVec (w - r.w0) + s.dndb.mulVec (b - r.b0))).all (fun x => 0 ≤ x) = false := by
      rw [List.all_eq_false]
      exact ⟨_, List.mem_ofFn.2 ⟨i, rfl⟩, by simpa using hi⟩
    simp only [hT, hP, setTemperature, setPressure, if_neg (not_le.2 h), if_neg (not_le.2 h'), setAmounts, asserted, ha, Bool.and_false, Bool.not_false,
      Bool.and_true, Bool.true_and]
    by_cases hl : ({ x.st with T := T, P := P } : St).n.length = (List.ofFn (r.n0 + s.dndw.mulVec (w - r.w0) + s.dndb.mulVec (b - r.b0))).length
    · simp [hl]
    · simp [hl]

/-- A prediction of a pressure that is negative. -/
example : (predict true exampleRef exampleSens exampleStart ![310, -5] ![4]).2 = .threw ∧
    (predict true exampleRef exampleSens exampleStart ![310, -5] ![4]).1.st = ⟨310, 1, [0]⟩ := by decide +kernel

end Verif.EquilibriumPredictor

namespace Verif.EquilibriumSpecs

/-- **C36 (accepted constraints).** Volume, internal energy, enthalpy, Gibbs energy, Helmholtz energy and entropy are constrained, with no error, exactly if neither
an input nor a constraint has the name already; then there are one more input and one more constraint. -/
theorem C36_accepted {K Pr : Type} (s : Specs K Pr) (name input : Str) (hne : name ≠ []) (fn : Nat → EFn K Pr) :
    ((constrainProperty s name input fn).2 = true ↔ input ∉ s.inputs ∧ ∀ c ∈ s.econstraints, c.name ≠ name) ∧
    ((constrainProperty s name input fn).2 = true → (constrainProperty s name input fn).1 =
      { s with inputs := s.inputs ++ [input], econstraints := s.econstraints ++ [⟨name, some (fn s.inputs.length)⟩] }) := by
  unfold constrainProperty addInput
  by_cases hi : input ∈ s.inputs
  · simp [hi]
  · have hi' : s.inputs.contains input = false := by simp [hi]
    rw [hi']
    simp only [Bool.false_eq_true, if_false, addEConstraint]
    by_cases hc : ∀ c ∈ s.econstraints, c.name ≠ name
    · have hc' : s.econstraints.any (fun x => x.name == name) = false := by
        rw [List.any_eq_false]
        intro c h
        simpa using hc c h
      rw [hc']
      have : name.isEmpty = false := by simp [hne]
      simp only [Bool.false_eq_true, if_false, this, Option.isNone_some]
      exact ⟨⟨fun _ => ⟨hi, hc⟩, fun _ => trivial⟩, fun _ => rfl⟩
    · have hc' : s.econstraints.any (fun x => x.name == name) = true := by
        simp only [not_forall] at hc
        obtain ⟨c, h1, h2⟩ := hc
        exact List.any_eq_true.2 ⟨c, h1, by simpa using h2⟩
      rw [hc']
      simp [hc]

/-- Two constraints of the volume: the second is rejected. -/
example : (step (K := Rat) (Pr := Unit) (fun _ => none) (run (fun _ => none) [] [.volume]) .volume).2 = false ∧
    (step (K := Rat) (Pr := Unit) (fun _ => none) (run (fun _ => none) [] []) .volume).2 = true := by decide +kernel

end Verif.EquilibriumSpecs

namespace Verif.MathUtils

variable {K : Type} [Field K] [LinearOrder K] [IsStrictOrderedRing K] [FloorRing K]

/-- **C106 (cleaned numbers).** A number between -1 and 1 becomes a fraction with a denominator up to the maximum, closer to it than the maximum allows between
fractions, and a number that is such a fraction stays; a number that exceeds the maximum by more than one becomes an infinity. -/
theorem C106_clean_value (v : K) (maxden : Nat) (hm : 1 ≤ maxden) :
    (|v| ≤ 1 → ∃ (p q : Int) (u : K), clean v maxden = .ok (some u) ∧ u = (p : K) / (q : K) ∧ 1 ≤ q ∧ q ≤ maxden ∧ |v - u| ≤ 1 / ((q : K) * ((maxden : K) + 1))) ∧
    (∀ a b : Int, 1 ≤ b → b ≤ maxden → v = (a : K) / (b : K) → |v| ≤ 1 → clean v maxden = .ok (some v)) ∧
    ((maxden : K) + 1 < |v| → clean v maxden = .ok none) := by
  have small : |v| ≤ 1 → ∃ (p q : Int) (u : K), clean v maxden = .ok (some u) ∧ u = (p : K) / (q : K) ∧ 1 ≤ q ∧ q ≤ maxden ∧
      |v - u| ≤ 1 / ((q : K) * ((maxden : K) + 1)) := by
    intro h
    obtain ⟨p, q, h1, h2, h3, h4⟩ := Farey.C20_rationalize_small v maxden hm h
    refine ⟨p, q, (p : K) / (q : K), ?_, rfl, h2, h3, h4⟩
    unfold clean
    rw [h1, Res.bind_ok']
    simp only
    rw [if_neg (by omega)]
  refine ⟨small, ?_, ?_⟩
  · intro a b hb hbm hv h
    obtain ⟨p, q, u, h1, h2, h3, h4, h5⟩ := small h
    have hq : (0 : K) < q := by exact_mod_cast (by omega : 0 < q)
    have hb' : (0 : K) < b := by exact_mod_cast (by omega : 0 < b)
    have hbm' : (b : K) ≤ maxden := by exact_mod_cast hbm
    have e : v - u = ((a * q - p * b : Int) : K) / (b * q) := by
      rw [hv, h2]
      push_cast
      field_simp
    have hz : a * q - p * b = 0 := by
      by_contra hne
      have h6 : (1 : K) ≤ |((a * q - p * b : Int) : K)| := by exact_mod_cast Int.one_le_abs hne
      rw [e, abs_div, abs_of_pos (mul_pos hb' hq), div_le_div_iff₀ (mul_pos hb' hq) (by positivity)] at h5
      have h7 : (q : K) * ((maxden : K) + 1) ≤ |((a * q - p * b : Int) : K)| * (q * ((maxden : K) + 1)) :=
        le_mul_of_one_le_left (by positivity) h6
      have h8 : (b : K) * q ≤ maxden * q := mul_le_mul_of_nonneg_right hbm' hq.le
      nlinarith
    rw [h1, show u = v by rw [hz, Int.cast_zero, zero_div] at e; exact (sub_eq_zero.1 e).symm]
  · intro h
    obtain ⟨p, h1⟩ := Farey.C20_zero_denominator v maxden hm h
    unfold clean
    rw [h1, Res.bind_ok']
    simp

example : clean (333 / 1000 : ℚ) 6 = .ok (some (1 / 3)) ∧ clean (100 : ℚ) 6 = .ok none := by decide +kernel

end Verif.MathUtils

namespace Verif.ModelsYAML

open ReactionThermo in
/-- **C71 (what was read).** A model of a reaction that was read from a document gives the `lg K` of its parameters, each at its place. -/
theorem C71_lgk (T Pr dV0 : ℝ) (hT : 0 < T) :
    (∀ p : ConstLgK, p.Pr = Pr → -((RxnModel.constLgK p).eval ⟨0, 0⟩ T Pr dV0).dG0 / (R * T * ln10) = p.lgKr) ∧
    (∀ p : VantHoff, p.Pr = Pr → p.Tr ≠ 0 → -((RxnModel.vantHoff p).eval ⟨0, 0⟩ T Pr dV0).dG0 / (R * T * ln10) =
      p.lgKr + p.dHr / (R * ln10) * (1 / p.Tr - 1 / T)) ∧
    (∀ p : GemsLgK, p.Pr = Pr → -((RxnModel.gemsLgK p).eval ⟨0, 0⟩ T Pr dV0).dG0 / (R * T * ln10) =
      p.A0 + p.A1 * T + p.A2 / T + p.A3 * Real.log T + p.A4 / T ^ 2 + p.A5 * T ^ 2 + p.A6 / √T) ∧
    (∀ p : PhreeqcLgK, p.Pr = Pr → -((RxnModel.phreeqcLgK p).eval ⟨0, 0⟩ T Pr dV0).dG0 / (R * T * ln10) =
      p.A1 + p.A2 * T + p.A3 / T + p.A4 * Real.logb 10 T + p.A5 / T ^ 2 + p.A6 * T ^ 2) := by
  refine ⟨?_, ?_, ?_, ?_⟩
  · rintro p rfl
    exact (C52_lgk (fun _ => p.lgKr) T p.Pr dV0 hT).1 0
  · rintro p rfl h
    exact (C52_lgk (fun i => [p.lgKr, p.dHr].getD i 0) T p.Pr dV0 hT).2.1 0 1 p.Tr h
  · rintro p rfl
    exact (C52_lgk (fun i => [p.A0, p.A1, p.A2, p.A3, p.A4, p.A5, p.A6].getD i 0) T p.Pr dV0 hT).2.2.1 0 1 2 3 4 5 6
  · rintro p rfl
    exact (C52_lgk (fun i => [0, p.A1, p.A2, p.A3, p.A4, p.A5, p.A6].getD i 0) T p.Pr dV0 hT).2.2.2 1 2 3 4 5 6

/-- One of them at 300 K. -/
example : ((RxnModel.constLgK ⟨2, 100000⟩).eval ⟨0, 0⟩ 300 100000 5).dG0 = -(ReactionThermo.R * 300 * (2 * ReactionThermo.ln10)) := by
  simp only [RxnModel.eval, ReactionThermo.constLgK]
  ring

end Verif.ModelsYAML
