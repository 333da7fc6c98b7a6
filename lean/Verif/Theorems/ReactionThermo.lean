import Verif.Spec.ReactionThermo
import Mathlib.Analysis.SpecialFunctions.Log.Deriv
import Mathlib.Analysis.SpecialFunctions.Sqrt
import Mathlib.Data.List.Forall2
import Mathlib.Data.List.Induction
import Mathlib.Tactic.Ring
import Mathlib.Tactic.FieldSimp
import Mathlib.Tactic.LinearCombination
import Mathlib.Tactic.NormNum

/-!
# Theorems C34 and C52: formation reactions and reaction models
-/

namespace Verif.ReactionThermo

open ChemicalProps (Std)
open scoped Topology

/-! ## C34 -/

theorem run_append (calls : List Call) (c : Call) : FormationReaction.run (calls ++ [c]) = (FormationReaction.run calls).step c := by
  unfold FormationReaction.run; rw [List.foldl_append]; rfl

/-- **C34 (history).** After any sequence of calls, the reactants and the reaction model are those of the last call that sets them. -/
theorem C34_last_call (calls : List Call) :
    (FormationReaction.run calls).reactants = (lastReactants calls).getD [] ∧
    (FormationReaction.run calls).rxnModel = lastRxnModel calls := by
  induction calls using List.reverseRecOn with
  | nil => exact ⟨rfl, rfl⟩
  | append_singleton calls c ih =>
    obtain ⟨h1, h2⟩ := ih
    rw [run_append]
    unfold lastReactants lastRxnModel at *
    simp only [List.filterMap_append, List.getLast?_append]
    cases c <;>
      simp [FormationReaction.step, FormationReaction.withReactants, FormationReaction.withEquilibriumConstant,
        FormationReaction.withProductStandardVolume, FormationReaction.withProductStandardVolumeModel,
        FormationReaction.withReactionThermoModel, h1, h2]

/-- **C34 (volume), partial.** After any sequence of calls without a constant product volume, the volume model is that of the last
call that sets one. Missing: constant product volumes, for which the claim is false (`C34_product_volume_ignored`). -/
theorem C34_last_volume_partial (calls : List Call) (h : ∀ v, Call.standardVolume v ∉ calls) :
    (FormationReaction.run calls).volumeModel = lastVolume calls := by
  induction calls using List.reverseRecOn with
  | nil => rfl
  | append_singleton calls c ih =>
    have ih := ih (fun v hv => h v (List.mem_append_left _ hv))
    rw [run_append]
    unfold lastVolume at *
    simp only [List.filterMap_append, List.getLast?_append]
    cases c with
    | standardVolume v => exact absurd (List.mem_append_right _ List.mem_cons_self) (h v)
    | _ =>
      simp [FormationReaction.step, FormationReaction.withReactants, FormationReaction.withEquilibriumConstant,
        FormationReaction.withProductStandardVolume, FormationReaction.withProductStandardVolumeModel,
        FormationReaction.withReactionThermoModel, ih]
      try rfl

theorem allProps_some (s : Store) (T P : ℝ) (l : List Reactant) (ps : List (ℝ × Std ℝ)) (h : allProps s T P l = some ps) :
    List.Forall₂ (fun r q => q.1 = r.coeff ∧ r.props s T P = some q.2) l ps := by
  induction l generalizing ps with
  | nil => cases h; exact .nil
  | cons r l ih =>
    unfold allProps at h
    cases h1 : r.props s T P with
    | none => rw [h1] at h; cases h
    | some q =>
      rw [h1] at h
      cases h2 : allProps s T P l with
      | none => rw [h2] at h; cases h
      | some qs =>
        rw [h2] at h
        cases h
        exact .cons ⟨rfl, h1⟩ (ih qs h2)

theorem allProps_none (s : Store) (T P : ℝ) (l : List Reactant) : allProps s T P l = none ↔ ∃ r ∈ l, r.props s T P = none := by
  induction l with
  | nil => simp [allProps]
  | cons r l ih =>
    unfold allProps
    cases h1 : r.props s T P with
    | none => simp [h1]
    | some q =>
      cases h2 : allProps s T P l with
      | none =>
        obtain ⟨r', hr', h⟩ := ih.1 h2
        simp only [true_iff]
        exact ⟨r', List.mem_cons_of_mem _ hr', h⟩
      | some qs =>
        simp only [reduceCtorEq, false_iff, not_exists, not_and]
        intro r' hr' h
        rcases List.mem_cons.1 hr' with rfl | hr'
        · rw [h1] at h; cases h
        · have := ih.2 ⟨r', hr', h⟩
          rw [h2] at this; cases this

theorem foldl_add (l : List (ℝ × Std ℝ)) (f : Std ℝ → ℝ) (a : ℝ) :
    l.foldl (fun g r => g + r.1 * f r.2) a = a + (l.map fun r => r.1 * f r.2).sum := by
  induction l generalizing a with
  | nil => simp
  | cons r l ih => rw [List.foldl_cons, ih, List.map_cons, List.sum_cons]; ring

theorem foldl_sub (l : List (ℝ × Std ℝ)) (f : Std ℝ → ℝ) (a : ℝ) :
    l.foldl (fun g r => g - r.1 * f r.2) a = a - (l.map fun r => r.1 * f r.2).sum := by
  induction l generalizing a with
  | nil => simp
  | cons r l ih => rw [List.foldl_cons, ih, List.map_cons, List.sum_cons]; ring

/-- **C34.** Gibbs energy and enthalpy of the product are those of the reaction, at the volume change of the reaction, plus the
stoichiometric sums over the reactants; the volume is that of the volume model; heat capacities are reported as zero. -/
theorem C34_product (f : FormationReaction) (m : Store → ℝ → ℝ → Option (Std ℝ)) (hm : f.createStandardThermoModel = .ok m)
    (s : Store) (T P : ℝ) (p : Std ℝ) (hp : m s T P = some p) :
    ∃ rxn l, f.rxnModel = some rxn ∧ List.Forall₂ (fun r q => q.1 = r.coeff ∧ r.props s T P = some q.2) f.reactants l ∧
      IsProduct l (fun dV0 => rxn s ⟨0, 0⟩ T P dV0) p ∧
      p.V0 = (match f.volumeModel with | some v => v s T P | none => 0) ∧ p.Cp0 = 0 ∧ p.Cv0 = 0 := by
  unfold FormationReaction.createStandardThermoModel at hm
  by_cases he : f.reactants.isEmpty = true
  · rw [if_pos he] at hm; cases hm
  rw [if_neg he] at hm
  cases hr : f.rxnModel with
  | none => rw [hr] at hm; cases hm
  | some rxn =>
    rw [hr] at hm
    cases hm
    unfold productProps at hp
    cases ha : allProps s T P f.reactants with
    | none => rw [ha] at hp; cases hp
    | some l =>
      rw [ha] at hp
      simp only [Option.some.injEq] at hp
      subst hp
      refine ⟨rxn, l, rfl, allProps_some _ _ _ _ _ ha, ⟨?_, ?_⟩, rfl, rfl, rfl⟩
      · dsimp only; rw [foldl_add l Std.G0, foldl_sub l Std.V0]
      · dsimp only; rw [foldl_add l Std.H0, foldl_sub l Std.V0]

/-- **C34 (exceptions).** The model is created exactly when there are reactants and a reaction model, and it throws exactly when
the model of a reactant does. -/
theorem C34_throws (f : FormationReaction) :
    (f.createStandardThermoModel = .throw ↔ f.reactants = [] ∨ f.rxnModel = none) ∧
    (f.createStandardThermoModel.isOk = f.initialized) ∧
    ∀ m, f.createStandardThermoModel = .ok m → ∀ s T P, (m s T P = none ↔ ∃ r ∈ f.reactants, r.props s T P = none) := by
  unfold FormationReaction.createStandardThermoModel FormationReaction.initialized
  obtain ⟨l, v, r⟩ := f
  cases l with
  | nil => simp
  | cons a l =>
    cases r with
    | none => simp
    | some rxn =>
      refine ⟨by simp, rfl, ?_⟩
      intro m hm s T P
      simp only [List.isEmpty_cons, Bool.false_eq_true, if_false, Res.ok.injEq] at hm
      rw [← hm, ← allProps_none]
      unfold productProps
      cases allProps s T P (a :: l) <;> simp

/-- **C34, counterexample for constant product volumes.** Whatever volume is declared, the standard volume of the product is
zero. -/
theorem C34_product_volume_ignored (f : FormationReaction) (v : Nat) (m : Store → ℝ → ℝ → Option (Std ℝ))
    (hm : (f.withProductStandardVolume v).createStandardThermoModel = .ok m) (s : Store) (T P : ℝ) (p : Std ℝ) (hp : m s T P = some p) :
    p.V0 = 0 := by
  obtain ⟨_, _, _, _, _, h, _⟩ := C34_product _ m hm s T P p hp
  rw [h]; rfl

/-- **C34 (equilibrium constants).** A formation reaction with a constant `lg K` gives a product whose Gibbs energy differs from the
sum over the reactants by `-R T ln(10) lg K`, at the reference pressure. At other pressures the negative volume of the
reactants is taken as the volume of the reaction, and contributes to the enthalpy. -/
theorem C34_equilibrium_constant (f : FormationReaction) (k : Nat) (m : Store → ℝ → ℝ → Option (Std ℝ))
    (hm : (f.withEquilibriumConstant k).createStandardThermoModel = .ok m) (s : Store) (T P : ℝ) (p : Std ℝ) (hp : m s T P = some p) :
    ∃ l : List (ℝ × Std ℝ), List.Forall₂ (fun r q => q.1 = r.coeff ∧ r.props s T P = some q.2) f.reactants l ∧
      p.G0 - (l.map fun r => r.1 * r.2.G0).sum = -R * T * ln10 * s k - (l.map fun r => r.1 * r.2.V0).sum * (P - 100000) ∧
      p.H0 - (l.map fun r => r.1 * r.2.H0).sum = -(l.map fun r => r.1 * r.2.V0).sum * (P - 100000) ∧ p.V0 = 0 := by
  obtain ⟨rxn, l, h1, h2, h3, h4, -⟩ := C34_product _ m hm s T P p hp
  have hv : p.V0 = 0 := by rw [h4]; rfl
  have e : constLgK k 100000 = rxn := Option.some.inj h1
  subst e
  refine ⟨l, h2, ?_, ?_, hv⟩
  · rw [h3.gibbs, hv]; simp only [constLgK]; ring
  · rw [h3.enthalpy, hv]; simp only [constLgK]; ring

/-- **C34 (stoichiometry).** `stoichiometry` returns the coefficient of the first reactant with that name, or zero. -/
theorem C34_stoichiometry (f : FormationReaction) (name : List Char) :
    (∀ r ∈ f.reactants, r.name = name → (f.reactants.map Reactant.name).Nodup → f.stoichiometry name = r.coeff) ∧
    (name ∉ f.reactants.map Reactant.name → f.stoichiometry name = 0) := by
  unfold FormationReaction.stoichiometry
  generalize f.reactants = l
  constructor
  · induction l with
    | nil => intro r hr; cases hr
    | cons a l ih =>
      intro r hr hn hnd
      rw [List.map_cons, List.nodup_cons] at hnd
      rcases List.mem_cons.1 hr with rfl | hr
      · rw [List.find?_cons_of_pos (by simp [hn])]
      · have : a.name ≠ name := by
          rintro rfl
          exact hnd.1 (hn ▸ List.mem_map_of_mem hr)
        rw [List.find?_cons_of_neg (by simp [this])]
        exact ih r hr hn hnd.2
  · intro h
    have : l.find? (fun r => r.name == name) = none := by
      rw [List.find?_eq_none]
      intro r hr hb
      exact h (by rw [← (beq_iff_eq.1 hb)]; exact List.mem_map_of_mem hr)
    rw [this]

/-- A species with constant standard properties. -/
def constantSpecies (name : List Char) (p : Std ℝ) (c : ℝ) : Reactant := ⟨name, fun _ _ _ => some p, c⟩

/-- The hypotheses of C34 hold for the reaction A + 2B, with lg K in cell 0, and the theorem gives the Gibbs energy. -/
example (s : Store) (T : ℝ) : ∃ m p,
    (FormationReaction.run [.equilibriumConstant 0, .reactants [constantSpecies c!"A" ⟨1, 2, 3, 0, 0⟩ 1, constantSpecies c!"B" ⟨10, 20, 30, 0, 0⟩ 2]]).createStandardThermoModel = .ok m ∧
    m s T 100000 = some p ∧ p.G0 = 21 - R * T * ln10 * s 0 := by
  refine ⟨_, _, rfl, rfl, ?_⟩
  simp only [List.foldl_cons, List.foldl_nil, constantSpecies, constLgK]
  ring

/-- The declared product volume 1 is lost. -/
example : ∃ m p,
    (FormationReaction.run [.reactants [constantSpecies c!"A" ⟨1, 2, 3, 0, 0⟩ 1], .rxnModel (constLgK 0 0), .standardVolume 1]).createStandardThermoModel = .ok m ∧
    m (fun _ => 1) 1 1 = some p ∧ p.V0 ≠ 1 := by
  refine ⟨_, _, rfl, rfl, ?_⟩
  exact zero_ne_one

/-! ## C52 -/

theorem R_pos : 0 < R := by unfold R; norm_num

theorem ln10_pos : 0 < ln10 := Real.log_pos (by norm_num)

/-- **C52 (constant lg K).** -/
theorem C52_const_lgk (lgKr : Nat) (Pr : ℝ) (s : Store) (P dV0 : ℝ) :
    GibbsHelmholtz (fun T => (call (constLgK lgKr Pr) s T P dV0).dG0) (fun T => (call (constLgK lgKr Pr) s T P dV0).dH0) := by
  intro T hT
  have h := ((hasDerivAt_inv hT.ne').const_mul (dV0 * (P - Pr))).const_add (-R * (s lgKr * ln10))
  refine (h.congr_of_eventuallyEq ?_).congr_deriv ?_
  · filter_upwards [lt_mem_nhds hT] with t ht
    simp only [call, constLgK]
    field_simp
  · simp only [call, constLgK]
    field_simp

/-- **C52 (van 't Hoff).** -/
theorem C52_vant_hoff (lgKr dHr : Nat) (Tr Pr : ℝ) (hTr : Tr ≠ 0) (s : Store) (P dV0 : ℝ) :
    GibbsHelmholtz (fun T => (call (vantHoff lgKr dHr Tr Pr) s T P dV0).dG0) (fun T => (call (vantHoff lgKr dHr Tr Pr) s T P dV0).dH0) := by
  intro T hT
  have hR := R_pos.ne'
  have h := ((hasDerivAt_inv hT.ne').const_mul (s dHr + dV0 * (P - Pr))).const_add (-R * (s lgKr * ln10) - s dHr / Tr)
  refine (h.congr_of_eventuallyEq ?_).congr_deriv ?_
  · filter_upwards [lt_mem_nhds hT] with t ht
    simp only [call, vantHoff]
    field_simp
    ring
  · simp only [call, vantHoff]
    field_simp

/-- **C52 (GEMS).** -/
theorem C52_gems (A0 A1 A2 A3 A4 A5 A6 : Nat) (Pr : ℝ) (s : Store) (P dV0 : ℝ) :
    GibbsHelmholtz (fun T => (call (gemsLgK A0 A1 A2 A3 A4 A5 A6 Pr) s T P dV0).dG0)
      (fun T => (call (gemsLgK A0 A1 A2 A3 A4 A5 A6 Pr) s T P dV0).dH0) := by
  intro T hT
  have hs : √T ≠ 0 := (Real.sqrt_pos.2 hT).ne'
  have hsq : √T * √T = T := Real.mul_self_sqrt hT.le
  have hi := hasDerivAt_inv hT.ne'
  have hid := hasDerivAt_id T
  have hlog := Real.hasDerivAt_log hT.ne'
  have hi2 := hi.mul hi
  have hid2 := hid.mul hid
  have hsr := (Real.hasDerivAt_sqrt hT.ne').inv hs
  have h := (((((((hid.const_mul (s A1)).const_add (s A0)).add (hi.const_mul (s A2))).add (hlog.const_mul (s A3))).add
    (hi2.const_mul (s A4))).add (hid2.const_mul (s A5))).add (hsr.const_mul (s A6))).const_mul (-R * ln10)
  have h := h.add (hi.const_mul (dV0 * (P - Pr)))
  refine (h.congr_of_eventuallyEq ?_).congr_deriv ?_
  · filter_upwards [lt_mem_nhds hT] with t ht
    have hst : √t ≠ 0 := (Real.sqrt_pos.2 ht).ne'
    simp only [call, gemsLgK, Pi.add_apply, Pi.mul_apply, Pi.inv_apply, id]
    field_simp
  · simp only [call, gemsLgK, id]
    have h3 : √T ^ 2 = T := by rw [sq]; exact hsq
    have h4 : (2 * √T)⁻¹ = √T / (2 * T) := by
      rw [← hsq]
      rw [show √(√T * √T) = √T from by rw [hsq]]
      field_simp
    simp only [one_div]
    rw [h4, h3]
    field_simp
    norm_num
    ring

/-- **C52 (PHREEQC).** -/
theorem C52_phreeqc (A1 A2 A3 A4 A5 A6 : Nat) (Pr : ℝ) (s : Store) (P dV0 : ℝ) :
    GibbsHelmholtz (fun T => (call (phreeqcLgK A1 A2 A3 A4 A5 A6 Pr) s T P dV0).dG0)
      (fun T => (call (phreeqcLgK A1 A2 A3 A4 A5 A6 Pr) s T P dV0).dH0) := by
  intro T hT
  have hl := ln10_pos.ne'
  have hi := hasDerivAt_inv hT.ne'
  have hid := hasDerivAt_id T
  have hlog := (Real.hasDerivAt_log hT.ne').div_const (Real.log 10)
  have hi2 := hi.mul hi
  have hid2 := hid.mul hid
  have h := ((((((hid.const_mul (s A2)).const_add (s A1)).add (hi.const_mul (s A3))).add (hlog.const_mul (s A4))).add
    (hi2.const_mul (s A5))).add (hid2.const_mul (s A6))).const_mul (-R * ln10)
  have h := h.add (hi.const_mul (dV0 * (P - Pr)))
  refine (h.congr_of_eventuallyEq ?_).congr_deriv ?_
  · filter_upwards [lt_mem_nhds hT] with t ht
    simp only [call, phreeqcLgK, Pi.add_apply, Pi.mul_apply, id, Real.logb]
    field_simp
  · simp only [call, phreeqcLgK, id]
    rw [show Real.log 10 = ln10 from rfl]
    field_simp
    ring

/-- **C52 (pressure corrections).** Any number of pressure corrections may be chained to a model that satisfies Gibbs-Helmholtz. -/
theorem C52_pressure_corrections (m : RxnModel) (s : Store) (P dV0 : ℝ)
    (h : GibbsHelmholtz (fun T => (call m s T P dV0).dG0) (fun T => (call m s T P dV0).dH0)) (Prs : List Nat) :
    GibbsHelmholtz (fun T => (call (chain (m :: Prs.map pressureCorrection)) s T P dV0).dG0)
      (fun T => (call (chain (m :: Prs.map pressureCorrection)) s T P dV0).dH0) := by
  have key : ∀ (Prs : List Nat) T (q : RxnProps), ((Prs.map pressureCorrection).foldl (fun props m => m s props T P dV0) q) =
      ⟨q.dG0 + (Prs.map fun p => (P - s p) * dV0).sum, q.dH0 + (Prs.map fun p => (P - s p) * dV0).sum⟩ := by
    intro Prs
    induction Prs with
    | nil => intro T q; simp
    | cons a l ih =>
      intro T q
      rw [List.map_cons, List.foldl_cons, ih]
      simp only [pressureCorrection, List.map_cons, List.sum_cons]
      congr 1 <;> ring
  have key := key Prs
  generalize (Prs.map fun p => (P - s p) * dV0).sum = c at key
  intro T hT
  have h1 := (h T hT).add ((hasDerivAt_inv hT.ne').const_mul c)
  refine (h1.congr_of_eventuallyEq ?_).congr_deriv ?_
  · filter_upwards [lt_mem_nhds hT] with t ht
    simp only [call, chain, List.foldl_cons, key, Pi.add_apply]
    field_simp
  · simp only [call, chain, List.foldl_cons, key]
    field_simp
    ring

/-- **C52 (equilibrium constants).** At the reference pressure `-ΔG/(R T ln 10)` is the `lg K` of the model. -/
theorem C52_lgk (s : Store) (T Pr dV0 : ℝ) (hT : 0 < T) :
    (∀ lgKr, -(call (constLgK lgKr Pr) s T Pr dV0).dG0 / (R * T * ln10) = s lgKr) ∧
    (∀ lgKr dHr Tr, Tr ≠ 0 → -(call (vantHoff lgKr dHr Tr Pr) s T Pr dV0).dG0 / (R * T * ln10) =
      s lgKr + s dHr / (R * ln10) * (1 / Tr - 1 / T)) ∧
    (∀ A0 A1 A2 A3 A4 A5 A6, -(call (gemsLgK A0 A1 A2 A3 A4 A5 A6 Pr) s T Pr dV0).dG0 / (R * T * ln10) =
      s A0 + s A1 * T + s A2 / T + s A3 * Real.log T + s A4 / T ^ 2 + s A5 * T ^ 2 + s A6 / √T) ∧
    (∀ A1 A2 A3 A4 A5 A6, -(call (phreeqcLgK A1 A2 A3 A4 A5 A6 Pr) s T Pr dV0).dG0 / (R * T * ln10) =
      s A1 + s A2 * T + s A3 / T + s A4 * Real.logb 10 T + s A5 / T ^ 2 + s A6 * T ^ 2) := by
  have hR := R_pos.ne'
  have hl := ln10_pos.ne'
  have hs : √T ≠ 0 := (Real.sqrt_pos.2 hT).ne'
  refine ⟨fun lgKr => ?_, fun lgKr dHr Tr hTr => ?_, fun A0 A1 A2 A3 A4 A5 A6 => ?_, fun A1 A2 A3 A4 A5 A6 => ?_⟩
  · simp only [call, constLgK]; field_simp; ring
  · simp only [call, vantHoff]; field_simp; ring
  · simp only [call, gemsLgK]; field_simp; ring
  · simp only [call, phreeqcLgK]; field_simp; ring

/-- **C52 (pressure).** The pressure derivative of the Gibbs energy of the reaction is the volume change of the reaction. -/
theorem C52_pressure_derivative (s : Store) (T P Pr dV0 : ℝ) :
    (∀ lgKr, HasDerivAt (fun p => (call (constLgK lgKr Pr) s T p dV0).dG0) dV0 P) ∧
    (∀ lgKr dHr Tr, HasDerivAt (fun p => (call (vantHoff lgKr dHr Tr Pr) s T p dV0).dG0) dV0 P) ∧
    (∀ A0 A1 A2 A3 A4 A5 A6, HasDerivAt (fun p => (call (gemsLgK A0 A1 A2 A3 A4 A5 A6 Pr) s T p dV0).dG0) dV0 P) ∧
    (∀ A1 A2 A3 A4 A5 A6, HasDerivAt (fun p => (call (phreeqcLgK A1 A2 A3 A4 A5 A6 Pr) s T p dV0).dG0) dV0 P) := by
  have h : ∀ c : ℝ, HasDerivAt (fun p => c + dV0 * (p - Pr)) dV0 P := by
    intro c
    have := (((hasDerivAt_id P).sub_const Pr).const_mul dV0).const_add c
    simpa using this
  exact ⟨fun _ => h _, fun _ _ _ => h _, fun _ _ _ _ _ _ _ => h _, fun _ _ _ _ _ _ => h _⟩

/-- **C52 (formation reactions).** If at a temperature the reactants satisfy Gibbs-Helmholtz, the reaction model does, and the volume change of
the reaction does not depend on temperature near it, then the product satisfies Gibbs-Helmholtz there. -/
theorem C52_product (reactants : List (ℝ × (ℝ → Std ℝ))) (rxn : ℝ → ℝ → RxnProps) (p : ℝ → Std ℝ) (dV T : ℝ)
    (hp : ∀ᶠ t in 𝓝 T, IsProduct (reactants.map fun r => (r.1, r.2 t)) (rxn t) (p t))
    (hdV : ∀ᶠ t in 𝓝 T, (p t).V0 - (reactants.map fun r => r.1 * (r.2 t).V0).sum = dV)
    (hrxn : GibbsHelmholtzAt (fun T => (rxn T dV).dG0) (fun T => (rxn T dV).dH0) T)
    (hr : ∀ r ∈ reactants, GibbsHelmholtzAt (fun T => (r.2 T).G0) (fun T => (r.2 T).H0) T) :
    GibbsHelmholtzAt (fun T => (p T).G0) (fun T => (p T).H0) T := by
  have key : ∀ l : List (ℝ × (ℝ → Std ℝ)), (∀ r ∈ l, GibbsHelmholtzAt (fun T => (r.2 T).G0) (fun T => (r.2 T).H0) T) →
      GibbsHelmholtzAt (fun T => (l.map fun r => r.1 * (r.2 T).G0).sum) (fun T => (l.map fun r => r.1 * (r.2 T).H0).sum) T := by
    intro l
    induction l with
    | nil => intro _; simpa [GibbsHelmholtzAt] using hasDerivAt_const T (0 : ℝ)
    | cons a l ih =>
      intro h
      have h1 := ih (fun r hr => h r (List.mem_cons_of_mem _ hr))
      have h2 := HasDerivAt.const_mul a.1 (h a List.mem_cons_self)
      refine ((h2.add h1).congr_of_eventuallyEq ?_).congr_deriv ?_
      · filter_upwards with t
        simp only [List.map_cons, List.sum_cons, Pi.add_apply]
        ring
      · simp only [List.map_cons, List.sum_cons]
        ring
  have e1 : ∀ᶠ t in 𝓝 T, (p t).G0 = (rxn t dV).dG0 + (reactants.map fun r => r.1 * (r.2 t).G0).sum := by
    filter_upwards [hp, hdV] with t h1 h2
    have := h1.gibbs
    simp only [List.map_map, Function.comp_def] at this
    rw [this, h2]
  have e2 : (p T).H0 = (rxn T dV).dH0 + (reactants.map fun r => r.1 * (r.2 T).H0).sum := by
    have := hp.self_of_nhds.enthalpy
    simp only [List.map_map, Function.comp_def] at this
    rw [this, hdV.self_of_nhds]
  refine ((HasDerivAt.add hrxn (key reactants hr)).congr_of_eventuallyEq ?_).congr_deriv ?_
  · filter_upwards [e1] with t h
    simp only [Pi.add_apply, h]
    ring
  · simp only [e2]
    ring

/-- A product of two units of a reactant with energies `5 - 3 T` and `5`, of a reaction with `7 - 2 T` and `7`. -/
example : GibbsHelmholtzAt (fun T => 17 - 8 * T) (fun _ => 17) 300 := by
  have gh : ∀ a b : ℝ, GibbsHelmholtzAt (fun T => a - b * T) (fun _ => a) 300 := by
    intro a b
    have h := ((hasDerivAt_inv (by norm_num : (300 : ℝ) ≠ 0)).const_mul a).sub_const b
    refine (h.congr_of_eventuallyEq ?_).congr_deriv (by norm_num; ring)
    filter_upwards [lt_mem_nhds (by norm_num : (0 : ℝ) < 300)] with t ht
    field_simp
  exact C52_product [(2, fun T => ⟨5 - 3 * T, 5, 0, 0, 0⟩)] (fun T _ => ⟨7 - 2 * T, 7⟩) (fun T => ⟨17 - 8 * T, 17, 1, 0, 0⟩) 1 300
    (Filter.Eventually.of_forall fun t => ⟨by simp; ring, by norm_num⟩) (Filter.Eventually.of_forall fun t => by simp) (gh 7 2)
    (by simpa using gh 5 3)

/-- **C52, counterexample.** If the volume change depends on temperature, Gibbs-Helmholtz fails away from the reference pressure:
with product volume `T`, constant `lg K = 0` and one reactant without volume and energies. -/
theorem C52_temperature_dependent_volume :
    ∃ (m : Store → ℝ → ℝ → Option (Std ℝ)) (p : ℝ → Std ℝ), (FormationReaction.run [.reactants [constantSpecies c!"A" ⟨0, 0, 0, 0, 0⟩ 1], .rxnModel (constLgK 0 0),
      .volumeModel fun _ T _ => T]).createStandardThermoModel = .ok m ∧ (∀ T, m (fun _ => 0) T 1 = some (p T)) ∧
      ¬ GibbsHelmholtz (fun T => (p T).G0) (fun T => (p T).H0) := by
  refine ⟨_, fun T => ⟨T, T, T, 0, 0⟩, rfl, ?_, ?_⟩
  · intro T
    simp [FormationReaction.run, FormationReaction.step, FormationReaction.withReactants, FormationReaction.withReactionThermoModel,
      FormationReaction.withProductStandardVolumeModel, FormationReaction.empty, productProps, allProps, constantSpecies, constLgK]
  · intro h
    have h1 := h 1 one_pos
    have h2 : HasDerivAt (fun t : ℝ => t / t) 0 1 := by
      refine (hasDerivAt_const (1 : ℝ) (1 : ℝ)).congr_of_eventuallyEq ?_
      filter_upwards [lt_mem_nhds (one_pos : (0 : ℝ) < 1)] with t ht
      rw [div_self ht.ne']
    have := h1.unique h2
    norm_num at this

end Verif.ReactionThermo
