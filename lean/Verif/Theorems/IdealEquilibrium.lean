import Verif.Lemmas.IdealEquilibrium
import Mathlib.Algebra.BigOperators.Fin
import Mathlib.Tactic.NormNum
import Mathlib.Tactic.IntervalCases
import Mathlib.Topology.Order.IntermediateValue
import Mathlib.Topology.Instances.Real.Lemmas
import Mathlib.Analysis.SpecialFunctions.Log.Basic
import Mathlib.Tactic.LinearCombination

/-!
# Theorems C105: equilibrium states at given temperature and pressure

The theorems named `_partial` are for phases that meet Gibbs' criterion (`Stable`): ideal solutions and gases and pure phases
(`C105_ideal_stable`). For the ideal model of aqueous solutions the claim is false, `C105_aqueous_wrong`.
-/

namespace Verif.IdealEquilibrium

open ChemicalProps Activity
open ArraySerialization (Props)

theorem u_length (pr : Problem) (hr : Proper pr) (n : List ℝ) (hn : n.length = count pr.phases) (props : Props ℝ) (h : Has pr n props) :
    props.u.length = n.length := by
  rw [hn]
  exact (props_shape pr hr n props h).perSpecies _ (by simp)

theorem objective_eq (pr : Problem) (n u : List ℝ) (hu : u.length = n.length) :
    pr.objective n u = dot n u / (pr.R * pr.T) - pr.eps * pr.factor * ∑ j ∈ Finset.range n.length, Real.log (n.getD j 0) := by
  unfold Problem.objective EquilibriumSetup.objective
  rw [Fin.sum_univ_eq_sum_range (fun j => n.getD j 0 * u.getD j 0) n.length,
    Fin.sum_univ_eq_sum_range (fun j => Real.log (n.getD j 0)) n.length, dot_range n u hu.symm]
  ring

theorem getD_pos (n : List ℝ) (h : ∀ y ∈ n, 0 < y) (j : Nat) (hj : j < n.length) : 0 < n.getD j 0 := by
  rw [List.getD_eq_getElem?_getD, List.getElem?_eq_getElem hj, Option.getD_some]
  exact h _ (List.getElem_mem hj)

/-- **C105 (least energy).** An equilibrium state has the least energy of all states with the same amounts of elements and within the same
bounds: the value of the objective of the optimiser, which without barrier and titrants is the Gibbs energy divided by `RT`. -/
theorem C105_minimum_partial (pr : Problem) (hr : Regular pr) (n q n' q' : List ℝ) (props props' : Props ℝ) (h : Equilibrium pr n q props)
    (hf' : Feasible pr n' q') (hh' : Has pr n' props') : energy pr n q props.u ≤ energy pr n' q' props'.u := by
  obtain ⟨hf, hh, -⟩ := id h
  have hp := positive_of_feasible pr hr n q hf
  have hp' := positive_of_feasible pr hr n' q' hf'
  have hu := u_length pr hr.toProper n hf.species props hh
  have hu' := u_length pr hr.toProper n' hf'.species props' hh'
  have hnn : n'.length = n.length := by rw [hf.species, hf'.species]
  have hv := variational pr hr n q n' q' props h hf'
  rw [gradient_sum pr n q n' q' props.u hu hnn hf.titrants (by rw [hf.titrants, hf'.titrants])] at hv
  have ht := (system_tangent pr hr n n' hf.species hf'.species hp hp' props props' hh hh').1
  unfold energy
  rw [objective_eq pr n _ hu, objective_eq pr n' _ hu', hnn]
  have hlog : ∑ j ∈ Finset.range n.length, (Real.log (n'.getD j 0) - Real.log (n.getD j 0)) ≤
      ∑ j ∈ Finset.range n.length, (n'.getD j 0 / n.getD j 0 - n.getD j 0 / n.getD j 0) := by
    apply Finset.sum_le_sum
    intro j hj
    rw [Finset.mem_range] at hj
    have h1 := getD_pos n hp j hj
    have h2 := getD_pos n' hp' j (by omega)
    rw [← Real.log_div h2.ne' h1.ne', div_self h1.ne']
    exact Real.log_le_sub_one_of_pos (by positivity)
  rw [Finset.sum_sub_distrib] at hlog
  have hlog' := mul_le_mul_of_nonneg_left hlog hr.barrier
  have hd : (dot n' props.u - dot n props.u) / (pr.R * pr.T) ≤ dot n' props'.u / (pr.R * pr.T) - dot n props.u / (pr.R * pr.T) := by
    rw [← sub_div]
    exact div_le_div_of_nonneg_right (by linarith) hr.gas.le
  have hq : (dot q' pr.uq - dot q pr.uq) / (pr.R * pr.T) = dot q' pr.uq / (pr.R * pr.T) - dot q pr.uq / (pr.R * pr.T) := sub_div _ _ _
  nlinarith

theorem two_sided (pr : Problem) (hr : Regular pr) (n q n' q' : List ℝ) (props props' : Props ℝ) (h : Equilibrium pr n q props)
    (h' : Equilibrium pr n' q' props') :
    dot n' props.u = dot n' props'.u ∧
    (0 < pr.eps * pr.factor → ∀ j < n.length, n.getD j 0 = n'.getD j 0) := by
  obtain ⟨hf, hh, -⟩ := id h
  obtain ⟨hf', hh', -⟩ := id h'
  have hp := positive_of_feasible pr hr n q hf
  have hp' := positive_of_feasible pr hr n' q' hf'
  have hu := u_length pr hr.toProper n hf.species props hh
  have hu' := u_length pr hr.toProper n' hf'.species props' hh'
  have hnn : n'.length = n.length := by rw [hf.species, hf'.species]
  have hqq : q'.length = q.length := by rw [hf.titrants, hf'.titrants]
  have v1 := variational pr hr n q n' q' props h hf'
  have v2 := variational pr hr n' q' n q props' h' hf
  rw [gradient_sum pr n q n' q' props.u hu hnn hf.titrants hqq] at v1
  rw [gradient_sum pr n' q' n q props'.u hu' hnn.symm hf'.titrants hqq.symm, hnn] at v2
  have t1 := (system_tangent pr hr n n' hf.species hf'.species hp hp' props props' hh hh').1
  have t2 := (system_tangent pr hr n' n hf'.species hf.species hp' hp props' props hh' hh).1
  have hterm : ∀ j ∈ Finset.range n.length, 0 ≤ (n'.getD j 0 / n.getD j 0 - n.getD j 0 / n.getD j 0) +
      (n.getD j 0 / n'.getD j 0 - n'.getD j 0 / n'.getD j 0) := by
    intro j hj
    rw [Finset.mem_range] at hj
    have h1 := getD_pos n hp j hj
    have h2 := getD_pos n' hp' j (by omega)
    have : (n'.getD j 0 / n.getD j 0 - n.getD j 0 / n.getD j 0) + (n.getD j 0 / n'.getD j 0 - n'.getD j 0 / n'.getD j 0) =
        (n'.getD j 0 - n.getD j 0) ^ 2 / (n.getD j 0 * n'.getD j 0) := by
      field_simp
      ring
    rw [this]
    positivity
  have hsum := Finset.sum_nonneg hterm
  rw [Finset.sum_add_distrib] at hsum
  have hs' := mul_nonneg hr.barrier hsum
  have hd : 0 ≤ ((dot n' props.u - dot n' props'.u) + (dot n props'.u - dot n props.u)) / (pr.R * pr.T) -
      pr.eps * pr.factor * (∑ j ∈ Finset.range n.length, (n'.getD j 0 / n.getD j 0 - n.getD j 0 / n.getD j 0) +
        ∑ j ∈ Finset.range n.length, (n.getD j 0 / n'.getD j 0 - n'.getD j 0 / n'.getD j 0)) := by
    have e := add_nonneg v1 v2
    have e2 : ∀ a b s t x y r τ : ℝ, a / r - τ * s + x / r + (b / r - τ * t + y / r) = (a + b + (x + y)) / r - τ * (s + t) := by
      intros; ring
    rw [e2] at e
    rw [show (dot n' props.u - dot n' props'.u) + (dot n props'.u - dot n props.u) = dot n' props.u - dot n props.u +
      (dot n props'.u - dot n' props'.u) + (dot q' pr.uq - dot q pr.uq + (dot q pr.uq - dot q' pr.uq)) by ring]
    exact e
  have hle : ((dot n' props.u - dot n' props'.u) + (dot n props'.u - dot n props.u)) / (pr.R * pr.T) ≤ 0 :=
    div_nonpos_of_nonpos_of_nonneg (by linarith) hr.gas.le
  have hz : ((dot n' props.u - dot n' props'.u) + (dot n props'.u - dot n props.u)) / (pr.R * pr.T) = 0 := le_antisymm hle (by linarith)
  have hz' : (dot n' props.u - dot n' props'.u) + (dot n props'.u - dot n props.u) = 0 :=
    (div_eq_zero_iff.1 hz).resolve_right hr.gas.ne'
  refine ⟨by linarith, fun hτ => ?_⟩
  have hs0 : ∑ j ∈ Finset.range n.length, (n'.getD j 0 / n.getD j 0 - n.getD j 0 / n.getD j 0) +
        ∑ j ∈ Finset.range n.length, (n.getD j 0 / n'.getD j 0 - n'.getD j 0 / n'.getD j 0) = 0 := by
    rw [hz] at hd
    nlinarith
  rw [← Finset.sum_add_distrib] at hs0
  intro j hj
  have h0 := (Finset.sum_eq_zero_iff_of_nonneg hterm).1 hs0 j (Finset.mem_range.2 hj)
  have h1 := getD_pos n hp j hj
  have h2 := getD_pos n' hp' j (by omega)
  have : (n'.getD j 0 / n.getD j 0 - n.getD j 0 / n.getD j 0) + (n.getD j 0 / n'.getD j 0 - n'.getD j 0 / n'.getD j 0) =
      (n'.getD j 0 - n.getD j 0) ^ 2 / (n.getD j 0 * n'.getD j 0) := by
    field_simp
    ring
  rw [this] at h0
  have := (div_eq_zero_iff.1 h0).resolve_right (by positivity)
  have := pow_eq_zero_iff (two_ne_zero) |>.1 this
  linarith

theorem fractions_of_equilibrium (pr : Problem) (hr : Regular pr) (n q n' q' : List ℝ) (props props' : Props ℝ)
    (h : Equilibrium pr n q props) (h' : Equilibrium pr n' q' props') :
    ∀ i < pr.phases.length, fractions (block pr n i) = fractions (block pr n' i) :=
  (system_tangent pr hr n n' h.1.species h'.1.species (positive_of_feasible pr hr n q h.1) (positive_of_feasible pr hr n' q' h'.1) props props'
    h.2.1 h'.2.1).2 (two_sided pr hr n q n' q' props props' h h').1

/-- **C105 (unique properties).** Two equilibrium states of the same problem have the same mole fractions, activities and chemical
potentials of all species, from whatever states the calculations started. -/
theorem C105_unique_properties_partial (pr : Problem) (hr : Regular pr) (n q n' q' : List ℝ) (props props' : Props ℝ)
    (h : Equilibrium pr n q props) (h' : Equilibrium pr n' q' props') :
    props.x = props'.x ∧ props.ln_a = props'.ln_a ∧ props.u = props'.u :=
  same_fractions pr hr n n' h.1.species h'.1.species (positive_of_feasible pr hr n q h.1) (positive_of_feasible pr hr n' q' h'.1) props props'
    h.2.1 h'.2.1 (fractions_of_equilibrium pr hr n q n' q' props props' h h')

/-- **C105 (unique amounts).** With the logarithmic barrier (it is on unless `logarithm_barrier_factor` is set to zero) they also have
the same amounts of all species. -/
theorem C105_unique_amounts_partial (pr : Problem) (hr : Regular pr) (hb : 0 < pr.eps * pr.factor) (n q n' q' : List ℝ) (props props' : Props ℝ)
    (h : Equilibrium pr n q props) (h' : Equilibrium pr n' q' props') : n = n' := by
  have hl : n.length = n'.length := by rw [h.1.species, h'.1.species]
  apply List.ext_getElem hl
  intro j hj hj'
  have := (two_sided pr hr n q n' q' props props' h h').2 hb j hj
  rwa [List.getD_eq_getElem?_getD, List.getElem?_eq_getElem hj, List.getD_eq_getElem?_getD, List.getElem?_eq_getElem hj'] at this

/-! ### The amounts of the phases -/

theorem block_eq (pr : Problem) (hr : Proper pr) (n : List ℝ) (hn : n.length = count pr.phases) (hpos : ∀ y ∈ n, 0 < y) (i : Nat)
    (hi : i < pr.phases.length) : block pr n i = (fractions (block pr n i)).map (fun x => (block pr n i).sum * x) := by
  have hlen := block_length pr n hn i hi
  have hne : block pr n i ≠ [] := by
    intro h0
    rw [h0, List.length_nil, sizeAt_of_lt pr.phases i hi] at hlen
    exact hr.nonempty _ (List.getElem_mem hi) hlen.symm
  have hsum := (sum_pos' _ hne (fun y hy => hpos y (block_mem pr n i y hy))).ne'
  unfold fractions
  rw [List.map_map]
  conv_lhs => rw [← List.map_id (block pr n i)]
  apply List.map_congr_left
  intro y _
  simp only [id, Function.comp_apply]
  field_simp

/-- **C105 (phase rule).** Without barrier the amounts of the species are the same too, if no exchange of matter between the phases, at the
compositions they have in equilibrium, and the titrants is possible. -/
theorem C105_phase_rule (pr : Problem) (hr : Regular pr) (n q n' q' : List ℝ) (props props' : Props ℝ)
    (h : Equilibrium pr n q props) (h' : Equilibrium pr n' q' props')
    (hind : ∀ (t : Nat → ℝ) (κ : List ℝ), κ.length = q.length →
      (∀ i < pr.A.length, balance pr.A ((List.range pr.phases.length).flatMap (fun α => (fractions (block pr n α)).map (t α * ·)) ++ κ) i = 0) →
      ∀ α < pr.phases.length, t α = 0) : n = n' := by
  have hf := h.1
  have hf' := h'.1
  have hp := positive_of_feasible pr hr n q hf
  have hp' := positive_of_feasible pr hr n' q' hf'
  have hfr := fractions_of_equilibrium pr hr n q n' q' props props' h h'
  have hnn : n'.length = n.length := by rw [hf.species, hf'.species]
  have hqq : q'.length = q.length := by rw [hf.titrants, hf'.titrants]
  have flat : ∀ m : List ℝ, m.length = count pr.phases → (∀ y ∈ m, 0 < y) →
      (∀ i < pr.phases.length, fractions (block pr m i) = fractions (block pr n i)) →
      m = (List.range pr.phases.length).flatMap (fun α => (fractions (block pr n α)).map ((block pr m α).sum * ·)) := by
    intro m hm hmp hx
    conv_lhs => rw [← blocks_cover pr.phases m hm]
    apply List.flatMap_congr
    intro i hi
    rw [List.mem_range] at hi
    have := block_eq pr hr.toProper m hm hmp i hi
    rw [hx i hi] at this
    exact this
  have e1 := flat n hf.species hp (fun _ _ => rfl)
  have e2 := flat n' hf'.species hp' (fun i hi => (hfr i hi).symm)
  have sub : ∀ (l : List Nat), List.zipWith (· - ·) (l.flatMap (fun α => (fractions (block pr n α)).map ((block pr n α).sum * ·)))
      (l.flatMap (fun α => (fractions (block pr n α)).map ((block pr n' α).sum * ·))) =
      l.flatMap (fun α => (fractions (block pr n α)).map (((block pr n α).sum - (block pr n' α).sum) * ·)) := by
    intro l
    induction l with
    | nil => rfl
    | cons a l ih =>
      simp only [List.flatMap_cons]
      rw [List.zipWith_append (by simp), ih]
      congr 1
      simp only [List.zipWith_map, List.zipWith_self]
      apply List.map_congr_left
      intro x _
      ring
  have hd := hind (fun α => (block pr n α).sum - (block pr n' α).sum) (List.zipWith (· - ·) q q') (by simp [hqq]) (by
    intro i hi
    rw [← sub, ← e1, ← e2]
    have b1 := hf.balances i hi
    have b2 := hf'.balances i hi
    unfold balance at b1 b2 ⊢
    rw [← List.zipWith_append (by omega)]
    have hl : (List.zipWith (· - ·) (n ++ q) (n' ++ q')).length = (n ++ q).length := by simp [hnn, hqq]
    have hl' : (n' ++ q').length = (n ++ q).length := by simp [hnn, hqq]
    rw [hl]
    rw [hl'] at b2
    have : ∀ j ∈ Finset.range (n ++ q).length, (((pr.A.getD i []).getD j 0 : Rat) : ℝ) * (List.zipWith (· - ·) (n ++ q) (n' ++ q')).getD j 0 =
        (((pr.A.getD i []).getD j 0 : Rat) : ℝ) * (n ++ q).getD j 0 - (((pr.A.getD i []).getD j 0 : Rat) : ℝ) * (n' ++ q').getD j 0 := by
      intro j hj
      rw [Finset.mem_range] at hj
      have hj' : j < (n' ++ q').length := by omega
      have : (List.zipWith (· - ·) (n ++ q) (n' ++ q')).getD j 0 = (n ++ q).getD j 0 - (n' ++ q').getD j 0 := by
        simp only [List.getD_eq_getElem?_getD, List.getElem?_zipWith]
        rw [List.getElem?_eq_getElem hj, List.getElem?_eq_getElem hj']
        rfl
      rw [this]; ring
    rw [Finset.sum_congr rfl this, Finset.sum_sub_distrib, b1, b2, sub_self])
  rw [e1, e2]
  apply List.flatMap_congr
  intro α hα
  rw [List.mem_range] at hα
  have := hd α hα
  rw [sub_eq_zero.1 this]

/-! ### Ideal phases -/

/-- The constant added to the logarithms of the mole fractions. -/
noncomputable def shift (gas : Bool) (P : ℝ) : ℝ := if gas then Real.log (P * (1 / 100000)) else 0

theorem activityFn_ideal (model : Model) (hm : Ideal model) (species : List (Aqueous.Species ℝ)) :
    (∃ gas, ∀ T P x old a, activityFn model species T P x old = (a, true) → a.ln_a = x.map (fun y => Real.log y + shift gas P)) ∧
    KeepsSize (activityFn model species) ∧
    ∀ T P x a, x.length = species.length → a.ln_g.length = species.length → a.ln_a.length = species.length →
      (activityFn model species T P x a).2 = true := by
  rcases hm with rfl | rfl
  · refine ⟨⟨false, ?_⟩, ?_, ?_⟩
    · intro T P x old a h
      unfold activityFn at h
      simp only [Activity.idealSolution, Res.bind_ok'] at h
      split_ifs at h
      · simp at h
      · simp only [Prod.mk.injEq, and_true] at h
        rw [← h]
        simp [shift]
    · intro T P x a
      unfold activityFn
      by_cases h : (a.ln_g.length = species.length ∧ a.ln_a.length = species.length) ∧ x.length = species.length
      · obtain ⟨⟨h1, h2⟩, h3⟩ := h
        simp [Activity.idealSolution, Mem.fits, AProps.zero, h1, h2, h3]
      · rw [not_and_or, not_and_or] at h
        simp [Activity.idealSolution, Mem.fits, h]
    · intro T P x a h1 h2 h3
      unfold activityFn
      simp [Activity.idealSolution, Res.bind_ok', Mem.fits, h1, h2, h3]
  · refine ⟨⟨true, ?_⟩, ?_, ?_⟩
    · intro T P x old a h
      unfold activityFn at h
      simp only [Activity.idealGas, Res.bind_ok'] at h
      split_ifs at h
      · simp at h
      · simp only [Prod.mk.injEq, and_true] at h
        rw [← h]
        simp [shift]
    · intro T P x a
      unfold activityFn
      by_cases h : (a.ln_g.length = species.length ∧ a.ln_a.length = species.length) ∧ x.length = species.length
      · obtain ⟨⟨h1, h2⟩, h3⟩ := h
        simp [Activity.idealGas, Mem.fits, AProps.zero, h1, h2, h3]
      · rw [not_and_or, not_and_or] at h
        simp [Activity.idealGas, Mem.fits, h]
    · intro T P x a h1 h2 h3
      unfold activityFn
      simp [Activity.idealGas, Res.bind_ok', Mem.fits, h1, h2, h3]

/-- **C105 (ideal phases).** Phases with the models of ideal solutions and ideal gases, in particular pure phases, meet Gibbs'
criterion at all temperatures and pressures. -/
theorem C105_ideal_stable (standard : List (ℝ → ℝ → Option (Std ℝ))) (species : List (Aqueous.Species ℝ)) (model ideal : Model)
    (hm : Ideal model) (T P : ℝ) : Stable (phase standard species model ideal) T P := by
  obtain ⟨⟨gas, h⟩, -, -⟩ := activityFn_ideal model hm species
  constructor
  · intro x old old' a a' h1 h2
    rw [h T P x old a h1, h T P x old' a' h2]
  · intro n n' hn hn' hp hp' old old' a a' h1 h2
    rw [h T P _ old a h1, h T P _ old' a' h2]
    by_cases hnil : n = []
    · subst hnil
      have : n' = [] := List.length_eq_zero_iff.1 (by rw [hn', ← hn]; rfl)
      subst this
      exact ⟨le_refl _, fun _ => rfl⟩
    · exact gibbs_inequality (shift gas P) n n' (by rw [hn, hn']) hnil hp hp'

/-! ### The initial state -/

theorem writeAll_length {α : Type} (l : List (Nat × α)) : ∀ v v' : List α, Restrictions.writeAll v l = .ok v' → v'.length = v.length := by
  induction l with
  | nil => intro v v' h; simp only [Restrictions.writeAll, Res.ok.injEq] at h; rw [h]
  | cons p l ih =>
    intro v v' h
    simp only [Restrictions.writeAll] at h
    split_ifs at h
    rw [ih _ _ h, List.length_set]

/-- The bounds that the solver makes are positive for all species, `EquilibriumSetup.cpp:188-200`. -/
theorem C105_positive (below : List (Nat × Rat)) (fixed : List Nat) (n0 : List Rat) (nn nq : Nat) (eps : Rat) (heps : 0 < eps)
    (lower : List (Option Rat)) (h : Restrictions.lowerBounds below fixed n0 nn nq eps = .ok lower) :
    ∀ j < nn, ∃ v : Rat, lower[j]? = some (some v) ∧ 0 < v := by
  unfold Restrictions.lowerBounds at h
  cases h1 : Restrictions.writeAll (List.replicate nn none) (below.map fun p => (p.1, some p.2)) with
  | ok v1 =>
    rw [h1, Res.bind_ok'] at h
    cases h2 : Restrictions.amountsAt n0 fixed with
    | ok l =>
      rw [h2, Res.bind_ok'] at h
      cases h3 : Restrictions.writeAll v1 (l.map fun p => (p.1, some p.2)) with
      | ok v2 =>
        rw [h3, Res.bind_ok', Res.ok.injEq] at h
        intro j hj
        have l2 : v2.length = nn := by rw [writeAll_length _ _ _ h3, writeAll_length _ _ _ h1, List.length_replicate]
        rw [← h, List.getElem?_append_left (by simp [l2, hj]), List.getElem?_map, List.getElem?_eq_getElem (by omega), Option.map_some]
        cases v2[j] with
        | none => exact ⟨eps, rfl, heps⟩
        | some w =>
          refine ⟨if w < eps then eps else w, rfl, ?_⟩
          split_ifs with hw
          · exact heps
          · linarith
      | throw => rw [h3] at h; simp at h
      | ub => rw [h3] at h; simp at h
    | throw => rw [h2] at h; simp at h
    | ub => rw [h2] at h; simp at h
  | throw => rw [h1] at h; simp at h
  | ub => rw [h1] at h; simp at h

/-- **C105 (initial state).** Two calculations with the same conditions and amounts of elements, and with restrictions that are given
bounds only, have the same amounts of species in equilibrium, whatever the amounts `n0`, `n0'` of the species at the beginning. -/
theorem C105_start_partial (pr pr' : Problem) (hr : Regular pr) (hb : 0 < pr.eps * pr.factor) (below above : List (Nat × Rat)) (n0 n0' : List Rat)
    (eps : Rat) (hsame : pr' = { pr with lower := pr'.lower, upper := pr'.upper })
    (hl : Restrictions.lowerBounds below [] n0 (count pr.phases) pr.uq.length eps = .ok pr.lower)
    (hu : Restrictions.upperBounds above [] n0 (count pr.phases) pr.uq.length eps = .ok pr.upper)
    (hl' : Restrictions.lowerBounds below [] n0' (count pr.phases) pr.uq.length eps = .ok pr'.lower)
    (hu' : Restrictions.upperBounds above [] n0' (count pr.phases) pr.uq.length eps = .ok pr'.upper)
    (n q n' q' : List ℝ) (props props' : Props ℝ) (h : Equilibrium pr n q props) (h' : Equilibrium pr' n' q' props') :
    n = n' ∧ props.u = props'.u ∧ props.ln_a = props'.ln_a := by
  have e1 : pr.lower = pr'.lower := by
    have := hl.symm.trans hl'
    injection this
  have e2 : pr.upper = pr'.upper := by
    have := hu.symm.trans hu'
    injection this
  rw [← e1, ← e2] at hsame
  subst hsame
  have hx := fractions_of_equilibrium pr hr n q n' q' props props' h h'
  have := same_fractions pr hr n n' h.1.species h'.1.species (positive_of_feasible pr hr n q h.1) (positive_of_feasible pr hr n' q' h'.1)
    props props' h.2.1 h'.2.1 hx
  exact ⟨C105_unique_amounts_partial pr hr hb n q n' q' props props' h h', this.2.2, this.2.1⟩

/-! ### Cases -/

/-- A species whose standard properties do not depend on temperature and pressure. -/
def constant (g : ℝ) : ℝ → ℝ → Option (Std ℝ) := fun _ _ => some ⟨g, 0, 0, 0, 0⟩

def solute (name : List Char) : Aqueous.Species ℝ := ⟨name, ⟨name, [(name, 1)], 0⟩, 0⟩

/-- A solution of two isomers with the same Gibbs energies, and the default options. -/
noncomputable def isomers : Problem where
  phases := [phase [constant 0, constant 0] [solute c!"X", solute c!"Y"] Activity.idealSolution Activity.idealSolution]
  R := gasConstant
  T := 300
  P := 100000
  eps := 1 / 10 ^ 16
  factor := 1
  A := [[1, 1]]
  b := [2]
  lower := [some (1 / 10 ^ 16), some (1 / 10 ^ 16)]
  upper := [none, none]
  uq := []

theorem isomers_regular : Regular isomers := by
  refine { sizes := ?_, nonempty := ?_, gas := ?_, barrier := ?_, stable := ?_, positive := ?_ }
  · intro ph h
    simp only [isomers, List.mem_singleton] at h
    subst h
    exact ⟨(activityFn_ideal _ (Or.inl rfl) _).2.1, (activityFn_ideal _ (Or.inl rfl) _).2.1⟩
  · intro ph h
    simp only [isomers, List.mem_singleton] at h
    subst h
    simp [phase, PhaseModel.size]
  · simp only [isomers, gasConstant]; norm_num
  · simp only [isomers]; norm_num
  · intro ph h
    simp only [isomers, List.mem_singleton] at h
    subst h
    exact C105_ideal_stable _ _ _ _ (Or.inl rfl) _ _
  · intro j hj
    have hj : j < 2 := hj
    refine ⟨1 / 10 ^ 16, ?_, by norm_num⟩
    interval_cases j <;> rfl

/-- The hypotheses of the theorems are met: one mole of each isomer is an equilibrium. -/
theorem isomers_equilibrium : ∃ props, Equilibrium isomers [1, 1] [] props := by
  have hpos : ∀ y ∈ ([1, 1] : List ℝ), 0 < y := by simp
  obtain ⟨props, h⟩ := has_exists isomers isomers_regular.toProper [1, 1] rfl hpos
    (by intro ph h f hf; simp only [isomers, List.mem_singleton] at h; subst h; simp [phase] at hf; subst hf; rfl)
    (by intro ph h; simp only [isomers, List.mem_singleton] at h; subst h
        intro x a h1 h2 h3
        exact (activityFn_ideal _ (Or.inl rfl) _).2.2 _ _ x a h1 h2 h3)
  have hu := u_of_has isomers isomers_regular.toProper [1, 1] rfl hpos props h (fun _ => [0, 0]) (fun _ x => x.map Real.log)
    (by intro i hi; have hi : i < 1 := hi; interval_cases i; rfl)
    (by intro i hi x old a h; have hi : i < 1 := hi; interval_cases i
        simp only [isomers, phase, List.getElem_cons_zero] at h
        unfold activityFn at h
        simp only [Activity.idealSolution, Res.bind_ok'] at h
        split_ifs at h
        · simp at h
        · simp only [Prod.mk.injEq, and_true] at h
          rw [← h])
  refine ⟨props, ⟨rfl, rfl, ?_, ?_, ?_⟩, h, ?_⟩
  · intro i hi
    have hi : i < 1 := hi
    interval_cases i
    norm_num [balance, isomers, Finset.sum_range_succ]
  · intro j v hv
    rcases j with _ | _ | j <;> simp [isomers] at hv <;> subst hv <;> norm_num
  · intro j v hv
    rcases j with _ | _ | j <;> simp [isomers] at hv
  · have hu : props.u = [gasConstant * 300 * Real.log (1 / 2), gasConstant * 300 * Real.log (1 / 2)] := by
      rw [hu]
      have : fractions (block isomers [1, 1] 0) = [1 / 2, 1 / 2] := by
        simp [fractions, block, seg, isomers, before, sizeAt, phase, PhaseModel.size]
        norm_num
      simp only [isomers, List.length_singleton, List.range_one, List.flatMap_cons, List.flatMap_nil] at this ⊢
      rw [this]
      simp
    refine ⟨fun _ => Real.log (1 / 2) - 1 / 10 ^ 16, ?_⟩
    intro j hj
    have hg : gasConstant * 300 ≠ 0 := by norm_num [gasConstant]
    have hgr : isomers.gradient [1, 1] props.u = [Real.log (1 / 2) - 1 / 10 ^ 16, Real.log (1 / 2) - 1 / 10 ^ 16] := by
      rw [hu]
      have e : gasConstant * 300 * Real.log (1 / 2) / (gasConstant * 300) = Real.log (1 / 2) := mul_div_cancel_left₀ _ hg
      simp only [Problem.gradient, EquilibriumSetup.gradX, EquilibriumSetup.gradN, EquilibriumSetup.gradQ, isomers,
        List.zipWith_cons_cons, List.zipWith_nil_left, List.map_nil, List.append_nil, e]
      norm_num
    dsimp only
    rw [hgr]
    have hj : j < 2 := hj
    interval_cases j <;> simp [isomers]

example : (∃ props, Equilibrium isomers [1, 1] [] props) ∧ Regular isomers ∧
    ∀ n' props', Equilibrium isomers n' [] props' → [1, 1] = n' :=
  ⟨isomers_equilibrium, isomers_regular, fun n' props' h' => by
    obtain ⟨props, h⟩ := isomers_equilibrium
    exact C105_unique_amounts_partial isomers isomers_regular (by norm_num [isomers]) [1, 1] [] n' [] props props' h h'⟩

example : Restrictions.lowerBounds [] [] [2, 0] 2 0 (1 / 10 ^ 16) = .ok isomers.lower ∧
    Restrictions.lowerBounds [] [] [0, 2] 2 0 (1 / 10 ^ 16) = .ok isomers.lower ∧
    Restrictions.upperBounds [] [] [2, 0] 2 0 (1 / 10 ^ 16) = .ok isomers.upper ∧
    Restrictions.upperBounds [] [] [0, 2] 2 0 (1 / 10 ^ 16) = .ok isomers.upper := ⟨rfl, rfl, rfl, rfl⟩

/-- The hypothesis of `C105_phase_rule` is met. -/
example : ∀ (t : Nat → ℝ) (κ : List ℝ), κ.length = 0 →
    (∀ i < isomers.A.length, balance isomers.A
      ((List.range isomers.phases.length).flatMap (fun α => (fractions (block isomers [1, 1] α)).map (t α * ·)) ++ κ) i = 0) →
    ∀ α < isomers.phases.length, t α = 0 := by
  intro t κ hκ h α hα
  have hα : α < 1 := hα
  obtain rfl := List.length_eq_zero_iff.1 hκ
  have h := h 0 (by simp [isomers])
  have e : fractions (block isomers [1, 1] 0) = [1 / 2, 1 / 2] := by
    simp [fractions, block, seg, isomers, before, sizeAt, phase, PhaseModel.size]
    norm_num
  have er : List.range isomers.phases.length = [0] := rfl
  have eA : isomers.A = [[1, 1]] := rfl
  rw [er, eA] at h
  simp only [List.flatMap_cons, List.flatMap_nil, e] at h
  simp [balance, Finset.sum_range_succ] at h
  interval_cases α
  linarith

/-- Two minerals with the same composition and Gibbs energy, without barrier. -/
noncomputable def polymorphs : Problem where
  phases := [phase [constant 0] [solute c!"X"] Activity.idealSolution Activity.idealSolution,
    phase [constant 0] [solute c!"Y"] Activity.idealSolution Activity.idealSolution]
  R := gasConstant
  T := 300
  P := 100000
  eps := 1 / 10 ^ 16
  factor := 0
  A := [[1, 1]]
  b := [2]
  lower := [some (1 / 10 ^ 16), some (1 / 10 ^ 16)]
  upper := [none, none]
  uq := []

theorem polymorphs_regular : Regular polymorphs := by
  refine { sizes := ?_, nonempty := ?_, gas := ?_, barrier := ?_, stable := ?_, positive := ?_ }
  · intro ph h
    simp only [polymorphs, List.mem_cons, List.not_mem_nil, or_false] at h
    rcases h with rfl | rfl
    all_goals exact ⟨(activityFn_ideal _ (Or.inl rfl) _).2.1, (activityFn_ideal _ (Or.inl rfl) _).2.1⟩
  · intro ph h
    simp only [polymorphs, List.mem_cons, List.not_mem_nil, or_false] at h
    rcases h with rfl | rfl
    all_goals simp [phase, PhaseModel.size]
  · simp only [polymorphs, gasConstant]; norm_num
  · simp only [polymorphs]; norm_num
  · intro ph h
    simp only [polymorphs, List.mem_cons, List.not_mem_nil, or_false] at h
    rcases h with rfl | rfl
    all_goals exact C105_ideal_stable _ _ _ _ (Or.inl rfl) _ _
  · intro j hj
    have hj : j < 2 := hj
    refine ⟨1 / 10 ^ 16, ?_, by norm_num⟩
    interval_cases j <;> rfl

theorem polymorphs_equilibrium (t : ℝ) (h0 : 1 / 10 ^ 16 ≤ t) (h1 : t ≤ 1) : ∃ props, Equilibrium polymorphs [t, 2 - t] [] props := by
  have ht : 0 < t := lt_of_lt_of_le (by norm_num) h0
  have hpos : ∀ y ∈ ([t, 2 - t] : List ℝ), 0 < y := by
    intro y hy
    simp only [List.mem_cons, List.not_mem_nil, or_false] at hy
    rcases hy with rfl | rfl <;> linarith
  obtain ⟨props, h⟩ := has_exists polymorphs polymorphs_regular.toProper [t, 2 - t] rfl hpos
    (by intro ph h f hf; simp only [polymorphs, List.mem_cons, List.not_mem_nil, or_false] at h
        rcases h with rfl | rfl <;> (simp [phase] at hf; subst hf; rfl))
    (by intro ph h; simp only [polymorphs, List.mem_cons, List.not_mem_nil, or_false] at h
        rcases h with rfl | rfl <;>
        · intro x a h1 h2 h3
          exact (activityFn_ideal _ (Or.inl rfl) _).2.2 _ _ x a h1 h2 h3)
  have hu := u_of_has polymorphs polymorphs_regular.toProper [t, 2 - t] rfl hpos props h (fun _ => [0]) (fun _ x => x.map Real.log)
    (by intro i hi; have hi : i < 2 := hi; interval_cases i <;> rfl)
    (by intro i hi x old a h; have hi : i < 2 := hi
        interval_cases i
        all_goals
          simp only [polymorphs, phase, List.getElem_cons_zero, List.getElem_cons_succ] at h
          unfold activityFn at h
          simp only [Activity.idealSolution, Res.bind_ok'] at h
          split_ifs at h
          · simp at h
          · simp only [Prod.mk.injEq, and_true] at h
            rw [← h])
  refine ⟨props, ⟨rfl, rfl, ?_, ?_, ?_⟩, h, ?_⟩
  · intro i hi
    have hi : i < 1 := hi
    interval_cases i
    norm_num [balance, polymorphs, Finset.sum_range_succ]
  · intro j v hv
    rcases j with _ | _ | j <;> simp [polymorphs] at hv <;> subst hv <;> norm_num <;> linarith
  · intro j v hv
    rcases j with _ | _ | j <;> simp [polymorphs] at hv
  · have hu : props.u = [0, 0] := by
      rw [hu]
      have e1 : fractions (block polymorphs [t, 2 - t] 0) = [1] := by
        simp [fractions, block, seg, polymorphs, before, sizeAt, phase, PhaseModel.size, ht.ne']
      have e2 : fractions (block polymorphs [t, 2 - t] 1) = [1] := by
        have : (2 - t) ≠ 0 := by linarith
        simp [fractions, block, seg, polymorphs, before, sizeAt, phase, PhaseModel.size, this]
      have er : List.range polymorphs.phases.length = [0, 1] := rfl
      rw [er]
      simp only [List.flatMap_cons, List.flatMap_nil, e1, e2]
      simp
    refine ⟨fun _ => 0, ?_⟩
    intro j hj
    have hgr : polymorphs.gradient [t, 2 - t] props.u = [0, 0] := by
      rw [hu]
      simp [Problem.gradient, EquilibriumSetup.gradX, EquilibriumSetup.gradN, EquilibriumSetup.gradQ, polymorphs]
    dsimp only
    rw [hgr]
    have hj : j < 2 := hj
    interval_cases j <;> simp [polymorphs]

/-- **C105 (no barrier, fails).** Without barrier the amounts need not be unique, also with ideal phases only: of two minerals with the same
composition and Gibbs energy, any amounts with the given sum are an equilibrium. -/
theorem C105_amounts_wrong : ∃ pr n n' props props', Regular pr ∧ Equilibrium pr n [] props ∧ Equilibrium pr n' [] props' ∧ n ≠ n' := by
  obtain ⟨p1, h1⟩ := polymorphs_equilibrium 1 (by norm_num) (le_refl _)
  obtain ⟨p2, h2⟩ := polymorphs_equilibrium (1 / 2) (by norm_num) (by norm_num)
  exact ⟨polymorphs, _, _, p1, p2, polymorphs_regular, h1, h2, by norm_num⟩

/-! ### The ideal model of aqueous solutions -/

/-- Water and a solute. -/
def brine : List (Aqueous.Species ℝ) := [⟨c!"H2O(aq)", Aqueous.waterFormula, 0⟩, solute c!"X"]

theorem brine_activity (T P : ℝ) (x : List ℝ) (old : AProps ℝ) :
    activityFn Activity.idealAqueous brine T P x old =
      if (old.ln_g.length = 2 ∧ old.ln_a.length = 2) ∧ x.length = 2 then
        ({ old.zero with ln_a := (x.map fun xi => Real.log (xi / (Aqueous.waterMolarMass * x.getD 0 0))).set 0 (Real.log (x.getD 0 0)) }, true)
      else (old, false) := by
  have hi : Aqueous.indexWithFormula brine Aqueous.waterFormula = .ok 0 := by rfl
  have hl : brine.length = 2 := rfl
  unfold activityFn Activity.idealAqueous
  rw [hi, Res.bind_ok', Res.bind_ok', hl]
  by_cases h : (old.ln_g.length = 2 ∧ old.ln_a.length = 2) ∧ x.length = 2
  · rw [if_pos h]
    obtain ⟨⟨h1, h2⟩, h3⟩ := h
    simp [Mem.fits, h1, h2, h3]
  · rw [if_neg h]
    rw [not_and_or, not_and_or] at h
    simp [Mem.fits, h]

theorem brine_keeps : KeepsSize (activityFn Activity.idealAqueous brine) := by
  intro T P x a
  rw [brine_activity]
  split_ifs with h
  · simp [AProps.zero, h.1.1, h.1.2, h.2]
  · simp

/-- A solution of `X` in water, with the ideal model for aqueous solutions, and the hydrate `X·3H2O` with standard Gibbs energy `g·RT`. -/
noncomputable def hydrate (g : ℝ) : Problem where
  phases := [phase [constant 0, constant 0] brine Activity.idealAqueous Activity.idealAqueous,
    phase [constant (gasConstant * 300 * g)] [solute c!"X(H2O)3"] Activity.idealSolution Activity.idealSolution]
  R := gasConstant
  T := 300
  P := 100000
  eps := 1 / 10 ^ 16
  factor := 1
  A := [[2, 0, 6], [1, 0, 3], [0, 1, 1], [0, 0, 0]]
  b := [1176, 588, 209, 0]
  lower := [some (1 / 10 ^ 16), some (1 / 10 ^ 16), some (1 / 10 ^ 16)]
  upper := [none, none, none]
  uq := []

theorem hydrate_proper (g : ℝ) : Proper (hydrate g) := by
  refine { sizes := ?_, nonempty := ?_ }
  · intro ph h
    simp only [hydrate, List.mem_cons, List.not_mem_nil, or_false] at h
    rcases h with rfl | rfl
    · exact ⟨brine_keeps, brine_keeps⟩
    · exact ⟨(activityFn_ideal _ (Or.inl rfl) _).2.1, (activityFn_ideal _ (Or.inl rfl) _).2.1⟩
  · intro ph h
    simp only [hydrate, List.mem_cons, List.not_mem_nil, or_false] at h
    rcases h with rfl | rfl
    all_goals simp [phase, PhaseModel.size]

/-- The state with `t` moles of the hydrate. -/
noncomputable def amounts (t : ℝ) : List ℝ := [588 - 3 * t, 209 - t, t]

/-- The Gibbs energy of the hydrate, divided by `RT`, with which the state with `t` moles is an equilibrium. -/
noncomputable def level (t : ℝ) : ℝ :=
  Real.log ((209 - t) / (797 - 4 * t) / (Aqueous.waterMolarMass * ((588 - 3 * t) / (797 - 4 * t)))) + 3 * Real.log ((588 - 3 * t) / (797 - 4 * t)) -
    3 * (1 / 10 ^ 16 / (588 - 3 * t)) - 1 / 10 ^ 16 / (209 - t) + 1 / 10 ^ 16 / t

theorem hydrate_equilibrium (t : ℝ) (h0 : 1 ≤ t) (h1 : t ≤ 184) : ∃ props, Equilibrium (hydrate (level t)) (amounts t) [] props := by
  have hpos : ∀ y ∈ amounts t, 0 < y := by
    intro y hy
    simp only [amounts, List.mem_cons, List.not_mem_nil, or_false] at hy
    rcases hy with rfl | rfl | rfl <;> linarith
  have hp := hydrate_proper (level t)
  obtain ⟨props, h⟩ := has_exists (hydrate (level t)) hp (amounts t) rfl hpos
    (by intro ph h f hf; simp only [hydrate, List.mem_cons, List.not_mem_nil, or_false] at h
        rcases h with rfl | rfl <;> (simp [phase] at hf; subst hf; rfl))
    (by intro ph h; simp only [hydrate, List.mem_cons, List.not_mem_nil, or_false] at h
        rcases h with rfl | rfl
        · intro x a h1 h2 h3
          simp only [phase]
          rw [brine_activity, if_pos ⟨⟨h2, h3⟩, h1⟩]
        · intro x a h1 h2 h3
          exact (activityFn_ideal _ (Or.inl rfl) _).2.2 _ _ x a h1 h2 h3)
  have hu := u_of_has (hydrate (level t)) hp (amounts t) rfl hpos props h
    (fun i => if i = 0 then [0, 0] else [gasConstant * 300 * level t])
    (fun i x => if i = 0 then (x.map fun xi => Real.log (xi / (Aqueous.waterMolarMass * x.getD 0 0))).set 0 (Real.log (x.getD 0 0)) else x.map Real.log)
    (by intro i hi; have hi : i < 2 := hi; interval_cases i <;> rfl)
    (by intro i hi x old a h; have hi : i < 2 := hi
        interval_cases i
        · simp only [hydrate, phase, List.getElem_cons_zero] at h
          rw [brine_activity] at h
          split_ifs at h
          · simp only [Prod.mk.injEq, and_true] at h
            rw [← h]; rfl
          · simp at h
        · simp only [hydrate, phase, List.getElem_cons_zero, List.getElem_cons_succ] at h
          unfold activityFn at h
          simp only [Activity.idealSolution, Res.bind_ok'] at h
          split_ifs at h
          · simp at h
          · simp only [Prod.mk.injEq, and_true] at h
            rw [← h]; rfl)
  refine ⟨props, ⟨rfl, rfl, ?_, ?_, ?_⟩, h, ?_⟩
  · intro i hi
    have hi : i < 4 := hi
    interval_cases i <;> simp [balance, hydrate, amounts, Finset.sum_range_succ] <;> ring
  · intro j v hv
    rcases j with _ | _ | _ | j <;> simp [hydrate] at hv <;> subst hv <;> simp [amounts] <;> norm_num <;> linarith
  · intro j v hv
    rcases j with _ | _ | _ | j <;> simp [hydrate] at hv
  · have hs : 588 - 3 * t + (209 - t) = 797 - 4 * t := by ring
    have hu : props.u = [gasConstant * 300 * Real.log ((588 - 3 * t) / (797 - 4 * t)),
        gasConstant * 300 * Real.log ((209 - t) / (797 - 4 * t) / (Aqueous.waterMolarMass * ((588 - 3 * t) / (797 - 4 * t)))),
        gasConstant * 300 * level t] := by
      rw [hu]
      have e1 : fractions (block (hydrate (level t)) (amounts t) 0) = [(588 - 3 * t) / (797 - 4 * t), (209 - t) / (797 - 4 * t)] := by
        simp [fractions, block, seg, hydrate, amounts, before, sizeAt, phase, PhaseModel.size, hs]
      have e2 : fractions (block (hydrate (level t)) (amounts t) 1) = [1] := by
        have : t ≠ 0 := by linarith
        simp [fractions, block, seg, hydrate, amounts, before, sizeAt, phase, PhaseModel.size, this]
      have er : List.range (hydrate (level t)).phases.length = [0, 1] := rfl
      rw [er]
      simp only [List.flatMap_cons, List.flatMap_nil, e1, e2]
      simp [hydrate]
    refine ⟨fun i => if i = 1 then Real.log ((588 - 3 * t) / (797 - 4 * t)) - 1 / 10 ^ 16 / (588 - 3 * t) else
      if i = 2 then Real.log ((209 - t) / (797 - 4 * t) / (Aqueous.waterMolarMass * ((588 - 3 * t) / (797 - 4 * t)))) - 1 / 10 ^ 16 / (209 - t) else 0, ?_⟩
    intro j hj
    have hg : gasConstant * 300 ≠ 0 := by norm_num [gasConstant]
    have hgr : (hydrate (level t)).gradient (amounts t) props.u = [Real.log ((588 - 3 * t) / (797 - 4 * t)) - 1 / 10 ^ 16 / (588 - 3 * t),
        Real.log ((209 - t) / (797 - 4 * t) / (Aqueous.waterMolarMass * ((588 - 3 * t) / (797 - 4 * t)))) - 1 / 10 ^ 16 / (209 - t),
        level t - 1 / 10 ^ 16 / t] := by
      rw [hu]
      simp only [Problem.gradient, EquilibriumSetup.gradX, EquilibriumSetup.gradN, EquilibriumSetup.gradQ, hydrate, amounts,
        List.zipWith_cons_cons, List.zipWith_nil_left, List.map_nil, List.append_nil, mul_div_cancel_left₀ _ hg, mul_one]
    have hr : ∀ j < 3, ((hydrate (level t)).gradient (amounts t) props.u).getD j 0 -
        ∑ i ∈ Finset.range (hydrate (level t)).A.length, (if i = 1 then Real.log ((588 - 3 * t) / (797 - 4 * t)) - 1 / 10 ^ 16 / (588 - 3 * t) else
      if i = 2 then Real.log ((209 - t) / (797 - 4 * t) / (Aqueous.waterMolarMass * ((588 - 3 * t) / (797 - 4 * t)))) - 1 / 10 ^ 16 / (209 - t) else 0) *
          ((((hydrate (level t)).A.getD i []).getD j 0 : Rat) : ℝ) = 0 := by
      intro j hj
      rw [hgr]
      have : (hydrate (level t)).A = [[2, 0, 6], [1, 0, 3], [0, 1, 1], [0, 0, 0]] := rfl
      rw [this]
      interval_cases j
      · simp [Finset.sum_range_succ]
      · simp [Finset.sum_range_succ]
      · simp only [List.length_cons, List.length_nil, Finset.sum_range_succ, Finset.sum_range_zero]
        simp only [level]
        norm_num
        ring
    dsimp only
    rw [hr j hj]
    exact ⟨fun h => absurd h (lt_irrefl _), fun h => absurd h (lt_irrefl _)⟩

theorem level_continuous : ContinuousOn level (Set.Icc 1 184) := by
  unfold level
  have h1 : ∀ t ∈ Set.Icc (1 : ℝ) 184, 588 - 3 * t ≠ 0 := fun t h => by have := h.2; intro h; linarith
  have h2 : ∀ t ∈ Set.Icc (1 : ℝ) 184, 209 - t ≠ 0 := fun t h => by have := h.2; intro h; linarith
  have h3 : ∀ t ∈ Set.Icc (1 : ℝ) 184, 797 - 4 * t ≠ 0 := fun t h => by have := h.2; intro h; linarith
  have h4 : ∀ t ∈ Set.Icc (1 : ℝ) 184, t ≠ 0 := fun t h => by have := h.1; intro h; linarith
  have hw : (Aqueous.waterMolarMass : ℝ) ≠ 0 := by norm_num [Aqueous.waterMolarMass]
  have c1 : ContinuousOn (fun t : ℝ => (588 - 3 * t) / (797 - 4 * t)) (Set.Icc 1 184) :=
    ContinuousOn.div (by fun_prop) (by fun_prop) h3
  have c2 : ContinuousOn (fun t : ℝ => (209 - t) / (797 - 4 * t)) (Set.Icc 1 184) :=
    ContinuousOn.div (by fun_prop) (by fun_prop) h3
  have n1 : ∀ t ∈ Set.Icc (1 : ℝ) 184, (588 - 3 * t) / (797 - 4 * t) ≠ 0 := fun t h => div_ne_zero (h1 t h) (h3 t h)
  have n2 : ∀ t ∈ Set.Icc (1 : ℝ) 184, (209 - t) / (797 - 4 * t) / (Aqueous.waterMolarMass * ((588 - 3 * t) / (797 - 4 * t))) ≠ 0 :=
    fun t h => div_ne_zero (div_ne_zero (h2 t h) (h3 t h)) (mul_ne_zero hw (n1 t h))
  refine ContinuousOn.add (ContinuousOn.sub (ContinuousOn.sub (ContinuousOn.add (ContinuousOn.log ?_ n2)
    (continuousOn_const.mul (ContinuousOn.log c1 n1))) ?_) ?_) ?_
  · exact ContinuousOn.div c2 (continuousOn_const.mul c1) (fun t h => mul_ne_zero hw (n1 t h))
  · exact continuousOn_const.mul (ContinuousOn.div continuousOn_const (by fun_prop) h1)
  · exact ContinuousOn.div continuousOn_const (by fun_prop) h2
  · exact ContinuousOn.div continuousOn_const (by fun_prop) h4

theorem level_values : level 1 < level 170 - 1 / 100 ∧ level 184 < level 170 - 1 / 100 := by
  have hw : (0 : ℝ) < Aqueous.waterMolarMass := by norm_num [Aqueous.waterMolarMass]
  have split : ∀ a b : ℝ, 0 < a → 0 < b → Real.log (b / (Aqueous.waterMolarMass * a)) + 3 * Real.log a = Real.log (b * a ^ 2) - Real.log Aqueous.waterMolarMass := by
    intro a b ha hb
    rw [Real.log_div hb.ne' (by positivity), Real.log_mul hw.ne' ha.ne', Real.log_mul hb.ne' (by positivity), Real.log_pow]
    push_cast
    ring
  have key : Real.log ((16 / 61 : ℝ) * (45 / 61) ^ 2) ≤ Real.log ((1 / 3 : ℝ) * (2 / 3) ^ 2) - 3 / 100 := by
    have h := Real.log_le_sub_one_of_pos (x := ((16 / 61 : ℝ) * (45 / 61) ^ 2) / ((1 / 3 : ℝ) * (2 / 3) ^ 2)) (by norm_num)
    rw [Real.log_div (by norm_num) (by norm_num)] at h
    have : ((16 / 61 : ℝ) * (45 / 61) ^ 2) / ((1 / 3 : ℝ) * (2 / 3) ^ 2) - 1 ≤ - 3 / 100 := by norm_num
    linarith
  have key2 : ((25 / 61 : ℝ) * (36 / 61) ^ 2) = ((16 / 61 : ℝ) * (45 / 61) ^ 2) := by norm_num
  have v1 : level 1 = Real.log ((16 / 61 : ℝ) * (45 / 61) ^ 2) - Real.log Aqueous.waterMolarMass - 3 * (1 / 10 ^ 16 / 585) - 1 / 10 ^ 16 / 208 + 1 / 10 ^ 16 := by
    rw [← split _ _ (by norm_num) (by norm_num)]
    unfold level
    norm_num
  have v2 : level 184 = Real.log ((25 / 61 : ℝ) * (36 / 61) ^ 2) - Real.log Aqueous.waterMolarMass - 3 * (1 / 10 ^ 16 / 36) - 1 / 10 ^ 16 / 25 + 1 / 10 ^ 16 / 184 := by
    rw [← split _ _ (by norm_num) (by norm_num)]
    unfold level
    norm_num
  have v3 : level 170 = Real.log ((1 / 3 : ℝ) * (2 / 3) ^ 2) - Real.log Aqueous.waterMolarMass - 3 * (1 / 10 ^ 16 / 78) - 1 / 10 ^ 16 / 39 + 1 / 10 ^ 16 / 170 := by
    rw [← split _ _ (by norm_num) (by norm_num)]
    unfold level
    norm_num
  rw [key2] at v2
  constructor
  · rw [v1, v3]; norm_num; linarith
  · rw [v2, v3]; norm_num; linarith

/-- **C105 (ideal aqueous model, fails).** With the ideal model for aqueous solutions there are systems with two equilibrium states that
have different concentrations, for the same temperature, pressure, amounts of elements and default options. The activity of water
in this model does not fit to those of the solutes (C59). -/
theorem C105_aqueous_wrong : ∃ g, Proper (hydrate g) ∧ 0 < (hydrate g).R * (hydrate g).T ∧ 0 < (hydrate g).eps * (hydrate g).factor ∧
    (∀ j < count (hydrate g).phases, ∃ v : Rat, (hydrate g).lower[j]? = some (some v) ∧ 0 < v) ∧
    ∃ n n' props props', Equilibrium (hydrate g) n [] props ∧ Equilibrium (hydrate g) n' [] props' ∧
      n.getD 1 0 / n.getD 0 0 ≠ n'.getD 1 0 / n'.getD 0 0 := by
  obtain ⟨l1, l2⟩ := level_values
  obtain ⟨s, hs, es⟩ := intermediate_value_Icc (by norm_num : (1 : ℝ) ≤ 170) (level_continuous.mono (Set.Icc_subset_Icc (le_refl _) (by norm_num)))
    (show level 170 - 1 / 100 ∈ Set.Icc (level 1) (level 170) from ⟨l1.le, by linarith⟩)
  obtain ⟨t, ht, et⟩ := intermediate_value_Icc' (by norm_num : (170 : ℝ) ≤ 184) (level_continuous.mono (Set.Icc_subset_Icc (by norm_num) (le_refl _)))
    (show level 170 - 1 / 100 ∈ Set.Icc (level 184) (level 170) from ⟨l2.le, by linarith⟩)
  have hne : s ≠ t := by
    rintro rfl
    have : s = 170 := le_antisymm hs.2 ht.1
    rw [this] at es
    linarith
  obtain ⟨p1, h1⟩ := hydrate_equilibrium s hs.1 (by linarith [hs.2])
  obtain ⟨p2, h2⟩ := hydrate_equilibrium t (by linarith [ht.1]) ht.2
  rw [et, ← es] at h2
  refine ⟨level s, hydrate_proper _, by norm_num [hydrate, gasConstant], by norm_num [hydrate], ?_, amounts s, amounts t, p1, p2, h1, h2, ?_⟩
  · intro j hj
    have hj : j < 3 := hj
    refine ⟨1 / 10 ^ 16, ?_, by norm_num⟩
    interval_cases j <;> rfl
  · simp only [amounts, List.getD_cons_zero, List.getD_cons_succ]
    rw [ne_eq, div_eq_div_iff (by linarith [hs.2]) (by linarith [ht.2])]
    intro he
    apply hne
    linarith

end Verif.IdealEquilibrium
