import Verif.Spec.Scaling
import Verif.Theorems.IdealEquilibrium

/-!
# C107: a system of twice the size
-/

namespace Verif.Scaling

open ChemicalProps IdealEquilibrium Activity
open ArraySerialization (Props)

section Properties

variable {K : Type} [Field K] [LinearOrder K]

omit [LinearOrder K] in
theorem times_sum (c : K) (n : List K) : (times c n).sum = c * n.sum := by
  induction n with
  | nil => simp [times]
  | cons a n ih => simp only [times, List.map_cons, List.sum_cons] at ih ⊢; rw [ih]; ring

omit [Field K] [LinearOrder K] in
theorem stdLoop_amounts (T P : K) (n' : List K) (s : K) : ∀ (fs : List (K → K → Option (Std K))) (i : Nat) (d : PhaseData K),
    stdLoop T P fs i { d with n := n', nsum := s } =
      ({ (stdLoop T P fs i d).1 with n := n', nsum := s }, (stdLoop T P fs i d).2) := by
  intro fs
  induction fs with
  | nil => intro i d; rfl
  | cons f fs ih =>
    intro i d
    simp only [stdLoop]
    cases f T P with
    | none => rfl
    | some st => exact ih (i + 1) (d.setStd i st)

omit [Field K] [LinearOrder K] in
theorem stdLoop_amounts' (T P : K) (n' : List K) : ∀ (fs : List (K → K → Option (Std K))) (i : Nat) (d : PhaseData K),
    stdLoop T P fs i { d with n := n' } = ({ (stdLoop T P fs i d).1 with n := n' }, (stdLoop T P fs i d).2) := by
  intro fs
  induction fs with
  | nil => intro i d; rfl
  | cons f fs ih =>
    intro i d
    simp only [stdLoop]
    cases f T P with
    | none => rfl
    | some st => exact ih (i + 1) (d.setStd i st)

theorem phaseUpdate_times (R : K) (ph : PhaseModel K) (useIdeal : Bool) (T P c : K) (hc : c ≠ 0) (n : List K) (d : PhaseData K) :
    (phaseUpdate R ph useIdeal T P (times c n) d).2 = (phaseUpdate R ph useIdeal T P n d).2 ∧
    ((phaseUpdate R ph useIdeal T P n d).2 = true →
      (phaseUpdate R ph useIdeal T P (times c n) d).1 = larger c (phaseUpdate R ph useIdeal T P n d).1) := by
  have e : stdLoop T P ph.species 0 { d with T := T, P := P, n := times c n } =
      ({ (stdLoop T P ph.species 0 { d with T := T, P := P, n := n }).1 with n := times c n },
        (stdLoop T P ph.species 0 { d with T := T, P := P, n := n }).2) := by
    have h1 := stdLoop_amounts' T P (times c n) ph.species 0 { d with T := T, P := P, n := n }
    exact h1
  have hn : (stdLoop T P ph.species 0 { d with T := T, P := P, n := n }).1.n = n :=
    (stdLoop_frame T P ph.species 0 { d with T := T, P := P, n := n }).2.2.1
  have hx : (if (times c n).sum = 0 then List.replicate ph.size (if ph.size = 1 then (1 : K) else 0)
      else (times c n).map (fun y => y / (times c n).sum)) =
      (if n.sum = 0 then List.replicate ph.size (if ph.size = 1 then (1 : K) else 0) else n.map (fun y => y / n.sum)) := by
    rw [times_sum]
    by_cases h0 : n.sum = 0
    · rw [if_pos h0, if_pos (by rw [h0, mul_zero])]
    · rw [if_neg h0, if_neg (mul_ne_zero hc h0)]
      simp only [times, List.map_map]
      apply List.map_congr_left
      intro y _
      simp only [Function.comp]
      rw [mul_div_mul_left _ _ hc]
  unfold phaseUpdate
  dsimp only
  rw [e, hx]
  generalize stdLoop T P ph.species 0 { d with T := T, P := P, n := n } = r at hn
  obtain ⟨r1, r2⟩ := r
  dsimp only at hn ⊢
  by_cases h1 : r2 = false
  · rw [if_pos h1, if_pos h1]
    exact ⟨rfl, fun h => absurd h (by simp)⟩
  · rw [if_neg h1, if_neg h1]
    generalize (if n.sum = 0 then List.replicate ph.size (if ph.size = 1 then (1 : K) else 0) else n.map (fun y => y / n.sum)) = x
    by_cases h2 : minCoeff x = 0
    · rw [if_pos h2, if_pos h2]
      exact ⟨rfl, fun h => absurd h (by simp)⟩
    · rw [if_neg h2, if_neg h2]
      simp only [PhaseData.aprops]
      by_cases h0 : n.sum = 0
      · have h0' : (times c n).sum = 0 := by rw [times_sum, h0, mul_zero]
        simp only [if_pos h0, if_pos h0']
        simp [larger, PhaseData.setAprops, hn, h0, h0']
      · have h0' : (times c n).sum ≠ 0 := by rw [times_sum]; exact mul_ne_zero hc h0
        simp only [if_neg h0, if_neg h0']
        generalize (if useIdeal = true then ph.ideal else ph.activity) T P x _ = a
        by_cases h3 : a.2 = false
        · rw [if_pos h3, if_pos h3]
          exact ⟨rfl, fun h => absurd h (by simp)⟩
        · rw [if_neg h3, if_neg h3]
          refine ⟨rfl, fun _ => ?_⟩
          simp only [larger, PhaseData.setAprops, times_sum, hn]

omit [LinearOrder K] in
theorem seg_times (c : K) (n : List K) (b s : Nat) : seg (times c n) b s = times c (seg n b s) := by
  simp [seg, times, List.map_take, List.map_drop]

/-- **C107.** The properties of `c` times the amounts: the calculation returns normally in the same cases, and the properties of every phase are
the same, apart from the amounts, which are `c` times as large. -/
theorem C107_phases (R : K) (phases : List (PhaseModel K)) (hm : ModelsOk phases) (useIdeal : Bool)
    (p : Props K) (hs : Shape phases p) (T P c : K) (hc : c ≠ 0) (n : List K) (hn : n.length = count phases) (p' : Props K)
    (h : update R phases useIdeal p T P n = .ok (p', true)) :
    ∃ p'', update R phases useIdeal p T P (times c n) = .ok (p'', true) ∧ Shape phases p'' ∧ p''.T = p'.T ∧ p''.P = p'.P ∧
      ∀ i < phases.length, view phases p'' i = larger c (view phases p' i) := by
  have hs1 : Shape phases { p with T := T, P := P } := ⟨hs.perPhase, hs.perSpecies⟩
  obtain ⟨-, a2, a3, k, -, a5, a6, -, a8⟩ := updateLoop_spec R phases hm useIdeal T P n [] phases rfl _ hs1 p' true h
  have hk := a6.1 rfl
  obtain ⟨⟨p'', ok⟩, h'⟩ := C32_defined R phases useIdeal p T P (times c n) (by simpa [times] using hn)
  obtain ⟨b1, b2, b3, k', -, b5, b6, -, b8⟩ := updateLoop_spec R phases hm useIdeal T P (times c n) [] phases rfl _ hs1 p'' ok h'
  have hk' : k' = phases.length := by
    by_contra hne
    have hlt : k' < phases.length := by omega
    obtain ⟨-, -, e3⟩ := b8 k' hlt (Nat.zero_le _) (Nat.le_refl _)
    obtain ⟨-, -, f3⟩ := a8 k' hlt (Nat.zero_le _) (by omega)
    rw [seg_times, (phaseUpdate_times R phases[k'] useIdeal T P c hc _ _).1] at e3
    have := e3.1 (f3.2 (by omega))
    omega
  obtain rfl := b6.2 hk'
  refine ⟨p'', h', b1, b2.trans a2.symm, b3.trans a3.symm, ?_⟩
  intro i hi
  obtain ⟨-, e2, -⟩ := b8 i hi (Nat.zero_le _) (by omega)
  obtain ⟨-, f2, f3⟩ := a8 i hi (Nat.zero_le _) (by omega)
  rw [e2, f2, seg_times]
  exact (phaseUpdate_times R phases[i] useIdeal T P c hc _ _).2 (f3.2 (by omega))

omit [LinearOrder K] in
theorem total_times [DecidableEq K] (phases : List (PhaseModel K)) (p p' : Props K) (c : K) (f : PhaseData K → K)
    (h : ∀ i < phases.length, f (view phases p' i) = c * f (view phases p i)) : total phases p' f = c * total phases p f := by
  rw [total_eq, total_eq]
  have : (List.range phases.length).map (fun i => f (view phases p' i)) =
      times c ((List.range phases.length).map fun i => f (view phases p i)) := by
    simp only [times, List.map_map]
    apply List.map_congr_left
    intro i hi
    exact h i (List.mem_range.1 hi)
  rw [this, times_sum]

/-- **C107.** Extensive properties of the system are `c` times as large, intensive properties are the same. -/
theorem C107_system (R : K) (phases : List (PhaseModel K)) (hm : ModelsOk phases) (hne : ∀ ph ∈ phases, ph.size ≠ 0) (useIdeal : Bool)
    (p : Props K) (hs : Shape phases p) (T P c : K) (hc : c ≠ 0) (n : List K) (hn : n.length = count phases) (p' : Props K)
    (h : update R phases useIdeal p T P n = .ok (p', true)) :
    ∃ p'', update R phases useIdeal p T P (times c n) = .ok (p'', true) ∧
      p''.n = times c p'.n ∧
      gibbsEnergy phases p'' = c * gibbsEnergy phases p' ∧ enthalpy phases p'' = c * enthalpy phases p' ∧
      volume phases p'' = c * volume phases p' ∧ entropy phases p'' = c * entropy phases p' ∧
      internalEnergy phases p'' = c * internalEnergy phases p' ∧ helmholtzEnergy phases p'' = c * helmholtzEnergy phases p' ∧
      total phases p'' PhaseData.amount = c * total phases p' PhaseData.amount ∧
      (∀ ph, total phases p'' (PhaseData.mass ph) = c * total phases p' (PhaseData.mass ph)) ∧
      p''.x = p'.x ∧ p''.ln_g = p'.ln_g ∧ p''.ln_a = p'.ln_a ∧ p''.u = p'.u ∧ p''.G0 = p'.G0 ∧ p''.H0 = p'.H0 ∧ p''.V0 = p'.V0 ∧
      p''.Cp0 = p'.Cp0 ∧ p''.Cv0 = p'.Cv0 ∧
      ∀ i < phases.length, (view phases p'' i).molarG = (view phases p' i).molarG ∧ (view phases p'' i).molarH = (view phases p' i).molarH ∧
        (view phases p'' i).molarV = (view phases p' i).molarV ∧ (view phases p'' i).molarS = (view phases p' i).molarS ∧
        (view phases p'' i).molarCp = (view phases p' i).molarCp ∧ (view phases p'' i).molarCv = (view phases p' i).molarCv ∧
        (view phases p'' i).molarDensity = (view phases p' i).molarDensity := by
  obtain ⟨p'', h'', hs'', -, -, hv⟩ := C107_phases R phases hm useIdeal p hs T P c hc n hn p' h
  have hs' := (C32_update R phases hm hne useIdeal p hs T P n p' h).1
  obtain ⟨-, -, x2, x3, x4, x5, x6, x7, x8, x9, x10⟩ := C32_blocks phases p'' hs''
  obtain ⟨-, -, y2, y3, y4, y5, y6, y7, y8, y9, y10⟩ := C32_blocks phases p' hs'
  have cong : ∀ f : PhaseData K → List K, (∀ d, f (larger c d) = f d) →
      (List.range phases.length).flatMap (fun i => f (view phases p'' i)) = (List.range phases.length).flatMap (fun i => f (view phases p' i)) := by
    intro f hf
    apply List.flatMap_congr
    intro i hi
    rw [hv i (List.mem_range.1 hi), hf]
  have ext : ∀ g : PhaseData K → K, (∀ d, g (larger c d) = g d) →
      total phases p'' (fun d => g d * d.amount) = c * total phases p' (fun d => g d * d.amount) := by
    intro g hg
    apply total_times
    intro i hi
    rw [hv i hi, hg]
    show _ * (c * _) = _
    simp only [PhaseData.amount]
    ring
  refine ⟨p'', h'', ?_, ext PhaseData.molarG fun _ => rfl, ext PhaseData.molarH fun _ => rfl, ext PhaseData.molarV fun _ => rfl,
    ext PhaseData.molarS fun _ => rfl, ext PhaseData.molarU fun _ => rfl, ext PhaseData.molarA fun _ => rfl, ?_, ?_, ?_, ?_, ?_, ?_, ?_, ?_, ?_,
    ?_, ?_, ?_⟩
  · rw [C32_amounts R phases hm hne useIdeal p hs T P _ (by simpa [times] using hn) p'' h'',
      C32_amounts R phases hm hne useIdeal p hs T P n hn p' h]
  · apply total_times
    intro i hi
    rw [hv i hi]
    rfl
  · intro ph
    apply total_times
    intro i hi
    rw [hv i hi]
    simp only [PhaseData.mass, larger, times]
    rw [← List.sum_eq_foldl, ← List.sum_eq_foldl]
    generalize (view phases p' i).n = l
    generalize ph.molarMasses = m
    induction l generalizing m with
    | nil => simp
    | cons a l ih =>
      cases m with
      | nil => simp
      | cons b m =>
        simp only [List.map_cons, List.zipWith_cons_cons, List.sum_cons]
        rw [ih]
        ring
  · rw [x2, y2]; exact cong PhaseData.x fun _ => rfl
  · rw [x8, y8]; exact cong PhaseData.ln_g fun _ => rfl
  · rw [x9, y9]; exact cong PhaseData.ln_a fun _ => rfl
  · rw [x10, y10]; exact cong PhaseData.u fun _ => rfl
  · rw [x3, y3]; exact cong PhaseData.G0 fun _ => rfl
  · rw [x4, y4]; exact cong PhaseData.H0 fun _ => rfl
  · rw [x5, y5]; exact cong PhaseData.V0 fun _ => rfl
  · rw [x6, y6]; exact cong PhaseData.Cp0 fun _ => rfl
  · rw [x7, y7]; exact cong PhaseData.Cv0 fun _ => rfl
  · intro i hi
    rw [hv i hi]
    exact ⟨rfl, rfl, rfl, rfl, rfl, rfl, rfl⟩

/-- A solution of two species with one mole each, and with three moles each. -/
example (R T P : ℝ) : ∃ p' p'', update R [examplePhase] false exampleProps T P [1, 1] = .ok (p', true) ∧
    update R [examplePhase] false exampleProps T P (times 3 [1, 1]) = .ok (p'', true) ∧
    volume [examplePhase] p'' = 3 * volume [examplePhase] p' ∧ p''.u = p'.u := by
  obtain ⟨p', h⟩ := example_update R T P
  obtain ⟨p'', h1, -, -, -, h2, -, -, -, -, -, -, -, -, h3, -⟩ := C107_system R [examplePhase] example_models example_nonempty false exampleProps
    example_shape T P 3 (by norm_num) [1, 1] rfl p' h
  exact ⟨p', p'', h, h1, h2, h3⟩

end Properties

section Equilibria

theorem getD_times (c : ℝ) (n : List ℝ) (j : Nat) : (times c n).getD j 0 = c * n.getD j 0 := by
  by_cases h : j < n.length
  · simp [times, h]
  · simp [times, Nat.not_lt.1 h]

theorem times_append (c : ℝ) (n q : List ℝ) : times c n ++ times c q = times c (n ++ q) := by simp [times]

theorem length_times {K : Type} [Mul K] (c : K) (n : List K) : (times c n).length = n.length := by simp [times]

/-- Bounds of the larger problem. -/
theorem bound_times (c : Rat) (l : List (Option Rat)) (j : Nat) (v : Rat) :
    (l.map (Option.map (c * ·)))[j]? = some (some v) ↔ ∃ u, l[j]? = some (some u) ∧ v = c * u := by
  rw [List.getElem?_map]
  cases l[j]? with
  | none => simp
  | some o =>
    cases o with
    | none => simp
    | some u =>
      simp only [Option.map_some, Option.some.injEq]
      constructor
      · rintro rfl; exact ⟨u, rfl, rfl⟩
      · rintro ⟨u', rfl, rfl⟩; rfl

theorem gradient_times (c : Rat) (hc : 0 < c) (pr : Problem) (n u : List ℝ) :
    (largerProblem c pr).gradient (times (c : ℝ) n) u = pr.gradient n u := by
  have hc' : (c : ℝ) ≠ 0 := by exact_mod_cast hc.ne'
  simp only [Problem.gradient, largerProblem, EquilibriumSetup.gradX, EquilibriumSetup.gradN, times, List.zipWith_map_right]
  congr 2
  funext u n
  rw [mul_assoc, mul_div_mul_left _ _ hc']

/-- **C107.** If a state is an equilibrium, then the state with `c` times the amounts is an equilibrium of the problem with `c` times the amounts of
elements, bounds and `epsilon`, with the same mole fractions, activities and chemical potentials and `c` times the volume and energies. -/
theorem C107_equilibrium_partial (pr : Problem) (hr : Proper pr) (c : Rat) (hc : 0 < c) (n q : List ℝ) (props : Props ℝ)
    (h : Equilibrium pr n q props) :
    ∃ props', Equilibrium (largerProblem c pr) (times (c : ℝ) n) (times (c : ℝ) q) props' ∧
      props'.x = props.x ∧ props'.ln_a = props.ln_a ∧ props'.u = props.u ∧
      volume pr.phases props' = c * volume pr.phases props ∧ gibbsEnergy pr.phases props' = c * gibbsEnergy pr.phases props := by
  have hc' : (0 : ℝ) < (c : ℝ) := by exact_mod_cast hc
  obtain ⟨hf, ⟨old, ho, hu⟩, y, hy⟩ := h
  obtain ⟨props', h', -, hG, -, hV, -, -, -, -, -, hx, -, ha, hu', -⟩ :=
    C107_system pr.R pr.phases hr.sizes hr.nonempty false old ho pr.T pr.P (c : ℝ) hc'.ne' n hf.species props hu
  refine ⟨props', ⟨⟨?_, ?_, ?_, ?_, ?_⟩, ⟨old, ho, h'⟩, y, ?_⟩, hx, ha, hu', hV, hG⟩
  · rw [length_times]; exact hf.species
  · rw [length_times]; exact hf.titrants
  · intro i hi
    have := hf.balances i hi
    show balance pr.A _ i = (times (c : ℝ) pr.b).getD i 0
    rw [times_append, getD_times, ← this]
    unfold balance
    rw [length_times, Finset.mul_sum]
    apply Finset.sum_congr rfl
    intro j _
    rw [getD_times]
    ring
  · intro j v hv
    obtain ⟨u, h1, rfl⟩ := (bound_times c pr.lower j v).1 hv
    rw [times_append, getD_times]
    push_cast
    exact mul_le_mul_of_nonneg_left (hf.lower j u h1) hc'.le
  · intro j v hv
    obtain ⟨u, h1, rfl⟩ := (bound_times c pr.upper j v).1 hv
    rw [times_append, getD_times]
    push_cast
    exact mul_le_mul_of_nonneg_left (hf.upper j u h1) hc'.le
  · intro j hj
    rw [length_times, length_times] at hj
    have := hy j hj
    dsimp only at this ⊢
    rw [hu', gradient_times c hc]
    show (0 < (pr.gradient n props.u).getD j 0 - ∑ i ∈ Finset.range pr.A.length, y i * (((pr.A.getD i []).getD j 0 : Rat) : ℝ) → _) ∧
      ((pr.gradient n props.u).getD j 0 - ∑ i ∈ Finset.range pr.A.length, y i * (((pr.A.getD i []).getD j 0 : Rat) : ℝ) < 0 → _)
    refine ⟨fun h0 => ?_, fun h0 => ?_⟩
    · obtain ⟨v, h1, h2⟩ := this.1 h0
      refine ⟨c * v, (bound_times c pr.lower j _).2 ⟨v, h1, rfl⟩, ?_⟩
      rw [times_append, getD_times, h2]
      push_cast; ring
    · obtain ⟨v, h1, h2⟩ := this.2 h0
      refine ⟨c * v, (bound_times c pr.upper j _).2 ⟨v, h1, rfl⟩, ?_⟩
      rw [times_append, getD_times, h2]
      push_cast; ring

/-- **C107 (fails).** With the same `epsilon` the composition depends on the size of the system. Let `j` and `k` be species with the same elements
and different amounts, not at a bound. If the state is an equilibrium, then the state with `c ≠ 1` times the amounts is not, for any
amounts of elements: the barrier term does not scale. -/
theorem C107_epsilon_wrong (pr : Problem) (hr : Proper pr) (hb : pr.eps * pr.factor ≠ 0) (c : ℝ) (hc : 0 < c) (hc1 : c ≠ 1)
    (n q : List ℝ) (props : Props ℝ) (h : Equilibrium pr n q props) (j k : Nat) (hj : j < n.length) (hk : k < n.length)
    (hA : ∀ i, (pr.A.getD i []).getD j 0 = (pr.A.getD i []).getD k 0) (hnj : 0 < n.getD j 0) (hnk : 0 < n.getD k 0)
    (hne : n.getD j 0 ≠ n.getD k 0)
    (hfree : ∀ l, l = j ∨ l = k → ∀ v : Rat, (pr.lower[l]? = some (some v) → (v : ℝ) ≠ n.getD l 0 ∧ (v : ℝ) ≠ c * n.getD l 0) ∧
      (pr.upper[l]? = some (some v) → (v : ℝ) ≠ n.getD l 0 ∧ (v : ℝ) ≠ c * n.getD l 0))
    (old : Props ℝ) (hold : Shape pr.phases old) (hup : update pr.R pr.phases false old pr.T pr.P n = .ok (props, true)) :
    ∃ props', update pr.R pr.phases false old pr.T pr.P (times c n) = .ok (props', true) ∧
      ∀ (b : List ℝ) (q' : List ℝ), ¬ Equilibrium { pr with b := b } (times c n) q' props' := by
  obtain ⟨hf, -, y, hy⟩ := h
  obtain ⟨props', h', -, -, -, -, -, -, -, -, -, -, -, -, hu', -⟩ :=
    C107_system pr.R pr.phases hr.sizes hr.nonempty false old hold pr.T pr.P c hc.ne' n hf.species props hup
  refine ⟨props', h', ?_⟩
  rintro b q' ⟨-, -, y', hy'⟩
  have hs := (C32_update pr.R pr.phases hr.sizes hr.nonempty false old hold pr.T pr.P n props hup).1
  have hul : props.u.length = n.length := by
    rw [hf.species]
    exact hs.perSpecies _ (by simp)
  -- the gradient of a species
  have grad : ∀ (m : List ℝ) (l : Nat), l < n.length → m.length = n.length →
      (pr.gradient m props.u).getD l 0 = props.u.getD l 0 / (pr.R * pr.T) - pr.eps * pr.factor / m.getD l 0 := by
    intro m l hl hm
    have h1 : l < props.u.length := by omega
    have h2 : l < m.length := by omega
    have h3 : l < (List.zipWith (fun u n => u / (pr.R * pr.T) - pr.eps * pr.factor / n) props.u m).length := by
      rw [List.length_zipWith]; omega
    unfold Problem.gradient EquilibriumSetup.gradX EquilibriumSetup.gradN
    rw [List.getD_append _ _ _ _ h3, List.getD_eq_getElem _ _ h3, List.getElem_zipWith, List.getD_eq_getElem _ _ h1, List.getD_eq_getElem _ _ h2]
  have app : ∀ (m r : List ℝ) (l : Nat), l < n.length → m.length = n.length → (m ++ r).getD l 0 = m.getD l 0 := by
    intro m r l hl hm
    exact List.getD_append _ _ _ _ (by omega)
  -- at a species that is not at a bound the residual vanishes
  have key : ∀ l, l = j ∨ l = k →
      props.u.getD l 0 / (pr.R * pr.T) - pr.eps * pr.factor / n.getD l 0 -
        ∑ i ∈ Finset.range pr.A.length, y i * (((pr.A.getD i []).getD l 0 : Rat) : ℝ) = 0 ∧
      props.u.getD l 0 / (pr.R * pr.T) - pr.eps * pr.factor / (c * n.getD l 0) -
        ∑ i ∈ Finset.range pr.A.length, y' i * (((pr.A.getD i []).getD l 0 : Rat) : ℝ) = 0 := by
    intro l hl
    have hln : l < n.length := by rcases hl with rfl | rfl <;> assumption
    have e1 := hy l (by omega)
    have e2 := hy' l (by rw [length_times]; omega)
    have e2' : let r := (pr.gradient (times c n) props'.u).getD l 0 -
        ∑ i ∈ Finset.range pr.A.length, y' i * (((pr.A.getD i []).getD l 0 : Rat) : ℝ)
      (0 < r → ∃ v : Rat, pr.lower[l]? = some (some v) ∧ (times c n ++ q').getD l 0 = (v : ℝ)) ∧
      (r < 0 → ∃ v : Rat, pr.upper[l]? = some (some v) ∧ (times c n ++ q').getD l 0 = (v : ℝ)) := e2
    dsimp only at e1 e2'
    rw [grad n l hln rfl, app n q l hln rfl] at e1
    rw [hu', grad _ l hln (length_times _ _), app _ q' l hln (length_times _ _), getD_times] at e2'
    constructor
    · rcases lt_trichotomy (props.u.getD l 0 / (pr.R * pr.T) - pr.eps * pr.factor / n.getD l 0 -
        ∑ i ∈ Finset.range pr.A.length, y i * (((pr.A.getD i []).getD l 0 : Rat) : ℝ)) 0 with h0 | h0 | h0
      · obtain ⟨v, hv1, hv2⟩ := e1.2 h0
        exact absurd hv2.symm ((hfree l hl v).2 hv1).1
      · exact h0
      · obtain ⟨v, hv1, hv2⟩ := e1.1 h0
        exact absurd hv2.symm ((hfree l hl v).1 hv1).1
    · rcases lt_trichotomy (props.u.getD l 0 / (pr.R * pr.T) - pr.eps * pr.factor / (c * n.getD l 0) -
        ∑ i ∈ Finset.range pr.A.length, y' i * (((pr.A.getD i []).getD l 0 : Rat) : ℝ)) 0 with h0 | h0 | h0
      · obtain ⟨v, hv1, hv2⟩ := e2'.2 h0
        exact absurd hv2.symm ((hfree l hl v).2 hv1).2
      · exact h0
      · obtain ⟨v, hv1, hv2⟩ := e2'.1 h0
        exact absurd hv2.symm ((hfree l hl v).1 hv1).2
  obtain ⟨j1, j2⟩ := key j (Or.inl rfl)
  obtain ⟨k1, k2⟩ := key k (Or.inr rfl)
  have s1 : ∀ y : Nat → ℝ, ∑ i ∈ Finset.range pr.A.length, y i * (((pr.A.getD i []).getD j 0 : Rat) : ℝ) =
      ∑ i ∈ Finset.range pr.A.length, y i * (((pr.A.getD i []).getD k 0 : Rat) : ℝ) := by
    intro y
    apply Finset.sum_congr rfl
    intro i _
    rw [hA]
  rw [s1] at j1 j2
  have hd : pr.eps * pr.factor / n.getD j 0 - pr.eps * pr.factor / n.getD k 0 =
      (pr.eps * pr.factor / n.getD j 0 - pr.eps * pr.factor / n.getD k 0) / c := by
    have e : (pr.eps * pr.factor / n.getD j 0 - pr.eps * pr.factor / n.getD k 0) / c =
        pr.eps * pr.factor / (c * n.getD j 0) - pr.eps * pr.factor / (c * n.getD k 0) := by
      field_simp
    rw [e]
    linarith
  have hnz : pr.eps * pr.factor / n.getD j 0 - pr.eps * pr.factor / n.getD k 0 ≠ 0 := by
    intro h0
    apply hne
    have := sub_eq_zero.1 h0
    rw [div_eq_div_iff hnj.ne' hnk.ne'] at this
    exact (mul_left_cancel₀ hb this).symm
  apply hc1
  rw [eq_div_iff hc.ne'] at hd
  exact mul_left_cancel₀ hnz (by rw [hd, mul_one])

/-! ## The hypotheses are satisfiable -/

/-- A solution of two isomers with different Gibbs energies, and the default options. -/
noncomputable def unequal : Problem where
  phases := [phase [constant (gasConstant * 300 * (Real.log 2 + 1 / 2 / 10 ^ 16)), constant 0] [solute c!"X", solute c!"Y"]
    Activity.idealSolution Activity.idealSolution]
  R := gasConstant
  T := 300
  P := 100000
  eps := 1 / 10 ^ 16
  factor := 1
  A := [[1, 1]]
  b := [3]
  lower := [some (1 / 10 ^ 16), some (1 / 10 ^ 16)]
  upper := [none, none]
  uq := []

theorem unequal_proper : Proper unequal := by
  refine { sizes := ?_, nonempty := ?_ }
  · intro ph h
    simp only [unequal, List.mem_singleton] at h
    subst h
    exact ⟨(activityFn_ideal _ (Or.inl rfl) _).2.1, (activityFn_ideal _ (Or.inl rfl) _).2.1⟩
  · intro ph h
    simp only [unequal, List.mem_singleton] at h
    subst h
    simp [phase, PhaseModel.size]

theorem unequal_equilibrium : ∃ props, Equilibrium unequal [1, 2] [] props := by
  have hpos : ∀ y ∈ ([1, 2] : List ℝ), 0 < y := by simp
  obtain ⟨props, h⟩ := has_exists unequal unequal_proper [1, 2] rfl hpos
    (by intro ph h f hf; simp only [unequal, List.mem_singleton] at h; subst h; simp [phase] at hf; rcases hf with rfl | rfl <;> rfl)
    (by intro ph h; simp only [unequal, List.mem_singleton] at h; subst h
        intro x a h1 h2 h3
        exact (activityFn_ideal _ (Or.inl rfl) _).2.2 _ _ x a h1 h2 h3)
  have hu := u_of_has unequal unequal_proper [1, 2] rfl hpos props h
    (fun _ => [gasConstant * 300 * (Real.log 2 + 1 / 2 / 10 ^ 16), 0]) (fun _ x => x.map Real.log)
    (by intro i hi; have hi : i < 1 := hi; interval_cases i; rfl)
    (by intro i hi x old a h; have hi : i < 1 := hi; interval_cases i
        simp only [unequal, phase, List.getElem_cons_zero] at h
        unfold activityFn at h
        simp only [Activity.idealSolution, Res.bind_ok'] at h
        split_ifs at h
        · simp at h
        · simp only [Prod.mk.injEq, and_true] at h
          rw [← h])
  refine ⟨props, ⟨rfl, rfl, ?_, ?_, ?_⟩, h, ?_⟩
  · intro i hi
    have hi : i < 1 := hi
    interval_cases i
    norm_num [balance, unequal, Finset.sum_range_succ]
  · intro j v hv
    rcases j with _ | _ | j <;> simp [unequal] at hv <;> subst hv <;> norm_num
  · intro j v hv
    rcases j with _ | _ | j <;> simp [unequal] at hv
  · have hu : props.u = [gasConstant * 300 * (Real.log 2 + 1 / 2 / 10 ^ 16) + gasConstant * 300 * Real.log (1 / 3),
        0 + gasConstant * 300 * Real.log (2 / 3)] := by
      rw [hu]
      have : fractions (block unequal [1, 2] 0) = [1 / 3, 2 / 3] := by
        simp [fractions, block, seg, unequal, before, sizeAt, phase, PhaseModel.size]
        norm_num
      simp only [unequal, List.length_singleton, List.range_one, List.flatMap_cons, List.flatMap_nil] at this ⊢
      rw [this]
      simp
    refine ⟨fun _ => Real.log (2 / 3) - 1 / 2 / 10 ^ 16, ?_⟩
    intro j hj
    have hg : gasConstant * 300 ≠ 0 := by norm_num [gasConstant]
    have hl : Real.log 2 + Real.log (1 / 3) = Real.log (2 / 3) := by
      rw [← Real.log_mul (by norm_num) (by norm_num)]; norm_num
    have hgr : unequal.gradient [1, 2] props.u = [Real.log (2 / 3) - 1 / 2 / 10 ^ 16, Real.log (2 / 3) - 1 / 2 / 10 ^ 16] := by
      rw [hu]
      have e : (gasConstant * 300 * (Real.log 2 + 1 / 2 / 10 ^ 16) + gasConstant * 300 * Real.log (1 / 3)) / (gasConstant * 300) =
          Real.log (2 / 3) + 1 / 2 / 10 ^ 16 := by
        rw [← mul_add, mul_div_cancel_left₀ _ hg, ← hl]; ring
      have e' : (0 + gasConstant * 300 * Real.log (2 / 3)) / (gasConstant * 300) = Real.log (2 / 3) := by
        rw [zero_add, mul_div_cancel_left₀ _ hg]
      simp only [Problem.gradient, EquilibriumSetup.gradX, EquilibriumSetup.gradN, EquilibriumSetup.gradQ, unequal,
        List.zipWith_cons_cons, List.zipWith_nil_left, List.map_nil, List.append_nil, e, e', List.cons.injEq, and_true]
      constructor
      · norm_num; ring
      · norm_num
    dsimp only
    rw [hgr]
    have hj : j < 2 := hj
    interval_cases j <;> simp [unequal]

/-- With the default options, two moles and four moles are not in equilibrium if one mole and two moles are. -/
example : ∃ props old props', Equilibrium unequal [1, 2] [] props ∧
    update unequal.R unequal.phases false old unequal.T unequal.P (times 2 [1, 2]) = .ok (props', true) ∧
    ∀ b q', ¬ Equilibrium { unequal with b := b } (times 2 [1, 2]) q' props' := by
  obtain ⟨props, h⟩ := unequal_equilibrium
  obtain ⟨old, ho, hu⟩ := h.2.1
  obtain ⟨props', h1, h2⟩ := C107_epsilon_wrong unequal unequal_proper (by norm_num [unequal]) 2 (by norm_num) (by norm_num) [1, 2] [] props h 0 1
    (by simp) (by simp) (by intro i; rcases i with _ | i <;> simp [unequal]) (by simp) (by simp) (by simp)
    (by
      intro l hl v
      rcases hl with rfl | rfl
      · constructor
        · intro hv; simp [unequal] at hv; subst hv; norm_num
        · intro hv; simp [unequal] at hv
      · constructor
        · intro hv; simp [unequal] at hv; subst hv; norm_num
        · intro hv; simp [unequal] at hv) old ho hu
  exact ⟨props, old, props', h, h1, h2⟩

/-- With `epsilon` twice as large they are. -/
example : ∃ props', Equilibrium (largerProblem 2 unequal) (times ((2 : Rat) : ℝ) [1, 2]) (times ((2 : Rat) : ℝ) []) props' := by
  obtain ⟨props, h⟩ := unequal_equilibrium
  obtain ⟨props', h', -⟩ := C107_equilibrium_partial unequal unequal_proper 2 (by norm_num) [1, 2] [] props h
  exact ⟨props', h'⟩

end Equilibria

end Verif.Scaling
