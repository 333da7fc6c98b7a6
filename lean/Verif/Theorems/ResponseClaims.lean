import Verif.Theorems.Response

/-!
# C113: examples, and a model for which the property fails
-/

namespace Verif.Response

open ChemicalProps IdealEquilibrium Activity
open ArraySerialization (Props)

/-! ## An ideal solution of two isomers -/

/-- A solution of two isomers with these standard models. -/
noncomputable def pair (f g : ℝ → ℝ → Option (Std ℝ)) (b T P factor : ℝ) : Problem where
  phases := [phase [f, g] [solute c!"X", solute c!"Y"] Activity.idealSolution Activity.idealSolution]
  R := gasConstant
  T := T
  P := P
  eps := 1 / 10 ^ 16
  factor := factor
  A := [[1, 1]]
  b := [b]
  lower := [some (1 / 10 ^ 16), some (1 / 10 ^ 16)]
  upper := [none, none]
  uq := []

theorem pair_proper (f g : ℝ → ℝ → Option (Std ℝ)) (b T P factor : ℝ) : Proper (pair f g b T P factor) := by
  refine { sizes := ?_, nonempty := ?_ }
  · intro ph h
    simp only [pair, List.mem_singleton] at h
    subst h
    exact ⟨(activityFn_ideal _ (Or.inl rfl) _).2.1, (activityFn_ideal _ (Or.inl rfl) _).2.1⟩
  · intro ph h
    simp only [pair, List.mem_singleton] at h
    subst h
    simp [phase, PhaseModel.size]

theorem pair_positive (f g : ℝ → ℝ → Option (Std ℝ)) (b T P factor : ℝ) :
    ∀ j < count (pair f g b T P factor).phases, ∃ v : Rat, (pair f g b T P factor).lower[j]? = some (some v) ∧ 0 < v := by
  intro j hj
  have hj : j < 2 := hj
  refine ⟨1 / 10 ^ 16, ?_, by norm_num⟩
  interval_cases j <;> rfl

theorem pair_regular (f g : ℝ → ℝ → Option (Std ℝ)) (b T P factor : ℝ) (hT : 0 < T) (hfac : 0 ≤ factor) : Regular (pair f g b T P factor) := by
  refine { toProper := pair_proper f g b T P factor, gas := ?_, barrier := ?_, stable := ?_, positive := pair_positive f g b T P factor }
  · have : 0 < gasConstant := by norm_num [gasConstant]
    exact mul_pos this hT
  · simp only [pair]; positivity
  · intro ph h
    simp only [pair, List.mem_singleton] at h
    subst h
    exact C105_ideal_stable _ _ _ _ (Or.inl rfl) _ _

theorem pair_has (f g : ℝ → ℝ → Option (Std ℝ)) (b T P factor : ℝ) (sf sg : Std ℝ) (hf : f T P = some sf) (hg : g T P = some sg) (nx ny : ℝ) (hx : 0 < nx) (hy : 0 < ny) :
    ∃ props, Has (pair f g b T P factor) [nx, ny] props ∧
      props.u = [sf.G0 + gasConstant * T * Real.log (nx / (nx + ny)), sg.G0 + gasConstant * T * Real.log (ny / (nx + ny))] := by
  have hpos : ∀ z ∈ ([nx, ny] : List ℝ), 0 < z := by
    intro z hz
    simp only [List.mem_cons, List.not_mem_nil, or_false] at hz
    rcases hz with rfl | rfl <;> assumption
  obtain ⟨props, h⟩ := has_exists (pair f g b T P factor) (pair_proper f g b T P factor) [nx, ny] rfl hpos
    (by intro ph h f' hf'; simp only [pair, List.mem_singleton] at h; subst h
        simp only [phase, List.mem_cons, List.not_mem_nil, or_false] at hf'
        simp only [pair]
        rcases hf' with rfl | rfl
        · rw [hf]; rfl
        · rw [hg]; rfl)
    (by intro ph h; simp only [pair, List.mem_singleton] at h; subst h
        intro x a h1 h2 h3
        exact (activityFn_ideal _ (Or.inl rfl) _).2.2 _ _ x a h1 h2 h3)
  have hu := u_of_has (pair f g b T P factor) (pair_proper f g b T P factor) [nx, ny] rfl hpos props h (fun _ => [sf.G0, sg.G0]) (fun _ x => x.map Real.log)
    (by intro i hi; have hi : i < 1 := hi; interval_cases i; simp [pair, phase, hf, hg])
    (by intro i hi x old a h; have hi : i < 1 := hi; interval_cases i
        have := (solution_fn _ _ _ _ _ _ h).1
        simpa using this)
  refine ⟨props, h, ?_⟩
  rw [hu]
  have : fractions (block (pair f g b T P factor) [nx, ny] 0) = [nx / (nx + ny), ny / (nx + ny)] := by
    simp [fractions, block, seg, pair, before, sizeAt, phase, PhaseModel.size]
  simp only [pair, List.length_singleton, List.range_one, List.flatMap_cons, List.flatMap_nil] at this ⊢
  rw [this]
  simp

/-- The amounts at which both isomers have the same potential are an equilibrium. -/
theorem pair_equilibrium (f g : ℝ → ℝ → Option (Std ℝ)) (b T P factor : ℝ) (sf sg : Std ℝ) (hf : f T P = some sf) (hg : g T P = some sg) (nx ny : ℝ)
    (hx : 1 / 10 ^ 16 ≤ nx) (hy : 1 / 10 ^ 16 ≤ ny) (hb : nx + ny = b) (hT : T ≠ 0)
    (he : sf.G0 / (gasConstant * T) + Real.log (nx / b) - 1 / 10 ^ 16 * factor / nx = sg.G0 / (gasConstant * T) + Real.log (ny / b) - 1 / 10 ^ 16 * factor / ny) :
    ∃ props, Feasible (pair f g b T P factor) [nx, ny] [] ∧ Has (pair f g b T P factor) [nx, ny] props ∧
      Potentials (pair f g b T P factor) [nx, ny] [] props (fun _ => sf.G0 / (gasConstant * T) + Real.log (nx / b) - 1 / 10 ^ 16 * factor / nx) ∧
      props.u = [sf.G0 + gasConstant * T * Real.log (nx / (nx + ny)), sg.G0 + gasConstant * T * Real.log (ny / (nx + ny))] := by
  obtain ⟨props, h, hu⟩ := pair_has f g b T P factor sf sg hf hg nx ny (lt_of_lt_of_le (by norm_num) hx) (lt_of_lt_of_le (by norm_num) hy)
  refine ⟨props, ⟨rfl, rfl, ?_, ?_, ?_⟩, h, ?_, hu⟩
  · intro i hi
    have hi : i < 1 := hi
    interval_cases i
    simp [balance, pair, Finset.sum_range_succ, hb]
  · intro j v hv
    rcases j with _ | _ | j <;> simp [pair] at hv <;> subst hv <;> simp <;> norm_num at hx hy ⊢ <;> assumption
  · intro j v hv
    rcases j with _ | _ | j <;> simp [pair] at hv
  · intro j hj
    have hR : gasConstant * T ≠ 0 := mul_ne_zero (by norm_num [gasConstant]) hT
    have hgr : (pair f g b T P factor).gradient [nx, ny] props.u = [sf.G0 / (gasConstant * T) + Real.log (nx / b) - 1 / 10 ^ 16 * factor / nx,
        sf.G0 / (gasConstant * T) + Real.log (nx / b) - 1 / 10 ^ 16 * factor / nx] := by
      rw [hu, hb]
      simp only [Problem.gradient, EquilibriumSetup.gradX, EquilibriumSetup.gradN, EquilibriumSetup.gradQ, pair,
        List.zipWith_cons_cons, List.zipWith_nil_left, List.map_nil, List.append_nil, add_div, mul_div_cancel_left₀ _ hR]
      rw [← he]
    dsimp only
    rw [hgr]
    have hj : j < 2 := hj
    interval_cases j <;> simp [pair]

theorem constant_some (g T P : ℝ) : constant g T P = some ⟨g, 0, 0, 0, 0⟩ := rfl

/-- One and two moles of each of two isomers with the same Gibbs energy: the potential of the elements is not lower in the larger system. -/
example : ∃ props props', Equilibrium (pair (constant 0) (constant 0) 2 300 100000 1) [1, 1] [] props ∧ Equilibrium (pair (constant 0) (constant 0) 4 300 100000 1) [2, 2] [] props' ∧
    props.u.getD 0 0 / (gasConstant * 300) - 1 / 10 ^ 16 * 1 / 1 ≤ props'.u.getD 0 0 / (gasConstant * 300) - 1 / 10 ^ 16 * 1 / 2 := by
  obtain ⟨props, f1, h1, y1, -⟩ := pair_equilibrium (constant 0) (constant 0) 2 300 100000 1 _ _ (constant_some _ _ _) (constant_some _ _ _) 1 1 (by norm_num) (by norm_num) (by norm_num)
    (by norm_num) (by norm_num)
  obtain ⟨props', f2, h2, y2, -⟩ := pair_equilibrium (constant 0) (constant 0) 4 300 100000 1 _ _ (constant_some _ _ _) (constant_some _ _ _) 2 2 (by norm_num) (by norm_num) (by norm_num)
    (by norm_num) (by norm_num)
  refine ⟨props, props', ⟨f1, h1, _, y1⟩, ⟨f2, h2, _, y2⟩, ?_⟩
  have h := (C113_species (pair (constant 0) (constant 0) 2 300 100000 1) (pair_regular _ _ _ _ _ _ (by norm_num) (by norm_num)) [2] [4] [1, 1] [] [2, 2] [] props props' _ _ f1 h1 y1
    f2 h2 y2 0 (by simp) ⟨by intro v hv; simp [pair] at hv; subst hv; norm_num, by intro v hv; simp [pair] at hv⟩
    ⟨by intro v hv; simp [pair] at hv; subst hv; norm_num, by intro v hv; simp [pair] at hv⟩ 2 (by norm_num)
    (by intro i hi; have hi : i < 1 := hi; interval_cases i; simp [pair]; norm_num)).1
  exact h

/-- Two solutions of the isomers with different compositions are put together: the Gibbs energy goes down. -/
example : ∃ p1 p2 p, Has (pair (constant 0) (constant 0) 4 300 100000 0) [1, 3] p1 ∧ Has (pair (constant 0) (constant 0) 4 300 100000 0) [3, 1] p2 ∧
    Equilibrium (pair (constant 0) (constant 0) 8 300 100000 0) [4, 4] [] p ∧ dot [4, 4] p.u < dot [1, 3] p1.u + dot [3, 1] p2.u := by
  obtain ⟨p1, h1, -⟩ := pair_has (constant 0) (constant 0) 8 300 100000 0 _ _ (constant_some _ _ _) (constant_some _ _ _) 1 3 (by norm_num) (by norm_num)
  obtain ⟨p2, h2, -⟩ := pair_has (constant 0) (constant 0) 8 300 100000 0 _ _ (constant_some _ _ _) (constant_some _ _ _) 3 1 (by norm_num) (by norm_num)
  obtain ⟨p, f3, h3, y3, -⟩ := pair_equilibrium (constant 0) (constant 0) 8 300 100000 0 _ _ (constant_some _ _ _) (constant_some _ _ _) 4 4 (by norm_num) (by norm_num) (by norm_num)
    (by norm_num) (by norm_num)
  have feas : ∀ x y : ℝ, x + y = 4 → 1 ≤ x → 1 ≤ y → Feasible (withAmounts (pair (constant 0) (constant 0) 8 300 100000 0) [4]) [x, y] [] := by
    intro x y hxy hx hy
    refine ⟨rfl, rfl, ?_, ?_, ?_⟩
    · intro i hi
      have hi : i < 1 := hi
      interval_cases i
      simp [balance, pair, withAmounts, Finset.sum_range_succ, hxy]
    · intro j v hv
      rcases j with _ | _ | j <;> simp [pair, withAmounts] at hv <;> subst hv <;> simp <;> norm_num <;> linarith
    · intro j v hv
      rcases j with _ | _ | j <;> simp [pair, withAmounts] at hv
  have h := (C113_together (pair (constant 0) (constant 0) 8 300 100000 0) (pair_regular _ _ _ _ _ _ (by norm_num) (by norm_num)) rfl [4] [4]
    (by intro i hi; have hi : i < 1 := hi; interval_cases i; simp [pair]; norm_num) [1, 3] [3, 1] [4, 4] p1 p2 p p
    (feas 1 3 (by norm_num) (by norm_num) (by norm_num)) h1 (feas 3 1 (by norm_num) (by norm_num) (by norm_num)) h2
    (by intro j v hv; rcases j with _ | _ | j <;> simp [pair] at hv)
    (by rw [show together [1, 3] [3, 1] = [4, 4] by norm_num [together]]; exact h3) ⟨f3, h3, _, y3⟩).2 (by simp [pair])
  refine ⟨p1, p2, p, h1, h2, ⟨f3, h3, _, y3⟩, lt_of_le_of_ne h.1 ?_⟩
  intro heq
  have := h.2 heq 0 (by simp [pair])
  simp [fractions, block, seg, pair, before, sizeAt, phase, PhaseModel.size] at this
  norm_num at this

/-- A standard model with constant enthalpy and entropy. -/
def simple (h s : ℝ) : ℝ → ℝ → Option (Std ℝ) := fun T _ => some ⟨h - T * s, h, 0, 0, 0⟩

theorem simple_gibbsHelmholtz (h s P lo hi : ℝ) (hlo : 0 < lo) : GibbsHelmholtz (simple h s) P lo hi := by
  refine ⟨fun T => ⟨h - T * s, h, 0, 0, 0⟩, fun _ _ => rfl, by fun_prop, fun T hT => ?_⟩
  have hT0 : T ≠ 0 := (hlo.trans hT.1).ne'
  have := ((hasDerivAt_const T h).sub ((hasDerivAt_id T).mul_const s)).div (hasDerivAt_id T) hT0
  refine this.congr_deriv ?_
  simp only [id, Pi.sub_apply]
  field_simp
  ring

/-- Heating a solution of two isomers: the amount of the one with the greater enthalpy goes from 3/2 to 2 moles. -/
example : ∃ T ∈ Set.Ioo (300 : ℝ) 600, ∃ p p', Has (atT (pair (simple 0 0) (simple (600 * gasConstant * Real.log 2) (2 * gasConstant * Real.log 2)) 3 300 100000 0) T) [3 / 2, 3 / 2] p ∧
    Has (atT (pair (simple 0 0) (simple (600 * gasConstant * Real.log 2) (2 * gasConstant * Real.log 2)) 3 300 100000 0) T) [1, 2] p' ∧
    enthalpy (pair (simple 0 0) (simple (600 * gasConstant * Real.log 2) (2 * gasConstant * Real.log 2)) 3 300 100000 0).phases p ≤
      enthalpy (pair (simple 0 0) (simple (600 * gasConstant * Real.log 2) (2 * gasConstant * Real.log 2)) 3 300 100000 0).phases p' := by
  have hR : gasConstant ≠ 0 := by norm_num [gasConstant]
  obtain ⟨props, f1, h1, y1, -⟩ := pair_equilibrium (simple 0 0) (simple (600 * gasConstant * Real.log 2) (2 * gasConstant * Real.log 2)) 3 300 100000 0 _ _ rfl rfl (3 / 2) (3 / 2)
    (by norm_num) (by norm_num) (by norm_num) (by norm_num) (by
      dsimp only
      rw [show 600 * gasConstant * Real.log 2 - 300 * (2 * gasConstant * Real.log 2) = 0 by ring]
      norm_num)
  obtain ⟨props', f2, h2, y2, -⟩ := pair_equilibrium (simple 0 0) (simple (600 * gasConstant * Real.log 2) (2 * gasConstant * Real.log 2)) 3 600 100000 0 _ _ rfl rfl 1 2
    (by norm_num) (by norm_num) (by norm_num) (by norm_num) (by
      dsimp only
      rw [show (600 * gasConstant * Real.log 2 - 600 * (2 * gasConstant * Real.log 2)) / (gasConstant * 600) = -Real.log 2 by field_simp; ring,
        Real.log_div (by norm_num) (by norm_num), Real.log_div (by norm_num) (by norm_num)]
      norm_num
      try ring)
  obtain ⟨T, hT, ⟨p, p', q1, q2⟩, hle⟩ := C113_ideal_temperature (pair (simple 0 0) (simple (600 * gasConstant * Real.log 2) (2 * gasConstant * Real.log 2)) 3 300 100000 0)
    (pair_proper _ _ _ _ _ _) (by norm_num [pair, gasConstant]) (by simp [pair]) (pair_positive _ _ _ _ _ _)
    (by intro ph hph; simp only [pair, List.mem_singleton] at hph; subst hph; exact Or.inl ⟨_, _, _, rfl, rfl⟩) 300 600 (by norm_num) (by norm_num)
    (by intro ph hph f hf; simp only [pair, List.mem_singleton] at hph; subst hph
        simp only [phase, List.mem_cons, List.not_mem_nil, or_false] at hf
        rcases hf with rfl | rfl <;> exact simple_gibbsHelmholtz _ _ _ _ _ (by norm_num))
    [3 / 2, 3 / 2] [1, 2] props props' ⟨f1, h1, _, y1⟩ ⟨f2, h2, _, y2⟩
  exact ⟨T, hT, p, p', q1, q2, hle p p' q1 q2⟩

/-- A standard model with a constant volume. -/
def rigid (g v : ℝ) : ℝ → ℝ → Option (Std ℝ) := fun _ P => some ⟨g + v * P, 0, v, 0, 0⟩

/-- Compressing a solution of two isomers: the amount of the one with the greater volume goes from 3/2 moles to 1 mole. -/
example : ∃ P ∈ Set.Ioo (100000 : ℝ) 200000, ∃ p p', Has (atP (pair (rigid (-(300 * gasConstant * Real.log 2)) (300 * gasConstant * Real.log 2 / 100000)) (rigid 0 0) 3 300 100000 0) P)
      [3 / 2, 3 / 2] p ∧
    Has (atP (pair (rigid (-(300 * gasConstant * Real.log 2)) (300 * gasConstant * Real.log 2 / 100000)) (rigid 0 0) 3 300 100000 0) P) [1, 2] p' ∧
    volume (pair (rigid (-(300 * gasConstant * Real.log 2)) (300 * gasConstant * Real.log 2 / 100000)) (rigid 0 0) 3 300 100000 0).phases p' ≤
      volume (pair (rigid (-(300 * gasConstant * Real.log 2)) (300 * gasConstant * Real.log 2 / 100000)) (rigid 0 0) 3 300 100000 0).phases p := by
  have hR : gasConstant ≠ 0 := by norm_num [gasConstant]
  obtain ⟨props, f1, h1, y1, -⟩ := pair_equilibrium (rigid (-(300 * gasConstant * Real.log 2)) (300 * gasConstant * Real.log 2 / 100000)) (rigid 0 0) 3 300 100000 0 _ _ rfl rfl (3 / 2) (3 / 2)
    (by norm_num) (by norm_num) (by norm_num) (by norm_num) (by
      dsimp only
      rw [show -(300 * gasConstant * Real.log 2) + 300 * gasConstant * Real.log 2 / 100000 * 100000 = 0 by ring]
      norm_num)
  obtain ⟨props', f2, h2, y2, -⟩ := pair_equilibrium (rigid (-(300 * gasConstant * Real.log 2)) (300 * gasConstant * Real.log 2 / 100000)) (rigid 0 0) 3 300 200000 0 _ _ rfl rfl 1 2
    (by norm_num) (by norm_num) (by norm_num) (by norm_num) (by
      dsimp only
      rw [show (-(300 * gasConstant * Real.log 2) + 300 * gasConstant * Real.log 2 / 100000 * 200000) / (gasConstant * 300) = Real.log 2 by field_simp; ring,
        Real.log_div (by norm_num) (by norm_num), Real.log_div (by norm_num) (by norm_num)]
      norm_num
      try ring)
  obtain ⟨P, hP, ⟨p, p', q1, q2⟩, hle⟩ := C113_ideal_pressure (pair (rigid (-(300 * gasConstant * Real.log 2)) (300 * gasConstant * Real.log 2 / 100000)) (rigid 0 0) 3 300 100000 0)
    (pair_proper _ _ _ _ _ _) (by norm_num [pair, gasConstant]) (by simp [pair]) (pair_positive _ _ _ _ _ _) 100000 200000 (by norm_num) (by norm_num)
    (by intro ph hph; simp only [pair, List.mem_singleton] at hph; subst hph
        refine Or.inl ⟨⟨_, _, _, rfl, rfl⟩, ?_⟩
        intro f hf
        simp only [phase, List.mem_cons, List.not_mem_nil, or_false] at hf
        have key : ∀ g v, VolumeIs (rigid g v) 300 100000 200000 fun _ => 0 := by
          intro g v
          refine ⟨fun P => ⟨g + v * P, 0, v, 0, 0⟩, fun _ _ => rfl, by fun_prop, fun P _ => ?_⟩
          simpa using ((hasDerivAt_id P).const_mul v).const_add g
        rcases hf with rfl | rfl <;> exact key _ _)
    [3 / 2, 3 / 2] [] [1, 2] [] props props' ⟨f1, h1, _, y1⟩ ⟨f2, h2, _, y2⟩
  exact ⟨P, hP, p, p', q1, q2, hle p p' q1 q2⟩

/-! ## The ideal model of aqueous solutions -/

/-- Water and a solute with the ideal model of aqueous solutions, with these amounts of water and of the solute. -/
noncomputable def salty (b : List ℝ) : Problem where
  phases := [phase [constant 0, constant 0] brine Activity.idealAqueous Activity.idealAqueous]
  R := gasConstant
  T := 300
  P := 100000
  eps := 1 / 10 ^ 16
  factor := 1
  A := [[1, 0], [0, 1]]
  b := b
  lower := [some (1 / 10 ^ 16), some (1 / 10 ^ 16)]
  upper := [none, none]
  uq := []

theorem salty_proper (b : List ℝ) : Proper (salty b) := by
  refine { sizes := ?_, nonempty := ?_ }
  · intro ph h
    simp only [salty, List.mem_singleton] at h
    subst h
    exact ⟨brine_keeps, brine_keeps⟩
  · intro ph h
    simp only [salty, List.mem_singleton] at h
    subst h
    simp [phase, PhaseModel.size]

theorem salty_equilibrium (w x : ℝ) (hw : 1 / 10 ^ 16 ≤ w) (hx : 1 / 10 ^ 16 ≤ x) :
    ∃ props, Feasible (salty [w, x]) [w, x] [] ∧ Has (salty [w, x]) [w, x] props ∧
      Potentials (salty [w, x]) [w, x] [] props (fun i => if i = 0 then Real.log (w / (w + x)) - 1 / 10 ^ 16 / w else
        Real.log (x / (w + x) / (Aqueous.waterMolarMass * (w / (w + x)))) - 1 / 10 ^ 16 / x) := by
  have hw0 : 0 < w := lt_of_lt_of_le (by norm_num) hw
  have hx0 : 0 < x := lt_of_lt_of_le (by norm_num) hx
  have hpos : ∀ z ∈ ([w, x] : List ℝ), 0 < z := by
    intro z hz
    simp only [List.mem_cons, List.not_mem_nil, or_false] at hz
    rcases hz with rfl | rfl <;> assumption
  obtain ⟨props, h⟩ := has_exists (salty [w, x]) (salty_proper _) [w, x] rfl hpos
    (by intro ph h f hf; simp only [salty, List.mem_singleton] at h; subst h
        simp [phase] at hf; subst hf; rfl)
    (by intro ph h; simp only [salty, List.mem_singleton] at h; subst h
        intro x a h1 h2 h3
        simp only [phase]
        rw [brine_activity, if_pos ⟨⟨h2, h3⟩, h1⟩])
  have hu := u_of_has (salty [w, x]) (salty_proper _) [w, x] rfl hpos props h (fun _ => [0, 0])
    (fun _ x => (x.map fun xi => Real.log (xi / (Aqueous.waterMolarMass * x.getD 0 0))).set 0 (Real.log (x.getD 0 0)))
    (by intro i hi; have hi : i < 1 := hi; interval_cases i; rfl)
    (by intro i hi x old a h; have hi : i < 1 := hi
        interval_cases i
        simp only [salty, phase, List.getElem_cons_zero] at h
        rw [brine_activity] at h
        split_ifs at h
        · simp only [Prod.mk.injEq, and_true] at h
          rw [← h]
        · simp at h)
  refine ⟨props, ⟨rfl, rfl, ?_, ?_, ?_⟩, h, ?_⟩
  · intro i hi
    have hi : i < 2 := hi
    interval_cases i <;> simp [balance, salty, Finset.sum_range_succ]
  · intro j v hv
    rcases j with _ | _ | j <;> simp [salty] at hv <;> subst hv <;> simp <;> norm_num at hw hx ⊢ <;> assumption
  · intro j v hv
    rcases j with _ | _ | j <;> simp [salty] at hv
  · have hu : props.u = [gasConstant * 300 * Real.log (w / (w + x)),
        gasConstant * 300 * Real.log (x / (w + x) / (Aqueous.waterMolarMass * (w / (w + x))))] := by
      rw [hu]
      have e1 : fractions (block (salty [w, x]) [w, x] 0) = [w / (w + x), x / (w + x)] := by
        simp [fractions, block, seg, salty, before, sizeAt, phase, PhaseModel.size]
      have er : List.range (salty [w, x]).phases.length = [0] := rfl
      rw [er]
      simp only [List.flatMap_cons, List.flatMap_nil, e1]
      simp [salty]
    have hg : gasConstant * 300 ≠ 0 := by norm_num [gasConstant]
    have hgr : (salty [w, x]).gradient [w, x] props.u = [Real.log (w / (w + x)) - 1 / 10 ^ 16 / w,
        Real.log (x / (w + x) / (Aqueous.waterMolarMass * (w / (w + x)))) - 1 / 10 ^ 16 / x] := by
      rw [hu]
      simp only [Problem.gradient, EquilibriumSetup.gradX, EquilibriumSetup.gradN, EquilibriumSetup.gradQ, salty,
        List.zipWith_cons_cons, List.zipWith_nil_left, List.map_nil, List.append_nil, mul_div_cancel_left₀ _ hg, mul_one]
    intro j hj
    dsimp only
    rw [hgr]
    have hj : j < 2 := hj
    interval_cases j <;> simp [salty, Finset.sum_range_succ]

/-- C113 fails for the ideal model of aqueous solutions: with more water and more of the solute, the potentials of the two change against the direction of the added
matter. The activity of water and those of the solutes in this model do not derive from one Gibbs energy, so that the equilibrium is not a minimum of one. -/
theorem C113_aqueous_wrong : ∃ (b b' : List ℝ) (n n' : List ℝ) (props props' : Props ℝ) (y y' : Nat → ℝ),
    Feasible (salty b) n [] ∧ Has (salty b) n props ∧ Potentials (salty b) n [] props y ∧
    Feasible (salty b') n' [] ∧ Has (salty b') n' props' ∧ Potentials (salty b') n' [] props' y' ∧
    ∑ i ∈ Finset.range (salty b).A.length, (y' i - y i) * (b'.getD i 0 - b.getD i 0) < 0 := by
  obtain ⟨p, f1, h1, y1⟩ := salty_equilibrium 1 1 (by norm_num) (by norm_num)
  obtain ⟨p', f2, h2, y2⟩ := salty_equilibrium (5 / 2) 2 (by norm_num) (by norm_num)
  refine ⟨_, _, _, _, p, p', _, _, f1, h1, y1, f2, h2, y2, ?_⟩
  have hlen : (salty [1, 1]).A.length = 2 := rfl
  rw [hlen, Finset.sum_range_succ, Finset.sum_range_succ, Finset.sum_range_zero]
  have hwm : (0 : ℝ) < Aqueous.waterMolarMass := by norm_num [Aqueous.waterMolarMass]
  have e1 : Real.log ((5 / 2 : ℝ) / (5 / 2 + 2)) - Real.log (1 / (1 + 1)) = Real.log (10 / 9) := by
    rw [← Real.log_div (by norm_num) (by norm_num)]; norm_num
  have e2 : Real.log ((2 : ℝ) / (5 / 2 + 2) / (Aqueous.waterMolarMass * (5 / 2 / (5 / 2 + 2)))) - Real.log (1 / (1 + 1) / (Aqueous.waterMolarMass * (1 / (1 + 1)))) = Real.log (4 / 5) := by
    rw [← Real.log_div (by positivity) (by positivity)]
    congr 1
    field_simp
    norm_num
  have e3 : 3 * Real.log (10 / 9 : ℝ) + 2 * Real.log (4 / 5) < -(1 / 100) := by
    have h1 : Real.log (10 / 9 : ℝ) ≤ 1 / 9 := by
      have := Real.log_le_sub_one_of_pos (show (0 : ℝ) < 10 / 9 by norm_num)
      linarith
    have h2 : Real.log (4 / 5 : ℝ) ≤ -(1 / 5) := by
      have := Real.log_le_sub_one_of_pos (show (0 : ℝ) < 4 / 5 by norm_num)
      linarith
    linarith
  simp only [List.getD_cons_zero, List.getD_cons_succ, if_true, one_ne_zero, if_false]
  norm_num at e1 e2 e3 ⊢
  linarith

end Verif.Response
