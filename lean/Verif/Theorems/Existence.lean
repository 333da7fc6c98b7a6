import Verif.Lemmas.Existence
import Verif.Theorems.Repeat

/-!
# C114: equilibrium problems with feasible amounts have equilibrium states
-/

namespace Verif.Existence

open ChemicalProps IdealEquilibrium Activity
open ChemicalSystem (System elementContent)
open ArraySerialization (Props)
open Repeat (Posed Sound)

variable {Pr : Type}

/-- **C114 (existence).** If some amounts satisfy the balances and bounds, and these leave no amount unbounded, then there is an equilibrium state. The activity models need
not be those of stable phases. -/
theorem C114_exists_partial (pr : Problem) (hr : Computable pr) (hb : Bounded pr) (hf : ∃ n q, Feasible pr n q) : ∃ n q props, Equilibrium pr n q props := by
  obtain ⟨n, q, h⟩ := hf
  exact exists_equilibrium pr hr hb n q h

/-- **C114 (closed systems).** In a problem without titrants no amount is unbounded if some combination of the balances contains all species with positive coefficients. -/
theorem C114_bounded (pr : Problem) (hclosed : pr.uq = []) (hpos : ∀ j < count pr.phases, ∃ v : Rat, pr.lower[j]? = some (some v) ∧ 0 < v) (w : Nat → ℝ)
    (hw : ∀ j < count pr.phases, 0 < ∑ i ∈ Finset.range pr.A.length, w i * (((pr.A.getD i []).getD j 0 : Rat) : ℝ)) : Bounded pr := by
  obtain ⟨B, hB⟩ : ∃ B, B = ∑ i ∈ Finset.range pr.A.length, w i * pr.b.getD i 0 := ⟨_, rfl⟩
  obtain ⟨c, hc⟩ : ∃ c : Nat → ℝ, c = fun j => ∑ i ∈ Finset.range pr.A.length, w i * (((pr.A.getD i []).getD j 0 : Rat) : ℝ) := ⟨_, rfl⟩
  refine ⟨∑ j ∈ Finset.range (count pr.phases), |B / c j|, ?_⟩
  intro n q hf y hy
  have hq : q = [] := List.length_eq_zero_iff.1 (by rw [hf.titrants, hclosed]; rfl)
  subst hq
  rw [List.append_nil] at hy
  have pos : ∀ j < count pr.phases, 0 < n.getD j 0 := by
    intro j hj
    obtain ⟨v, v1, v2⟩ := hpos j hj
    have := hf.lower j v v1
    rw [List.append_nil] at this
    have : (0 : ℝ) < v := by exact_mod_cast v2
    linarith
  have hsum : ∑ j ∈ Finset.range (count pr.phases), c j * n.getD j 0 = B := by
    rw [hB, hc]
    have : ∀ i ∈ Finset.range pr.A.length, w i * pr.b.getD i 0 = ∑ j ∈ Finset.range (count pr.phases), w i * ((((pr.A.getD i []).getD j 0 : Rat) : ℝ) * n.getD j 0) := by
      intro i hi
      rw [← hf.balances i (Finset.mem_range.1 hi)]
      unfold balance
      rw [List.append_nil, hf.species, Finset.mul_sum]
    rw [Finset.sum_congr rfl this, Finset.sum_comm]
    refine Finset.sum_congr rfl fun j _ => ?_
    rw [Finset.sum_mul]
    exact Finset.sum_congr rfl fun i _ => by ring
  obtain ⟨j, hj, rfl⟩ := List.getElem_of_mem hy
  have hj' : j < count pr.phases := by rw [← hf.species]; exact hj
  have e : n[j] = n.getD j 0 := by rw [List.getD_eq_getElem]
  rw [e]
  have hcj : 0 < c j := by rw [hc]; exact hw j hj'
  have h1 : c j * n.getD j 0 ≤ B := by
    rw [← hsum]
    refine Finset.single_le_sum (f := fun j => c j * n.getD j 0) (fun k hk => ?_) (Finset.mem_range.2 hj')
    have hk := Finset.mem_range.1 hk
    have : 0 < c k := by rw [hc]; exact hw k hk
    exact (mul_pos this (pos k hk)).le
  have h2 : n.getD j 0 ≤ B / c j := by rw [le_div_iff₀ hcj]; linarith
  have h3 : B / c j ≤ ∑ j ∈ Finset.range (count pr.phases), |B / c j| :=
    (le_abs_self _).trans (Finset.single_le_sum (f := fun j => |B / c j|) (fun k _ => abs_nonneg _) (Finset.mem_range.2 hj'))
  have := pos j hj'
  exact ⟨by linarith, by linarith⟩

/-- Weights of the elements, and of charge, with which all species count positive. -/
theorem weights (sys : System) (hm : Material sys) : ∃ M : Rat, 0 < M ∧ ∀ x ∈ sys.species, 0 < M * (sys.elements.map fun e => elementContent x e.symbol).sum - x.charge := by
  have h1 : ∀ x ∈ sys.species, 0 ≤ (sys.elements.map fun e => elementContent x e.symbol).sum ∧ (0 < (sys.elements.map fun e => elementContent x e.symbol).sum ∨ x.charge < 0) := by
    intro x hx
    obtain ⟨a, b⟩ := hm x hx
    have nn : ∀ l : List Chem.Element, (∀ e ∈ l, 0 ≤ elementContent x e.symbol) → 0 ≤ (l.map fun e => elementContent x e.symbol).sum := fun l hl =>
      List.sum_nonneg fun y hy => by obtain ⟨e, he, rfl⟩ := List.mem_map.1 hy; exact hl e he
    refine ⟨nn _ a, b.imp_left ?_⟩
    rintro ⟨e, he, hp⟩
    have : elementContent x e.symbol ≤ (sys.elements.map fun e => elementContent x e.symbol).sum :=
      List.single_le_sum (fun y hy => by obtain ⟨e, he, rfl⟩ := List.mem_map.1 hy; exact a e he) _ (List.mem_map_of_mem he)
    linarith
  generalize sys.species = l at h1
  induction l with
  | nil => exact ⟨1, one_pos, by simp⟩
  | cons x l ih =>
    obtain ⟨M, hM, h⟩ := ih fun y hy => h1 y (List.mem_cons_of_mem _ hy)
    obtain ⟨a, b⟩ := h1 x List.mem_cons_self
    obtain ⟨M', hM', h'⟩ : ∃ M', M ≤ M' ∧ 0 < M' * (sys.elements.map fun e => elementContent x e.symbol).sum - x.charge := by
      rcases b with b | b
      · refine ⟨max M (x.charge / (sys.elements.map fun e => elementContent x e.symbol).sum + 1), le_max_left _ _, ?_⟩
        have h2 := mul_le_mul_of_nonneg_right (le_max_right M (x.charge / (sys.elements.map fun e => elementContent x e.symbol).sum + 1)) a
        rw [add_mul, div_mul_cancel₀ _ b.ne', one_mul] at h2
        linarith
      · refine ⟨M, le_refl _, ?_⟩
        have := mul_nonneg hM.le a
        linarith
    refine ⟨M', by linarith, ?_⟩
    intro y hy
    rcases List.mem_cons.1 hy with rfl | hy
    · exact h'
    · have h3 := h y hy
      have := mul_le_mul_of_nonneg_right hM' (h1 y (List.mem_cons_of_mem _ hy)).1
      linarith

theorem posed_positive {sys : System} {me : Rat} {s : EquilibriumSpecs.Specs Rat Pr} {n0 : List Rat} {c : Conditions.Cond} {calls : List Restrictions.Call}
    {eps : Rat} (heps : 0 < eps) {pr : Problem} (h : Posed sys me s n0 c calls eps pr) : ∀ j < count pr.phases, ∃ v : Rat, pr.lower[j]? = some (some v) ∧ 0 < v := by
  intro j hj
  obtain ⟨-, -, hB⟩ := Repeat.posed_bounds h
  have hl : n0.length = count pr.phases := by rw [h.amounts, h.species]
  refine ⟨_, hB.lower j (by omega), lt_of_lt_of_le heps ?_⟩
  cases Restrictions.last (Restrictions.effectDown (EquilibriumSolver.condSys sys me) j) calls <;> simp [Restrictions.Lim.lower]

/-- The problem that is made for a closed system of material species is bounded. -/
theorem C114_system_bounded (sys : System) (me : Rat) (s : EquilibriumSpecs.Specs Rat Pr) (n0 : List Rat) (c : Conditions.Cond) (calls : List Restrictions.Call)
    (eps : Rat) (heps : 0 < eps) (pr : Problem) (hs : Sound sys s) (hm : Material sys) (h : Posed sys me s n0 c calls eps pr) (hclosed : s.titrantsImplicit = []) :
    Bounded pr := by
  obtain ⟨M, hM, hw⟩ := weights sys hm
  obtain ⟨hA, -, -⟩ := Repeat.posed_bounds h
  have hAl := Reference.matrix_length hA
  have huq : pr.uq = [] := List.length_eq_zero_iff.1 (by rw [h.titrants, hclosed]; rfl)
  refine C114_bounded pr huq (posed_positive heps h) (fun i => if i < sys.elements.length then (M : ℝ) else -1) ?_
  intro j hj
  rw [← h.species] at hj
  have hx : sys.species[j]? = some sys.species[j] := List.getElem?_eq_getElem hj
  have h1 := hw _ (List.getElem_mem hj)
  have e : ∑ i ∈ Finset.range pr.A.length, (if i < sys.elements.length then (M : ℝ) else -1) * (((pr.A.getD i []).getD j 0 : Rat) : ℝ) =
      ((M * (sys.elements.map fun e => elementContent sys.species[j] e.symbol).sum - sys.species[j].charge : Rat) : ℝ) := by
    rw [hAl, Finset.sum_range_succ, if_neg (lt_irrefl _), Repeat.species_column hs hA j _ hx _ (by omega)]
    have e1 : ∀ i ∈ Finset.range sys.elements.length, (if i < sys.elements.length then (M : ℝ) else -1) * (((pr.A.getD i []).getD j 0 : Rat) : ℝ) =
        (M : ℝ) * (((sys.elements.map fun e => elementContent sys.species[j] e.symbol).getD i 0 : Rat) : ℝ) := by
      intro i hi
      have hi := Finset.mem_range.1 hi
      rw [if_pos hi, Repeat.species_column hs hA j _ hx _ (by omega), List.getD_append _ _ _ _ (by simpa using hi)]
    rw [Finset.sum_congr rfl e1, ← Finset.mul_sum, List.getD_append_right _ _ _ _ (by simp)]
    have e2 : ∀ l : List Rat, ∑ i ∈ Finset.range l.length, ((l.getD i 0 : Rat) : ℝ) = ((l.sum : Rat) : ℝ) := by
      intro l
      induction l with
      | nil => simp
      | cons y l ih => rw [List.length_cons, Finset.sum_range_succ']; simp only [List.getD_cons_succ, List.getD_cons_zero, ih, List.sum_cons]; push_cast; ring
    have e3 := e2 (sys.elements.map fun e => elementContent sys.species[j] e.symbol)
    rw [List.length_map] at e3
    rw [e3]
    simp
    ring
  rw [e]
  exact_mod_cast h1

/-- **C114 (from a state).** A calculation for a closed system at given temperature and pressure, from a state in which every species has at least the amount `epsilon` and no
restriction is violated, has an equilibrium state. -/
theorem C114_state_partial (sys : System) (me : Rat) (s : EquilibriumSpecs.Specs Rat Pr) (n0 : List Rat) (c : Conditions.Cond) (calls : List Restrictions.Call)
    (eps : Rat) (heps : 0 < eps) (pr : Problem) (hs : Sound sys s) (hm : Material sys) (hpr : Modelled pr) (h : Posed sys me s n0 c calls eps pr)
    (hclosed : s.titrantsImplicit = []) (hne : n0 ≠ []) (hc : c.components = [] ∧ c.amounts = n0)
    (hall : Allowed (EquilibriumSolver.condSys sys me) calls eps n0) : ∃ n q props, Equilibrium pr n q props := by
  obtain ⟨-, -, hB⟩ := Repeat.posed_bounds h
  have huq : pr.uq = [] := List.length_eq_zero_iff.1 (by rw [h.titrants, hclosed]; rfl)
  have hjoin : ∀ (l : List (Option Rat)) (j : Nat) (v : Rat), l[j]?.join = none → l[j]? ≠ some (some v) := by
    intro l j v h1 h2
    rw [h2] at h1
    cases h1
  refine C114_exists_partial pr ⟨hpr, posed_positive heps h⟩ (C114_system_bounded sys me s n0 c calls eps heps pr hs hm h hclosed) ⟨n0.map fun x : Rat => (x : ℝ), [], ?_⟩
  have hn : ∀ j (hj : j < n0.length), (n0.map (fun x : Rat => (x : ℝ)) ++ []).getD j 0 = ((n0[j] : Rat) : ℝ) := by
    intro j hj
    rw [List.append_nil, List.getD_eq_getElem _ _ (by simpa using hj), List.getElem_map]
  refine ⟨by rw [List.length_map, h.amounts, h.species], by rw [huq], Repeat.balances_start hs h h.amounts hne hc [] (by rw [huq]; rfl), ?_, ?_⟩
  · intro j v hv
    by_cases hj : j < n0.length
    · rw [hn j hj]
      obtain ⟨a1, a2, -⟩ := hall j hj
      rw [hB.lower j hj] at hv
      simp only [Option.some.injEq] at hv
      have : v ≤ n0[j] := by
        rw [← hv]
        cases hL : Restrictions.last (Restrictions.effectDown (EquilibriumSolver.condSys sys me) j) calls with
        | free => exact a1
        | fixed => exact max_le (le_refl _) a1
        | bound a => exact max_le (a2 a hL) a1
      exact_mod_cast this
    · exact absurd hv (hjoin _ _ _ (hB.rest j (by rw [← h.amounts]; omega)).1)
  · intro j v hv
    by_cases hj : j < n0.length
    · rw [hn j hj]
      obtain ⟨a1, -, a3⟩ := hall j hj
      rw [hB.upper j hj] at hv
      simp only [Option.some.injEq] at hv
      have : n0[j] ≤ v := by
        cases hL : Restrictions.last (Restrictions.effectUp (EquilibriumSolver.condSys sys me) j) calls with
        | free => rw [hL] at hv; simp [Restrictions.Lim.upper] at hv
        | fixed => rw [hL] at hv; simp only [Restrictions.Lim.upper, Option.some.injEq] at hv; rw [← hv]; exact le_max_left _ _
        | bound a => rw [hL] at hv; simp only [Restrictions.Lim.upper, Option.some.injEq] at hv; rw [← hv]; exact le_max_of_le_left (a3 a hL)
      exact_mod_cast this
    · exact absurd hv (hjoin _ _ _ (hB.rest j (by rw [← h.amounts]; omega)).2)

/-- **C114 (existence and uniqueness).** If besides the phases meet Gibbs' criterion and the barrier is used, there is exactly one vector of amounts in equilibrium, and it has the
smallest energy of all feasible amounts. -/
theorem C114_unique_partial (pr : Problem) (hr : Computable pr) (hreg : Regular pr) (hbar : 0 < pr.eps * pr.factor) (hb : Bounded pr) (hf : ∃ n q, Feasible pr n q) :
    ∃ n q props, Equilibrium pr n q props ∧ (∀ n' q' props', Equilibrium pr n' q' props' → n' = n) ∧
      ∀ n' q' props', Feasible pr n' q' → Has pr n' props' → energy pr n q props.u ≤ energy pr n' q' props'.u := by
  obtain ⟨n, q, props, h⟩ := C114_exists_partial pr hr hb hf
  refine ⟨n, q, props, h, ?_, ?_⟩
  · intro n' q' props' h'
    exact C105_unique_amounts_partial pr hreg hbar n' q' n q props' props h' h
  · intro n' q' props' hf' hh'
    exact C105_minimum_partial pr hreg n q n' q' props props' h hf' hh'

/-! ### Activity models -/

theorem ofFn_of_mem {m : Nat} {x : Fin m → ℝ} (f : ℝ → ℝ) : (List.ofFn x).map f = List.ofFn fun k => f (x k) := by
  rw [List.map_ofFn]
  rfl

/-- **C114 (ideal models).** The models of ideal solutions and of ideal gases are continuous. -/
theorem C114_ideal (standard : List (ℝ → ℝ → Option (Std ℝ))) (species : List (Aqueous.Species ℝ)) (hl : species.length = standard.length)
    (model ideal : Model) (hm : Ideal model) (T P : ℝ) : ContinuousModel (phase standard species model ideal) T P := by
  obtain ⟨⟨gas, h⟩, -, hret⟩ := activityFn_ideal model hm species
  have hs : (phase standard species model ideal).size = species.length := hl.symm
  constructor
  · intro x a h1 _ _ h2 h3
    rw [hs] at h1 h2 h3
    exact hret T P x a h1 h2 h3
  · refine ⟨fun x k => Real.log (x k) + shift gas P, ?_, ?_⟩
    · refine continuousOn_pi.2 fun k => ContinuousOn.add (ContinuousOn.log (continuous_apply k).continuousOn fun x hx => (hx.1 k).ne') continuousOn_const
    · intro x _ old a ha
      rw [h T P _ old a ha, ofFn_of_mem]

theorem aqueous_fn (species : List (Aqueous.Species ℝ)) (iw : Nat) (hw : Aqueous.indexWithFormula species Aqueous.waterFormula = .ok iw) (T P : ℝ) (x : List ℝ) (old : AProps ℝ) :
    activityFn idealAqueous species T P x old =
      if (old.ln_g.length = species.length ∧ old.ln_a.length = species.length) ∧ x.length = species.length then
        ({ old.zero with ln_a := (x.map fun xi => Real.log (xi / (Aqueous.waterMolarMass * x.getD iw 0))).set iw (Real.log (x.getD iw 0)) }, true)
      else (old, false) := by
  unfold activityFn idealAqueous
  rw [hw, Res.bind_ok', Res.bind_ok']
  by_cases h : (old.ln_g.length = species.length ∧ old.ln_a.length = species.length) ∧ x.length = species.length
  · rw [if_pos h]
    obtain ⟨⟨h1, h2⟩, h3⟩ := h
    simp [Mem.fits, h1, h2, h3]
  · rw [if_neg h]
    rw [not_and_or, not_and_or] at h
    simp [Mem.fits, h]

/-- **C114 (aqueous solutions).** The ideal model of aqueous solutions is continuous, although it does not meet Gibbs' criterion (C105). -/
theorem C114_aqueous (standard : List (ℝ → ℝ → Option (Std ℝ))) (species : List (Aqueous.Species ℝ)) (hl : species.length = standard.length) (iw : Nat)
    (hw : Aqueous.indexWithFormula species Aqueous.waterFormula = .ok iw) (hiw : iw < species.length) (ideal : Model) (T P : ℝ) :
    ContinuousModel (phase standard species idealAqueous ideal) T P := by
  have hs : (phase standard species idealAqueous ideal).size = species.length := hl.symm
  constructor
  · intro x a h1 _ _ h2 h3
    rw [hs] at h1 h2 h3
    show (activityFn idealAqueous species T P x a).2 = true
    rw [aqueous_fn species iw hw, if_pos ⟨⟨h2, h3⟩, h1⟩]
  · have hi : iw < (phase standard species idealAqueous ideal).size := by rw [hs]; exact hiw
    refine ⟨fun x k => if (k : Nat) = iw then Real.log (x ⟨iw, hi⟩) else Real.log (x k / (Aqueous.waterMolarMass * x ⟨iw, hi⟩)), ?_, ?_⟩
    · refine continuousOn_pi.2 fun k => ?_
      by_cases hk : (k : Nat) = iw
      · simp only [if_pos hk]
        exact ContinuousOn.log (continuous_apply _).continuousOn fun x hx => (hx.1 _).ne'
      · simp only [if_neg hk]
        have hM : (Aqueous.waterMolarMass : ℝ) ≠ 0 := by norm_num [Aqueous.waterMolarMass]
        refine ContinuousOn.log (ContinuousOn.div (continuous_apply _).continuousOn (continuousOn_const.mul (continuous_apply _).continuousOn) ?_) ?_
        · exact fun x hx => mul_ne_zero hM (hx.1 _).ne'
        · exact fun x hx => div_ne_zero (hx.1 _).ne' (mul_ne_zero hM (hx.1 _).ne')
    · intro x _ old a ha
      have ha : activityFn idealAqueous species T P (List.ofFn x) old = (a, true) := ha
      rw [aqueous_fn species iw hw] at ha
      split_ifs at ha
      · simp only [Prod.mk.injEq, and_true] at ha
        rw [← ha]
        apply List.ext_getElem
        · simp
        · intro k h1 h2
          have hx : (List.ofFn x).getD iw 0 = x ⟨iw, hi⟩ := by
            rw [List.getD_eq_getElem _ _ (by simpa using hi), List.getElem_ofFn]
          simp only [List.getElem_set, List.getElem_map, List.getElem_ofFn, hx]
          by_cases hk : iw = k
          · simp [hk]
          · rw [if_neg hk, if_neg (by omega)]
      · simp at ha

theorem redlichKister_fn (a0 a1 a2 : ℝ) (species : List (Aqueous.Species ℝ)) (h2 : species.length = 2) (T P x1 x2 : ℝ) (old : AProps ℝ) (g1 g2 b1 b2 : ℝ)
    (hg : old.ln_g = [g1, g2]) (ha : old.ln_a = [b1, b2]) :
    (activityFn (redlichKister a0 a1 a2) species T P [x1, x2] old).2 = true ∧ (activityFn (redlichKister a0 a1 a2) species T P [x1, x2] old).1.ln_a =
      [x2 * x2 * (a0 + a1 * (3 * x1 - x2) + a2 * (x1 - x2) * (5 * x1 - x2)) + Real.log x1,
        x1 * x1 * (a0 - a1 * (3 * x2 - x1) + a2 * (x2 - x1) * (5 * x2 - x1)) + Real.log x2] := by
  unfold activityFn redlichKister
  simp [h2, Mem.fits, hg, ha]

theorem ofFn_two (x : Fin 2 → ℝ) : List.ofFn x = [x 0, x 1] := by simp [List.ofFn_succ]

/-- **C114 (Redlich and Kister).** So is the model of Redlich and Kister for every parameters, also those for which the phase splits. -/
theorem C114_redlichKister (a0 a1 a2 : ℝ) (standard : List (ℝ → ℝ → Option (Std ℝ))) (species : List (Aqueous.Species ℝ)) (hl : standard.length = 2)
    (h2 : species.length = 2) (ideal : Model) (T P : ℝ) : ContinuousModel (phase standard species (redlichKister a0 a1 a2) ideal) T P := by
  obtain ⟨s1, s2, rfl⟩ := List.length_eq_two.1 hl
  constructor
  · intro x a h1 _ _ h3 h4
    obtain ⟨x1, x2, rfl⟩ := List.length_eq_two.1 (show x.length = 2 from h1)
    obtain ⟨g1, g2, hg⟩ := List.length_eq_two.1 (show a.ln_g.length = 2 from h3)
    obtain ⟨b1, b2, hb⟩ := List.length_eq_two.1 (show a.ln_a.length = 2 from h4)
    exact (redlichKister_fn a0 a1 a2 species h2 T P x1 x2 a g1 g2 b1 b2 hg hb).1
  · let f : (Fin 2 → ℝ) → Fin 2 → ℝ := fun x =>
      ![x 1 * x 1 * (a0 + a1 * (3 * x 0 - x 1) + a2 * (x 0 - x 1) * (5 * x 0 - x 1)) + Real.log (x 0),
        x 0 * x 0 * (a0 - a1 * (3 * x 1 - x 0) + a2 * (x 1 - x 0) * (5 * x 1 - x 0)) + Real.log (x 1)]
    refine ⟨f, ?_, ?_⟩
    · have c0 : ContinuousOn (fun x : Fin 2 → ℝ => Real.log (x 0)) (Compositions 2) := ContinuousOn.log (continuous_apply _).continuousOn fun x hx => (hx.1 _).ne'
      have c1 : ContinuousOn (fun x : Fin 2 → ℝ => Real.log (x 1)) (Compositions 2) := ContinuousOn.log (continuous_apply _).continuousOn fun x hx => (hx.1 _).ne'
      show ContinuousOn f (Compositions 2)
      refine continuousOn_pi.2 fun k => ?_
      match k with
      | 0 => exact ContinuousOn.add (Continuous.continuousOn (by fun_prop)) c0
      | 1 => exact ContinuousOn.add (Continuous.continuousOn (by fun_prop)) c1
    · intro x _ old a ha
      have ex : List.ofFn x = [x (0 : Fin 2), x (1 : Fin 2)] := ofFn_two x
      have ha : activityFn (redlichKister a0 a1 a2) species T P (List.ofFn x) old = (a, true) := ha
      rw [ex] at ha
      have hlen : old.ln_g.length = 2 ∧ old.ln_a.length = 2 := by
        by_contra hne
        rw [not_and_or] at hne
        unfold activityFn redlichKister at ha
        simp [h2, Mem.fits, hne] at ha
      obtain ⟨g1, g2, hg⟩ := List.length_eq_two.1 hlen.1
      obtain ⟨b1, b2, hb⟩ := List.length_eq_two.1 hlen.2
      have := (redlichKister_fn a0 a1 a2 species h2 T P (x (0 : Fin 2)) (x (1 : Fin 2)) old g1 g2 b1 b2 hg hb).2
      rw [ha] at this
      rw [this]
      exact (ofFn_two (f x)).symm

/-! ### Missing elements -/

theorem balance_content {sys : System} {me : Rat} {s : EquilibriumSpecs.Specs Rat Pr} {n0 : List Rat} {c : Conditions.Cond} {calls : List Restrictions.Call}
    {eps : Rat} {pr : Problem} (hs : Sound sys s) (h : Posed sys me s n0 c calls eps pr) (hclosed : s.titrantsImplicit = []) (v : List Rat) (hv : v.length = sys.species.length)
    (i : Nat) (hi : i < sys.elements.length) :
    balance pr.A (v.map fun x : Rat => (x : ℝ)) i = ((ChemicalSystem.total (elementContent · sys.elements[i].symbol) sys.species v : Rat) : ℝ) := by
  obtain ⟨hA, -, -⟩ := Repeat.posed_bounds h
  obtain ⟨phases, hphases⟩ := hs.system
  have hrows := EquilibriumSetup.rows_Aex phases sys hphases _ _ hA
  rw [Repeat.balance_cast _ _ (by intro row hr; rw [hrows row hr, hv, hclosed]; rfl) i (by rw [Reference.matrix_length hA]; omega)]
  have := EquilibriumSetup.mulVec_Aex phases sys hphases s hs.symbols hs.formulas pr.A hA v [] hv
  rw [List.append_nil] at this
  rw [this, List.getD_append _ _ _ _ (by simpa using hi), List.getD_eq_getElem _ _ (by simpa using hi), List.getElem_map]
  simp [EquilibriumSetup.titrants]

/-- **C114 (missing elements).** A calculation for a closed system has no feasible amounts, and no equilibrium state, if the conditions give less of an element than is in all species of
the system together when each has the amount `epsilon`. -/
theorem C114_missing (sys : System) (me : Rat) (s : EquilibriumSpecs.Specs Rat Pr) (n0 n1 : List Rat) (c : Conditions.Cond) (calls : List Restrictions.Call)
    (eps : Rat) (pr : Problem) (hs : Sound sys s) (hm : Material sys) (h : Posed sys me s n0 c calls eps pr) (hclosed : s.titrantsImplicit = [])
    (hne : n1 ≠ []) (hc : c.components = [] ∧ c.amounts = n1) (hl : n1.length = sys.species.length) (e : Chem.Element) (he : e ∈ sys.elements)
    (hless : ChemicalSystem.total (elementContent · e.symbol) sys.species n1 < least sys eps e.symbol) : ¬ ∃ n q, Feasible pr n q := by
  rintro ⟨n, q, hf⟩
  obtain ⟨hA, -, hB⟩ := Repeat.posed_bounds h
  have huq : pr.uq = [] := List.length_eq_zero_iff.1 (by rw [h.titrants, hclosed]; rfl)
  have hq : q = [] := List.length_eq_zero_iff.1 (by rw [hf.titrants, huq]; rfl)
  subst hq
  obtain ⟨i, hi, rfl⟩ := List.getElem_of_mem he
  have hiA : i < pr.A.length := by rw [Reference.matrix_length hA]; omega
  have h1 := Repeat.balances_start hs h hl hne hc [] (by rw [huq]; rfl) i hiA
  rw [List.append_nil, balance_content hs h hclosed n1 hl i hi] at h1
  have h2 := hf.balances i hiA
  rw [← h1, List.append_nil] at h2
  have h3 := balance_content hs h hclosed (List.replicate sys.species.length eps) (by simp) i hi
  have h4 : balance pr.A ((List.replicate sys.species.length eps).map fun x : Rat => (x : ℝ)) i ≤ balance pr.A n i := by
    unfold balance
    have hln : n.length = sys.species.length := by rw [hf.species, h.species]
    rw [List.length_map, List.length_replicate, hln]
    refine Finset.sum_le_sum fun j hj => ?_
    have hj := Finset.mem_range.1 hj
    rw [Repeat.species_column hs hA j _ (List.getElem?_eq_getElem hj) i hiA, List.getD_append _ _ _ _ (by simpa using hi),
      List.getD_eq_getElem (List.map _ sys.elements) _ (by simpa using hi), List.getElem_map]
    have hpos : (0 : ℝ) ≤ (elementContent sys.species[j] sys.elements[i].symbol : Rat) := by
      exact_mod_cast (hm _ (List.getElem_mem hj)).1 _ (List.getElem_mem hi)
    apply mul_le_mul_of_nonneg_left _ hpos
    have hv := hf.lower j _ (hB.lower j (by rw [h.amounts]; exact hj))
    rw [List.append_nil] at hv
    refine le_trans ?_ hv
    rw [List.getD_eq_getElem _ _ (by simpa using hj), List.getElem_map, List.getElem_replicate]
    have : eps ≤ (Restrictions.last (Restrictions.effectDown (EquilibriumSolver.condSys sys me) j) calls).lower (n0[j]'(by rw [h.amounts]; exact hj)) eps := by
      cases Restrictions.last (Restrictions.effectDown (EquilibriumSolver.condSys sys me) j) calls <;> simp [Restrictions.Lim.lower]
    exact_mod_cast this
  rw [h3, h2] at h4
  have h5 : least sys eps sys.elements[i].symbol ≤ ChemicalSystem.total (elementContent · sys.elements[i].symbol) sys.species n1 := by
    unfold least
    exact_mod_cast h4
  linarith

/-! ### Examples -/

open Imposed (acid acid_proper acidSystem acidPhases acidSystem_constructed gas_ne)
open Repeat (opened closed initially opened_sound)

theorem acidSystem_material : Material acidSystem := by
  unfold Material
  decide +kernel

theorem closed_sound : Sound acidSystem closed where
  system := ⟨acidPhases, acidSystem_constructed⟩
  symbols := by decide +kernel
  formulas := by decide +kernel

/-- Water and the hydrogen ion in a closed system. -/
noncomputable def vessel (b : List ℝ) : Problem :=
  { acid 9 1 0 with
    A := [[2, 1], [1, 0], [0, 1]]
    b := b
    lower := [some (1 / 10 ^ 16), some (1 / 10 ^ 16)]
    upper := [none, none]
    uq := [] }

theorem vessel_posed (w h : Rat) (hw : (w = 9 ∧ h = 1) ∨ (w = 0 ∧ h = 1)) : Posed acidSystem 1 closed [w, h] (initially [w, h]) [] (1 / 10 ^ 16) (vessel [2 * w + h, w, h]) where
  amounts := by
    show 2 = _
    decide +kernel
  species := by
    show _ = 0 + 2
    decide +kernel
  titrants := by
    show 0 = _
    decide +kernel
  closed := by decide +kernel
  problem := by
    refine ⟨{}, {}, ⟨[[2, 1], [1, 0], [0, 1]], [[], [], []], [2 * w + h, w, h], [some (1 / 10 ^ 16), some (1 / 10 ^ 16)], [none, none]⟩,
      rfl, .refl _, .refl _, .refl _, .refl _, ?_, rfl, ?_, rfl, rfl⟩
    · rcases hw with ⟨rfl, rfl⟩ | ⟨rfl, rfl⟩ <;> decide +kernel
    · simp [vessel]

theorem vessel_modelled (b : List ℝ) : Modelled (vessel b) := by
  refine { sizes := (acid_proper 9 1 0).sizes, nonempty := (acid_proper 9 1 0).nonempty, standard := ?_, models := ?_ }
  · intro ph h f hf
    simp only [vessel, acid, List.mem_singleton] at h
    subst h
    simp [phase] at hf
    rcases hf with rfl | rfl <;> rfl
  · intro ph h
    simp only [vessel, acid, List.mem_singleton] at h
    subst h
    exact C114_ideal _ _ rfl _ _ (Or.inl rfl) _ _

/-- The state with 9 moles of water and 1 mole of the ion meets the hypotheses. -/
example : ∃ n q props, Equilibrium (vessel [2 * (9 : Rat) + (1 : Rat), (9 : Rat), (1 : Rat)]) n q props := by
  apply C114_state_partial acidSystem 1 closed [9, 1] (initially [9, 1]) [] (1 / 10 ^ 16) (by norm_num) _ closed_sound acidSystem_material (vessel_modelled _)
    (vessel_posed 9 1 (Or.inl ⟨rfl, rfl⟩)) (by decide +kernel) (by simp) ⟨rfl, rfl⟩
  intro i hi
  have hi : i < 2 := hi
  interval_cases i <;> simp [Restrictions.last] <;> norm_num

theorem vessel_regular (b : List ℝ) : Regular (vessel b) := by
  refine { sizes := (acid_proper 9 1 0).sizes, nonempty := (acid_proper 9 1 0).nonempty, gas := ?_, barrier := ?_, stable := ?_, positive := ?_ }
  · norm_num [vessel, acid, Activity.gasConstant]
  · norm_num [vessel, acid]
  · intro ph h
    simp only [vessel, acid, List.mem_singleton] at h
    subst h
    exact C105_ideal_stable _ _ _ _ (Or.inl rfl) _ _
  · intro j hj
    have hj : j < 2 := hj
    interval_cases j <;> simp [vessel]

/-- **C114 (fails).** A calculation that starts from a state without oxygen has nothing to find: a system of water and the hydrogen ion, with one mole of the ion and no water. -/
theorem C114_missing_wrong : Posed acidSystem 1 closed [0, 1] (initially [0, 1]) [] (1 / 10 ^ 16) (vessel [2 * (0 : Rat) + (1 : Rat), (0 : Rat), (1 : Rat)]) ∧
    Modelled (vessel [2 * (0 : Rat) + (1 : Rat), (0 : Rat), (1 : Rat)]) ∧ Regular (vessel [2 * (0 : Rat) + (1 : Rat), (0 : Rat), (1 : Rat)]) ∧ Material acidSystem ∧
    ¬ ∃ n q props, Equilibrium (vessel [2 * (0 : Rat) + (1 : Rat), (0 : Rat), (1 : Rat)]) n q props := by
  refine ⟨vessel_posed 0 1 (Or.inr ⟨rfl, rfl⟩), vessel_modelled _, vessel_regular _, acidSystem_material, ?_⟩
  rintro ⟨n, q, props, h⟩
  refine C114_missing acidSystem 1 closed [0, 1] [0, 1] (initially [0, 1]) [] (1 / 10 ^ 16) _ closed_sound acidSystem_material (vessel_posed 0 1 (Or.inr ⟨rfl, rfl⟩))
    (by decide +kernel) (by simp) ⟨rfl, rfl⟩ (by decide +kernel) ChemicalSystem.O (by decide +kernel) (by decide +kernel) ⟨n, q, h.1⟩

theorem acid_posed : Posed acidSystem 1 opened [9, 1] (initially [9, 1]) [] (1 / 10 ^ 16) (acid 9 1 (-1)) where
  amounts := by
    show 2 = _
    decide +kernel
  species := by
    show _ = 0 + 2
    decide +kernel
  titrants := by
    show 1 = _
    decide +kernel
  closed := by decide +kernel
  problem := by
    refine ⟨{}, {}, ⟨[[2, 1, 1], [1, 0, 0], [0, 1, 1]], [[], [], []], [19, 9, 1], [some (1 / 10 ^ 16), some (1 / 10 ^ 16), none], [none, none, none]⟩,
      rfl, .refl _, .refl _, .refl _, .refl _, by decide +kernel, rfl, ?_, rfl, rfl⟩
    norm_num [acid]

/-- **C114 (fails).** With a given pH there may be feasible amounts and no equilibrium state, for phases that meet Gibbs' criterion: here the activity of the ion would be 10, and in an
ideal solution activities are less than one. However much of the acid is added, more is asked for. -/
theorem C114_open_wrong : Posed acidSystem 1 opened [9, 1] (initially [9, 1]) [] (1 / 10 ^ 16) (acid 9 1 (-1)) ∧ Computable (acid 9 1 (-1)) ∧ Regular (acid 9 1 (-1)) ∧
    Material acidSystem ∧ Feasible (acid 9 1 (-1)) [9, 1] [0] ∧ ¬ ∃ n q props, Equilibrium (acid 9 1 (-1)) n q props := by
  have hpos : ∀ j < count (acid 9 1 (-1)).phases, ∃ v : Rat, (acid 9 1 (-1)).lower[j]? = some (some v) ∧ 0 < v := by
    intro j hj
    have hj : j < 2 := hj
    interval_cases j <;> simp [acid]
  have hmod : Modelled (acid 9 1 (-1)) :=
    { sizes := (acid_proper 9 1 (-1)).sizes, nonempty := (acid_proper 9 1 (-1)).nonempty, standard := (vessel_modelled []).standard, models := (vessel_modelled []).models }
  have hreg : Regular (acid 9 1 (-1)) :=
    { sizes := (acid_proper 9 1 (-1)).sizes, nonempty := (acid_proper 9 1 (-1)).nonempty, gas := (vessel_regular []).gas, barrier := (vessel_regular []).barrier,
      stable := (vessel_regular []).stable, positive := hpos }
  refine ⟨acid_posed, ⟨hmod, hpos⟩, hreg, acidSystem_material, ?_, ?_⟩
  · refine ⟨rfl, rfl, ?_, ?_, ?_⟩
    · intro i hi
      have hi : i < 3 := hi
      interval_cases i <;> simp [balance, acid, Finset.sum_range_succ] <;> norm_num
    · intro j u hu
      rcases j with _ | _ | _ | j <;> simp [acid] at hu <;> subst hu <;> norm_num
    · intro j u hu
      rcases j with _ | _ | _ | j <;> simp [acid] at hu
  · rintro ⟨n, q, props, hf, hh, y, hy⟩
    have hp := positive_of_feasible _ hreg n q hf
    obtain ⟨a, b, rfl⟩ := List.length_eq_two.1 (show n.length = 2 from hf.species)
    obtain ⟨t, rfl⟩ := List.length_eq_one_iff.1 (show q.length = 1 from hf.titrants)
    have ha : 0 < a := hp a (by simp)
    have hb : 0 < b := hp b (by simp)
    have hr := acid_proper 9 1 (-1)
    have hu := u_of_has (acid 9 1 (-1)) hr [a, b] rfl hp props hh (fun _ => [0, 0]) (fun _ x => x.map Real.log)
      (by intro i hi; have hi : i < 1 := hi; interval_cases i; rfl)
      (by intro i hi x old a h; have hi : i < 1 := hi; interval_cases i
          simp only [acid, phase, List.getElem_cons_zero] at h
          unfold activityFn at h
          simp only [Activity.idealSolution, Res.bind_ok'] at h
          split_ifs at h
          · simp at h
          · simp only [Prod.mk.injEq, and_true] at h
            rw [← h])
    have hfr : fractions (block (acid 9 1 (-1)) [a, b] 0) = [a / (a + b), b / (a + b)] := by
      simp [fractions, block, seg, acid, ChemicalProps.before, sizeAt, phase, PhaseModel.size]
    have hu : props.u = [Activity.gasConstant * 300 * Real.log (a / (a + b)), Activity.gasConstant * 300 * Real.log (b / (a + b))] := by
      rw [hu]
      simp only [acid, List.length_singleton, List.range_one, List.flatMap_cons, List.flatMap_nil] at hfr ⊢
      rw [hfr]
      simp
    have h1 := hy 1 (by simp)
    have h2 := hy 2 (by simp)
    dsimp only at h1 h2
    rw [Reference.gradient_species _ _ _ (by rw [hu]; rfl) 1 (by simp), hu] at h1
    have g2 := Reference.gradient_titrant (acid 9 1 (-1)) [a, b] props.u (by rw [hu]; rfl) 0 (by simp [acid])
    rw [show ([a, b] : List ℝ).length + 0 = 2 from rfl] at g2
    rw [g2] at h2
    have e1 : ∑ i ∈ Finset.range (acid 9 1 (-1)).A.length, y i * ((((acid 9 1 (-1)).A.getD i []).getD 1 0 : Rat) : ℝ) = y 0 + y 2 := by
      simp [acid, Finset.sum_range_succ]
    have e2 : ∑ i ∈ Finset.range (acid 9 1 (-1)).A.length, y i * ((((acid 9 1 (-1)).A.getD i []).getD 2 0 : Rat) : ℝ) = y 0 + y 2 := by
      simp [acid, Finset.sum_range_succ]
    rw [e1] at h1
    rw [e2] at h2
    have u1 : ([Activity.gasConstant * 300 * Real.log (a / (a + b)), Activity.gasConstant * 300 * Real.log (b / (a + b))] : List ℝ).getD 1 0 /
        ((acid 9 1 (-1)).R * (acid 9 1 (-1)).T) = Real.log (b / (a + b)) := by
      show Activity.gasConstant * 300 * Real.log (b / (a + b)) / (Activity.gasConstant * 300) = _
      rw [mul_div_cancel_left₀ _ gas_ne]
    have u2 : (acid 9 1 (-1)).uq.getD 0 0 / ((acid 9 1 (-1)).R * (acid 9 1 (-1)).T) = Real.log 10 := by
      show Activity.gasConstant * 300 * (-(-1) * Real.log 10) / (Activity.gasConstant * 300) = _
      rw [mul_div_cancel_left₀ _ gas_ne]
      ring
    rw [u1] at h1
    rw [u2] at h2
    have z2 : y 0 + y 2 = Real.log 10 := by
      rcases lt_trichotomy (Real.log 10 - (y 0 + y 2)) 0 with h | h | h
      · obtain ⟨v, v1, -⟩ := h2.2 h
        simp [acid] at v1
      · linarith
      · obtain ⟨v, v1, -⟩ := h2.1 h
        simp [acid] at v1
    have l1 : Real.log (b / (a + b)) ≤ 0 := Real.log_nonpos (by positivity) (by rw [div_le_one (by positivity)]; linarith)
    have l2 : 0 < Real.log 10 := Real.log_pos (by norm_num)
    have l3 : 0 ≤ (acid 9 1 (-1)).eps * (acid 9 1 (-1)).factor / ([a, b] : List ℝ).getD 1 0 := by
      show 0 ≤ 1 / 10 ^ 16 * 1 / b
      positivity
    obtain ⟨v, v1, -⟩ := h1.2 (by linarith)
    simp [acid] at v1

/-- The hypotheses of C114_exists_partial and C114_unique_partial for the closed vessel. -/
theorem vessel_computable (b : List ℝ) : Computable (vessel b) := ⟨vessel_modelled b, (vessel_regular b).positive⟩

theorem vessel_bounded (b : List ℝ) : Bounded (vessel b) := by
  refine C114_bounded _ rfl (vessel_regular b).positive (fun _ => 1) ?_
  intro j hj
  have hj : j < 2 := hj
  interval_cases j <;> simp [vessel, Finset.sum_range_succ] <;> norm_num

theorem vessel_feasible : Feasible (vessel [19, 9, 1]) [9, 1] [] := by
  refine ⟨rfl, rfl, ?_, ?_, ?_⟩
  · intro i hi
    have hi : i < 3 := hi
    interval_cases i <;> simp [balance, vessel, Finset.sum_range_succ] <;> norm_num
  · intro j u hu
    rcases j with _ | _ | j <;> simp [vessel] at hu <;> subst hu <;> norm_num
  · intro j u hu
    rcases j with _ | _ | j <;> simp [vessel] at hu

example : ∃ n q props, Equilibrium (vessel [19, 9, 1]) n q props ∧ (∀ n' q' props', Equilibrium (vessel [19, 9, 1]) n' q' props' → n' = n) ∧
    ∀ n' q' props', Feasible (vessel [19, 9, 1]) n' q' → Has (vessel [19, 9, 1]) n' props' → energy (vessel [19, 9, 1]) n q props.u ≤ energy (vessel [19, 9, 1]) n' q' props'.u :=
  C114_unique_partial _ (vessel_computable _) (vessel_regular _) (by norm_num [vessel, acid]) (vessel_bounded _) ⟨_, _, vessel_feasible⟩

theorem redlichKister_keeps (a0 a1 a2 : ℝ) (species : List (Aqueous.Species ℝ)) : KeepsSize (activityFn (redlichKister a0 a1 a2) species) := by
  intro T P x a
  unfold activityFn redlichKister
  by_cases h : species.length = 2
  · by_cases h' : (a.ln_g.length = 2 ∧ a.ln_a.length = 2) ∧ x.length = 2
    · simp [h, Mem.fits, h'.1.1, h'.1.2, h'.2]
    · rw [not_and_or, not_and_or] at h'
      simp [h, Mem.fits, h']
  · simp [h]

/-- The same with a model for which the phase splits: no criterion of stability is met, and there is an equilibrium state all the same. -/
noncomputable def splitting : Problem :=
  { vessel [19, 9, 1] with
    phases := [phase [constant 0, constant 0] [solute c!"H2O(aq)", solute c!"H+"] (redlichKister 5 0 0) idealSolution] }

example : ∃ n q props, Equilibrium splitting n q props := by
  refine C114_exists_partial splitting ⟨?_, ?_⟩ ?_ ⟨[9, 1], [], ?_⟩
  · refine { sizes := ?_, nonempty := ?_, standard := ?_, models := ?_ }
    · intro ph h
      simp only [splitting, List.mem_singleton] at h
      subst h
      exact ⟨redlichKister_keeps 5 0 0 _, (activityFn_ideal _ (Or.inl rfl) _).2.1⟩
    · intro ph h
      simp only [splitting, List.mem_singleton] at h
      subst h
      simp [phase, PhaseModel.size]
    · intro ph h f hf
      simp only [splitting, List.mem_singleton] at h
      subst h
      simp [phase] at hf
      rcases hf with rfl | rfl <;> rfl
    · intro ph h
      simp only [splitting, List.mem_singleton] at h
      subst h
      exact C114_redlichKister 5 0 0 _ _ rfl rfl _ _ _
  · exact (vessel_regular [19, 9, 1]).positive
  · obtain ⟨M, h⟩ := vessel_bounded [19, 9, 1]
    exact ⟨M, fun n q hf => h n q ⟨hf.1, hf.2, hf.3, hf.4, hf.5⟩⟩
  · exact ⟨vessel_feasible.1, vessel_feasible.2, vessel_feasible.3, vessel_feasible.4, vessel_feasible.5⟩

end Verif.Existence
