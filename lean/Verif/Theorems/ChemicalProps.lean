import Verif.Lemmas.ChemicalProps
import Mathlib.Analysis.SpecialFunctions.Log.Basic
import Mathlib.Tactic.Ring
import Mathlib.Tactic.FieldSimp
import Mathlib.Tactic.LinearCombination
import Mathlib.Algebra.BigOperators.Group.List.Lemmas

/-!
# Theorems C32 and C33: chemical properties of a system
-/

namespace Verif.ChemicalProps

open ArraySerialization (Props write)

variable {K : Type} [Field K] [LinearOrder K]

/-! ## C32 -/

/-- **C32.** After an update that returns normally, the properties of every phase are those computed by that phase from its own
amounts, at the given temperature and pressure; they are read through `phaseProps` (`view`). -/
theorem C32_update (R : K) (phases : List (PhaseModel K)) (hm : ModelsOk phases) (hne : ∀ ph ∈ phases, ph.size ≠ 0) (useIdeal : Bool)
    (p : Props K) (hs : Shape phases p) (T P : K) (n : List K) (p' : Props K)
    (h : update R phases useIdeal p T P n = .ok (p', true)) :
    Shape phases p' ∧ p'.T = T ∧ p'.P = P ∧
      ∀ i (hi : i < phases.length), Computed R phases[i] useIdeal T P (seg n (before phases i) phases[i].size) (view phases p' i) := by
  have hs1 : Shape phases { p with T := T, P := P } := ⟨hs.perPhase, hs.perSpecies⟩
  obtain ⟨a1, a2, a3, k, -, a5, a6, -, a8⟩ := updateLoop_spec R phases hm useIdeal T P n [] phases rfl _ hs1 p' true h
  refine ⟨a1, a2, a3, fun i hi => ?_⟩
  have hk := a6.1 rfl
  obtain ⟨b1, b2, b3⟩ := a8 i hi (Nat.zero_le _) (by omega)
  rw [b2]
  have hv := view_sized phases _ hs1 i hi
  rw [sizeAt_of_lt phases i hi] at hv
  exact phaseUpdate_computed R phases[i] (hne _ (List.getElem_mem hi)) useIdeal T P _ (seg_length _ _ _ b1) _ hv (b3.2 (by omega))

omit [LinearOrder K] in
/-- **C32 (blocks).** The blocks of different phases do not overlap, and every array is made of the blocks of the phases, in
order. -/
theorem C32_blocks (phases : List (PhaseModel K)) (p : Props K) (hs : Shape phases p) :
    (∀ i j, i ≠ j → before phases i + sizeAt phases i ≤ before phases j ∨ before phases j + sizeAt phases j ≤ before phases i) ∧
    p.n = (List.range phases.length).flatMap (fun i => (view phases p i).n) ∧
    p.x = (List.range phases.length).flatMap (fun i => (view phases p i).x) ∧
    p.G0 = (List.range phases.length).flatMap (fun i => (view phases p i).G0) ∧
    p.H0 = (List.range phases.length).flatMap (fun i => (view phases p i).H0) ∧
    p.V0 = (List.range phases.length).flatMap (fun i => (view phases p i).V0) ∧
    p.Cp0 = (List.range phases.length).flatMap (fun i => (view phases p i).Cp0) ∧
    p.Cv0 = (List.range phases.length).flatMap (fun i => (view phases p i).Cv0) ∧
    p.ln_g = (List.range phases.length).flatMap (fun i => (view phases p i).ln_g) ∧
    p.ln_a = (List.range phases.length).flatMap (fun i => (view phases p i).ln_a) ∧
    p.u = (List.range phases.length).flatMap (fun i => (view phases p i).u) := by
  have h := hs.perSpecies
  simp only [List.mem_cons, List.not_mem_nil, or_false, forall_eq_or_imp, forall_eq] at h
  obtain ⟨h1, h2, h3, h4, h5, h6, h7, h8, h9, h10⟩ := h
  exact ⟨blocks_disjoint phases, (blocks_cover phases _ h1).symm, (blocks_cover phases _ h2).symm, (blocks_cover phases _ h3).symm,
    (blocks_cover phases _ h4).symm, (blocks_cover phases _ h5).symm, (blocks_cover phases _ h6).symm, (blocks_cover phases _ h7).symm,
    (blocks_cover phases _ h8).symm, (blocks_cover phases _ h9).symm, (blocks_cover phases _ h10).symm⟩

/-- **C32 (amounts).** After an update that returns normally the amounts of the species are the given ones. -/
theorem C32_amounts (R : K) (phases : List (PhaseModel K)) (hm : ModelsOk phases) (hne : ∀ ph ∈ phases, ph.size ≠ 0) (useIdeal : Bool)
    (p : Props K) (hs : Shape phases p) (T P : K) (n : List K) (hn : n.length = count phases) (p' : Props K)
    (h : update R phases useIdeal p T P n = .ok (p', true)) : p'.n = n := by
  obtain ⟨a1, -, -, a4⟩ := C32_update R phases hm hne useIdeal p hs T P n p' h
  rw [(C32_blocks phases p' a1).2.1]
  conv_rhs => rw [← blocks_cover phases n hn]
  apply List.flatMap_congr
  intro i hi
  rw [List.mem_range] at hi
  rw [(a4 i hi).amounts, sizeAt_of_lt phases i hi]

/-- **C32 (defined behaviour).** With one amount for each species, no array is read or written out of range. -/
theorem C32_defined (R : K) (phases : List (PhaseModel K)) (useIdeal : Bool) (p : Props K) (T P : K) (n : List K)
    (hn : n.length = count phases) : ∃ r, update R phases useIdeal p T P n = .ok r :=
  updateLoop_ok R phases useIdeal T P n hn [] phases rfl _

/-- **C32 (positive amounts).** If all amounts are positive and no model throws, the update returns normally. -/
theorem C32_positive [IsStrictOrderedRing K] (R : K) (phases : List (PhaseModel K)) (hm : ModelsOk phases)
    (hne : ∀ ph ∈ phases, ph.size ≠ 0) (useIdeal : Bool) (p : Props K) (hs : Shape phases p) (T P : K) (n : List K)
    (hn : n.length = count phases) (hpos : ∀ y ∈ n, 0 < y) (hstd : ∀ ph ∈ phases, ∀ f ∈ ph.species, (f T P).isSome)
    (hact : ∀ ph ∈ phases, ∀ x a, (ph.activity T P x a).2 = true ∧ (ph.ideal T P x a).2 = true) :
    ∃ p', update R phases useIdeal p T P n = .ok (p', true) := by
  obtain ⟨⟨p', ok⟩, h⟩ := C32_defined R phases useIdeal p T P n hn
  have hs1 : Shape phases { p with T := T, P := P } := ⟨hs.perPhase, hs.perSpecies⟩
  obtain ⟨-, -, -, k, -, a5, a6, -, a8⟩ := updateLoop_spec R phases hm useIdeal T P n [] phases rfl _ hs1 p' ok h
  have hk : k = phases.length := by
    by_contra hk
    obtain ⟨b1, -, b3⟩ := a8 k (by omega) (Nat.zero_le _) (Nat.le_refl _)
    have hmem := List.getElem_mem (l := phases) (n := k) (by omega)
    have := phaseUpdate_true R phases[k] useIdeal T P (seg n (before phases k) phases[k].size) (seg_length _ _ _ b1) (hne _ hmem)
      (view phases { p with T := T, P := P } k) (hstd _ hmem) (hact _ hmem)
      (fun y hy => hpos y (List.mem_of_mem_drop (List.mem_of_mem_take hy)))
    have := b3.1 this
    omega
  rw [a6.2 hk] at h
  exact ⟨p', h⟩

/-- **C32 (exceptions).** If the update throws, temperature and pressure of the system are the new ones, the phases before some
phase have new properties and the phases after it still have the old ones. -/
theorem C32_throw_mixes (R : K) (phases : List (PhaseModel K)) (hm : ModelsOk phases) (hne : ∀ ph ∈ phases, ph.size ≠ 0) (useIdeal : Bool)
    (p : Props K) (hs : Shape phases p) (T P : K) (n : List K) (p' : Props K)
    (h : update R phases useIdeal p T P n = .ok (p', false)) :
    p'.T = T ∧ p'.P = P ∧ ∃ k < phases.length,
      (∀ i (hi : i < phases.length), i < k →
        Computed R phases[i] useIdeal T P (seg n (before phases i) phases[i].size) (view phases p' i)) ∧
      (∀ i, k < i → view phases p' i = view phases p i) := by
  have hs1 : Shape phases { p with T := T, P := P } := ⟨hs.perPhase, hs.perSpecies⟩
  obtain ⟨-, a2, a3, k, -, a5, a6, a7, a8⟩ := updateLoop_spec R phases hm useIdeal T P n [] phases rfl _ hs1 p' false h
  have hk : k ≠ phases.length := fun e => by have := a6.2 e; cases this
  refine ⟨a2, a3, k, by omega, ?_, fun i hi => a7 i (Or.inr hi)⟩
  intro i hi hik
  obtain ⟨b1, b2, b3⟩ := a8 i hi (Nat.zero_le _) (by omega)
  rw [b2]
  have hv := view_sized phases _ hs1 i hi
  rw [sizeAt_of_lt phases i hi] at hv
  exact phaseUpdate_computed R phases[i] (hne _ (List.getElem_mem hi)) useIdeal T P _ (seg_length _ _ _ b1) _ hv (b3.2 hik)

/-! ## C33 -/

omit [LinearOrder K] in
/-- **C33 (species).** For every species, `G0 = H0 - T S0`, `U0 = H0 - P V0` and `A0 = U0 - T S0`, if the temperature is not zero. -/
theorem C33_species (phases : List (PhaseModel K)) (p : Props K) (hs : Shape phases p) (hT : p.T ≠ 0) (i : Nat) (hi : i < count phases) :
    ∃ G0 H0 V0 S0 U0 A0, p.G0[i]? = some G0 ∧ p.H0[i]? = some H0 ∧ p.V0[i]? = some V0 ∧ (standardEntropies p)[i]? = some S0 ∧
      (standardInternalEnergies p)[i]? = some U0 ∧ (standardHelmholtzEnergies p)[i]? = some A0 ∧
      G0 = H0 - p.T * S0 ∧ U0 = H0 - p.P * V0 ∧ A0 = U0 - p.T * S0 := by
  have h := hs.perSpecies
  simp only [List.mem_cons, List.not_mem_nil, or_false, forall_eq_or_imp, forall_eq] at h
  obtain ⟨-, -, h3, h4, h5, -⟩ := h
  have e1 : p.G0[i]? = some (p.G0[i]'(by omega)) := List.getElem?_eq_getElem _
  have e2 : p.H0[i]? = some (p.H0[i]'(by omega)) := List.getElem?_eq_getElem _
  have e3 : p.V0[i]? = some (p.V0[i]'(by omega)) := List.getElem?_eq_getElem _
  refine ⟨_, _, _, (p.H0[i]'(by omega) - p.G0[i]'(by omega)) / p.T, p.H0[i]'(by omega) - p.P * p.V0[i]'(by omega),
    p.G0[i]'(by omega) - p.P * p.V0[i]'(by omega), e1, e2, e3, ?_, ?_, ?_, ?_, rfl, ?_⟩
  · unfold standardEntropies; rw [List.getElem?_zipWith, e1, e2]
  · unfold standardInternalEnergies; rw [List.getElem?_zipWith, e2, e3]
  · unfold standardHelmholtzEnergies; rw [List.getElem?_zipWith, e1, e3]
  · rw [mul_div_cancel₀ _ hT]; ring
  · rw [mul_div_cancel₀ _ hT]; ring

omit [LinearOrder K] in
/-- **C33 (phases).** For every phase whose temperature is not zero the molar and the total properties satisfy `G = H - T S`,
`U = H - P V` and `A = U - T S = G - P V`, and total properties are molar ones times the amount. -/
theorem C33_phase (d : PhaseData K) (hT : d.T ≠ 0) :
    (d.molarG = d.molarH - d.T * d.molarS ∧ d.molarU = d.molarH - d.P * d.molarV ∧ d.molarA = d.molarU - d.T * d.molarS ∧
      d.molarA = d.molarG - d.P * d.molarV) ∧
    (d.G = d.H - d.T * d.S ∧ d.U = d.H - d.P * d.V ∧ d.A = d.U - d.T * d.S ∧ d.A = d.G - d.P * d.V) ∧
    (d.G = d.nsum * d.molarG ∧ d.H = d.nsum * d.molarH ∧ d.V = d.nsum * d.molarV ∧ d.S = d.nsum * d.molarS ∧
      d.U = d.nsum * d.molarU ∧ d.A = d.nsum * d.molarA) := by
  have h1 : d.T * d.molarS = d.molarH - d.molarG := by unfold PhaseData.molarS; rw [mul_div_cancel₀ _ hT]
  refine ⟨⟨by rw [h1]; ring, rfl, rfl, ?_⟩, ⟨?_, ?_, ?_, ?_⟩, ?_⟩
  · unfold PhaseData.molarA PhaseData.molarU; rw [h1]; ring
  · unfold PhaseData.G PhaseData.H PhaseData.S; linear_combination (d.amount) * h1
  · unfold PhaseData.U PhaseData.H PhaseData.V PhaseData.molarU; ring
  · unfold PhaseData.A PhaseData.U PhaseData.S PhaseData.molarA; ring
  · unfold PhaseData.A PhaseData.G PhaseData.V PhaseData.molarA PhaseData.molarU; linear_combination (-d.amount) * h1
  · refine ⟨mul_comm _ _, mul_comm _ _, mul_comm _ _, mul_comm _ _, mul_comm _ _, mul_comm _ _⟩

omit [LinearOrder K] in
theorem total_eq (phases : List (PhaseModel K)) (p : Props K) (f : PhaseData K → K) :
    total phases p f = ((List.range phases.length).map fun i => f (view phases p i)).sum := by
  unfold total
  rw [List.sum_eq_foldl]

omit [LinearOrder K] in
theorem sum_map_sub_mul (l : List Nat) (f g h : Nat → K) (c : K) (e : ∀ i ∈ l, f i = g i - c * h i) :
    (l.map f).sum = (l.map g).sum - c * (l.map h).sum := by
  induction l with
  | nil => simp
  | cons a l ih =>
    simp only [List.map_cons, List.sum_cons]
    rw [ih (fun i hi => e i (List.mem_cons_of_mem _ hi)), e a List.mem_cons_self]
    ring

/-- **C33 (system).** After an update at a temperature other than zero that returns normally, the properties of the system satisfy
`G = H - T S`, `U = H - P V`, `A = U - T S` and `A = G - P V`, and each is the sum over the phases. -/
theorem C33_system (R : K) (phases : List (PhaseModel K)) (hm : ModelsOk phases) (hne : ∀ ph ∈ phases, ph.size ≠ 0) (useIdeal : Bool)
    (p : Props K) (hs : Shape phases p) (T P : K) (hT : T ≠ 0) (n : List K) (p' : Props K)
    (h : update R phases useIdeal p T P n = .ok (p', true)) :
    gibbsEnergy phases p' = enthalpy phases p' - p'.T * entropy phases p' ∧
    internalEnergy phases p' = enthalpy phases p' - p'.P * volume phases p' ∧
    helmholtzEnergy phases p' = internalEnergy phases p' - p'.T * entropy phases p' ∧
    helmholtzEnergy phases p' = gibbsEnergy phases p' - p'.P * volume phases p' ∧
    gibbsEnergy phases p' = ((List.range phases.length).map fun i => (view phases p' i).G).sum ∧
    enthalpy phases p' = ((List.range phases.length).map fun i => (view phases p' i).H).sum ∧
    volume phases p' = ((List.range phases.length).map fun i => (view phases p' i).V).sum ∧
    entropy phases p' = ((List.range phases.length).map fun i => (view phases p' i).S).sum ∧
    internalEnergy phases p' = ((List.range phases.length).map fun i => (view phases p' i).U).sum ∧
    helmholtzEnergy phases p' = ((List.range phases.length).map fun i => (view phases p' i).A).sum := by
  obtain ⟨-, e1, e2, a4⟩ := C32_update R phases hm hne useIdeal p hs T P n p' h
  have hph : ∀ i ∈ List.range phases.length, (view phases p' i).T = T ∧ (view phases p' i).P = P := fun i hi =>
    ⟨(a4 i (List.mem_range.1 hi)).temperature, (a4 i (List.mem_range.1 hi)).pressure⟩
  refine ⟨?_, ?_, ?_, ?_, total_eq .., total_eq .., total_eq .., total_eq .., total_eq .., total_eq ..⟩
  · unfold gibbsEnergy enthalpy entropy
    simp only [total_eq]
    rw [e1]
    apply sum_map_sub_mul
    intro i hi
    obtain ⟨t, -⟩ := hph i hi
    rw [← t]; exact (C33_phase _ (by rw [t]; exact hT)).2.1.1
  · unfold internalEnergy enthalpy volume
    simp only [total_eq]
    rw [e2]
    apply sum_map_sub_mul
    intro i hi
    obtain ⟨t, q⟩ := hph i hi
    rw [← q]; exact (C33_phase _ (by rw [t]; exact hT)).2.1.2.1
  · unfold helmholtzEnergy internalEnergy entropy
    simp only [total_eq]
    rw [e1]
    apply sum_map_sub_mul
    intro i hi
    obtain ⟨t, q⟩ := hph i hi
    rw [← t]; exact (C33_phase _ (by rw [t]; exact hT)).2.1.2.2.1
  · unfold helmholtzEnergy gibbsEnergy volume
    simp only [total_eq]
    rw [e2]
    apply sum_map_sub_mul
    intro i hi
    obtain ⟨t, q⟩ := hph i hi
    rw [← q]; exact (C33_phase _ (by rw [t]; exact hT)).2.1.2.2.2

omit [LinearOrder K] in
theorem sum_zipWith_add_mul (x g a : List K) (c : K) (h1 : x.length = g.length) (h2 : x.length = a.length) :
    (List.zipWith (· * ·) x (List.zipWith (fun g a => g + c * a) g a)).sum =
      (List.zipWith (· * ·) x g).sum + c * (List.zipWith (· * ·) x a).sum := by
  induction x generalizing g a with
  | nil => simp
  | cons y x ih =>
    cases g with
    | nil => cases h1
    | cons b g =>
      cases a with
      | nil => cases h2
      | cons d a =>
        simp only [List.zipWith_cons_cons, List.sum_cons]
        rw [ih g a (by simpa using h1) (by simpa using h2)]
        ring

omit [LinearOrder K] in
theorem sum_zipWith_div (n u : List K) (s : K) (hs : s ≠ 0) :
    (List.zipWith (· * ·) (n.map (fun y => y / s)) u).sum * s = (List.zipWith (· * ·) n u).sum := by
  induction n generalizing u with
  | nil => simp
  | cons y n ih =>
    cases u with
    | nil => simp
    | cons b u =>
      simp only [List.map_cons, List.zipWith_cons_cons, List.sum_cons]
      rw [add_mul, ih u]
      field_simp

/-- **C33 (Gibbs energy and chemical potentials).** After an update that returns normally, the Gibbs energy of a phase is the
sum of amounts times chemical potentials, if its excess Gibbs energy is `R T` times the mean of the logarithms of the
activities. -/
theorem C33_gibbs_potentials (R : K) (phases : List (PhaseModel K)) (hm : ModelsOk phases) (hne : ∀ ph ∈ phases, ph.size ≠ 0)
    (useIdeal : Bool) (p : Props K) (hs : Shape phases p) (T P : K) (n : List K) (p' : Props K)
    (h : update R phases useIdeal p T P n = .ok (p', true)) (i : Nat) (hi : i < phases.length)
    (hsum : (view phases p' i).nsum ≠ 0)
    (hex : (view phases p' i).Gex = R * T * (List.zipWith (· * ·) (view phases p' i).x (view phases p' i).ln_a).sum) :
    (view phases p' i).G = (List.zipWith (· * ·) (view phases p' i).n (view phases p' i).u).sum := by
  obtain ⟨s, -, -, a4⟩ := C32_update R phases hm hne useIdeal p hs T P n p' h
  have hc := a4 i hi
  have hv := view_sized phases p' s i hi
  generalize view phases p' i = d at hc hv hsum hex ⊢
  unfold PhaseData.G PhaseData.molarG PhaseData.amount
  rw [hex, hc.potential, hc.amounts]
  rw [hc.amount] at hsum ⊢
  conv_rhs => rw [← sum_zipWith_div _ _ _ hsum, ← hc.fractions hsum]
  rw [sum_zipWith_add_mul _ _ _ _ (by rw [hv.x, hv.G0]) (by rw [hv.x, hv.ln_a])]

/-- **C33 (sums over the species).** After an update that returns normally, the mass of a phase is the sum of amounts times molar masses; if
the phase has any amount, then its volume, enthalpy and Gibbs energy are the sums of amounts times standard properties and the excess
properties times the amount, and the molar density is the inverse of the molar volume. -/
theorem C33_sums (R : K) (phases : List (PhaseModel K)) (hm : ModelsOk phases) (hne : ∀ ph ∈ phases, ph.size ≠ 0)
    (useIdeal : Bool) (p : Props K) (hs : Shape phases p) (T P : K) (n : List K) (p' : Props K)
    (h : update R phases useIdeal p T P n = .ok (p', true)) (i : Nat) (hi : i < phases.length) :
    let d := view phases p' i
    let m := seg n (before phases i) phases[i].size
    d.mass phases[i] = (List.zipWith (· * ·) m phases[i].molarMasses).sum ∧
    (m.sum ≠ 0 →
      d.V = (List.zipWith (· * ·) m d.V0).sum + m.sum * d.Vex ∧
      d.H = (List.zipWith (· * ·) m d.H0).sum + m.sum * d.Hex ∧
      d.G = (List.zipWith (· * ·) m d.G0).sum + m.sum * d.Gex ∧
      m.sum * d.molarCp = (List.zipWith (· * ·) m d.Cp0).sum + m.sum * d.Cpex ∧
      m.sum * d.molarCv = (List.zipWith (· * ·) m d.Cv0).sum + m.sum * d.Cvex) ∧
    (d.molarV ≠ 0 → d.molarDensity * d.V = m.sum) := by
  intro d m
  obtain ⟨s, -, -, a4⟩ := C32_update R phases hm hne useIdeal p hs T P n p' h
  have hc : Computed R phases[i] useIdeal T P m d := a4 i hi
  clear_value d m
  refine ⟨?_, ?_, ?_⟩
  · unfold PhaseData.mass
    rw [hc.amounts, List.sum_eq_foldl]
  · intro h0
    have hx := hc.fractions h0
    have key : ∀ l : List K, (List.zipWith (· * ·) d.x l).sum * m.sum = (List.zipWith (· * ·) m l).sum := by
      intro l; rw [hx]; exact sum_zipWith_div _ _ _ h0
    refine ⟨?_, ?_, ?_, ?_, ?_⟩
    · unfold PhaseData.V PhaseData.molarV PhaseData.amount; rw [hc.amount, add_mul, key]; ring
    · unfold PhaseData.H PhaseData.molarH PhaseData.amount; rw [hc.amount, add_mul, key]; ring
    · unfold PhaseData.G PhaseData.molarG PhaseData.amount; rw [hc.amount, add_mul, key]; ring
    · unfold PhaseData.molarCp; rw [mul_comm, add_mul, key]; ring
    · unfold PhaseData.molarCv; rw [mul_comm, add_mul, key]; ring
  · intro h0
    unfold PhaseData.molarDensity PhaseData.V PhaseData.amount
    rw [if_pos h0, hc.amount]
    field_simp

/-! ### Examples and counterexamples -/

/-- The ideal solution model (ActivityModelIdealSolution.cpp:26-30): all excess properties are zero. -/
noncomputable def idealSolution : ℝ → ℝ → List ℝ → AProps ℝ → AProps ℝ × Bool :=
  fun _ _ x a => (⟨0, 0, 0, 0, 0, 0, 0, a.ln_g.map (fun _ => 0), (List.range a.ln_a.length).map (fun i => Real.log (x.getD i 0))⟩, true)

/-- A phase of two species without standard properties, with the ideal solution model. -/
noncomputable def examplePhase : PhaseModel ℝ :=
  ⟨[fun _ _ => some ⟨0, 0, 0, 0, 0⟩, fun _ _ => some ⟨0, 0, 0, 0, 0⟩], idealSolution, idealSolution, [1, 1]⟩

/-- The properties of a system of that phase after construction (ChemicalProps.cpp:95-123). -/
noncomputable def exampleProps : Props ℝ :=
  ⟨0, 0, [0], [0], [0, 0], [0], [0, 0], [0, 0], [0, 0], [0, 0], [0, 0], [0, 0], [0], [0], [0], [0], [0], [0], [0], [0, 0], [0, 0], [0, 0]⟩

theorem example_models : ModelsOk [examplePhase] := by
  intro ph hph
  rw [List.mem_singleton] at hph
  subst hph
  constructor <;> intro T P x a <;> simp [examplePhase, idealSolution]

theorem example_shape : Shape [examplePhase] exampleProps := by
  constructor <;> simp [exampleProps, examplePhase, count, PhaseModel.size]

theorem example_nonempty : ∀ ph ∈ [examplePhase], ph.size ≠ 0 := by
  intro ph hph
  rw [List.mem_singleton] at hph
  subst hph
  simp [examplePhase, PhaseModel.size]

/-- The hypotheses of the theorems hold for the example, and the update returns normally. -/
theorem example_update (R T P : ℝ) : ∃ p', update R [examplePhase] false exampleProps T P [1, 1] = .ok (p', true) := by
  apply C32_positive R [examplePhase] example_models example_nonempty false exampleProps example_shape T P [1, 1]
  · simp [count, examplePhase, PhaseModel.size]
  · intro y hy; simp at hy; rw [hy]; norm_num
  · intro ph hph f hf
    rw [List.mem_singleton] at hph
    subst hph
    simp only [examplePhase, List.mem_cons, List.not_mem_nil, or_false, or_self] at hf
    subst hf; rfl
  · intro ph hph x a
    rw [List.mem_singleton] at hph
    subst hph
    exact ⟨rfl, rfl⟩

/-- **C33, ideal solutions.** The Gibbs energy of an ideal solution is not the sum of amounts times chemical potentials: the ideal
models report no excess Gibbs energy, so the energy of mixing is missing. For the example with one mole of each of two
species, the reported Gibbs energy is zero and the sum is `-2 R T log 2`. -/
theorem C33_ideal_mixing_missing (R T P : ℝ) (p' : Props ℝ) (h : update R [examplePhase] false exampleProps T P [1, 1] = .ok (p', true)) :
    gibbsEnergy [examplePhase] p' = 0 ∧ (List.zipWith (· * ·) p'.n p'.u).sum = -2 * R * T * Real.log 2 := by
  obtain ⟨s, -, -, a4⟩ := C32_update R [examplePhase] example_models example_nonempty false exampleProps example_shape T P [1, 1] p' h
  have hb := C32_blocks [examplePhase] p' s
  have hc := a4 0 (by simp)
  have hv := view_sized [examplePhase] p' s 0 (by simp)
  have hn : p'.n = (view [examplePhase] p' 0).n := by rw [hb.2.1]; simp
  have hu : p'.u = (view [examplePhase] p' 0).u := by rw [hb.2.2.2.2.2.2.2.2.2.2]; simp
  have hg : gibbsEnergy [examplePhase] p' = (view [examplePhase] p' 0).G := by
    unfold gibbsEnergy; rw [total_eq]; simp
  rw [hn, hu, hg]
  have hsz : sizeAt [examplePhase] 0 = 2 := by simp [sizeAt, examplePhase, PhaseModel.size]
  have hseg : seg [(1 : ℝ), 1] (before [examplePhase] 0) examplePhase.size = [1, 1] := by
    simp [before, seg, examplePhase, PhaseModel.size]
  simp only [List.getElem_cons_zero] at hc
  rw [hseg] at hc
  rw [hsz] at hv
  generalize view [examplePhase] p' 0 = d at hc hv ⊢
  have h2 : ([1, 1] : List ℝ).sum = 2 := by norm_num
  have hx := hc.fractions (by rw [h2]; norm_num)
  rw [h2] at hx
  simp only [List.map_cons, List.map_nil] at hx
  obtain ⟨old, hact⟩ := hc.activity (by rw [h2]; norm_num)
  simp only [Bool.false_eq_true, if_false, examplePhase, idealSolution, Prod.mk.injEq, and_true] at hact
  have hG0 : d.G0 = [0, 0] := by
    obtain ⟨s0, e0, g0, -⟩ := hc.standard 0 _ rfl
    obtain ⟨s1, e1, g1, -⟩ := hc.standard 1 _ rfl
    simp only [Option.some.injEq] at e0 e1
    subst e0 e1
    have hl := hv.G0
    match hd : d.G0, hl with
    | [a, b], _ =>
      rw [hd] at g0 g1
      simp at g0 g1
      rw [g0, g1]
  have hGex : d.Gex = 0 := by
    have := congrArg AProps.Gex hact
    exact this.symm
  have hlna : d.ln_a = [Real.log (1 / 2), Real.log (1 / 2)] := by
    have h3 := congrArg AProps.ln_a hact
    have h4 : old.ln_a.length = 2 := by
      have := congrArg List.length h3
      simp only [PhaseData.aprops, List.length_map, List.length_range] at this
      rw [this, hv.ln_a]
    simp only [PhaseData.aprops, h4, hx] at h3
    rw [← h3]
    simp [List.range_succ]
  constructor
  · unfold PhaseData.G PhaseData.molarG
    rw [hx, hG0, hGex]
    simp
  · rw [hc.potential, hc.amounts, hG0, hlna]
    simp only [List.zipWith_cons_cons, List.zipWith_nil_left, List.sum_cons, List.sum_nil]
    rw [one_div, Real.log_inv]
    ring

end Verif.ChemicalProps
