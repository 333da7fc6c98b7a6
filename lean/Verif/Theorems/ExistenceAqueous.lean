import Verif.Spec.ExistenceAqueous
import Verif.Theorems.Existence
import Verif.Theorems.SpeciesOrder
import Verif.Theorems.ActivityGases

/-!
# C114: the models of real aqueous solutions are continuous
-/

namespace Verif.Existence

open Activity Aqueous ChemicalProps IdealEquilibrium SpeciesOrder

variable {N : Nat}

/-! ## Continuity of lists -/

theorem cont_entry (j : Nat) (S : Set (Fin N → ℝ)) : ContinuousOn (fun x : Fin N → ℝ => (List.ofFn x).getD j 0) S := by
  by_cases h : j < N
  · have : (fun x : Fin N → ℝ => (List.ofFn x).getD j 0) = fun x => x ⟨j, h⟩ := by
      funext x
      rw [List.getD_eq_getElem _ _ (by simpa using h), List.getElem_ofFn]
    rw [this]
    exact (continuous_apply _).continuousOn
  · have : (fun x : Fin N → ℝ => (List.ofFn x).getD j 0) = fun _ => 0 := by
      funext x
      exact List.getD_eq_default _ _ (by simpa using h)
    rw [this]
    exact continuousOn_const

theorem entry_pos {x : Fin N → ℝ} (hx : x ∈ Compositions N) {j : Nat} (h : j < N) : 0 < (List.ofFn x).getD j 0 := by
  rw [List.getD_eq_getElem _ _ (by simpa using h), List.getElem_ofFn]
  exact hx.1 _

theorem cont_sum {ι : Type} (L : List ι) (F : ι → (Fin N → ℝ) → ℝ) (S : Set (Fin N → ℝ)) (h : ∀ i ∈ L, ContinuousOn (F i) S) :
    ContinuousOn (fun x => (L.map fun i => F i x).sum) S := by
  induction L with
  | nil => simpa using continuousOn_const
  | cons a L ih =>
    simp only [List.map_cons, List.sum_cons]
    exact (h a List.mem_cons_self).add (ih fun i hi => h i (List.mem_cons_of_mem _ hi))

/-! ## The state of the mixture -/

theorem mass_pos : (0 : ℝ) < waterMolarMass := by unfold waterMolarMass; norm_num

/-- The molality of the species with the index `j`. -/
noncomputable def molal (w : Nat) (x : Fin N → ℝ) (j : Nat) : ℝ := (List.ofFn x).getD j 0 / (waterMolarMass * (List.ofFn x).getD w 0)

/-- Its stoichiometric molality. -/
noncomputable def mu (reactions : List Registries.Reaction) (species : List (Species ℝ)) (mix : Mixture ℝ) (x : Fin N → ℝ) (j : Nat) : ℝ :=
  molal mix.idxWater x j + (mix.ix.idxNeutral.map fun i => ionsIn reactions species i j * molal mix.idxWater x i).sum

/-- The stoichiometric ionic strength. -/
noncomputable def ionic (reactions : List Registries.Reaction) (species : List (Species ℝ)) (mix : Mixture ℝ) (x : Fin N → ℝ) : ℝ :=
  1 / 2 * (mix.ix.idxCharged.map fun j => (species.map (·.charge)).getD j 0 * (species.map (·.charge)).getD j 0 * mu reactions species mix x j).sum

variable {reactions : List Registries.Reaction} {rho0 eps0 : ℝ} {species : List (Species ℝ)} {mix : Mixture ℝ}

theorem water_lt (h : construct reactions rho0 eps0 species = .ok mix) (hN : species.length = N) : mix.idxWater < N := by
  obtain ⟨⟨s, hs, -⟩, -⟩ := C49_partition reactions rho0 eps0 species mix h
  exact hN ▸ (List.getElem?_eq_some_iff.mp hs).1

theorem cont_molal (h : construct reactions rho0 eps0 species = .ok mix) (hN : species.length = N) (j : Nat) :
    ContinuousOn (fun x : Fin N → ℝ => molal mix.idxWater x j) (Compositions N) := by
  refine ContinuousOn.div (cont_entry _ _) (continuousOn_const.mul (cont_entry _ _)) fun x hx => ?_
  exact mul_ne_zero mass_pos.ne' (entry_pos hx (water_lt h hN)).ne'

theorem cont_mu (h : construct reactions rho0 eps0 species = .ok mix) (hN : species.length = N) (j : Nat) :
    ContinuousOn (fun x : Fin N → ℝ => mu reactions species mix x j) (Compositions N) :=
  (cont_molal h hN j).add (cont_sum _ _ _ fun i _ => continuousOn_const.mul (cont_molal h hN i))

theorem cont_ionic (h : construct reactions rho0 eps0 species = .ok mix) (hN : species.length = N) :
    ContinuousOn (fun x : Fin N → ℝ => ionic reactions species mix x) (Compositions N) :=
  continuousOn_const.mul (cont_sum _ _ _ fun i _ => continuousOn_const.mul (cont_mu h hN i))

theorem coefficient_nonneg (hd : Dissociates reactions) (f g : Formula) : 0 ≤ Registries.coefficient reactions f g := by
  unfold Registries.coefficient
  cases hr : Registries.getReaction reactions f with
  | none => exact le_rfl
  | some r =>
    have hm : r ∈ reactions := by
      unfold Registries.getReaction at hr
      simp only at hr
      split_ifs at hr
      exact List.mem_of_getElem? hr
    have : ∀ L : List (Rat × Formula), (∀ q ∈ L, 0 ≤ q.1) → 0 ≤ Registries.ionCoefficient g L := by
      intro L
      induction L with
      | nil => intro _; exact le_rfl
      | cons q L ih =>
        intro hL
        unfold Registries.ionCoefficient
        split_ifs
        · exact hL q List.mem_cons_self
        · exact ih fun q hq => hL q (List.mem_cons_of_mem _ hq)
    exact this _ (hd r hm)

theorem ionsIn_nonneg (hd : Dissociates reactions) (species : List (Species ℝ)) (i j : Nat) : 0 ≤ ionsIn reactions species i j := by
  unfold ionsIn
  split
  · exact_mod_cast coefficient_nonneg hd _ _
  · simp

theorem molal_pos (h : construct reactions rho0 eps0 species = .ok mix) (hN : species.length = N) {x : Fin N → ℝ} (hx : x ∈ Compositions N) {j : Nat} (hj : j < N) :
    0 < molal mix.idxWater x j := div_pos (entry_pos hx hj) (mul_pos mass_pos (entry_pos hx (water_lt h hN)))

theorem neutral_lt (h : construct reactions rho0 eps0 species = .ok mix) (hN : species.length = N) {j : Nat} (hj : j ∈ mix.ix.idxNeutral) :
    j < N ∧ j ≠ mix.idxWater := by
  obtain ⟨-, -, -, -, hn, -⟩ := C49_partition reactions rho0 eps0 species mix h
  obtain ⟨h1, s, h2, -⟩ := (hn j).1 hj
  exact ⟨hN ▸ (List.getElem?_eq_some_iff.mp h2).1, h1⟩

theorem charged_lt (h : construct reactions rho0 eps0 species = .ok mix) (hN : species.length = N) {j : Nat} (hj : j ∈ mix.ix.idxCharged) :
    j < N ∧ j ≠ mix.idxWater ∧ (spAt species j).charge ≠ 0 ∧ spAt species j ∈ species := by
  obtain ⟨-, -, -, -, -, hn, -⟩ := C49_partition reactions rho0 eps0 species mix h
  obtain ⟨h1, s, h2, h3⟩ := (hn j).1 hj
  have : spAt species j = s := by simp [spAt, h2]
  rw [this]
  exact ⟨hN ▸ (List.getElem?_eq_some_iff.mp h2).1, h1, h3, List.mem_of_getElem? h2⟩

theorem mu_pos (h : construct reactions rho0 eps0 species = .ok mix) (hN : species.length = N) (hd : Dissociates reactions) {x : Fin N → ℝ}
    (hx : x ∈ Compositions N) {j : Nat} (hj : j < N) : 0 < mu reactions species mix x j := by
  refine add_pos_of_pos_of_nonneg (molal_pos h hN hx hj) (List.sum_nonneg ?_)
  intro y hy
  obtain ⟨i, hi, rfl⟩ := List.mem_map.1 hy
  exact mul_nonneg (ionsIn_nonneg hd _ _ _) (molal_pos h hN hx (neutral_lt h hN hi).1).le

theorem ionic_nonneg (h : construct reactions rho0 eps0 species = .ok mix) (hN : species.length = N) (hd : Dissociates reactions) {x : Fin N → ℝ}
    (hx : x ∈ Compositions N) : 0 ≤ ionic reactions species mix x := by
  refine mul_nonneg (by norm_num) (List.sum_nonneg ?_)
  intro y hy
  obtain ⟨j, hj, rfl⟩ := List.mem_map.1 hy
  exact mul_nonneg (mul_self_nonneg _) (mu_pos h hN hd hx (charged_lt h hN hj).1).le

theorem ionic_pos (h : construct reactions rho0 eps0 species = .ok mix) (hN : species.length = N) (hd : Dissociates reactions) {x : Fin N → ℝ}
    (hx : x ∈ Compositions N) {j : Nat} (hj : j ∈ mix.ix.idxCharged) : 0 < ionic reactions species mix x := by
  have hz : (species.map (·.charge)).getD j 0 ≠ 0 := by
    have hlt := (charged_lt h rfl hj).1
    rw [List.getD_eq_getElem _ _ (by simpa using hlt), List.getElem_map]
    have := (charged_lt h hN hj).2.2.1
    rwa [show spAt species j = species[j] from spAt_eq species ⟨j, hlt⟩] at this
  refine mul_pos (by norm_num) (lt_of_lt_of_le (mul_pos (mul_self_pos.2 hz) (mu_pos h hN hd hx (charged_lt h hN hj).1)) (List.single_le_sum ?_ _ (List.mem_map_of_mem hj)))
  intro y hy
  obtain ⟨i, hi, rfl⟩ := List.mem_map.1 hy
  exact mul_nonneg (mul_self_nonneg _) (mu_pos h hN hd hx (charged_lt h hN hi).1).le

theorem state_fn (h : construct reactions rho0 eps0 species = .ok mix) (hN : species.length = N) (T P : ℝ) (x : Fin N → ℝ) (hx : x ∈ Compositions N) :
    ∃ st, mix.state T P (List.ofFn x) = .ok st ∧ st.m.length = N ∧ (∀ j, st.m.getD j 0 = molal mix.idxWater x j) ∧ st.ms = mix.ix.idxCharged.map (mu reactions species mix x) ∧
      st.Is = ionic reactions species mix x ∧ st.T = T ∧ st.P = P ∧ st.rho = rho0 ∧ st.epsilon = eps0 := by
  obtain ⟨st, h1, -, h2, h3, h4, -, h5⟩ := state_eq reactions rho0 eps0 species mix h T P (List.ofFn x) (by simp [hN])
  obtain ⟨t1, t2, t3, t4⟩ := state_T mix T P _ st h1
  obtain ⟨-, -, -, -, r1, r2⟩ := construct_parts reactions rho0 eps0 species mix h
  rw [if_neg (entry_pos hx (water_lt h hN)).ne'] at h3
  have hm : ∀ j, st.m.getD j 0 = molal mix.idxWater x j := by
    intro j
    rw [h3]
    by_cases hj : j < N
    · rw [List.getD_eq_getElem _ _ (by simpa using hj), List.getElem_map]
      exact congrArg (· / _) (List.getD_eq_getElem _ _ (by simpa using hj)).symm
    · rw [List.getD_eq_default _ _ (by simpa using hj)]
      refine Eq.symm (Eq.trans (congrArg (· / _) (List.getD_eq_default _ _ (by simpa using hj))) (zero_div _))
  have hms : st.ms = mix.ix.idxCharged.map (mu reactions species mix x) := by
    rw [h4]
    apply List.map_congr_left
    intro j _
    simp only [hm]
    rfl
  refine ⟨st, h1, h2.trans hN, hm, hms, ?_, t1, t2, by rw [t3, r1], by rw [t4, r2]⟩
  rw [h5, hms]
  unfold ionic
  congr 2
  rw [List.zipWith_map, List.zipWith_self]

/-! ## Functions of the memory -/

/-- The ions that the model of Rumpf looks up. -/
def rumpfIdx (mix : Mixture ℝ) : List Nat := ionIndices mix [naPlus, kPlus, caPlus, mgPlus, clMinus]

/-- The ions that the model of Duan and Sun looks up. -/
def duanIdx (mix : Mixture ℝ) : List Nat := ionIndices mix [naPlus, kPlus, caPlus, mgPlus, clMinus, so4Minus]

/-- The memory after a model of the solution has been evaluated at `x`, with the activities `a`. -/
structure After (mix : Mixture ℝ) (T P : ℝ) (x a : Fin N → ℝ) (m : Mem) : Prop where
  ln_g : m.props.ln_g.length = N
  ln_a : m.props.ln_a = List.ofFn a
  extra : ∃ st, m.extra = some (mix, st) ∧ mix.state T P (List.ofFn x) = .ok st
  rumpf : ∀ idx, m.world.rumpf = some idx → idx = rumpfIdx mix
  duan : ∀ idx, m.world.duan = some idx → idx = duanIdx mix

/-- The function evaluates a model of the solution, and the activities are continuous. -/
def Solution (N : Nat) (f : Fn) (mix : Mixture ℝ) (T P : ℝ) : Prop :=
  (∃ L : (Fin N → ℝ) → Fin N → ℝ, ContinuousOn L (Compositions N) ∧ ∀ x ∈ Compositions N, ∀ m : Mem, Fits m N → m.world = {} →
    ∃ r, f T P (List.ofFn x) m = .ok r ∧ After mix T P x (L x) r) ∧ ∀ x m r, f T P x m = .ok r → Fits m N

/-- The function changes the activities, and they remain continuous. -/
def Changes (N : Nat) (f : Fn) (mix : Mixture ℝ) (T P : ℝ) : Prop :=
  ∀ L : (Fin N → ℝ) → Fin N → ℝ, ContinuousOn L (Compositions N) → ∃ L' : (Fin N → ℝ) → Fin N → ℝ, ContinuousOn L' (Compositions N) ∧
    ∀ x ∈ Compositions N, ∀ m : Mem, After mix T P x (L x) m → ∃ r, f T P (List.ofFn x) m = .ok r ∧ After mix T P x (L' x) r

theorem runAll_continuous (fs : List Fn) (mix : Mixture ℝ) (T P : ℝ) (h : ∀ f ∈ fs, Changes N f mix T P) (L : (Fin N → ℝ) → Fin N → ℝ)
    (hL : ContinuousOn L (Compositions N)) : ∃ L' : (Fin N → ℝ) → Fin N → ℝ, ContinuousOn L' (Compositions N) ∧
    ∀ x ∈ Compositions N, ∀ m : Mem, After mix T P x (L x) m → ∃ r, runAll T P (List.ofFn x) fs m = .ok r ∧ After mix T P x (L' x) r := by
  induction fs generalizing L with
  | nil => exact ⟨L, hL, fun x _ m hm => ⟨m, rfl, hm⟩⟩
  | cons f fs ih =>
    obtain ⟨L1, h1, h2⟩ := h f List.mem_cons_self L hL
    obtain ⟨L2, h3, h4⟩ := ih (fun g hg => h g (List.mem_cons_of_mem _ hg)) L1 h1
    refine ⟨L2, h3, fun x hx m hm => ?_⟩
    obtain ⟨r, e, hr⟩ := h2 x hx m hm
    obtain ⟨r', e', hr'⟩ := h4 x hx r hr
    exact ⟨r', by unfold runAll; rw [e, Res.bind_ok', e'], hr'⟩

/-- Models whose functions have continuous activities. -/
theorem continuous_of (standard : List (ℝ → ℝ → Option (Std ℝ))) (model ideal : Model) (f : Fn) (hf : model species = .ok f) (T P : ℝ)
    (L : (Fin standard.length → ℝ) → Fin standard.length → ℝ) (hL : ContinuousOn L (Compositions standard.length))
    (hfit : ∀ x m r, f T P x m = .ok r → Fits m standard.length)
    (h : ∀ x ∈ Compositions standard.length, ∀ m : Mem, Fits m standard.length → m.world = {} → ∃ r, f T P (List.ofFn x) m = .ok r ∧ r.props.ln_a = List.ofFn (L x)) :
    ContinuousModel (phase standard species model ideal) T P := by
  have key : ∀ x ∈ Compositions standard.length, ∀ a : AProps ℝ, a.ln_g.length = standard.length → a.ln_a.length = standard.length →
      ∃ b, activityFn model species T P (List.ofFn x) a = (b, true) ∧ b.ln_a = List.ofFn (L x) := by
    intro x hx a h1 h2
    obtain ⟨r, e, hr⟩ := h x hx { props := a } ⟨h1, h2⟩ rfl
    refine ⟨r.props, ?_, hr⟩
    unfold activityFn
    rw [hf, Res.bind_ok', e]
  constructor
  · intro x a h1 h2 h3 h4 h5
    have h1 : x.length = standard.length := h1
    obtain ⟨y, rfl⟩ : ∃ y : Fin standard.length → ℝ, x = List.ofFn y := ⟨fun i => x[i]'(by rw [h1]; exact i.2), by
      apply List.ext_getElem
      · simp [h1]
      · intro i _ _; simp⟩
    obtain ⟨b, hb, -⟩ := key y ⟨fun k => h2 _ (by simp), by rw [← List.sum_ofFn]; exact h3⟩ a h4 h5
    exact congrArg Prod.snd hb
  · refine ⟨L, hL, ?_⟩
    intro x hx old a ha
    have ha : activityFn model species T P (List.ofFn x) old = (a, true) := ha
    have hfits : Fits ({ props := old } : Mem) standard.length := by
      unfold activityFn at ha
      rw [hf, Res.bind_ok'] at ha
      cases hr : f T P (List.ofFn x) { props := old } with
      | ok r => exact hfit _ _ _ hr
      | throw => rw [hr] at ha; simp at ha
      | ub => rw [hr] at ha; simp at ha
    obtain ⟨b, hb, e⟩ := key x hx old hfits.1 hfits.2
    have hab : (b, true) = (a, true) := hb.symm.trans ha
    rw [← (Prod.mk.inj hab).1]
    exact e

theorem mapM_ok {α β : Type} (F : α → Res β) (l : List α) (h : ∀ a ∈ l, ∃ b, F a = .ok b) :
    ∃ r, l.mapM (m := Res) F = .ok r ∧ ∀ b ∈ r, ∃ a ∈ l, F a = .ok b := by
  induction l with
  | nil => exact ⟨[], rfl, by simp⟩
  | cons a l ih =>
    obtain ⟨b, hb⟩ := h a List.mem_cons_self
    obtain ⟨r, h1, h2⟩ := ih fun c hc => h c (List.mem_cons_of_mem _ hc)
    refine ⟨b :: r, ?_, ?_⟩
    · rw [List.mapM_cons, h1]
      show Res.bind (F a) _ = _
      rw [hb]
      rfl
    · intro c hc
      rcases List.mem_cons.1 hc with rfl | hc
      · exact ⟨a, List.mem_cons_self, hb⟩
      · obtain ⟨d, h3, h4⟩ := h2 c hc
        exact ⟨d, List.mem_cons_of_mem _ h3, h4⟩

/-- A model of the solution followed by models of dissolved species. -/
theorem continuous_chain (standard : List (ℝ → ℝ → Option (Std ℝ))) (base : Model) (tail : List Model) (ideal : Model) (f : Fn)
    (hf : base species = .ok f) (T P : ℝ) (mix : Mixture ℝ) (hb : Solution standard.length f mix T P)
    (ht : ∀ model ∈ tail, ∃ g, model species = .ok g ∧ Changes standard.length g mix T P) : ContinuousModel (phase standard species (chain (base :: tail)) ideal) T P := by
  obtain ⟨fs, h1, h2⟩ := mapM_ok (fun model : Model => model species) tail fun a ha => ⟨_, (ht a ha).choose_spec.1⟩
  obtain ⟨⟨L0, c0, s0⟩, hfit⟩ := hb
  obtain ⟨L, hL, hs⟩ := runAll_continuous fs mix T P (by
    intro g hg
    obtain ⟨model, m1, m2⟩ := h2 g hg
    obtain ⟨g', e, hc⟩ := ht model m1
    rw [show g = g' from Res.ok.inj (m2.symm.trans e)]
    exact hc) L0 c0
  refine continuous_of standard _ ideal (fun T P x m => runAll T P x (f :: fs) m) ?_ T P L hL ?_ ?_
  · unfold chain
    rw [List.mapM_cons, h1]
    show Res.bind (Res.bind (base species) _) _ = _
    rw [hf]
    rfl
  · intro x m r h
    have h : Res.bind (f T P x m) (runAll T P x fs) = .ok r := h
    cases e : f T P x m with
    | ok r' => exact hfit _ _ _ e
    | throw => rw [e] at h; cases h
    | ub => rw [e] at h; cases h
  · intro x hx m hm hw
    obtain ⟨r, e, hr⟩ := s0 x hx m hm hw
    obtain ⟨r', e', hr'⟩ := hs x hx r hr
    exact ⟨r', by show Res.bind (f T P (List.ofFn x) m) (runAll T P (List.ofFn x) fs) = _; rw [e, Res.bind_ok', e'], hr'.ln_a⟩

/-! ## Models of dissolved species -/

theorem overwrite_changes (h : construct reactions rho0 eps0 species = .ok mix) (hN : species.length = N) (T P : ℝ) (i : Nat) (hi : i < N) (v : (Fin N → ℝ) → ℝ)
    (hv : ContinuousOn v (Compositions N)) (f : Fn)
    (hf : ∀ x ∈ Compositions N, ∀ (m : Mem) (st : State ℝ) (a : Fin N → ℝ), After mix T P x a m → m.extra = some (mix, st) → mix.state T P (List.ofFn x) = .ok st →
      ∃ world : World, f T P (List.ofFn x) m = .ok (overwrite { m with world := world } st i (v x)) ∧ (∀ idx, world.rumpf = some idx → idx = rumpfIdx mix) ∧
        ∀ idx, world.duan = some idx → idx = duanIdx mix) : Changes N f mix T P := by
  intro L hL
  refine ⟨fun x k => if (k : Nat) = i then v x + Real.log (molal mix.idxWater x i) else L x k, ?_, ?_⟩
  · refine continuousOn_pi.2 fun k => ?_
    by_cases hk : (k : Nat) = i
    · simp only [if_pos hk]
      exact hv.add (ContinuousOn.log (cont_molal h hN i) fun x hx => (molal_pos h hN hx hi).ne')
    · simp only [if_neg hk]
      exact continuousOn_pi.1 hL k
  · intro x hx m hm
    obtain ⟨st, e1, e2⟩ := hm.extra
    obtain ⟨st', s1, s2, s3, -⟩ := state_fn h hN T P x hx
    rw [e2] at s1
    cases s1
    obtain ⟨world, e3, w1, w2⟩ := hf x hx m st _ hm e1 e2
    refine ⟨_, e3, ⟨?_, ?_, ⟨st, e1, e2⟩, w1, w2⟩⟩
    · simpa [overwrite] using hm.ln_g
    · unfold overwrite
      simp only
      rw [hm.ln_a, s3]
      apply List.ext_getElem
      · simp
      · intro k h1 h2
        simp only [List.getElem_set, List.getElem_ofFn]
        by_cases hk : i = k
        · simp [hk]
        · rw [if_neg hk, if_neg (by omega)]

theorem index_ok (f : Formula) (h : ∃ s ∈ species, f.equivalent s.formula = true) : ∃ i, indexWithFormula species f = .ok i ∧ i < species.length := by
  refine ⟨findWithFormula species f, ?_, (find_lt species f).2 h⟩
  unfold indexWithFormula
  rw [if_neg (by have := (find_lt species f).2 h; omega)]

theorem cont_ionMolality (h : construct reactions rho0 eps0 species = .ok mix) (hN : species.length = N) (idx : List Nat) (k : Nat) :
    ContinuousOn (fun x : Fin N → ℝ => ionMolality mix (mix.ix.idxCharged.map (mu reactions species mix x)) idx k) (Compositions N) := by
  unfold ionMolality
  split_ifs
  · by_cases hj : idx.getD k 0 < mix.ix.idxCharged.length
    · have : (fun x : Fin N → ℝ => (mix.ix.idxCharged.map (mu reactions species mix x)).getD (idx.getD k 0) 0) =
          fun x => mu reactions species mix x (mix.ix.idxCharged[idx.getD k 0]'hj) := by
        funext x
        rw [List.getD_eq_getElem _ _ (by simpa using hj), List.getElem_map]
      rw [this]
      exact cont_mu h hN _
    · have : (fun x : Fin N → ℝ => (mix.ix.idxCharged.map (mu reactions species mix x)).getD (idx.getD k 0) 0) = fun _ => 0 := by
        funext x
        exact List.getD_eq_default _ _ (by simpa using hj)
      rw [this]
      exact continuousOn_const
  · exact continuousOn_const

theorem dissolved_changes (h : construct reactions rho0 eps0 species = .ok mix) (hN : species.length = N) (hd : Dissociates reactions) (T P : ℝ) (model : Model)
    (hm : Dissolved species model) : ∃ g, model species = .ok g ∧ Changes N g mix T P := by
  have hcI := cont_ionic h hN
  have hfit : ∀ {m : Mem} {x a : Fin N → ℝ}, After mix T P x a m → (!m.fits species.length || decide ((List.ofFn x).length ≠ species.length)) = false := by
    intro m x a hm
    refine sizes_ok ⟨hm.ln_g.trans hN.symm, ?_⟩ (by simp [hN])
    rw [hm.ln_a]
    simp [hN]
  cases hm with
  | setschenow f b hf =>
    obtain ⟨i, e, hi⟩ := index_ok f hf
    refine ⟨_, by unfold setschenow; rw [e]; rfl, ?_⟩
    refine overwrite_changes h hN T P i (hN ▸ hi) (fun x => Real.log 10 * b * ionic reactions species mix x) (continuousOn_const.mul hcI) _ ?_
    intro x hx m st a hm e1 e2
    obtain ⟨st', s1, s2, s3, s4, s5, -⟩ := state_fn h hN T P x hx
    rw [e2] at s1
    cases s1
    refine ⟨m.world, ?_, hm.rumpf, hm.duan⟩
    simp only [hfit hm, Bool.false_eq_true, if_false, e1, s5]
    rw [← e1]
  | drummond f p hf =>
    obtain ⟨i, e, hi⟩ := index_ok f hf
    refine ⟨_, by unfold drummond; rw [e]; rfl, ?_⟩
    refine overwrite_changes h hN T P i (hN ▸ hi) (fun x => (p.a1 + p.a2 * T + p.a3 / T) * ionic reactions species mix x -
      (p.a4 + p.a5 * T) * ionic reactions species mix x / (ionic reactions species mix x + 1)) ?_ _ ?_
    · refine (continuousOn_const.mul hcI).sub (ContinuousOn.div (continuousOn_const.mul hcI) (hcI.add continuousOn_const) fun x hx => ?_)
      have := ionic_nonneg h hN hd hx
      positivity
    intro x hx m st a hm e1 e2
    obtain ⟨st', s1, s2, s3, s4, s5, s6, -⟩ := state_fn h hN T P x hx
    rw [e2] at s1
    cases s1
    refine ⟨m.world, ?_, hm.rumpf, hm.duan⟩
    simp only [hfit hm, Bool.false_eq_true, if_false, e1, s5, s6]
    rw [← e1]
  | rumpf f hf =>
    obtain ⟨i, e, hi⟩ := index_ok f hf
    refine ⟨_, by unfold rumpf; rw [e]; rfl, ?_⟩
    refine overwrite_changes h hN T P i (hN ▸ hi) (fun x => rumpfValue T (ionMolality mix (mix.ix.idxCharged.map (mu reactions species mix x)) (rumpfIdx mix))) ?_ _ ?_
    · unfold rumpfValue
      have c := fun k => cont_ionMolality h hN (rumpfIdx mix) k
      have := c 0; have := c 1; have := c 2; have := c 3; have := c 4
      fun_prop
    intro x hx m st a hm e1 e2
    obtain ⟨st', s1, s2, s3, s4, s5, s6, -⟩ := state_fn h hN T P x hx
    rw [e2] at s1
    cases s1
    have hidx : m.world.rumpf.getD (ionIndices mix [naPlus, kPlus, caPlus, mgPlus, clMinus]) = rumpfIdx mix := by
      cases hw : m.world.rumpf with
      | none => rfl
      | some idx => exact hm.rumpf idx hw
    refine ⟨{ m.world with rumpf := some (rumpfIdx mix) }, ?_, ?_, hm.duan⟩
    · simp only [hfit hm, Bool.false_eq_true, if_false, e1, s4, s6, hidx]
    · intro idx hi
      exact (Option.some.inj hi).symm
  | duanSun f hf =>
    obtain ⟨i, e, hi⟩ := index_ok f hf
    refine ⟨_, by unfold duanSun; rw [e]; rfl, ?_⟩
    refine overwrite_changes h hN T P i (hN ▸ hi) (fun x => duanSunValue T P (ionMolality mix (mix.ix.idxCharged.map (mu reactions species mix x)) (duanIdx mix))) ?_ _ ?_
    · unfold duanSunValue
      have c := fun k => cont_ionMolality h hN (duanIdx mix) k
      have := c 0; have := c 1; have := c 2; have := c 3; have := c 4; have := c 5
      fun_prop
    intro x hx m st a hm e1 e2
    obtain ⟨st', s1, s2, s3, s4, s5, s6, s7, -⟩ := state_fn h hN T P x hx
    rw [e2] at s1
    cases s1
    have hidx : m.world.duan.getD (ionIndices mix [naPlus, kPlus, caPlus, mgPlus, clMinus, so4Minus]) = duanIdx mix := by
      cases hw : m.world.duan with
      | none => rfl
      | some idx => exact hm.duan idx hw
    refine ⟨{ m.world with duan := some (duanIdx mix) }, ?_, hm.rumpf, ?_⟩
    · simp only [hfit hm, Bool.false_eq_true, if_false, e1, s4, s6, s7, hidx]
    · intro idx hi
      exact (Option.some.inj hi).symm

/-! ## The model of Debye and Hückel -/

theorem cont_dhIon (A B a b z : ℝ) (hB : 0 ≤ B) (ha : 0 ≤ a) : ContinuousOn (fun I : ℝ => dhIon ⟨I, A, B⟩ a b z) (Set.Ici 0) := by
  unfold dhIon
  refine ContinuousOn.mul continuousOn_const (ContinuousOn.add (ContinuousOn.div ?_ ?_ ?_) ?_)
  · fun_prop
  · fun_prop
  · intro I _
    have := Real.sqrt_nonneg I
    positivity
  · fun_prop

theorem cont_dhSigma (A B a : ℝ) (hB : 0 < B) (ha : 0 ≤ a) : ContinuousOn (fun I : ℝ => dhSigma ⟨I, A, B⟩ a) (Set.Ioi 0) := by
  unfold dhSigma
  simp only
  by_cases h : a ≠ 0
  · simp only [if_pos h]
    have hpos : ∀ I ∈ Set.Ioi (0 : ℝ), 0 < a * B * √I := fun I hI =>
      mul_pos (mul_pos (lt_of_le_of_ne ha h.symm) hB) (Real.sqrt_pos.2 hI)
    have c1 : ContinuousOn (fun I : ℝ => 1 + a * B * √I) (Set.Ioi 0) := by fun_prop
    refine ContinuousOn.mul (continuousOn_const.mul (ContinuousOn.inv₀ ((c1.sub continuousOn_const).pow 3) ?_)) (ContinuousOn.add ((c1.sub continuousOn_const).mul (c1.sub continuousOn_const))
      (continuousOn_const.mul (ContinuousOn.log c1 ?_)))
    · intro I hI
      have := hpos I hI
      rw [add_sub_cancel_left]
      positivity
    · intro I hI
      have := hpos I hI
      positivity
  · simp only [if_neg h]
    exact continuousOn_const

theorem kinds (h : construct reactions rho0 eps0 species = .ok mix) (hN : species.length = N) (k : Nat) (hk : k < N) :
    k = mix.idxWater ∨ k ∈ mix.ix.idxCharged ∨ k ∈ mix.ix.idxNeutral := by
  obtain ⟨-, -, -, -, hn, hc, -⟩ := C49_partition reactions rho0 eps0 species mix h
  rw [hn, hc]
  by_cases h1 : k = mix.idxWater
  · exact Or.inl h1
  · have hk' : k < species.length := by omega
    by_cases h2 : species[k].charge = 0
    · exact Or.inr (Or.inr ⟨h1, _, List.getElem?_eq_getElem hk', h2⟩)
    · exact Or.inr (Or.inl ⟨h1, _, List.getElem?_eq_getElem hk', h2⟩)

theorem writes_length {β : Type} (ix : β → Nat) (F : β → ℝ) (L : List β) : ∀ v : List ℝ, (L.foldl (fun a q => a.set (ix q) (F q)) v).length = v.length := by
  induction L with
  | nil => intro v; rfl
  | cons q L ih => intro v; rw [List.foldl_cons, ih, List.length_set]

theorem writes_other {β : Type} (ix : β → Nat) (F : β → ℝ) (k : Nat) (L : List β) : ∀ v : List ℝ, (∀ q ∈ L, ix q ≠ k) →
    (L.foldl (fun a q => a.set (ix q) (F q)) v).getD k 0 = v.getD k 0 := by
  induction L with
  | nil => intro v _; rfl
  | cons q L ih =>
    intro v hv
    rw [List.foldl_cons, ih _ fun q hq => hv q (List.mem_cons_of_mem _ hq), List.getD_eq_getElem?_getD, List.getElem?_set_ne (hv q List.mem_cons_self),
      ← List.getD_eq_getElem?_getD]

theorem not_both (h : construct reactions rho0 eps0 species = .ok mix) {k : Nat} (hn : k ∈ mix.ix.idxNeutral) (hc : k ∈ mix.ix.idxCharged) : False := by
  obtain ⟨-, -, -, -, n1, n2, -⟩ := C49_partition reactions rho0 eps0 species mix h
  obtain ⟨-, s, t1, t2⟩ := (n1 k).1 hn
  obtain ⟨-, s', t3, t4⟩ := (n2 k).1 hc
  rw [t1] at t3
  cases t3
  exact t4 t2

theorem debyeHuckel_solution (h : construct reactions rho0 eps0 species = .ok mix) (hN : species.length = N) (hd : Dissociates reactions) (p : DHParams) (T P : ℝ)
    (hT : 0 < T) (hrho : 0 < rho0) (heps : 0 < eps0) (hp : ∀ s ∈ species, s.charge ≠ 0 → 0 ≤ p.aion s.formula) :
    ∃ f, debyeHuckel reactions rho0 eps0 p species = .ok f ∧ Solution N f mix T P := by
  refine ⟨_, by unfold debyeHuckel; rw [h]; rfl, ?_, ?_⟩
  swap
  · intro x m r hr
    simp only at hr
    split_ifs at hr with hfit
    rw [Bool.or_eq_true, not_or, Bool.not_eq_true', Bool.not_eq_false] at hfit
    exact hN ▸ (fits_iff' m _).1 hfit.1
  have hcI := cont_ionic h hN
  obtain ⟨A, hA⟩ : ∃ A, A = 1824829238 / 1000 * √(rho0 / 1000) / (T * eps0 * √(T * eps0)) := ⟨_, rfl⟩
  obtain ⟨B, hB⟩ : ∃ B, B = 5029158649 / 100000000 * √(rho0 / 1000) / √(T * eps0) := ⟨_, rfl⟩
  have hBpos : 0 < B := by
    rw [hB]
    have := Real.sqrt_pos.2 (mul_pos hT heps)
    have := Real.sqrt_pos.2 (show 0 < rho0 / 1000 by positivity)
    positivity
  obtain ⟨ion, hion⟩ : ∃ ion : (Fin N → ℝ) → Nat → Ion, ion = fun x j =>
    ⟨j, mu reactions species mix x j, (spAt species j).charge, p.aion (spAt species j).formula, p.bion (spAt species j).formula⟩ := ⟨_, rfl⟩
  obtain ⟨d, hdd⟩ : ∃ d : (Fin N → ℝ) → DHState, d = fun x => ⟨ionic reactions species mix x, A, B⟩ := ⟨_, rfl⟩
  have hw := water_lt h hN
  have cg : ∀ j ∈ mix.ix.idxCharged, ContinuousOn (fun x : Fin N → ℝ => dhIon (d x) (ion x j).a (ion x j).b (ion x j).z) (Compositions N) := by
    intro j hj
    obtain ⟨-, -, c1, c2⟩ := charged_lt h hN hj
    rw [hdd, hion]
    exact (cont_dhIon A B _ _ _ hBpos.le (hp _ c2 c1)).comp hcI fun x hx => ionic_nonneg h hN hd hx
  have ct : ∀ j ∈ mix.ix.idxCharged, ContinuousOn (fun x : Fin N → ℝ => waterTerm (d x) (ion x j)) (Compositions N) := by
    intro j hj
    obtain ⟨-, -, c1, c2⟩ := charged_lt h hN hj
    have c3 := cg j hj
    have c4 : ContinuousOn (fun x : Fin N → ℝ => dhSigma (d x) (ion x j).a) (Compositions N) := by
      rw [hdd, hion]
      exact (cont_dhSigma A B _ hBpos (hp _ c2 c1)).comp hcI fun x hx => ionic_pos h hN hd hx hj
    have c5 : ContinuousOn (fun x : Fin N → ℝ => (ion x j).ms) (Compositions N) := by
      rw [hion]
      exact cont_mu h hN j
    have c6 : ContinuousOn (fun x : Fin N → ℝ => (d x).I) (Compositions N) := by rw [hdd]; exact hcI
    have c7 : ContinuousOn (fun x : Fin N → ℝ => √(d x).I) (Compositions N) := c6.sqrt
    unfold waterTerm
    have e1 : ∀ x, (ion x j).b = p.bion (spAt species j).formula := by intro x; rw [hion]
    have e2 : ∀ x, (ion x j).z = (spAt species j).charge := by intro x; rw [hion]
    have e3 : ∀ x, (d x).A = A := by intro x; rw [hdd]
    simp only [e1, e2, e3] at c3 ⊢
    refine ((c5.mul c3).add (((continuousOn_const.mul c6).mul c7).mul c4 |>.mul continuousOn_const)).sub ?_
    exact (((c6.mul c6).mul continuousOn_const).div_const _).mul continuousOn_const
  obtain ⟨nb, hnb⟩ : ∃ nb : Nat → ℝ, nb = fun j => p.bneutral (spAt species j).formula := ⟨_, rfl⟩
  refine ⟨fun x k => if (k : Nat) = mix.idxWater then
      (1 / waterMolarMass * (1 - (List.ofFn x).getD mix.idxWater 0) / (List.ofFn x).getD mix.idxWater 0 + (mix.ix.idxCharged.map fun j => waterTerm (d x) (ion x j)).sum) * (-1 / (1 / waterMolarMass))
    else if (k : Nat) ∈ mix.ix.idxCharged then dhIon (d x) (ion x k).a (ion x k).b (ion x k).z + Real.log (molal mix.idxWater x k)
    else Real.log 10 * nb k * (d x).I + Real.log (molal mix.idxWater x k), ?_, ?_⟩
  · refine continuousOn_pi.2 fun k => ?_
    by_cases h1 : (k : Nat) = mix.idxWater
    · simp only [if_pos h1]
      refine ContinuousOn.mul (ContinuousOn.add (ContinuousOn.div (continuousOn_const.mul (continuousOn_const.sub (cont_entry _ _))) (cont_entry _ _) ?_) (cont_sum _ _ _ ct)) continuousOn_const
      exact fun x hx => (entry_pos hx hw).ne'
    · simp only [if_neg h1]
      have cl : ContinuousOn (fun x : Fin N → ℝ => Real.log (molal mix.idxWater x k)) (Compositions N) :=
        ContinuousOn.log (cont_molal h hN k) fun x hx => (molal_pos h hN hx k.2).ne'
      by_cases h2 : (k : Nat) ∈ mix.ix.idxCharged
      · simp only [if_pos h2]
        exact (cg k h2).add cl
      · simp only [if_neg h2]
        refine ContinuousOn.add (continuousOn_const.mul ?_) cl
        rw [hdd]
        exact hcI
  · intro x hx m hm hworld
    obtain ⟨st, s1, s2, s3, s4, s5, s6, s7, s8, s9⟩ := state_fn h hN T P x hx
    have hst : dhState st = d x := by
      unfold dhState
      rw [s5, s6, s8, s9, hdd, hA, hB]
    obtain ⟨-, -, -, -, -, -, -, -, hNs, hCs, -, -, hneu, hchg, -⟩ := C49_partition reactions rho0 eps0 species mix h
    have hions : dhIons p mix st.ms = mix.ix.idxCharged.map (ion x) := by
      unfold dhIons
      rw [s4, species_of_indices _ _ _ hchg, hion]
      exact ions_map (fun j ms s => ⟨j, ms, s.charge, p.aion s.formula, p.bion s.formula⟩) _ _ _
    have hneutral : (mix.ix.idxNeutral.zip mix.ix.neutral).map (fun q => (q.1, p.bneutral q.2.formula)) = mix.ix.idxNeutral.map fun j => (j, nb j) := by
      rw [species_of_indices _ _ _ hneu, zip_own, List.map_map, hnb]
      rfl
    have hidx : ∀ j, (ion x j).index = j := by intro j; rw [hion]
    have hf := dh_fold (d x) st.m mix.idxWater (mix.ix.idxCharged.map (ion x)) m.props.ln_g
      (m.props.ln_a.set mix.idxWater (1 / waterMolarMass * (1 - (List.ofFn x).getD mix.idxWater 0) / (List.ofFn x).getD mix.idxWater 0))
      (by rw [List.length_set, hm.2]; exact hw) (by
        intro i hi
        obtain ⟨j, hj, rfl⟩ := List.mem_map.1 hi
        rw [hidx, List.length_set, hm.2]
        exact ⟨(charged_lt h hN hj).2.1, (charged_lt h hN hj).1⟩)
      (by rw [List.map_map]
          have : Ion.index ∘ ion x = id := by funext j; exact hidx j
          rw [this, List.map_id]
          exact hCs.imp fun h => Nat.ne_of_lt h)
    simp only at hf
    obtain ⟨r, hr⟩ : ∃ r, r = (mix.ix.idxCharged.map (ion x)).foldl (dhTurn (d x) st.m mix.idxWater) (m.props.ln_g,
      m.props.ln_a.set mix.idxWater (1 / waterMolarMass * (1 - (List.ofFn x).getD mix.idxWater 0) / (List.ofFn x).getD mix.idxWater 0)) := ⟨_, rfl⟩
    have hl1 := (turn_fold_length (d x) st.m mix.idxWater (mix.ix.idxCharged.map (ion x)) m.props.ln_g
      (m.props.ln_a.set mix.idxWater (1 / waterMolarMass * (1 - (List.ofFn x).getD mix.idxWater 0) / (List.ofFn x).getD mix.idxWater 0))).1
    rw [← hr] at hf hl1
    obtain ⟨-, f2, f3, f4, -⟩ := hf
    rw [List.length_set, hm.2] at f2
    have hset : ∀ (l : List ℝ) (v : ℝ), l.length = N → (l.set mix.idxWater v).getD mix.idxWater 0 = v := by
      intro l v hl
      rw [List.getD_eq_getElem _ _ (by rw [List.length_set, hl]; exact hw), List.getElem_set_self]
    rw [hset _ _ hm.2, List.map_map] at f3
    obtain ⟨a0, ha0⟩ : ∃ a0, a0 = r.2.set mix.idxWater (r.2.getD mix.idxWater 0 * (-1 / (1 / waterMolarMass))) := ⟨_, rfl⟩
    have ha0l : a0.length = N := by rw [ha0, List.length_set, f2]
    obtain ⟨g, hg⟩ : ∃ g, g = (mix.ix.idxNeutral.map fun j => (j, nb j)).foldl (fun g q => g.set q.1 (Real.log 10 * q.2 * (d x).I))
      (r.1.set mix.idxWater (a0.getD mix.idxWater 0 - Real.log ((List.ofFn x).getD mix.idxWater 0))) := ⟨_, rfl⟩
    obtain ⟨b, hb⟩ : ∃ b, b = (mix.ix.idxNeutral.map fun j => (j, nb j)).foldl (fun a q => a.set q.1 (Real.log 10 * q.2 * (d x).I + Real.log (st.m.getD q.1 0))) a0 := ⟨_, rfl⟩
    refine ⟨{ m with props := { m.props with ln_g := g, ln_a := b }, extra := some (mix, st) }, ?_, ?_⟩
    · simp only [sizes_ok (show Fits m species.length from hN.symm ▸ hm) (show (List.ofFn x).length = species.length by simp [hN])]
      rw [s1]
      simp only [Res.bind_ok', Bool.false_eq_true, if_false, hst, hions, hneutral, neutral_fold, ← hr, ← ha0, ← hg, ← hb]
    · refine ⟨?_, ?_, ⟨st, rfl, s1⟩, ?_, ?_⟩
      · show g.length = N
        rw [hg, writes_length, List.length_set, hl1, hm.1]
      · show b = _
        have hbl : b.length = N := by rw [hb, writes_length, ha0l]
        apply List.ext_getElem
        · rw [hbl]; simp
        · intro k h1 h2
          rw [List.getElem_ofFn]
          have hk : k < N := by omega
          rw [← List.getD_eq_getElem _ 0 h1]
          dsimp only
          have hskip : k ∉ mix.ix.idxNeutral → b.getD k 0 = a0.getD k 0 := by
            intro hkn
            rw [hb]
            refine writes_other _ _ _ _ _ ?_
            intro q hq e
            obtain ⟨j, hj, rfl⟩ := List.mem_map.1 hq
            exact hkn (e ▸ hj)
          by_cases hkw : k = mix.idxWater
          · subst hkw
            rw [hskip fun hn => (neutral_lt h hN hn).2 rfl, ha0, hset _ _ f2, if_pos rfl, f3]
            have : waterTerm (d x) ∘ ion x = fun j => waterTerm (d x) (ion x j) := rfl
            rw [this]
          · rw [if_neg hkw]
            by_cases hkc : k ∈ mix.ix.idxCharged
            · rw [if_pos hkc]
              have hkn : k ∉ mix.ix.idxNeutral := fun hn => not_both h hn hkc
              rw [hskip hkn, ha0, List.getD_eq_getElem?_getD, List.getElem?_set_ne (Ne.symm hkw), ← List.getD_eq_getElem?_getD]
              have := f4 _ (List.mem_map_of_mem hkc)
              rw [hidx, s3] at this
              exact this
            · rw [if_neg hkc]
              have hkn : k ∈ mix.ix.idxNeutral := by
                rcases kinds h hN k hk with h' | h' | h'
                · exact absurd h' hkw
                · exact absurd h' hkc
                · exact h'
              have := foldl_set_mem Prod.fst (fun q : Nat × ℝ => Real.log 10 * q.2 * (d x).I + Real.log (st.m.getD q.1 0)) (mix.ix.idxNeutral.map fun j => (j, nb j)) a0
                (by rw [List.map_map]
                    show (mix.ix.idxNeutral.map id).Nodup
                    rw [List.map_id]
                    exact hNs.imp fun h => Nat.ne_of_lt h) (k, nb k) (List.mem_map.2 ⟨k, hkn, rfl⟩) (by rw [ha0l]; exact hk)
              rw [hb]
              refine Eq.trans this ?_
              rw [s3]
      · intro idx hi
        have : m.world.rumpf = some idx := hi
        rw [hworld] at this
        cases this
      · intro idx hi
        have : m.world.duan = some idx := hi
        rw [hworld] at this
        cases this

/-! ## The model of Helgeson, Kirkham and Flowers -/

theorem hkf_fold (d : HKFState) (L : List Ion) (hms : ∀ i ∈ L, i.ms ≠ 0) (hx : L ≠ [] → d.xw ≠ 1) : ∀ (g : List ℝ) (φ : ℝ),
    L.foldl (hkfTurn d) (g, φ) = (L.foldl (fun g i => g.set i.index (hkfIon d i.a i.z)) g, φ + (L.map fun i => i.ms * hkfPsi d i.a i.z).sum) := by
  induction L with
  | nil => intro g φ; simp
  | cons i L ih =>
    intro g φ
    have hne := hx (by simp)
    rw [List.foldl_cons, List.foldl_cons]
    have : hkfTurn d (g, φ) i = (g.set i.index (hkfIon d i.a i.z), φ + i.ms * hkfPsi d i.a i.z) := by
      unfold hkfTurn
      rw [if_neg (hms i List.mem_cons_self), if_pos hne]
    rw [this, ih (fun j hj => hms j (List.mem_cons_of_mem _ hj)) (fun _ => hne), List.map_cons, List.sum_cons, add_assoc]

theorem hkfSize_pos (radius z : ℝ) (h : 0 < radius) : 0 < hkfSize radius z := by
  unfold hkfSize
  have := abs_nonneg z
  split_ifs <;> positivity

theorem hkf_solution (h : construct reactions rho0 eps0 species = .ok mix) (hN : species.length = N) (hd : Dissociates reactions) (p : HKFParams) (T P : ℝ)
    (hB : 0 < p.B T P) (hp : ∀ s ∈ species, s.charge ≠ 0 → 0 < p.radius s) : ∃ f, hkf reactions rho0 eps0 p species = .ok f ∧ Solution N f mix T P := by
  refine ⟨_, by unfold hkf; rw [h]; rfl, ?_, ?_⟩
  swap
  · intro x m r hr
    by_contra hc
    have hc : m.fits species.length = false := by
      rw [← Bool.not_eq_true, fits_iff', hN]
      exact hc
    simp only [hc, Bool.not_false, Bool.true_or, if_true] at hr
    cases hr
  have hcI := cont_ionic h hN
  have hw := water_lt h hN
  obtain ⟨xw, hxw⟩ : ∃ xw : (Fin N → ℝ) → ℝ, xw = fun x => (List.ofFn x).getD mix.idxWater 0 := ⟨_, rfl⟩
  have cw : ContinuousOn xw (Compositions N) := by rw [hxw]; exact cont_entry _ _
  have xw_pos : ∀ x ∈ Compositions N, 0 < xw x := fun x hx => by rw [hxw]; exact entry_pos hx hw
  have xw_lt : ∀ j ∈ mix.ix.idxCharged, ∀ x ∈ Compositions N, xw x < 1 := by
    intro j hj x hx
    obtain ⟨j1, j2, -⟩ := charged_lt h hN hj
    have e : xw x = x ⟨mix.idxWater, hw⟩ := by
      rw [hxw]
      show (List.ofFn x).getD mix.idxWater 0 = _
      rw [List.getD_eq_getElem _ _ (by simpa using hw), List.getElem_ofFn]
    have h1 := Finset.add_sum_erase Finset.univ x (Finset.mem_univ (⟨mix.idxWater, hw⟩ : Fin N))
    rw [hx.2] at h1
    have h2 : 0 < ∑ k ∈ Finset.univ.erase (⟨mix.idxWater, hw⟩ : Fin N), x k :=
      Finset.sum_pos (fun k _ => hx.1 k) ⟨⟨j, j1⟩, by
        rw [Finset.mem_erase]
        exact ⟨fun e => j2 (Fin.mk.inj e), Finset.mem_univ _⟩⟩
    rw [e]
    linarith
  obtain ⟨d, hdd⟩ : ∃ d : (Fin N → ℝ) → HKFState, d = fun x => ⟨ionic reactions species mix x, xw x, p.A T P, p.B T P, p.bNaCl T P, p.bNapClm T P⟩ := ⟨_, rfl⟩
  obtain ⟨ion, hion⟩ : ∃ ion : (Fin N → ℝ) → Nat → Ion, ion = fun x j =>
    ⟨j, mu reactions species mix x j, (spAt species j).charge, p.radius (spAt species j), 0⟩ := ⟨_, rfl⟩
  have cs : ContinuousOn (fun x : Fin N → ℝ => √(ionic reactions species mix x)) (Compositions N) := hcI.sqrt
  have clw : ContinuousOn (fun x : Fin N → ℝ => Real.log (xw x)) (Compositions N) := cw.log fun x hx => (xw_pos x hx).ne'
  have cg : ∀ j ∈ mix.ix.idxCharged, ContinuousOn (fun x : Fin N → ℝ => hkfIon (d x) (ion x j).a (ion x j).z) (Compositions N) := by
    intro j hj
    obtain ⟨-, -, c1, c2⟩ := charged_lt h hN hj
    have hs := hkfSize_pos _ (spAt species j).charge (hp _ c2 c1)
    rw [hdd, hion]
    unfold hkfIon
    simp only
    refine ContinuousOn.mul (ContinuousOn.add (ContinuousOn.add (ContinuousOn.div (continuousOn_const.mul cs).neg (continuousOn_const.add (continuousOn_const.mul cs)) ?_) (clw.div_const _))
      (continuousOn_const.mul hcI)) continuousOn_const
    intro x hx
    have := Real.sqrt_nonneg (ionic reactions species mix x)
    positivity
  have ct : ∀ j ∈ mix.ix.idxCharged, ContinuousOn (fun x : Fin N → ℝ => (ion x j).ms * hkfPsi (d x) (ion x j).a (ion x j).z) (Compositions N) := by
    intro j hj
    obtain ⟨-, -, c1, c2⟩ := charged_lt h hN hj
    have hs := hkfSize_pos _ (spAt species j).charge (hp _ c2 c1)
    have hpos : ∀ x ∈ Compositions N, 0 < hkfSize (p.radius (spAt species j)) (spAt species j).charge * p.B T P * √(ionic reactions species mix x) := fun x hx =>
      mul_pos (mul_pos hs hB) (Real.sqrt_pos.2 (ionic_pos h hN hd hx hj))
    rw [hdd, hion]
    unfold hkfPsi
    simp only
    have c0 : ContinuousOn (fun x : Fin N → ℝ => hkfSize (p.radius (spAt species j)) (spAt species j).charge * p.B T P * √(ionic reactions species mix x)) (Compositions N) :=
      continuousOn_const.mul cs
    have cl := (continuousOn_const (c := (1 : ℝ))).add c0
    refine (cont_mu h hN j).mul (ContinuousOn.sub (ContinuousOn.add (ContinuousOn.div_const (ContinuousOn.mul (continuousOn_const.mul cs) (ContinuousOn.mul (ContinuousOn.div continuousOn_const (c0.pow 3) ?_)
      (ContinuousOn.sub (ContinuousOn.sub cl (ContinuousOn.div continuousOn_const cl ?_)) (continuousOn_const.mul (ContinuousOn.log cl ?_))))) _)
      (ContinuousOn.mul (ContinuousOn.div cw (continuousOn_const.sub cw) ?_) (clw.div_const _))) (continuousOn_const.mul hcI))
    · exact fun x hx => pow_ne_zero _ (hpos x hx).ne'
    · exact fun x hx => (add_pos one_pos (hpos x hx)).ne'
    · exact fun x hx => (add_pos one_pos (hpos x hx)).ne'
    · exact fun x hx => (by have := xw_lt j hj x hx; linarith)
  refine ⟨fun x k => if (k : Nat) = mix.idxWater then Real.log 10 * waterMolarMass * (mix.ix.idxCharged.map fun j => (ion x j).ms * hkfPsi (d x) (ion x j).a (ion x j).z).sum
    else if (k : Nat) ∈ mix.ix.idxCharged then hkfIon (d x) (ion x k).a (ion x k).z + Real.log (molal mix.idxWater x k)
    else Real.log 10 * (1 / 10) * (d x).I + Real.log (molal mix.idxWater x k), ?_, ?_⟩
  · refine continuousOn_pi.2 fun k => ?_
    by_cases h1 : (k : Nat) = mix.idxWater
    · simp only [if_pos h1]
      exact continuousOn_const.mul (cont_sum _ _ _ ct)
    · simp only [if_neg h1]
      have cl : ContinuousOn (fun x : Fin N → ℝ => Real.log (molal mix.idxWater x k)) (Compositions N) :=
        ContinuousOn.log (cont_molal h hN k) fun x hx => (molal_pos h hN hx k.2).ne'
      by_cases h2 : (k : Nat) ∈ mix.ix.idxCharged
      · simp only [if_pos h2]
        exact (cg k h2).add cl
      · simp only [if_neg h2]
        refine ContinuousOn.add (continuousOn_const.mul ?_) cl
        rw [hdd]
        exact hcI
  · intro x hx m hm hworld
    obtain ⟨st, s1, s2, s3, s4, s5, s6, s7, s8, s9⟩ := state_fn h hN T P x hx
    obtain ⟨-, -, -, -, -, -, -, -, hNs, hCs, -, -, hneu, hchg, -⟩ := C49_partition reactions rho0 eps0 species mix h
    have hions : hkfIons p mix st.ms = mix.ix.idxCharged.map (ion x) := by
      unfold hkfIons
      rw [s4, species_of_indices _ _ _ hchg, hion]
      exact ions_map (fun j ms s => ⟨j, ms, s.charge, p.radius s, 0⟩) _ _ _
    have hidx : ∀ j, (ion x j).index = j := by intro j; rw [hion]
    have hI : st.Is = (d x).I := by rw [hdd, s5]
    have hdx : (⟨(d x).I, (List.ofFn x).getD mix.idxWater 0, p.A T P, p.B T P, p.bNaCl T P, p.bNapClm T P⟩ : HKFState) = d x := by rw [hdd, hxw]
    obtain ⟨g0, hg0⟩ : ∃ g0, g0 = mix.ix.idxNeutral.foldl (fun g i => g.set i (Real.log 10 * (1 / 10) * (d x).I)) m.props.ln_g := ⟨_, rfl⟩
    have hg0l : g0.length = N := by
      rw [hg0]
      exact (writes_length id (fun _ => Real.log 10 * (1 / 10) * (d x).I) _ _).trans hm.1
    have hfold := hkf_fold (d x) (mix.ix.idxCharged.map (ion x)) (by
      intro i hi
      obtain ⟨j, hj, rfl⟩ := List.mem_map.1 hi
      rw [hion]
      exact (mu_pos h hN hd hx (charged_lt h hN hj).1).ne') (by
      intro hne
      obtain ⟨j, hj⟩ := List.exists_mem_of_ne_nil _ (fun e => hne (by rw [e]; rfl) : mix.ix.idxCharged ≠ [])
      rw [hdd]
      exact (xw_lt j hj x hx).ne) g0 0
    rw [zero_add, List.map_map] at hfold
    obtain ⟨g, hg⟩ : ∃ g, g = (mix.ix.idxCharged.map (ion x)).foldl (fun g i => g.set i.index (hkfIon (d x) i.a i.z)) g0 := ⟨_, rfl⟩
    obtain ⟨φ, hφ⟩ : ∃ φ, φ = (mix.ix.idxCharged.map fun j => (ion x j).ms * hkfPsi (d x) (ion x j).a (ion x j).z).sum := ⟨_, rfl⟩
    have hfold : (mix.ix.idxCharged.map (ion x)).foldl (hkfTurn (d x)) (g0, 0) = (g, φ) := by
      rw [hfold, hg, hφ]
      rfl
    have hgl : g.length = N := by rw [hg, writes_length, hg0l]
    have hwater : (if (List.ofFn x).getD mix.idxWater 0 ≠ 1 then Real.log 10 * waterMolarMass * φ else Real.log ((List.ofFn x).getD mix.idxWater 0)) = Real.log 10 * waterMolarMass * φ := by
      by_cases h1 : (List.ofFn x).getD mix.idxWater 0 = 1
      · rw [if_neg (not_not.2 h1), h1, Real.log_one, hφ]
        have : mix.ix.idxCharged = [] := by
          by_contra hne
          obtain ⟨j, hj⟩ := List.exists_mem_of_ne_nil _ hne
          have := xw_lt j hj x hx
          rw [hxw] at this
          linarith
        simp [this]
      · rw [if_pos h1]
    obtain ⟨a0, ha0⟩ : ∃ a0, a0 = (List.zipWith (fun g m => g + Real.log m) g st.m).set mix.idxWater (Real.log 10 * waterMolarMass * φ) := ⟨_, rfl⟩
    have ha0l : a0.length = N := by rw [ha0, List.length_set, List.length_zipWith, hgl, s2, Nat.min_self]
    refine ⟨{ m with props := { m.props with ln_g := g.set mix.idxWater (a0.getD mix.idxWater 0 - Real.log ((List.ofFn x).getD mix.idxWater 0)), ln_a := a0 }, extra := some (mix, st) }, ?_, ?_⟩
    · simp only [sizes_ok (show Fits m species.length from hN.symm ▸ hm) (show (List.ofFn x).length = species.length by simp [hN])]
      rw [s1]
      simp only [Res.bind_ok', Bool.false_eq_true, if_false, hI, hdx, hions, ← hg0, hfold]
      rw [hwater, ← ha0]
    · refine ⟨?_, ?_, ⟨st, rfl, s1⟩, ?_, ?_⟩
      · show (g.set _ _).length = N
        rw [List.length_set, hgl]
      · show a0 = _
        apply List.ext_getElem
        · rw [ha0l]; simp
        · intro k h1 h2
          rw [List.getElem_ofFn]
          have hk : k < N := by omega
          dsimp only
          by_cases hkw : k = mix.idxWater
          · subst hkw
            rw [if_pos rfl, ← hφ]
            simp only [ha0, List.getElem_set_self]
          · rw [if_neg hkw]
            have e1 : a0[k] = g.getD k 0 + Real.log (molal mix.idxWater x k) := by
              simp only [ha0, List.getElem_set_ne (Ne.symm hkw), List.getElem_zipWith]
              rw [← s3, List.getD_eq_getElem _ _ (by omega : k < g.length), List.getD_eq_getElem _ _ (by omega : k < st.m.length)]
            rw [e1]
            by_cases hkc : k ∈ mix.ix.idxCharged
            · rw [if_pos hkc]
              congr 1
              have := foldl_set_mem Ion.index (fun i : Ion => hkfIon (d x) i.a i.z) (mix.ix.idxCharged.map (ion x)) g0
                (by rw [List.map_map]
                    have : Ion.index ∘ ion x = id := by funext j; exact hidx j
                    rw [this, List.map_id]
                    exact hCs.imp fun h => Nat.ne_of_lt h) (ion x k) (List.mem_map_of_mem hkc) (by rw [hidx, hg0l]; exact hk)
              rw [hidx, ← hg] at this
              exact this
            · rw [if_neg hkc]
              congr 1
              have hkn : k ∈ mix.ix.idxNeutral := by
                rcases kinds h hN k hk with h' | h' | h'
                · exact absurd h' hkw
                · exact absurd h' hkc
                · exact h'
              rw [hg, writes_other _ _ k _ _ (by
                intro q hq
                obtain ⟨j, hj, rfl⟩ := List.mem_map.1 hq
                rw [hidx]
                exact fun e => hkc (e ▸ hj)), hg0]
              exact foldl_set_mem id (fun _ : Nat => Real.log 10 * (1 / 10) * (d x).I) mix.ix.idxNeutral m.props.ln_g
                (by rw [List.map_id]; exact hNs.imp fun h => Nat.ne_of_lt h) k hkn (by rw [hm.1]; exact hk)
      · intro idx hi
        have : m.world.rumpf = some idx := hi
        rw [hworld] at this
        cases this
      · intro idx hi
        have : m.world.duan = some idx := hi
        rw [hworld] at this
        cases this

/-! ## Claims -/

theorem construct_ok (reactions : List Registries.Reaction) (rho0 eps0 : ℝ) (species : List (Species ℝ)) (h : HasWater species) :
    ∃ mix, construct reactions rho0 eps0 species = .ok mix := by
  rw [construct_eq, if_neg (by have := (find_lt species waterFormula).2 h; omega)]
  exact ⟨_, rfl⟩

/-- **C114 (Debye and Hückel).** The model of Debye and Hückel, alone or followed by models for dissolved gases and neutral species, is continuous in every solution of ions and neutral
species, if the sizes of the ions are not negative. -/
theorem C114_debyeHuckel (reactions : List Registries.Reaction) (hd : Dissociates reactions) (rho0 eps0 : ℝ) (hrho : 0 < rho0) (heps : 0 < eps0) (p : DHParams)
    (standard : List (ℝ → ℝ → Option (Std ℝ))) (species : List (Species ℝ)) (hl : species.length = standard.length) (hw : HasWater species)
    (hp : ∀ s ∈ species, s.charge ≠ 0 → 0 ≤ p.aion s.formula) (tail : List Model) (ht : ∀ model ∈ tail, Dissolved species model) (ideal : Model) (T P : ℝ) (hT : 0 < T) :
    ContinuousModel (phase standard species (chain (debyeHuckel reactions rho0 eps0 p :: tail)) ideal) T P := by
  obtain ⟨mix, h⟩ := construct_ok reactions rho0 eps0 species hw
  obtain ⟨f, h1, h2⟩ := debyeHuckel_solution h hl hd p T P hT hrho heps hp
  exact continuous_chain standard _ tail ideal f h1 T P mix h2 fun model hm => dissolved_changes h hl hd T P model (ht model hm)

/-- **C114 (Helgeson, Kirkham and Flowers).** So is this model, if the parameter `B` of Debye and Hückel and the effective radii of the ions are positive. -/
theorem C114_hkf (reactions : List Registries.Reaction) (hd : Dissociates reactions) (rho0 eps0 : ℝ) (p : HKFParams) (standard : List (ℝ → ℝ → Option (Std ℝ)))
    (species : List (Species ℝ)) (hl : species.length = standard.length) (hw : HasWater species) (hp : ∀ s ∈ species, s.charge ≠ 0 → 0 < p.radius s) (tail : List Model)
    (ht : ∀ model ∈ tail, Dissolved species model) (ideal : Model) (T P : ℝ) (hB : 0 < p.B T P) :
    ContinuousModel (phase standard species (chain (hkf reactions rho0 eps0 p :: tail)) ideal) T P := by
  obtain ⟨mix, h⟩ := construct_ok reactions rho0 eps0 species hw
  obtain ⟨f, h1, h2⟩ := hkf_solution h hl hd p T P hB hp
  exact continuous_chain standard _ tail ideal f h1 T P mix h2 fun model hm => dissolved_changes h hl hd T P model (ht model hm)

theorem mapM_rel {α β : Type} (F : α → Res β) : ∀ (l : List α) (r : List β), l.mapM (m := Res) F = .ok r → ∀ b ∈ r, ∃ a ∈ l, F a = .ok b
  | [], r, h, b, hb => by
    have h : Res.ok [] = Res.ok r := h
    cases h
    cases hb
  | a :: l, r, h, b, hb => by
    rw [List.mapM_cons] at h
    have h : Res.bind (F a) (fun c => Res.bind (l.mapM (m := Res) F) fun cs => .ok (c :: cs)) = .ok r := h
    cases h1 : F a with
    | throw => rw [h1] at h; cases h
    | ub => rw [h1] at h; cases h
    | ok c =>
      cases h2 : l.mapM (m := Res) F with
      | throw => rw [h1, h2] at h; cases h
      | ub => rw [h1, h2] at h; cases h
      | ok cs =>
        rw [h1, h2] at h
        cases h
        rcases List.mem_cons.1 hb with rfl | hb
        · exact ⟨a, List.mem_cons_self, h1⟩
        · obtain ⟨d, h3, h4⟩ := mapM_rel F l cs h2 b hb
          exact ⟨d, List.mem_cons_of_mem _ h3, h4⟩

/-- The dissociation reactions of the program give positive numbers of ions. -/
theorem C114_dissociation (reactions : List Registries.Reaction) (h : Registries.defaultReactions = .ok reactions) : Dissociates reactions := by
  intro r hr q hq
  obtain ⟨row, h1, h2⟩ := mapM_rel _ _ _ h r hr
  have table : ∀ row ∈ Registries.defaultReactionTexts, ∀ p ∈ row.2, 0 ≤ p.1 := by decide +kernel
  unfold Registries.mkReaction at h2
  cases hc : Registries.formula row.1 with
  | throw => rw [hc] at h2; cases h2
  | ub => rw [hc] at h2; cases h2
  | ok c =>
    rw [hc, Res.bind_ok'] at h2
    cases hi : row.2.mapM (m := Res) (fun p => Res.bind (Registries.formula p.2) fun f => .ok (p.1, f)) with
    | throw => rw [hi] at h2; cases h2
    | ub => rw [hi] at h2; cases h2
    | ok ions =>
      rw [hi, Res.bind_ok'] at h2
      cases h2
      obtain ⟨p, h3, h4⟩ := mapM_rel _ _ _ hi q hq
      cases hf : Registries.formula p.2 with
      | throw => rw [hf] at h4; cases h4
      | ub => rw [hf] at h4; cases h4
      | ok f =>
        rw [hf, Res.bind_ok'] at h4
        cases h4
        exact table row h1 p h3

/-- Carbonated brine, with the models of Debye and Hückel, and of Rumpf for the dissolved gas. -/
example (T P : ℝ) (hT : 0 < T) : ContinuousModel (phase [constant 0, constant 0, constant 0, constant 0] saltyWater (chain [debyeHuckel [] 997 78 {}, rumpf co2]) idealAqueous) T P := by
  refine C114_debyeHuckel [] (by intro r hr; cases hr) 997 78 (by norm_num) (by norm_num) {} _ saltyWater rfl ⟨_, List.mem_cons_self, by decide +kernel⟩ ?_ [rumpf co2] ?_ _ T P hT
  · intro s hs _
    simp [DHParams.aion, getParam]
  · intro model hm
    rw [List.mem_singleton] at hm
    subst hm
    exact .rumpf co2 ⟨⟨c!"CO2(aq)", co2, 0⟩, by simp [saltyWater, carbonated], by decide +kernel⟩

/-- The same with the model of Helgeson, Kirkham and Flowers, and of Drummond for the dissolved gas. -/
example (T P : ℝ) : ContinuousModel (phase [constant 0, constant 0, constant 0, constant 0] saltyWater
    (chain [hkf [] 997 78 ⟨fun _ _ => 1 / 2, fun _ _ => 1 / 3, fun _ _ => 0, fun _ _ => 0, fun _ => 2⟩, drummond co2 ⟨-11312 / 10000, 14 / 10000, 284, 9 / 10, 1 / 1000⟩]) idealAqueous) T P := by
  refine C114_hkf [] (by intro r hr; cases hr) 997 78 _ _ saltyWater rfl ⟨_, List.mem_cons_self, by decide +kernel⟩ ?_ [drummond co2 _] ?_ _ T P (by norm_num)
  · intro s hs _
    norm_num
  · intro model hm
    rw [List.mem_singleton] at hm
    subst hm
    exact .drummond co2 _ ⟨⟨c!"CO2(aq)", co2, 0⟩, by simp [saltyWater, carbonated], by decide +kernel⟩

end Verif.Existence
