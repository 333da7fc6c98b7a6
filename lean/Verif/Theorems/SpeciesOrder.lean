import Verif.Lemmas.SpeciesOrder
import Verif.Theorems.ActivityDebyeHuckel

/-!
# C112: the order in which the species of a phase are given does not matter
-/

namespace Verif.SpeciesOrder

open Activity Aqueous ChemicalProps

variable {order : List Nat}

/-! ## Aqueous mixtures -/

/-- The lists of neutral and charged species of a mixture. -/
noncomputable def ixOf (species : List (Species ℝ)) : Indices ℝ := visitAll (findWithFormula species waterFormula) {} 0 species

/-- What is used of the mixtures for the same species in two orders. -/
structure SameMixture (order : List Nat) (mix mix' : Mixture ℝ) : Prop where
  ix : mix.ix = ixOf mix.species
  ix' : mix'.ix = ixOf mix'.species
  species : mix'.species = reorder order mix.species
  isOrder : IsOrder order mix.species.length
  water : mix.idxWater < mix.species.length
  water' : mix'.idxWater < mix.species.length
  waters : place order mix'.idxWater = mix.idxWater
  neutral : (mix'.ix.idxNeutral.map (place order)).Perm mix.ix.idxNeutral
  charged : (mix'.ix.idxCharged.map (place order)).Perm mix.ix.idxCharged
  cations : (mix'.ix.idxCations.map (place order)).Perm mix.ix.idxCations
  anions : (mix'.ix.idxAnions.map (place order)).Perm mix.ix.idxAnions
  neutral_lt : ∀ k ∈ mix'.ix.idxNeutral, k < mix.species.length ∧ k ≠ mix'.idxWater
  charged_lt : ∀ k ∈ mix'.ix.idxCharged, k < mix.species.length ∧ k ≠ mix'.idxWater
  cations_lt : ∀ k ∈ mix'.ix.idxCations, k < mix.species.length ∧ k ≠ mix'.idxWater
  anions_lt : ∀ k ∈ mix'.ix.idxAnions, k < mix.species.length ∧ k ≠ mix'.idxWater
  neutral_nodup : mix.ix.idxNeutral.Nodup
  charged_nodup : mix.ix.idxCharged.Nodup
  cations_nodup : mix.ix.idxCations.Nodup
  anions_nodup : mix.ix.idxAnions.Nodup
  neutral_sp : mix.ix.neutral = mix.ix.idxNeutral.map (spAt mix.species)
  charged_sp : mix.ix.charged = mix.ix.idxCharged.map (spAt mix.species)
  cations_sp : mix.ix.cations = mix.ix.idxCations.map (spAt mix.species)
  anions_sp : mix.ix.anions = mix.ix.idxAnions.map (spAt mix.species)
  neutral_sp' : mix'.ix.neutral = mix'.ix.idxNeutral.map (spAt mix'.species)
  charged_sp' : mix'.ix.charged = mix'.ix.idxCharged.map (spAt mix'.species)
  cations_sp' : mix'.ix.cations = mix'.ix.idxCations.map (spAt mix'.species)
  anions_sp' : mix'.ix.anions = mix'.ix.idxAnions.map (spAt mix'.species)
  rho : mix'.rho = mix.rho
  epsilon : mix'.epsilon = mix.epsilon

theorem construct_parts (reactions : List Registries.Reaction) (rho0 eps0 : ℝ) (species : List (Species ℝ)) (mix : Mixture ℝ)
    (h : construct reactions rho0 eps0 species = .ok mix) :
    findWithFormula species waterFormula < species.length ∧ mix.idxWater = findWithFormula species waterFormula ∧ mix.ix = ixOf species ∧
      mix.species = species ∧ mix.rho = (fun _ _ => rho0) ∧ mix.epsilon = (fun _ _ => eps0) := by
  rw [construct_eq] at h
  by_cases hw : findWithFormula species waterFormula ≥ species.length
  · rw [if_pos hw] at h; cases h
  rw [if_neg hw] at h
  cases h
  exact ⟨not_le.mp hw, rfl, rfl, rfl, rfl, rfl⟩

theorem construct_reorder (reactions : List Registries.Reaction) (rho0 eps0 : ℝ) (species : List (Species ℝ)) (ho : IsOrder order species.length)
    (hone : AtMostOne species waterFormula) (mix : Mixture ℝ) (h : construct reactions rho0 eps0 species = .ok mix) :
    ∃ mix', construct reactions rho0 eps0 (reorder order species) = .ok mix' ∧ mix.species = species ∧ SameMixture order mix mix' := by
  obtain ⟨a1, a2, a3, a4, a5, a6⟩ := construct_parts reactions rho0 eps0 species mix h
  obtain ⟨f1, f2⟩ := find_reorder species waterFormula ho hone a1
  have hlen := reorder_length species ho
  obtain ⟨mix', h'⟩ : ∃ mix', construct reactions rho0 eps0 (reorder order species) = .ok mix' := by
    rw [construct_eq, if_neg (by rw [hlen]; omega)]
    exact ⟨_, rfl⟩
  obtain ⟨b1, b2, b3, b4, b5, b6⟩ := construct_parts reactions rho0 eps0 _ mix' h'
  obtain ⟨-, -, -, -, p1, p2, p3, p4, s1, s2, s3, s4, e1, e2, e3, e4, -, -⟩ := C49_partition reactions rho0 eps0 species mix h
  obtain ⟨-, -, -, -, q1, q2, q3, q4, t1, t2, t3, t4, d1, d2, d3, d4, -, -⟩ := C49_partition reactions rho0 eps0 _ mix' h'
  have hww : place order mix'.idxWater = mix.idxWater := by rw [b2, a2, f2]
  have hw' : mix'.idxWater < species.length := by rw [b2]; exact f1
  have key : ∀ (Q : ℝ → Prop) (idx idx' : List Nat), idx.Pairwise (· < ·) → idx'.Pairwise (· < ·) →
      (∀ i, i ∈ idx ↔ i ≠ mix.idxWater ∧ ∃ s, species[i]? = some s ∧ Q s.charge) →
      (∀ i, i ∈ idx' ↔ i ≠ mix'.idxWater ∧ ∃ s, (reorder order species)[i]? = some s ∧ Q s.charge) →
      (idx'.map (place order)).Perm idx ∧ (∀ k ∈ idx', k < species.length ∧ k ≠ mix'.idxWater) ∧ idx.Nodup := by
    intro Q idx idx' hs hs' hm hm'
    have l1 : ∀ i ∈ idx, i < species.length := fun i hi => by
      obtain ⟨-, s, hs, -⟩ := (hm i).mp hi
      exact (List.getElem?_eq_some_iff.mp hs).1
    have l2 : ∀ k ∈ idx', k < species.length := fun k hk => by
      obtain ⟨-, s, hs, -⟩ := (hm' k).mp hk
      rw [← hlen]
      exact (List.getElem?_eq_some_iff.mp hs).1
    have n1 : idx.Nodup := hs.imp fun h => Nat.ne_of_lt h
    refine ⟨places_perm ho idx idx' n1 (hs'.imp fun h => Nat.ne_of_lt h) l1 l2 ?_, fun k hk => ⟨l2 k hk, ((hm' k).mp hk).1⟩, n1⟩
    intro k hk
    rw [hm, hm', reorder_get? species ho k hk, ← hww]
    refine and_congr_left' ?_
    constructor
    · intro hne e
      exact hne (place_inj ho hk hw' e)
    · intro hne e
      exact hne (by rw [e])
  obtain ⟨k1, k2, k3⟩ := key (fun z => z = 0) _ _ s1 t1 p1 q1
  obtain ⟨k4, k5, k6⟩ := key (fun z => z ≠ 0) _ _ s2 t2 p2 q2
  obtain ⟨k7, k8, k9⟩ := key (fun z => 0 < z) _ _ s3 t3 p3 q3
  obtain ⟨k10, k11, k12⟩ := key (fun z => z < 0) _ _ s4 t4 p4 q4
  refine ⟨mix', h', a4, ?_⟩
  constructor
  case ix => rw [a3, a4]
  case ix' => rw [b3, b4]
  case species => rw [b4, a4]
  all_goals (try rw [a4])
  all_goals (try rw [b4])
  case isOrder => exact ho
  case water => rw [a2]; exact a1
  case water' => exact hw'
  case waters => exact hww
  case neutral => exact k1
  case charged => exact k4
  case cations => exact k7
  case anions => exact k10
  case neutral_lt => exact k2
  case charged_lt => exact k5
  case cations_lt => exact k8
  case anions_lt => exact k11
  case neutral_nodup => exact k3
  case charged_nodup => exact k6
  case cations_nodup => exact k9
  case anions_nodup => exact k12
  case neutral_sp => exact species_of_indices _ _ _ e1
  case charged_sp => exact species_of_indices _ _ _ e2
  case cations_sp => exact species_of_indices _ _ _ e3
  case anions_sp => exact species_of_indices _ _ _ e4
  case neutral_sp' => exact species_of_indices _ _ _ d1
  case charged_sp' => exact species_of_indices _ _ _ d2
  case cations_sp' => exact species_of_indices _ _ _ d3
  case anions_sp' => exact species_of_indices _ _ _ d4
  case rho => rw [b5, a5]
  case epsilon => rw [b6, a6]

theorem spAt_reorder (species : List (Species ℝ)) (ho : IsOrder order species.length) {k : Nat} (hk : k < species.length) :
    spAt (reorder order species) k = spAt species (place order k) := by
  unfold spAt
  rw [reorder_get? species ho k hk]

theorem ionsIn_reorder (reactions : List Registries.Reaction) (species : List (Species ℝ)) (ho : IsOrder order species.length) {i j : Nat} (hi : i < species.length)
    (hj : j < species.length) : (ionsIn reactions (reorder order species) i j : ℝ) = ionsIn reactions species (place order i) (place order j) := by
  unfold ionsIn
  rw [reorder_get? species ho i hi, reorder_get? species ho j hj]

/-- What is used of the states of a mixture for the same species in two orders. -/
structure SameState (order : List Nat) (mix mix' : Mixture ℝ) (st st' : State ℝ) : Prop where
  T : st'.T = st.T
  P : st'.P = st.P
  rho : st'.rho = st.rho
  epsilon : st'.epsilon = st.epsilon
  Ie : st'.Ie = st.Ie
  Is : st'.Is = st.Is
  length : st.m.length = mix.species.length
  m : st'.m = reorder order st.m
  ms : ∃ μ : Nat → ℝ, st.ms = mix.ix.idxCharged.map μ ∧ st'.ms = mix'.ix.idxCharged.map fun k => μ (place order k)

theorem state_T (mix : Mixture ℝ) (T P : ℝ) (x : List ℝ) (st : State ℝ) (h : mix.state T P x = .ok st) :
    st.T = T ∧ st.P = P ∧ st.rho = mix.rho T P ∧ st.epsilon = mix.epsilon T P := by
  unfold Mixture.state at h
  cases h1 : mix.molalities x with
  | throw => rw [h1] at h; cases h
  | ub => rw [h1] at h; cases h
  | ok m =>
    rw [h1] at h
    simp only [Res.bind_ok'] at h
    cases h2 : mix.stoichiometricMolalities m with
    | throw => rw [h2] at h; cases h
    | ub => rw [h2] at h; cases h
    | ok ms =>
      rw [h2] at h
      simp only [Res.bind_ok'] at h
      cases h3 : mix.stoichiometricIonicStrength ms with
      | throw => rw [h3] at h; cases h
      | ub => rw [h3] at h; cases h
      | ok Is =>
        rw [h3] at h
        simp only [Res.bind_ok'] at h
        cases h
        exact ⟨rfl, rfl, rfl, rfl⟩

theorem state_reorder (reactions : List Registries.Reaction) (rho0 eps0 : ℝ) (species : List (Species ℝ)) (mix mix' : Mixture ℝ)
    (h : construct reactions rho0 eps0 species = .ok mix) (h' : construct reactions rho0 eps0 (reorder order species) = .ok mix') (hs : mix.species = species)
    (hsame : SameMixture order mix mix') (T P : ℝ) (x : List ℝ) (hx : x.length = species.length) :
    ∃ st st', mix.state T P x = .ok st ∧ mix'.state T P (reorder order x) = .ok st' ∧ SameState order mix mix' st st' := by
  have ho : IsOrder order species.length := hs ▸ hsame.isOrder
  have hox : IsOrder order x.length := by rw [hx]; exact ho
  obtain ⟨st, g1, -, g2, g3, g4, g5, g6⟩ := state_eq reactions rho0 eps0 species mix h T P x hx
  obtain ⟨st', g1', -, g2', g3', g4', g5', g6'⟩ := state_eq reactions rho0 eps0 _ mix' h' T P (reorder order x)
    (by rw [reorder_length x hox, reorder_length species ho, hx])
  obtain ⟨c1, c2, c3, c4⟩ := state_T mix T P x st g1
  obtain ⟨c1', c2', c3', c4'⟩ := state_T mix' T P _ st' g1'
  have hw' : mix'.idxWater < species.length := by rw [← hs]; exact hsame.water'
  have hxw : (reorder order x).getD mix'.idxWater 0 = x.getD mix.idxWater 0 := by
    rw [reorder_getD x hox _ (by rw [hx]; exact hw'), hsame.waters]
  have hm : st'.m = reorder order st.m := by
    rw [g3', g3, hxw, reorder_length x hox]
    split
    · apply eq_reorder _ _ (by simpa using hox)
      · simp
      · intro k hk
        simp only [List.length_replicate] at hk
        rw [List.getElem?_replicate, List.getElem?_replicate, if_pos hk, if_pos (place_lt hox hk)]
    · rw [reorder_map]
  have hom : IsOrder order st.m.length := by rw [g2]; exact ho
  have hget : ∀ k, k < species.length → st'.m.getD k 0 = st.m.getD (place order k) 0 := fun k hk => by
    rw [hm, reorder_getD st.m hom k (by rw [g2]; exact hk)]
  have hsum : ∀ k, k ∈ mix'.ix.idxCharged → (mix'.ix.idxNeutral.map fun i => ionsIn reactions (reorder order species) i k * st'.m.getD i 0).sum =
      (mix.ix.idxNeutral.map fun i => ionsIn reactions species i (place order k) * st.m.getD i 0).sum := by
    intro k hk
    have hk := (hsame.charged_lt k hk).1
    rw [hs] at hk
    rw [← (hsame.neutral.map fun i => ionsIn reactions species i (place order k) * st.m.getD i 0).sum_eq, List.map_map]
    congr 1
    apply List.map_congr_left
    intro i hi
    have hi := (hsame.neutral_lt i hi).1
    rw [hs] at hi
    rw [ionsIn_reorder reactions species ho hi hk, hget i hi]
    rfl
  have hms : st'.ms = mix'.ix.idxCharged.map fun k => (fun j => st.m.getD j 0 +
        (mix.ix.idxNeutral.map fun i => ionsIn reactions species i j * st.m.getD i 0).sum) (place order k) := by
    rw [g4']
    apply List.map_congr_left
    intro k hk
    rw [hsum k hk, hget k (by have := (hsame.charged_lt k hk).1; rwa [hs] at this)]
  refine ⟨st, st', g1, g1', ⟨by rw [c1', c1], by rw [c2', c2], by rw [c3', c3, hsame.rho], by rw [c4', c4, hsame.epsilon], ?_, ?_, by rw [g2, hs], hm, _, g4, hms⟩⟩
  · rw [g5', g5, hm, ← reorder_map, ← reorder_zipWith _ _ _ (by simpa using ho) (by simp [g2])]
    rw [(reorder_perm _ (by simpa [g2] using ho)).sum_eq]
  · rw [g6', g6, hms, g4, List.zipWith_map, List.zipWith_self, List.zipWith_map, List.zipWith_self]
    congr 1
    rw [← (hsame.charged.map _).sum_eq, List.map_map]
    congr 1
    apply List.map_congr_left
    intro k hk
    have hk := (hsame.charged_lt k hk).1
    rw [hs] at hk
    simp only [Function.comp]
    rw [← reorder_map, reorder_getD _ (by simpa using ho) k (by simpa using hk)]

/-! ## Loops that write entries of an array -/

theorem writes_move {N : Nat} (ho : IsOrder order N) (v : Nat → ℝ) (idx' : List Nat) (hlt : ∀ k ∈ idx', k < N) (g : List ℝ) (hg : g.length = N) :
    idx'.foldl (fun g k => g.set k (v k)) (reorder order g) = reorder order (idx'.foldl (fun g k => g.set (place order k) (v k)) g) := by
  induction idx' generalizing g with
  | nil => rfl
  | cons k L ih =>
    have hk := hlt k List.mem_cons_self
    rw [List.foldl_cons, List.foldl_cons, reorder_set g (by rw [hg]; exact ho) k (by rw [hg]; exact hk)]
    exact ih (fun j hj => hlt j (List.mem_cons_of_mem _ hj)) _ (by simpa using hg)

/-- A loop that writes one entry for each selected species. -/
theorem writes {N : Nat} (ho : IsOrder order N) (v v' : Nat → ℝ) (idx idx' : List Nat) (hp : (idx'.map (place order)).Perm idx)
    (hlt : ∀ k ∈ idx', k < N) (hv : ∀ k ∈ idx', v' k = v (place order k)) (g : List ℝ) (hg : g.length = N) :
    idx'.foldl (fun g k => g.set k (v' k)) (reorder order g) = reorder order (idx.foldl (fun g i => g.set i (v i)) g) := by
  rw [writes_move ho v' idx' hlt g hg]
  congr 1
  have hc := List.Perm.foldl_eq' (f := fun (g : List ℝ) i => g.set i (v i)) hp (by
    intro i _ j _ z
    by_cases e : i = j
    · rw [e]
    · exact List.set_comm _ _ e) g
  rw [← hc, List.foldl_map]
  apply List.foldl_ext
  intro z k hk
  rw [hv k hk]

/-! ## Evaluations of a model for the same species in two orders -/

/-- The indices of ions among the charged species. -/
noncomputable def ionPlaces (species : List (Species ℝ)) (fs : List Formula) : List Nat := fs.map (findWithFormula (ixOf species).charged)

def rumpfIons : List Formula := [naPlus, kPlus, caPlus, mgPlus, clMinus]
def duanIons : List Formula := [naPlus, kPlus, caPlus, mgPlus, clMinus, so4Minus]

/-- What has been evaluated before. -/
def SameExtra (order : List Nat) (species : List (Species ℝ)) : Option (Mixture ℝ × State ℝ) → Option (Mixture ℝ × State ℝ) → Prop
  | none, none => True
  | some (mix, st), some (mix', st') => mix.species = species ∧ SameMixture order mix mix' ∧ SameState order mix mix' st st'
  | _, _ => False

/-- Static variables. -/
def SameStatic (order : List Nat) (species : List (Species ℝ)) (fs : List Formula) (a b : Option (List Nat)) : Prop :=
  (a = none ∧ b = none) ∨ (a = some (ionPlaces species fs) ∧ b = some (ionPlaces (reorder order species) fs))

structure Related (order : List Nat) (species : List (Species ℝ)) (m m' : Mem) : Prop where
  fits : Fits m species.length
  props : m'.props = reorderProps order m.props
  extra : SameExtra order species m.extra m'.extra
  rumpf : SameStatic order species rumpfIons m.world.rumpf m'.world.rumpf
  duan : SameStatic order species duanIons m.world.duan m'.world.duan

theorem Related.fits' {species : List (Species ℝ)} (ho : IsOrder order species.length) {m m' : Mem} (h : Related order species m m') :
    Fits m' (reorder order species).length := by
  obtain ⟨h1, h2⟩ := h.fits
  rw [reorder_length species ho]
  rw [Fits, h.props]
  exact ⟨(reorder_length _ (by rw [h1]; exact ho)).trans h1, (reorder_length _ (by rw [h2]; exact ho)).trans h2⟩

/-- The model acts in the same way on the same species in two orders, if none of the formulas is that of two species. -/
def Equivariant (model : Model) (formulas : List Formula) : Prop :=
  ∀ (order : List Nat) (species : List (Species ℝ)), IsOrder order species.length → (∀ f ∈ formulas, AtMostOne species f) →
    ∀ f, model species = .ok f → ∃ f', model (reorder order species) = .ok f' ∧
      ∀ (T P : ℝ) (x : List ℝ) (m m' : Mem), x.length = species.length → Related order species m m' → ∀ r, f T P x m = .ok r →
        ∃ r', f' T P (reorder order x) m' = .ok r' ∧ Related order species r r'

theorem Equivariant.orderFree {model : Model} {formulas : List Formula} (h : Equivariant model formulas) (species : List (Species ℝ))
    (hone : ∀ f ∈ formulas, AtMostOne species f) : OrderFree model species := by
  intro order ho f hf
  obtain ⟨f', h1, h2⟩ := h order species ho hone f hf
  refine ⟨f', h1, ?_⟩
  intro T P x p hx hg ha m hm
  obtain ⟨r', h3, h4⟩ := h2 T P x ⟨p, none, {}⟩ ⟨reorderProps order p, none, {}⟩ hx ⟨⟨hg, ha⟩, rfl, trivial, .inl ⟨rfl, rfl⟩, .inl ⟨rfl, rfl⟩⟩ m hm
  exact ⟨r', h3, h4.props⟩

/-- The check of the sizes. -/
theorem sizes_ok {species : List (Species ℝ)} {m : Mem} {x : List ℝ} (hm : Fits m species.length) (hx : x.length = species.length) :
    (!m.fits species.length || decide (x.length ≠ species.length)) = false := by
  simp [(fits_iff' m species.length).mpr hm, hx]

theorem equivariant_idealSolution : Equivariant idealSolution [] := by
  intro order species ho _ f hf
  unfold idealSolution at hf
  cases hf
  refine ⟨_, rfl, ?_⟩
  intro T P x m m' hx hr r h
  have hox : IsOrder order x.length := by rw [hx]; exact ho
  simp only [sizes_ok hr.fits hx] at h
  simp only [sizes_ok (hr.fits' ho) (show (reorder order x).length = (reorder order species).length by rw [reorder_length x hox, reorder_length species ho, hx])]
  cases h
  refine ⟨_, rfl, ⟨⟨by simp [AProps.zero, hr.fits.1], by simp [hx]⟩, ?_, hr.extra, hr.rumpf, hr.duan⟩⟩
  simp only [hr.props, AProps.zero, reorderProps, reorder_map]

theorem equivariant_idealGas : Equivariant idealGas [] := by
  intro order species ho _ f hf
  unfold idealGas at hf
  cases hf
  refine ⟨_, rfl, ?_⟩
  intro T P x m m' hx hr r h
  have hox : IsOrder order x.length := by rw [hx]; exact ho
  simp only [sizes_ok hr.fits hx] at h
  simp only [sizes_ok (hr.fits' ho) (show (reorder order x).length = (reorder order species).length by rw [reorder_length x hox, reorder_length species ho, hx])]
  cases h
  refine ⟨_, rfl, ⟨⟨by simp [AProps.zero, hr.fits.1], by simp [hx]⟩, ?_, hr.extra, hr.rumpf, hr.duan⟩⟩
  simp only [hr.props, AProps.zero, reorderProps, reorder_map]

theorem equivariant_idealAqueous : Equivariant idealAqueous [waterFormula] := by
  intro order species ho hone f hf
  unfold idealAqueous at hf ⊢
  cases hi : indexWithFormula species waterFormula with
  | throw => rw [hi] at hf; cases hf
  | ub => rw [hi] at hf; cases hf
  | ok i =>
    obtain ⟨hil, k, hk, hki, hk'⟩ := index_reorder species _ ho (hone _ (by simp)) i hi
    rw [hi] at hf
    rw [hk']
    cases hf
    refine ⟨_, rfl, ?_⟩
    intro T P x m m' hx hr r h
    have hox : IsOrder order x.length := by rw [hx]; exact ho
    simp only [sizes_ok hr.fits hx] at h
    simp only [sizes_ok (hr.fits' ho) (show (reorder order x).length = (reorder order species).length by rw [reorder_length x hox, reorder_length species ho, hx])]
    cases h
    refine ⟨_, rfl, ⟨⟨by simp [AProps.zero, hr.fits.1], by simp [hx]⟩, ?_, hr.extra, hr.rumpf, hr.duan⟩⟩
    simp only [hr.props, AProps.zero, reorderProps, reorder_map]
    rw [reorder_getD x hox k (by omega), hki, ← hki, ← reorder_set _ (by simpa using hox) k (by simpa [hx] using hk), reorder_map]

/-! ## Debye–Hückel -/

/-- An ion in the given order. -/
def moved (order : List Nat) (ion : Ion) : Ion := { ion with index := place order ion.index }

theorem dh_move {N : Nat} (ho : IsOrder order N) (d : DHState) (m : List ℝ) (hm : m.length = N) (iw : Nat) (hiw : iw < N) (L : List Ion)
    (hL : ∀ ion ∈ L, ion.index < N) (g a : List ℝ) (hg : g.length = N) (ha : a.length = N) :
    L.foldl (dhTurn d (reorder order m) iw) (reorder order g, reorder order a) =
      (reorder order ((L.map (moved order)).foldl (dhTurn d m (place order iw)) (g, a)).1,
        reorder order ((L.map (moved order)).foldl (dhTurn d m (place order iw)) (g, a)).2) := by
  induction L generalizing g a with
  | nil => rfl
  | cons ion L ih =>
    have hi := hL ion List.mem_cons_self
    rw [List.foldl_cons, List.map_cons, List.foldl_cons]
    have e : dhTurn d (reorder order m) iw (reorder order g, reorder order a) ion =
        (reorder order (dhTurn d m (place order iw) (g, a) (moved order ion)).1, reorder order (dhTurn d m (place order iw) (g, a) (moved order ion)).2) := by
      unfold dhTurn moved
      simp only
      rw [reorder_set g (by rw [hg]; exact ho) _ (by omega), reorder_getD m (by rw [hm]; exact ho) _ (by omega), reorder_set a (by rw [ha]; exact ho) _ (by omega),
        reorder_getD _ (by rw [List.length_set, ha]; exact ho) iw (by rw [List.length_set, ha]; exact hiw),
        reorder_set _ (by rw [List.length_set, ha]; exact ho) iw (by rw [List.length_set, ha]; exact hiw)]
    rw [e]
    exact ih (fun q hq => hL q (List.mem_cons_of_mem _ hq)) _ _ (by simp [dhTurn, hg]) (by simp [dhTurn, ha])

theorem dhTurn_comm (d : DHState) (m : List ℝ) (iw : Nat) (p q : Ion) (hp : p.index ≠ iw) (hq : q.index ≠ iw) (hpq : p.index ≠ q.index) (z : List ℝ × List ℝ) :
    dhTurn d m iw (dhTurn d m iw z p) q = dhTurn d m iw (dhTurn d m iw z q) p := by
  obtain ⟨g, a⟩ := z
  unfold dhTurn
  simp only
  have key : ∀ (i j : Nat) (u v s t : ℝ), i ≠ iw → j ≠ iw →
      ((((a.set i u).set iw ((a.set i u).getD iw 0 + s)).set j v).set iw ((((a.set i u).set iw ((a.set i u).getD iw 0 + s)).set j v).getD iw 0 + t)) =
        ((a.set i u).set j v).set iw (a.getD iw 0 + s + t) := by
    intro i j u v s t hi hj
    rw [List.set_comm _ _ (Ne.symm hj), List.set_set]
    by_cases hl : iw < a.length
    · congr 2
      rw [getD_set _ _ _ _ (by simpa using hl), if_pos rfl]
      simp [hi]
    · rw [List.set_eq_of_length_le (i := iw) (by simpa using hl), List.set_eq_of_length_le (i := iw) (by simpa using hl)]
  rw [key _ _ _ _ _ _ hp hq, key _ _ _ _ _ _ hq hp, List.set_comm _ _ hpq, List.set_comm _ _ hpq]
  congr 2
  ring

theorem dh_perm (d : DHState) (m : List ℝ) (iw : Nat) {L L' : List Ion} (h : L.Perm L') (hL : ∀ ion ∈ L, ion.index ≠ iw) (hnd : (L.map Ion.index).Nodup)
    (z : List ℝ × List ℝ) : L.foldl (dhTurn d m iw) z = L'.foldl (dhTurn d m iw) z := by
  apply List.Perm.foldl_eq' h
  intro p hp q hq z
  by_cases e : p.index = q.index
  · have : p = q := List.inj_on_of_nodup_map hnd hp hq e
    rw [this]
  · exact (dhTurn_comm d m iw p q (hL p hp) (hL q hq) e z)

theorem zip_own {α : Type} (idx : List Nat) (sp : Nat → α) : idx.zip (idx.map sp) = idx.map fun j => (j, sp j) := by
  induction idx with
  | nil => rfl
  | cons a l ih => simp [ih]

theorem equivariant_debyeHuckel (reactions : List Registries.Reaction) (rho0 eps0 : ℝ) (p : DHParams) :
    Equivariant (debyeHuckel reactions rho0 eps0 p) [waterFormula] := by
  intro order species ho hone f hf
  unfold debyeHuckel at hf ⊢
  cases hmix : construct reactions rho0 eps0 species with
  | throw => rw [hmix] at hf; cases hf
  | ub => rw [hmix] at hf; cases hf
  | ok mix =>
    rw [hmix] at hf
    obtain ⟨mix', hmix', hsp, hs⟩ := construct_reorder reactions rho0 eps0 species ho (hone _ (by simp)) mix hmix
    rw [hmix']
    cases hf
    refine ⟨_, rfl, ?_⟩
    intro T P x m m' hx hr r h
    have hox : IsOrder order x.length := by rw [hx]; exact ho
    simp only [sizes_ok hr.fits hx] at h
    simp only [sizes_ok (hr.fits' ho) (show (reorder order x).length = (reorder order species).length by rw [reorder_length x hox, reorder_length species ho, hx])]
    obtain ⟨st, st', e1, e2, hst⟩ := state_reorder reactions rho0 eps0 species mix mix' hmix hmix' hsp hs T P x hx
    rw [e1] at h
    rw [e2]
    simp only [Res.bind_ok', Bool.false_eq_true, if_false] at h ⊢
    have hs' := hs
    have hw' := hs.water'
    have hw := hs.water
    have hN := hs.neutral_lt
    have hC := hs.charged_lt
    have hl := hst.length
    rw [hsp] at hw' hw hN hC hl
    obtain ⟨μ, hμ, hμ'⟩ := hst.ms
    have hd : dhState st' = dhState st := by
      unfold dhState
      rw [hst.rho, hst.T, hst.epsilon, hst.Is]
    have hions : dhIons p mix st.ms = mix.ix.idxCharged.map fun j =>
        (⟨j, μ j, (spAt species j).charge, p.aion (spAt species j).formula, p.bion (spAt species j).formula⟩ : Ion) := by
      unfold dhIons
      rw [hμ, hs.charged_sp, hsp]
      exact ions_map (fun j ms s => ⟨j, ms, s.charge, p.aion s.formula, p.bion s.formula⟩) _ _ _
    have hions' : (dhIons p mix' st'.ms).map (moved order) = (mix'.ix.idxCharged.map (place order)).map fun j =>
        (⟨j, μ j, (spAt species j).charge, p.aion (spAt species j).formula, p.bion (spAt species j).formula⟩ : Ion) := by
      unfold dhIons
      rw [hμ', hs.charged_sp', hs.species, hsp,
        ions_map (fun j ms s => (⟨j, ms, s.charge, p.aion s.formula, p.bion s.formula⟩ : Ion)) mix'.ix.idxCharged (spAt (reorder order species)) (fun k => μ (place order k)),
        List.map_map, List.map_map]
      apply List.map_congr_left
      intro k hk
      simp only [Function.comp, moved]
      rw [spAt_reorder species ho (hC k hk).1]
    have hidx : ∀ ion ∈ dhIons p mix' st'.ms, ion.index < species.length := by
      unfold dhIons
      rw [hμ', hs.charged_sp', ions_map (fun j ms s => (⟨j, ms, s.charge, p.aion s.formula, p.bion s.formula⟩ : Ion))]
      intro ion hion
      obtain ⟨k, hk, rfl⟩ := List.mem_map.mp hion
      exact (hC k hk).1
    have hperm : ((dhIons p mix' st'.ms).map (moved order)).Perm (dhIons p mix st.ms) := by
      rw [hions, hions']
      exact hs.charged.map _
    have hne : ∀ ion ∈ (dhIons p mix' st'.ms).map (moved order), ion.index ≠ mix.idxWater := by
      rw [hions']
      intro ion hion
      obtain ⟨j, hj, rfl⟩ := List.mem_map.mp hion
      obtain ⟨k, hk, rfl⟩ := List.mem_map.mp hj
      rw [← hs.waters]
      exact fun e => (hC k hk).2 (place_inj ho (hC k hk).1 hw' e)
    have hnd : (((dhIons p mix' st'.ms).map (moved order)).map Ion.index).Nodup := by
      rw [hions', List.map_map]
      refine (((hs.charged.nodup_iff).mpr hs.charged_nodup).map ?_)
      intro i j h
      exact h
    have hg := hr.fits.1
    have ha := hr.fits.2
    have hoa : IsOrder order m.props.ln_a.length := by rw [ha]; exact ho
    have hxw : (reorder order x).getD mix'.idxWater 0 = x.getD mix.idxWater 0 := by
      rw [reorder_getD x hox _ (by rw [hx]; exact hw'), hs.waters]
    have hneu : (mix.ix.idxNeutral.zip mix.ix.neutral).map (fun q => (q.1, p.bneutral q.2.formula)) =
        mix.ix.idxNeutral.map fun j => (j, p.bneutral (spAt species j).formula) := by
      rw [hs.neutral_sp, hsp, zip_own, List.map_map]
      rfl
    have hneu' : (mix'.ix.idxNeutral.zip mix'.ix.neutral).map (fun q => (q.1, p.bneutral q.2.formula)) =
        mix'.ix.idxNeutral.map fun k => (k, p.bneutral (spAt (reorder order species) k).formula) := by
      rw [hs.neutral_sp', hs.species, hsp, zip_own, List.map_map]
      rfl
    have hpg : m'.props.ln_g = reorder order m.props.ln_g := by rw [hr.props]; rfl
    have hpa : m'.props.ln_a = reorder order m.props.ln_a := by rw [hr.props]; rfl
    cases h
    refine ⟨_, rfl, ?_⟩
    rw [hd, hpg, hpa, hst.m, hxw]
    rw [reorder_set m.props.ln_a hoa _ (by rw [ha]; exact hw'), dh_move ho (dhState st) st.m hl _ hw' _ hidx _ _ hg (by simpa using ha), hs.waters,
      dh_perm (dhState st) st.m mix.idxWater hperm hne hnd, hneu, hneu', neutral_fold, neutral_fold]
    obtain ⟨l1, l2⟩ := turn_fold_length (dhState st) st.m mix.idxWater (dhIons p mix st.ms) m.props.ln_g
      (m.props.ln_a.set mix.idxWater (1 / waterMolarMass * (1 - x.getD mix.idxWater 0) / x.getD mix.idxWater 0))
    rw [hg] at l1
    rw [List.length_set, ha] at l2
    set F := (dhIons p mix st.ms).foldl (dhTurn (dhState st) st.m mix.idxWater) (m.props.ln_g,
      m.props.ln_a.set mix.idxWater (1 / waterMolarMass * (1 - x.getD mix.idxWater 0) / x.getD mix.idxWater 0)) with hF
    have ho1 : IsOrder order F.1.length := by rw [l1]; exact ho
    have ho2 : IsOrder order F.2.length := by rw [l2]; exact ho
    simp only [List.foldl_map]
    rw [reorder_getD F.2 ho2 _ (by rw [l2]; exact hw'), hs.waters]
    rw [reorder_set F.2 ho2 _ (by rw [l2]; exact hw'), hs.waters,
      reorder_getD _ (by simpa using ho2) _ (by simpa [l2] using hw'), hs.waters,
      reorder_set F.1 ho1 _ (by rw [l1]; exact hw'), hs.waters]
    have hv : ∀ k ∈ mix'.ix.idxNeutral, Real.log 10 * p.bneutral (spAt (reorder order species) k).formula * (dhState st).I =
        Real.log 10 * p.bneutral (spAt species (place order k)).formula * (dhState st).I := by
      intro k hk
      rw [spAt_reorder species ho (hN k hk).1]
    rw [writes ho (fun j => Real.log 10 * p.bneutral (spAt species j).formula * (dhState st).I)
        (fun k => Real.log 10 * p.bneutral (spAt (reorder order species) k).formula * (dhState st).I) _ _ hs.neutral (fun k hk => (hN k hk).1) hv _ (by simpa using l1),
      writes ho (fun j => Real.log 10 * p.bneutral (spAt species j).formula * (dhState st).I + Real.log (st.m.getD j 0))
        (fun k => Real.log 10 * p.bneutral (spAt (reorder order species) k).formula * (dhState st).I + Real.log ((reorder order st.m).getD k 0)) _ _ hs.neutral
        (fun k hk => (hN k hk).1) (fun k hk => by rw [hv k hk, reorder_getD st.m (by rw [hl]; exact ho) k (by rw [hl]; exact (hN k hk).1)]) _ (by simpa using l2)]
    refine ⟨⟨?_, ?_⟩, ?_, ⟨hsp, hs, hst⟩, hr.rumpf, hr.duan⟩
    · refine (foldl_set_length (fun j => j) _ _ _).trans ?_
      rw [List.length_set, l1]
    · refine (foldl_set_length (fun j => j) _ _ _).trans ?_
      rw [List.length_set, l2]
    · rw [hr.props]
      rfl

/-! ## Helgeson–Kirkham–Flowers -/

theorem hkf_move {N : Nat} (ho : IsOrder order N) (d : HKFState) (L : List Ion) (hL : ∀ ion ∈ L, ion.index < N) (g : List ℝ) (φ : ℝ) (hg : g.length = N) :
    L.foldl (hkfTurn d) (reorder order g, φ) =
      (reorder order ((L.map (moved order)).foldl (hkfTurn d) (g, φ)).1, ((L.map (moved order)).foldl (hkfTurn d) (g, φ)).2) := by
  induction L generalizing g φ with
  | nil => rfl
  | cons ion L ih =>
    have hi := hL ion List.mem_cons_self
    rw [List.foldl_cons, List.map_cons, List.foldl_cons]
    have e : hkfTurn d (reorder order g, φ) ion =
        (reorder order (hkfTurn d (g, φ) (moved order ion)).1, (hkfTurn d (g, φ) (moved order ion)).2) := by
      unfold hkfTurn moved
      simp only
      by_cases h : ion.ms = 0
      · rw [if_pos h, if_pos h]
      · rw [if_neg h, if_neg h]
        simp only
        rw [reorder_set g (by rw [hg]; exact ho) _ (by omega)]
    rw [e]
    refine ih (fun q hq => hL q (List.mem_cons_of_mem _ hq)) _ _ ?_
    unfold hkfTurn
    split
    · exact hg
    · simpa using hg

theorem hkfTurn_comm (d : HKFState) (p q : Ion) (hpq : p.index ≠ q.index) (z : List ℝ × ℝ) :
    hkfTurn d (hkfTurn d z p) q = hkfTurn d (hkfTurn d z q) p := by
  unfold hkfTurn
  by_cases hp : p.ms = 0 <;> by_cases hq : q.ms = 0 <;> simp only [hp, hq, if_true, if_false]
  rw [List.set_comm _ _ hpq]
  split
  · congr 1
    ring
  · rfl

theorem hkf_perm (d : HKFState) {L L' : List Ion} (h : L.Perm L') (hnd : (L.map Ion.index).Nodup) (z : List ℝ × ℝ) :
    L.foldl (hkfTurn d) z = L'.foldl (hkfTurn d) z := by
  apply List.Perm.foldl_eq' h
  intro p hp q hq z
  by_cases e : p.index = q.index
  · have : p = q := List.inj_on_of_nodup_map hnd hp hq e
    rw [this]
  · exact hkfTurn_comm d p q e z

theorem hkf_length (d : HKFState) (L : List Ion) (z : List ℝ × ℝ) : (L.foldl (hkfTurn d) z).1.length = z.1.length := by
  induction L generalizing z with
  | nil => rfl
  | cons q L ih =>
    rw [List.foldl_cons, ih]
    unfold hkfTurn
    split
    · rfl
    · simp

theorem equivariant_hkf (reactions : List Registries.Reaction) (rho0 eps0 : ℝ) (p : HKFParams) :
    Equivariant (hkf reactions rho0 eps0 p) [waterFormula] := by
  intro order species ho hone f hf
  unfold hkf at hf ⊢
  cases hmix : construct reactions rho0 eps0 species with
  | throw => rw [hmix] at hf; cases hf
  | ub => rw [hmix] at hf; cases hf
  | ok mix =>
    rw [hmix] at hf
    obtain ⟨mix', hmix', hsp, hs⟩ := construct_reorder reactions rho0 eps0 species ho (hone _ (by simp)) mix hmix
    rw [hmix']
    cases hf
    refine ⟨_, rfl, ?_⟩
    intro T P x m m' hx hr r h
    have hox : IsOrder order x.length := by rw [hx]; exact ho
    simp only [sizes_ok hr.fits hx] at h
    simp only [sizes_ok (hr.fits' ho) (show (reorder order x).length = (reorder order species).length by rw [reorder_length x hox, reorder_length species ho, hx])]
    obtain ⟨st, st', e1, e2, hst⟩ := state_reorder reactions rho0 eps0 species mix mix' hmix hmix' hsp hs T P x hx
    rw [e1] at h
    rw [e2]
    simp only [Res.bind_ok', Bool.false_eq_true, if_false] at h ⊢
    have hw' := hs.water'
    have hw := hs.water
    have hN := hs.neutral_lt
    have hC := hs.charged_lt
    have hl := hst.length
    rw [hsp] at hw' hw hN hC hl
    obtain ⟨μ, hμ, hμ'⟩ := hst.ms
    have hions : hkfIons p mix st.ms = mix.ix.idxCharged.map fun j => (⟨j, μ j, (spAt species j).charge, p.radius (spAt species j), 0⟩ : Ion) := by
      unfold hkfIons
      rw [hμ, hs.charged_sp, hsp]
      exact ions_map (fun j ms s => ⟨j, ms, s.charge, p.radius s, 0⟩) _ _ _
    have hions' : (hkfIons p mix' st'.ms).map (moved order) = (mix'.ix.idxCharged.map (place order)).map fun j =>
        (⟨j, μ j, (spAt species j).charge, p.radius (spAt species j), 0⟩ : Ion) := by
      unfold hkfIons
      rw [hμ', hs.charged_sp', hs.species, hsp,
        ions_map (fun j ms s => (⟨j, ms, s.charge, p.radius s, 0⟩ : Ion)) mix'.ix.idxCharged (spAt (reorder order species)) (fun k => μ (place order k)),
        List.map_map, List.map_map]
      apply List.map_congr_left
      intro k hk
      simp only [Function.comp, moved]
      rw [spAt_reorder species ho (hC k hk).1]
    have hidx : ∀ ion ∈ hkfIons p mix' st'.ms, ion.index < species.length := by
      unfold hkfIons
      rw [hμ', hs.charged_sp', ions_map (fun j ms s => (⟨j, ms, s.charge, p.radius s, 0⟩ : Ion))]
      intro ion hion
      obtain ⟨k, hk, rfl⟩ := List.mem_map.mp hion
      exact (hC k hk).1
    have hperm : ((hkfIons p mix' st'.ms).map (moved order)).Perm (hkfIons p mix st.ms) := by
      rw [hions, hions']
      exact hs.charged.map _
    have hnd : (((hkfIons p mix' st'.ms).map (moved order)).map Ion.index).Nodup := by
      rw [hions', List.map_map]
      refine (((hs.charged.nodup_iff).mpr hs.charged_nodup).map ?_)
      intro i j h
      exact h
    have hg := hr.fits.1
    have hxw : (reorder order x).getD mix'.idxWater 0 = x.getD mix.idxWater 0 := by
      rw [reorder_getD x hox _ (by rw [hx]; exact hw'), hs.waters]
    have hpg : m'.props.ln_g = reorder order m.props.ln_g := by rw [hr.props]; rfl
    cases h
    refine ⟨_, rfl, ?_⟩
    rw [hpg, hst.m, hxw, hst.Is]
    rw [writes ho (fun _ => Real.log 10 * (1 / 10) * st.Is) (fun _ => Real.log 10 * (1 / 10) * st.Is) _ _ hs.neutral (fun k hk => (hN k hk).1) (fun _ _ => rfl) _ hg]
    set G := mix.ix.idxNeutral.foldl (fun g i => g.set i (Real.log 10 * (1 / 10) * st.Is)) m.props.ln_g with hG
    have hGl : G.length = species.length := (foldl_set_length (fun j => j) _ _ _).trans hg
    rw [hkf_move ho _ _ hidx G 0 hGl, hkf_perm _ hperm hnd]
    set F := (hkfIons p mix st.ms).foldl (hkfTurn ⟨st.Is, x.getD mix.idxWater 0, p.A T P, p.B T P, p.bNaCl T P, p.bNapClm T P⟩) (G, 0) with hF
    have hFl : F.1.length = species.length := (hkf_length _ _ _).trans hGl
    simp only
    have hz : (List.zipWith (fun g m => g + Real.log m) F.1 st.m).length = species.length := by simp [hFl, hl]
    rw [← reorder_zipWith _ F.1 st.m (by rw [hFl]; exact ho) (by rw [hl, hFl]), reorder_set (List.zipWith (fun g m => g + Real.log m) F.1 st.m) (by rw [hz]; exact ho) _ (by rw [hz]; exact hw'), hs.waters,
      reorder_getD _ (by rw [List.length_set, hz]; exact ho) _ (by rw [List.length_set, hz]; exact hw'), hs.waters,
      reorder_set F.1 (by rw [hFl]; exact ho) _ (by rw [hFl]; exact hw'), hs.waters]
    refine ⟨⟨?_, ?_⟩, ?_, ⟨hsp, hs, hst⟩, hr.rumpf, hr.duan⟩
    · exact List.length_set.trans hFl
    · exact List.length_set.trans hz
    · rw [hr.props]
      rfl

/-! ## Models for one dissolved species -/

theorem overwrite_related {species : List (Species ℝ)} (ho : IsOrder order species.length) {m m' : Mem} (hr : Related order species m m') {mix mix' : Mixture ℝ}
    {st st' : State ℝ} (hsp : mix.species = species) (hst : SameState order mix mix' st st') {k : Nat} (hk : k < species.length) (g : ℝ) :
    Related order species (overwrite m st (place order k) g) (overwrite m' st' k g) := by
  have hl := hst.length
  rw [hsp] at hl
  have hg := hr.fits.1
  have ha := hr.fits.2
  refine ⟨⟨List.length_set.trans hg, List.length_set.trans ha⟩, ?_, hr.extra, hr.rumpf, hr.duan⟩
  unfold overwrite
  simp only
  rw [hr.props]
  simp only [reorderProps]
  rw [reorder_set _ (by rw [hg]; exact ho) k (by omega), reorder_set _ (by rw [ha]; exact ho) k (by omega), hst.m, reorder_getD _ (by rw [hl]; exact ho) k (by omega)]

/-- A model that writes the activity coefficient of one species, from the state of the mixture. -/
theorem equivariant_one (gas : Formula) (value : State ℝ → ℝ) (hv : ∀ order mix mix' st st', SameState order mix mix' st st' → value st' = value st) :
    Equivariant (fun species => Res.bind (indexWithFormula species gas) fun i => .ok fun _ _ x m =>
      if !m.fits species.length || x.length ≠ species.length then .ub
      else match m.extra with
        | none => .throw
        | some (_, st) => .ok (overwrite m st i (value st))) [gas] := by
  intro order species ho hone f hf
  beta_reduce at hf ⊢
  cases hi : indexWithFormula species gas with
  | throw => rw [hi] at hf; cases hf
  | ub => rw [hi] at hf; cases hf
  | ok i =>
    obtain ⟨hil, k, hk, hki, hk'⟩ := index_reorder species _ ho (hone _ (by simp)) i hi
    rw [hi] at hf
    rw [hk']
    cases hf
    refine ⟨_, rfl, ?_⟩
    intro T P x m m' hx hr r h
    have hox : IsOrder order x.length := by rw [hx]; exact ho
    simp only [sizes_ok hr.fits hx] at h
    simp only [sizes_ok (hr.fits' ho) (show (reorder order x).length = (reorder order species).length by rw [reorder_length x hox, reorder_length species ho, hx])]
    have he := hr.extra
    cases h1 : m.extra with
    | none => rw [h1] at h; cases h
    | some e =>
      obtain ⟨mix, st⟩ := e
      cases h2 : m'.extra with
      | none => rw [h1, h2] at he; exact he.elim
      | some e' =>
        obtain ⟨mix', st'⟩ := e'
        rw [h1, h2] at he
        obtain ⟨hsp, -, hst⟩ := he
        rw [h1] at h
        cases h
        refine ⟨_, rfl, ?_⟩
        rw [hv order mix mix' st st' hst, ← hki]
        exact overwrite_related ho hr hsp hst hk _

theorem equivariant_setschenow (neutral : Formula) (b : ℝ) : Equivariant (setschenow neutral b) [neutral] :=
  equivariant_one neutral (fun st => Real.log 10 * b * st.Is) fun _ _ _ _ _ h => by simp only [h.Is]

theorem equivariant_drummond (gas : Formula) (p : DrummondParams) : Equivariant (drummond gas p) [gas] :=
  equivariant_one gas (fun st => (p.a1 + p.a2 * st.T + p.a3 / st.T) * st.Is - (p.a4 + p.a5 * st.T) * st.Is / (st.Is + 1))
    fun _ _ _ _ _ h => by simp only [h.Is, h.T]

/-- The molality of an ion looked up by its formula. -/
theorem ionMolality_reorder {mix mix' : Mixture ℝ} (hs : SameMixture order mix mix') (fs : List Formula) (hone : ∀ f ∈ fs, AtMostOne mix.species f) (μ : Nat → ℝ)
    (k : Nat) (hk : k < fs.length) :
    ionMolality mix' (mix'.ix.idxCharged.map fun i => μ (place order i)) (ionIndices mix' fs) k =
      ionMolality mix (mix.ix.idxCharged.map μ) (ionIndices mix fs) k := by
  have hf := hone _ (List.getElem_mem hk)
  set f := fs[k] with hfdef
  have e1 : (ionIndices mix fs).getD k 0 = findWithFormula mix.ix.charged f := by simp [ionIndices, hk, hfdef]
  have e2 : (ionIndices mix' fs).getD k 0 = findWithFormula mix'.ix.charged f := by simp [ionIndices, hk, hfdef]
  unfold ionMolality
  rw [e1, e2]
  have ho := hs.isOrder
  have hC := hs.charged_lt
  have hsp' : ∀ i ∈ mix'.ix.idxCharged, spAt mix'.species i = spAt mix.species (place order i) := fun i hi => by
    rw [hs.species, spAt_reorder mix.species ho (hC i hi).1]
  have hlt : ∀ j ∈ mix.ix.idxCharged, j < mix.species.length := fun j hj => by
    obtain ⟨i, hi, rfl⟩ := List.mem_map.mp (hs.charged.mem_iff.mpr hj)
    exact place_lt ho (hC i hi).1
  have hiff : findWithFormula mix'.ix.charged f < mix'.ix.charged.length ↔ findWithFormula mix.ix.charged f < mix.ix.charged.length := by
    rw [find_lt, find_lt, hs.charged_sp, hs.charged_sp']
    constructor
    · rintro ⟨s, hmem, hfs⟩
      obtain ⟨i, hi, rfl⟩ := List.mem_map.mp hmem
      refine ⟨_, List.mem_map.mpr ⟨place order i, hs.charged.mem_iff.mp (List.mem_map_of_mem hi), rfl⟩, ?_⟩
      rw [← hsp' i hi]
      exact hfs
    · rintro ⟨s, hmem, hfs⟩
      obtain ⟨j, hj, rfl⟩ := List.mem_map.mp hmem
      obtain ⟨i, hi, rfl⟩ := List.mem_map.mp (hs.charged.mem_iff.mpr hj)
      refine ⟨_, List.mem_map.mpr ⟨i, hi, rfl⟩, ?_⟩
      rw [hsp' i hi]
      exact hfs
  by_cases hl : findWithFormula mix.ix.charged f < mix.ix.charged.length
  · rw [if_pos hl, if_pos (hiff.mpr hl)]
    obtain ⟨s, h1, h2⟩ := find_spec _ f hl
    obtain ⟨s', h1', h2'⟩ := find_spec _ f (hiff.mpr hl)
    rw [hs.charged_sp, List.getElem?_map, Option.map_eq_some_iff] at h1
    rw [hs.charged_sp', List.getElem?_map, Option.map_eq_some_iff] at h1'
    rw [← hs.charged_sp] at h1
    rw [← hs.charged_sp'] at h1'
    obtain ⟨j, hj, rfl⟩ := h1
    obtain ⟨i, hi, rfl⟩ := h1'
    have hjm := List.mem_of_getElem? hj
    have him := List.mem_of_getElem? hi
    rw [hsp' i him] at h2'
    have hat : ∀ n, n < mix.species.length → mix.species[n]? = some (spAt mix.species n) := fun n hn => by
      unfold spAt
      rw [List.getElem?_eq_getElem hn]
      rfl
    have hij : place order i = j :=
      atMostOne_index mix.species f hf (hat _ (place_lt ho (hC i him).1)) (hat _ (hlt j hjm)) h2' h2
    rw [List.getD_eq_getElem?_getD, List.getD_eq_getElem?_getD, List.getElem?_map, List.getElem?_map, hi, hj]
    simp [hij]
  · rw [if_neg hl, if_neg (fun h => hl (hiff.mp h))]

/-- A model that writes the activity coefficient of one species, from the molalities of ions whose indices are kept in a static variable. -/
theorem equivariant_static (gas : Formula) (fs : List Formula) (get : World → Option (List Nat)) (put : World → List Nat → World)
    (value : State ℝ → (Nat → ℝ) → ℝ)
    (hv : ∀ order mix mix' st st' a b, SameState order mix mix' st st' → (∀ k, k < fs.length → b k = a k) → value st' b = value st a)
    (hget : ∀ order species m m', Related order species m m' → SameStatic order species fs (get m.world) (get m'.world))
    (hput : ∀ order species m m', Related order species m m' →
      Related order species { m with world := put m.world (ionPlaces species fs) } { m' with world := put m'.world (ionPlaces (reorder order species) fs) }) :
    Equivariant (fun species => Res.bind (indexWithFormula species gas) fun i => .ok fun _ _ x m =>
      if !m.fits species.length || x.length ≠ species.length then .ub
      else match m.extra with
        | none => .throw
        | some (mix, st) =>
          let idx := (get m.world).getD (ionIndices mix fs)
          .ok (overwrite { m with world := put m.world idx } st i (value st (ionMolality mix st.ms idx)))) (gas :: fs) := by
  intro order species ho hone f hf
  beta_reduce at hf ⊢
  cases hi : indexWithFormula species gas with
  | throw => rw [hi] at hf; cases hf
  | ub => rw [hi] at hf; cases hf
  | ok i =>
    obtain ⟨hil, k, hk, hki, hk'⟩ := index_reorder species _ ho (hone _ (by simp)) i hi
    rw [hi] at hf
    rw [hk']
    cases hf
    refine ⟨_, rfl, ?_⟩
    intro T P x m m' hx hr r h
    have hox : IsOrder order x.length := by rw [hx]; exact ho
    simp only [sizes_ok hr.fits hx] at h
    simp only [sizes_ok (hr.fits' ho) (show (reorder order x).length = (reorder order species).length by rw [reorder_length x hox, reorder_length species ho, hx])]
    have he := hr.extra
    cases h1 : m.extra with
    | none => rw [h1] at h; cases h
    | some e =>
      obtain ⟨mix, st⟩ := e
      cases h2 : m'.extra with
      | none => rw [h1, h2] at he; exact he.elim
      | some e' =>
        obtain ⟨mix', st'⟩ := e'
        rw [h1, h2] at he
        obtain ⟨hsp, hs, hst⟩ := he
        rw [h1] at h
        have i1 : ionIndices mix fs = ionPlaces species fs := by unfold ionIndices ionPlaces; rw [hs.ix, hsp]
        have i2 : ionIndices mix' fs = ionPlaces (reorder order species) fs := by unfold ionIndices ionPlaces; rw [hs.ix', hs.species, hsp]
        have j1 : (get m.world).getD (ionIndices mix fs) = ionPlaces species fs ∧
            (get m'.world).getD (ionIndices mix' fs) = ionPlaces (reorder order species) fs := by
          rcases hget order species m m' hr with ⟨a, b⟩ | ⟨a, b⟩
          · rw [a, b]; exact ⟨i1, i2⟩
          · rw [a, b]; exact ⟨rfl, rfl⟩
        simp only [Bool.false_eq_true, if_false] at h
        rw [j1.1] at h
        cases h
        refine ⟨_, rfl, ?_⟩
        rw [j1.2]
        obtain ⟨μ, hμ, hμ'⟩ := hst.ms
        rw [hv order mix mix' st st' (ionMolality mix st.ms (ionPlaces species fs)) _ hst (fun k hk => by
          rw [← i1, ← i2, hμ, hμ']
          exact ionMolality_reorder hs fs (fun f hf => hsp ▸ hone f (by simp [hf])) μ k hk), ← hki]
        have hw := overwrite_related ho (hput order species m m' hr) hsp hst hk (value st (ionMolality mix st.ms (ionPlaces species fs)))
        rw [h1, h2] at hw
        exact hw

theorem equivariant_rumpf (gas : Formula) : Equivariant (rumpf gas) (gas :: rumpfIons) :=
  equivariant_static gas rumpfIons World.rumpf (fun w idx => { w with rumpf := some idx }) (fun st ms => rumpfValue st.T ms)
    (fun _ _ _ _ _ a b h hk => by
      simp only [h.T]
      unfold rumpfValue
      rw [hk 0 (by decide), hk 1 (by decide), hk 2 (by decide), hk 3 (by decide), hk 4 (by decide)])
    (fun _ _ _ _ h => h.rumpf) (fun _ _ _ _ h => ⟨h.fits, h.props, h.extra, .inr ⟨rfl, rfl⟩, h.duan⟩)

theorem equivariant_duanSun (gas : Formula) : Equivariant (duanSun gas) (gas :: duanIons) :=
  equivariant_static gas duanIons World.duan (fun w idx => { w with duan := some idx }) (fun st ms => duanSunValue st.T st.P ms)
    (fun _ _ _ _ _ a b h hk => by
      simp only [h.T, h.P]
      unfold duanSunValue
      rw [hk 0 (by decide), hk 1 (by decide), hk 2 (by decide), hk 3 (by decide), hk 4 (by decide), hk 5 (by decide)])
    (fun _ _ _ _ h => h.duan) (fun _ _ _ _ h => ⟨h.fits, h.props, h.extra, h.rumpf, .inr ⟨rfl, rfl⟩⟩)

/-! ## Chains -/

theorem runAll_related {species : List (Species ℝ)} (T P : ℝ) (x : List ℝ) (L : List (Fn × Fn))
    (h : ∀ q ∈ L, ∀ m m', Related order species m m' → ∀ r, q.1 T P x m = .ok r → ∃ r', q.2 T P (reorder order x) m' = .ok r' ∧ Related order species r r')
    (m m' : Mem) (hr : Related order species m m') (r : Mem) (hrun : runAll T P x (L.map (·.1)) m = .ok r) :
    ∃ r', runAll T P (reorder order x) (L.map (·.2)) m' = .ok r' ∧ Related order species r r' := by
  induction L generalizing m m' with
  | nil => cases hrun; exact ⟨m', rfl, hr⟩
  | cons q L ih =>
    simp only [List.map_cons, runAll] at hrun ⊢
    cases h1 : q.1 T P x m with
    | throw => rw [h1] at hrun; cases hrun
    | ub => rw [h1] at hrun; cases hrun
    | ok m1 =>
      rw [h1] at hrun
      obtain ⟨m1', h2, h3⟩ := h q List.mem_cons_self m m' hr m1 h1
      rw [h2]
      exact ih (fun q' hq' => h q' (List.mem_cons_of_mem _ hq')) m1 m1' h3 hrun

theorem models_related (species species' : List (Species ℝ)) (R : Fn → Fn → Prop) (models : List Model)
    (h : ∀ model ∈ models, ∀ f, model species = .ok f → ∃ f', model species' = .ok f' ∧ R f f') :
    ∀ fns, models.mapM (m := Res) (fun model => model species) = .ok fns →
      ∃ L : List (Fn × Fn), L.map (·.1) = fns ∧ models.mapM (m := Res) (fun model => model species') = .ok (L.map (·.2)) ∧ ∀ q ∈ L, R q.1 q.2 := by
  induction models with
  | nil =>
    intro fns hf
    cases hf
    exact ⟨[], rfl, rfl, by simp⟩
  | cons model models ih =>
    intro fns hf
    rw [List.mapM_cons] at hf
    rw [List.mapM_cons]
    cases h1 : model species with
    | throw => rw [h1] at hf; cases hf
    | ub => rw [h1] at hf; cases hf
    | ok f =>
      rw [h1] at hf
      cases h2 : models.mapM (m := Res) (fun model => model species) with
      | throw => rw [h2] at hf; cases hf
      | ub => rw [h2] at hf; cases hf
      | ok fs =>
        rw [h2] at hf
        cases hf
        obtain ⟨f', h3, h4⟩ := h model List.mem_cons_self f h1
        obtain ⟨L, h5, h6, h7⟩ := ih (fun q hq => h q (List.mem_cons_of_mem _ hq)) fs h2
        refine ⟨(f, f') :: L, by simp [h5], ?_, ?_⟩
        · rw [h3, h6]
          rfl
        · intro q hq
          rcases List.mem_cons.mp hq with rfl | hq
          · exact h4
          · exact h7 q hq

theorem equivariant_chain (L : List (Model × List Formula)) (h : ∀ q ∈ L, Equivariant q.1 q.2) :
    Equivariant (chain (L.map (·.1))) (L.flatMap (·.2)) := by
  intro order species ho hone f hf
  unfold chain at hf ⊢
  cases h1 : (L.map (·.1)).mapM (m := Res) (fun model => model species) with
  | throw => rw [h1] at hf; cases hf
  | ub => rw [h1] at hf; cases hf
  | ok fns =>
    rw [h1] at hf
    cases hf
    obtain ⟨M, e1, e2, e3⟩ := models_related species (reorder order species)
      (fun f f' => ∀ (T P : ℝ) (x : List ℝ) (m m' : Mem), x.length = species.length → Related order species m m' → ∀ r, f T P x m = .ok r →
        ∃ r', f' T P (reorder order x) m' = .ok r' ∧ Related order species r r') (L.map (·.1)) (by
        intro model hmodel f hf
        obtain ⟨q, hq, rfl⟩ := List.mem_map.mp hmodel
        exact h q hq order species ho (fun g hg => hone g (List.mem_flatMap.mpr ⟨q, hq, hg⟩)) f hf) fns h1
    rw [e2]
    refine ⟨_, rfl, ?_⟩
    intro T P x m m' hx hr r hrun
    rw [← e1] at hrun
    exact runAll_related T P x M (fun q hq m m' hr r hrun => e3 q hq T P x m m' hx hr r hrun) m m' hr r hrun

end Verif.SpeciesOrder
