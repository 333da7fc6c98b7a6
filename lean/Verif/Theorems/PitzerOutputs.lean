import Verif.Theorems.PitzerDefects
import Verif.Lemmas.Activity

/-!
# C80: what an evaluation of the Pitzer model writes
-/

namespace Verif.Pitzer

open Verif.Aqueous Verif.ChemicalProps Verif.Activity

theorem speciesAt_eq (species : List (Species ℝ)) (i : Nat) : speciesAt species i = spAt species i := by
  unfold speciesAt spAt
  rw [List.getD_eq_getElem?_getD]

theorem solutes_eq (species sel : List (Species ℝ)) (idx : List Nat) (m : List ℝ) (h : sel = idx.map (spAt species)) :
    solutes sel idx m = List.ofFn fun i : Fin idx.length =>
      (⟨(speciesAt species idx[i]).formula, (speciesAt species idx[i]).charge, m.getD idx[i] 0⟩ : Solute) := by
  subst h
  unfold solutes
  apply List.ext_getElem
  · simp
  · intro i h1 h2
    simp [speciesAt_eq]

theorem sum_range_eq (n : Nat) (g : Nat → ℝ) : ∑ i : Fin n, g i = ((List.range n).map g).sum := by
  rw [← List.sum_toFinset g List.nodup_range, List.toFinset_range, Finset.sum_range]

theorem sum_index_eq (idx : List Nat) (g : Nat → ℝ) : ∑ i : Fin idx.length, g idx[i] = (idx.map g).sum := by
  rw [← List.sum_ofFn]
  congr 1
  apply List.ext_getElem
  · simp
  · intro i h1 h2; simp

section Phase

variable (reactions : List Registries.Reaction) (rho0 eps0 : ℝ) (species : List (Species ℝ)) (mix : Mixture ℝ)
  (h : construct reactions rho0 eps0 species = .ok mix)

include h

/-- Sums over the species in terms of the sums over the three kinds of solutes. -/
theorem sum_parts (g : Nat → ℝ) : ((List.range species.length).map g).sum =
    g mix.idxWater + ((mix.ix.idxNeutral.map g).sum + (mix.ix.idxCations.map g).sum + (mix.ix.idxAnions.map g).sum) := by
  obtain ⟨-, -, hp, -⟩ := C49_partition reactions rho0 eps0 species mix h
  rw [← (hp.map g).sum_eq]
  simp [add_assoc]

theorem solution_eq (T P A : ℝ) (x : List ℝ) (hx : x.length = species.length) (hxw : x.getD mix.idxWater 0 ≠ 0)
    (hz : (speciesAt species mix.idxWater).charge = 0) :
    ∃ st, mix.state T P x = .ok st ∧ st.m.length = species.length ∧ (∀ i, i < species.length → st.m.getD i 0 = molality x mix.idxWater i) ∧
      solutionOf mix st A = (kindsOf species mix.ix.idxCations mix.ix.idxAnions mix.ix.idxNeutral).solution T A
        (molalitiesOf x mix.idxWater mix.ix.idxCations mix.ix.idxAnions mix.ix.idxNeutral) := by
  obtain ⟨⟨sw, hsw, -⟩, -, hperm, hperm', hN, hCh, hC, hA, -, -, -, -, hNs, hChs, hCs, hAs, -, -⟩ :=
    C49_partition reactions rho0 eps0 species mix h
  obtain ⟨st, h1, -, h3, h4, -, h6, -⟩ := state_eq reactions rho0 eps0 species mix h T P x hx
  have hget : ∀ i, i < species.length → st.m.getD i 0 = molality x mix.idxWater i := by
    intro i hi
    rw [h4, if_neg hxw]
    simp [molality, hx, hi]
  have lt : ∀ i s, species[i]? = some s → i < species.length := fun i s hs => (List.getElem?_eq_some_iff.mp hs).1
  have hwl := lt _ _ hsw
  have lN : ∀ i ∈ mix.ix.idxNeutral, i < species.length := fun i hi => by obtain ⟨_, s, hs, _⟩ := (hN i).1 hi; exact lt _ _ hs
  have lC : ∀ i ∈ mix.ix.idxCations, i < species.length := fun i hi => by obtain ⟨_, s, hs, _⟩ := (hC i).1 hi; exact lt _ _ hs
  have lA : ∀ i ∈ mix.ix.idxAnions, i < species.length := fun i hi => by obtain ⟨_, s, hs, _⟩ := (hA i).1 hi; exact lt _ _ hs
  have zN : ∀ i ∈ mix.ix.idxNeutral, (speciesAt species i).charge = 0 := fun i hi => by
    obtain ⟨_, s, hs, h0⟩ := (hN i).1 hi
    rw [speciesAt, List.getD_eq_getElem?_getD, hs]; exact h0
  refine ⟨st, h1, h3, hget, ?_⟩
  have eN := solutes_eq species mix.ix.neutral mix.ix.idxNeutral st.m (species_of_indices species _ _ hNs)
  have eC := solutes_eq species mix.ix.cations mix.ix.idxCations st.m (species_of_indices species _ _ hCs)
  have eA := solutes_eq species mix.ix.anions mix.ix.idxAnions st.m (species_of_indices species _ _ hAs)
  have eCh := solutes_eq species mix.ix.charged mix.ix.idxCharged st.m (species_of_indices species _ _ hChs)
  have hT : st.T = T := by
    unfold Mixture.state at h1
    cases hm : mix.molalities x with
    | throw => rw [hm] at h1; cases h1
    | ub => rw [hm] at h1; cases h1
    | ok m =>
      rw [hm, Res.bind_ok'] at h1
      cases hms : mix.stoichiometricMolalities m with
      | throw => rw [hms] at h1; cases h1
      | ub => rw [hms] at h1; cases h1
      | ok ms =>
        rw [hms, Res.bind_ok'] at h1
        cases hI : mix.stoichiometricIonicStrength ms with
        | throw => rw [hI] at h1; cases h1
        | ub => rw [hI] at h1; cases h1
        | ok I => rw [hI, Res.bind_ok'] at h1; cases h1; rfl
  have hI : st.Ie = (kindsOf species mix.ix.idxCations mix.ix.idxAnions mix.ix.idxNeutral).ionicStrength
      (molalitiesOf x mix.idxWater mix.ix.idxCations mix.ix.idxAnions mix.ix.idxNeutral) := by
    rw [h6, sum_zip_charges species st.m h3.symm]
    have e : ∀ i : Fin species.length, species[i].charge ^ 2 * st.m.getD i 0 =
        (fun i : Nat => (speciesAt species i).charge ^ 2 * molality x mix.idxWater i) i := fun i => by
      simp only [hget i i.2, speciesAt_eq, spAt_eq]
    rw [Finset.sum_congr rfl fun i _ => e i, sum_range_eq _ (fun i : Nat => (speciesAt species i).charge ^ 2 * molality x mix.idxWater i), sum_parts reactions rho0 eps0 species mix h]
    have z : (mix.ix.idxNeutral.map fun i => (speciesAt species i).charge ^ 2 * molality x mix.idxWater i).sum = 0 := by
      rw [List.map_congr_left (g := fun _ => (0 : ℝ)) fun i hi => by rw [zN i hi]; ring]; simp
    rw [z, hz, ← sum_index_eq, ← sum_index_eq]
    simp only [Kinds.ionicStrength, kindsOf, molalitiesOf]
    ring
  have hZ : total (solutes mix.ix.charged mix.ix.idxCharged st.m) (fun q => q.m * |q.z|) =
      (kindsOf species mix.ix.idxCations mix.ix.idxAnions mix.ix.idxNeutral).chargeSum
        (molalitiesOf x mix.idxWater mix.ix.idxCations mix.ix.idxAnions mix.ix.idxNeutral) := by
    rw [eCh, total_ofFn]
    simp only
    rw [sum_index_eq mix.ix.idxCharged (fun i => st.m.getD i 0 * |(speciesAt species i).charge|), (hperm'.map _).sum_eq, List.map_append,
      List.sum_append]
    rw [List.map_congr_left fun i hi => by rw [hget i (lC i hi)], List.map_congr_left (l := mix.ix.idxAnions) fun i hi => by rw [hget i (lA i hi)],
      ← sum_index_eq, ← sum_index_eq]
    rfl
  have hS : st.m.sum - st.m.getD mix.idxWater 0 =
      (molalitiesOf x mix.idxWater mix.ix.idxCations mix.ix.idxAnions mix.ix.idxNeutral).sum := by
    have e : st.m = (List.range species.length).map fun i => molality x mix.idxWater i := by
      apply List.ext_getElem
      · simp [h3]
      · intro i hi1 hi2
        have := hget i (by omega)
        rw [List.getD_eq_getElem _ _ hi1] at this
        simp [this]
    rw [hget _ hwl, e, sum_parts reactions rho0 eps0 species mix h, ← sum_index_eq, ← sum_index_eq, ← sum_index_eq]
    simp only [Molalities.sum, molalitiesOf]
    ring
  unfold solutionOf Kinds.solution
  rw [hT, hI, hZ, hS, eN, eC, eA]
  have gC : ∀ i : Fin mix.ix.idxCations.length, st.m.getD mix.ix.idxCations[i] 0 = molality x mix.idxWater mix.ix.idxCations[i] :=
    fun i => hget _ (lC _ (List.getElem_mem i.2))
  have gA : ∀ i : Fin mix.ix.idxAnions.length, st.m.getD mix.ix.idxAnions[i] 0 = molality x mix.idxWater mix.ix.idxAnions[i] :=
    fun i => hget _ (lA _ (List.getElem_mem i.2))
  have gN : ∀ i : Fin mix.ix.idxNeutral.length, st.m.getD mix.ix.idxNeutral[i] 0 = molality x mix.idxWater mix.ix.idxNeutral[i] :=
    fun i => hget _ (lN _ (List.getElem_mem i.2))
  have gZ : ∀ i : Fin mix.ix.idxNeutral.length, (speciesAt species mix.ix.idxNeutral[i]).charge = 0 :=
    fun i => zN _ (List.getElem_mem i.2)
  simp only [gC, gA, gN, gZ]
  rfl

end Phase

theorem setAll_ofFn (f : Solute → Res ℝ) (idx : List Nat) (hnd : idx.Nodup) (s : Fin idx.length → Solute) (l : Fin idx.length → ℝ)
    (hf : ∀ i, f (s i) = .ok (l i)) (v : List ℝ) (hv : ∀ i ∈ idx, i < v.length) :
    ∃ r, setAll f (idx.zip (List.ofFn s)) v = .ok r ∧ r.length = v.length ∧ (∀ i : Fin idx.length, r.getD idx[i] 0 = l i) ∧
      ∀ j, j ∉ idx → r.getD j 0 = v.getD j 0 := by
  induction idx generalizing v with
  | nil => exact ⟨v, rfl, rfl, fun i => i.elim0, fun _ _ => rfl⟩
  | cons a idx ih =>
    rw [List.nodup_cons] at hnd
    obtain ⟨r, h1, h2, h3, h4⟩ := ih hnd.2 (fun i => s i.succ) (fun i => l i.succ) (fun i => hf i.succ) (v.set a (l 0))
      (fun i hi => by rw [List.length_set]; exact hv i (by simp [hi]))
    refine ⟨r, ?_, by rw [h2, List.length_set], ?_, ?_⟩
    · have e : (a :: idx).zip (List.ofFn s) = (a, s 0) :: idx.zip (List.ofFn fun i => s i.succ) := by
        rw [show List.ofFn s = s 0 :: List.ofFn fun i => s i.succ from List.ofFn_succ, List.zip_cons_cons]
      rw [e, setAll, hf 0, Res.bind_ok', h1]
    · intro i
      refine Fin.cases ?_ (fun i => ?_) i
      · show r.getD a 0 = l 0
        rw [h4 a hnd.1, List.getD_eq_getElem _ _ (by rw [List.length_set]; exact hv a (by simp))]
        simp
      · exact h3 i
    · intro j hj
      rw [List.mem_cons, not_or] at hj
      rw [h4 j hj.2]
      simp [List.getD_eq_getElem?_getD, List.getElem?_set_ne (Ne.symm hj.1)]

/-- The memory after an evaluation. -/
theorem evaluation {reactions : List Registries.Reaction} {rho0 eps0 : ℝ} {species : List (Species ℝ)} {mix : Mixture ℝ}
    (hc : construct reactions rho0 eps0 species = .ok mix) (f : Fn) (hf : pitzer reactions rho0 eps0 species = .ok f) (T P A : ℝ)
    (hA : Bilinear.eval aphi T P = .ok A) (m : Mem) (hm : Fits m species.length) (x : List ℝ) (hx : x.length = species.length)
    (hxw : x.getD mix.idxWater 0 ≠ 0) (hz : (speciesAt species mix.idxWater).charge = 0)
    (k : Kinds mix.ix.idxCations.length mix.ix.idxAnions.length mix.ix.idxNeutral.length)
    (hk : k = kindsOf species mix.ix.idxCations mix.ix.idxAnions mix.ix.idxNeutral)
    (mo : Molalities mix.ix.idxCations.length mix.ix.idxAnions.length mix.ix.idxNeutral.length)
    (hmo : mo = molalitiesOf x mix.idxWater mix.ix.idxCations mix.ix.idxAnions mix.ix.idxNeutral)
    (lc : Fin mix.ix.idxCations.length → ℝ) (la : Fin mix.ix.idxAnions.length → ℝ) (lw : ℝ)
    (hlc : ∀ c, lnGammaCation tabulated (k.solution T A mo) (k.cation mo c) = .ok (lc c))
    (hla : ∀ a, lnGammaAnion tabulated (k.solution T A mo) (k.anion mo a) = .ok (la a))
    (hlw : lnActivityWater tabulated (k.solution T A mo) = .ok lw) :
    ∃ st r3, mix.state T P x = .ok st ∧ st.m.length = species.length ∧ (∀ i, i < species.length → st.m.getD i 0 = molality x mix.idxWater i) ∧
      r3.length = species.length ∧ f T P x m = .ok { m with
        props := { m.props with
          ln_g := r3.set mix.idxWater (lw - Real.log (x.getD mix.idxWater 0))
          ln_a := (List.zipWith (fun g m => g + Real.log m) r3 st.m).set mix.idxWater lw }
        extra := some (mix, st) } ∧
      (∀ c : Fin mix.ix.idxCations.length, r3.getD mix.ix.idxCations[c] 0 = lc c) ∧ (∀ a : Fin mix.ix.idxAnions.length, r3.getD mix.ix.idxAnions[a] 0 = la a) ∧
      ∀ n : Fin mix.ix.idxNeutral.length, r3.getD mix.ix.idxNeutral[n] 0 = lnGammaNeutral (k.solution T A mo) (k.neutral mo n) := by
  unfold pitzer at hf
  rw [hc, Res.bind_ok', Res.ok.injEq] at hf
  obtain ⟨⟨sw, hsw, -⟩, -, hperm, -, hN, -, hC, hA', hsN, -, hsC, hsA, -⟩ := C49_partition reactions rho0 eps0 species mix hc
  obtain ⟨st, h1, h2, h3, h4⟩ := solution_eq reactions rho0 eps0 species mix hc T P A x hx hxw hz
  have hnd := (hperm.nodup_iff).2 List.nodup_range
  simp only [List.nodup_cons, List.mem_append, not_or, List.nodup_append] at hnd
  obtain ⟨⟨⟨wN, wC⟩, wA⟩, ⟨ndN, ndC, hNC⟩, ndA, hNCA⟩ := hnd
  have lt : ∀ i s, species[i]? = some s → i < species.length := fun i s hs => (List.getElem?_eq_some_iff.mp hs).1
  have hwl := lt _ _ hsw
  have lN : ∀ i ∈ mix.ix.idxNeutral, i < species.length := fun i hi => by obtain ⟨_, s, hs, _⟩ := (hN i).1 hi; exact lt _ _ hs
  have lC : ∀ i ∈ mix.ix.idxCations, i < species.length := fun i hi => by obtain ⟨_, s, hs, _⟩ := (hC i).1 hi; exact lt _ _ hs
  have lA : ∀ i ∈ mix.ix.idxAnions, i < species.length := fun i hi => by obtain ⟨_, s, hs, _⟩ := (hA' i).1 hi; exact lt _ _ hs
  obtain ⟨r1, a1, b1, c1, d1⟩ := setAll_ofFn (lnGammaCation tabulated (k.solution T A mo)) mix.ix.idxCations ndC (k.cation mo) lc hlc
    m.props.ln_g (fun i hi => by rw [hm.1]; exact lC i hi)
  obtain ⟨r2, a2, b2, c2, d2⟩ := setAll_ofFn (lnGammaAnion tabulated (k.solution T A mo)) mix.ix.idxAnions ndA (k.anion mo) la hla
    r1 (fun i hi => by rw [b1, hm.1]; exact lA i hi)
  obtain ⟨r3, a3, b3, c3, d3⟩ := setAll_ofFn (fun s => .ok (lnGammaNeutral (k.solution T A mo) s)) mix.ix.idxNeutral ndN (k.neutral mo)
    _ (fun _ => rfl) r2 (fun i hi => by rw [b2, b1, hm.1]; exact lN i hi)
  have hr3 : r3.length = species.length := by rw [b3, b2, b1, hm.1]
  have hev : f T P x m = .ok { m with
      props := { m.props with
        ln_g := r3.set mix.idxWater (lw - Real.log (x.getD mix.idxWater 0))
        ln_a := (List.zipWith (fun g m => g + Real.log m) r3 st.m).set mix.idxWater lw }
      extra := some (mix, st) } := by
    rw [← hf]
    simp only
    rw [if_neg (by simp [(fits_iff' m species.length).mpr hm, hx]), h1, Res.bind_ok', hA, Res.bind_ok']
    unfold evaluate
    simp only [h4, ← hk, ← hmo]
    simp only [sol_cations, sol_anions, sol_neutrals]
    rw [show setAll _ _ m.props.ln_g = _ from a1, Res.bind_ok', show setAll _ _ r1 = _ from a2, Res.bind_ok', show setAll _ _ r2 = _ from a3,
      Res.bind_ok', hlw]
    rfl
  refine ⟨st, r3, h1, h2, h3, hr3, hev, fun c => ?_, fun a => ?_, c3⟩
  · have hmem : mix.ix.idxCations[c] ∈ mix.ix.idxCations := List.getElem_mem c.2
    rw [d3 _ (fun hh => hNC _ hh _ hmem rfl), d2 _ (fun hh => hNCA _ (Or.inr hmem) _ hh rfl)]
    exact c1 c
  · have hmem : mix.ix.idxAnions[a] ∈ mix.ix.idxAnions := List.getElem_mem a.2
    rw [d3 _ (fun hh => hNCA _ (Or.inl hh) _ hmem rfl)]
    exact c2 a

/-- What an evaluation writes, in a phase with mole fractions `x`: the ln activity coefficients of the solutes are the results of the
functions of the model for the solution with the molalities of the solutes, their ln activities have the logarithm of the molality added,
and water has its ln activity and its rational activity coefficient. The other properties of the phase are left as they were. -/
theorem C80_outputs (reactions : List Registries.Reaction) (rho0 eps0 : ℝ) (species : List (Species ℝ)) (f : Fn)
    (hf : pitzer reactions rho0 eps0 species = .ok f) (T P A : ℝ) (hA : Bilinear.eval aphi T P = .ok A) (m : Mem) (hm : Fits m species.length)
    (x : List ℝ) (hx : x.length = species.length) :
    ∃ mix, construct reactions rho0 eps0 species = .ok mix ∧ (x.getD mix.idxWater 0 ≠ 0 → (speciesAt species mix.idxWater).charge = 0 →
      let k := kindsOf species mix.ix.idxCations mix.ix.idxAnions mix.ix.idxNeutral
      let mo := molalitiesOf x mix.idxWater mix.ix.idxCations mix.ix.idxAnions mix.ix.idxNeutral
      ∀ (lc : Fin mix.ix.idxCations.length → ℝ) (la : Fin mix.ix.idxAnions.length → ℝ) (lw : ℝ), (∀ c, lnGammaCation tabulated (k.solution T A mo) (k.cation mo c) = .ok (lc c)) →
        (∀ a, lnGammaAnion tabulated (k.solution T A mo) (k.anion mo a) = .ok (la a)) → lnActivityWater tabulated (k.solution T A mo) = .ok lw →
        ∃ r, f T P x m = .ok r ∧ r.props = { m.props with ln_g := r.props.ln_g, ln_a := r.props.ln_a } ∧
          (∀ c, lnG (f T P x m) mix.ix.idxCations[c] = lc c ∧ lnA (f T P x m) mix.ix.idxCations[c] = lc c + Real.log (mo.c c)) ∧
          (∀ a, lnG (f T P x m) mix.ix.idxAnions[a] = la a ∧ lnA (f T P x m) mix.ix.idxAnions[a] = la a + Real.log (mo.a a)) ∧
          (∀ n, lnG (f T P x m) mix.ix.idxNeutral[n] = lnGammaNeutral (k.solution T A mo) (k.neutral mo n) ∧
            lnA (f T P x m) mix.ix.idxNeutral[n] = lnGammaNeutral (k.solution T A mo) (k.neutral mo n) + Real.log (mo.n n)) ∧
          lnA (f T P x m) mix.idxWater = lw ∧ lnG (f T P x m) mix.idxWater = lw - Real.log (x.getD mix.idxWater 0)) := by
  cases hc : construct reactions rho0 eps0 species with
  | throw => unfold pitzer at hf; rw [hc] at hf; cases hf
  | ub => unfold pitzer at hf; rw [hc] at hf; cases hf
  | ok mix =>
    refine ⟨mix, rfl, ?_⟩
    intro hxw hz k mo lc la lw hlc hla hlw
    obtain ⟨⟨sw, hsw, -⟩, -, hperm, -, hN, -, hC, hA', -⟩ := C49_partition reactions rho0 eps0 species mix hc
    have hnd := (hperm.nodup_iff).2 List.nodup_range
    simp only [List.nodup_cons, List.mem_append, not_or] at hnd
    obtain ⟨⟨⟨wN, wC⟩, wA⟩, -⟩ := hnd
    have lt : ∀ i s, species[i]? = some s → i < species.length := fun i s hs => (List.getElem?_eq_some_iff.mp hs).1
    have hwl := lt _ _ hsw
    have lN : ∀ i ∈ mix.ix.idxNeutral, i < species.length := fun i hi => by obtain ⟨_, s, hs, _⟩ := (hN i).1 hi; exact lt _ _ hs
    have lC : ∀ i ∈ mix.ix.idxCations, i < species.length := fun i hi => by obtain ⟨_, s, hs, _⟩ := (hC i).1 hi; exact lt _ _ hs
    have lA : ∀ i ∈ mix.ix.idxAnions, i < species.length := fun i hi => by obtain ⟨_, s, hs, _⟩ := (hA' i).1 hi; exact lt _ _ hs
    obtain ⟨st, r3, h1, h2, h3, hr3, hev, ec, ea, en⟩ := evaluation hc f hf T P A hA m hm x hx hxw hz k rfl mo rfl lc la lw hlc hla hlw
    have ga : ∀ i, i < species.length → i ≠ mix.idxWater → lnG (f T P x m) i = r3.getD i 0 ∧
        lnA (f T P x m) i = r3.getD i 0 + Real.log (molality x mix.idxWater i) := by
      intro i hi hne
      rw [hev, ← h3 i hi]
      simp [lnG, lnA, propsOf, List.getElem_set_ne (Ne.symm hne), hr3, h2, hi]
    refine ⟨_, hev, rfl, fun c => ?_, fun a => ?_, fun n => ?_, ?_, ?_⟩
    · have hmem : mix.ix.idxCations[c] ∈ mix.ix.idxCations := List.getElem_mem c.2
      have e := ec c
      have g := ga _ (lC _ hmem) (fun hh => wC (hh ▸ hmem))
      rw [e] at g
      exact g
    · have hmem : mix.ix.idxAnions[a] ∈ mix.ix.idxAnions := List.getElem_mem a.2
      have e := ea a
      have g := ga _ (lA _ hmem) (fun hh => wA (hh ▸ hmem))
      rw [e] at g
      exact g
    · have hmem : mix.ix.idxNeutral[n] ∈ mix.ix.idxNeutral := List.getElem_mem n.2
      have g := ga _ (lN _ hmem) (fun hh => wN (hh ▸ hmem))
      rw [en n] at g
      exact g
    · rw [hev]
      simp [lnA, propsOf, hr3, h2, hwl]
    · rw [hev]
      simp [lnG, propsOf, hr3, hwl]

/-! ## The table of the Debye-Hückel coefficient -/

theorem aphi_regular : Bilinear.Regular aphi where
  xs2 := by simp [aphi, aphiTemperatures]
  ys2 := by simp [aphi, aphiPressures]
  xsorted := by
    have h : aphiTemperatures.Pairwise (· < ·) := by decide +kernel
    refine List.Pairwise.map _ (fun a b hab => ?_) h
    have : (a : ℝ) < b := by exact_mod_cast hab
    linarith
  ysorted := by
    have h : aphiPressures.Pairwise (· < ·) := by decide +kernel
    refine List.Pairwise.map _ (fun a b hab => ?_) h
    have : (a : ℝ) < b := by exact_mod_cast hab
    linarith
  size := by simp only [aphi, List.length_map]; decide +kernel

theorem aphi_covers (T P : ℝ) : aphi.Covers T P ↔ 27315 / 100 ≤ T ∧ T ≤ 62315 / 100 ∧ 100000 ≤ P ∧ P ≤ 500000000 := by
  simp only [Bilinear.Interpolator.Covers, aphi, Bilinear.Interpolator.X, Bilinear.Interpolator.Y]
  norm_num [aphiTemperatures, aphiPressures]

/-- Outside 0 to 350 °C or 1 to 5000 bar an evaluation throws; inside, the coefficient is available. -/
theorem C80_domain (reactions : List Registries.Reaction) (rho0 eps0 : ℝ) (species : List (Species ℝ)) (f : Fn)
    (hf : pitzer reactions rho0 eps0 species = .ok f) (T P : ℝ) :
    (¬ (27315 / 100 ≤ T ∧ T ≤ 62315 / 100 ∧ 100000 ≤ P ∧ P ≤ 500000000) → ∀ (m : Mem) (x : List ℝ), Fits m species.length →
      x.length = species.length → f T P x m = .throw) ∧
    (27315 / 100 ≤ T ∧ T ≤ 62315 / 100 ∧ 100000 ≤ P ∧ P ≤ 500000000 → ∃ A, Bilinear.eval aphi T P = .ok A) := by
  constructor
  · intro h m x hm hx
    have he := Bilinear.C18_outside_throws aphi aphi_regular T P (fun hc => h ((aphi_covers T P).1 hc))
    unfold pitzer at hf
    cases hc : construct reactions rho0 eps0 species with
    | throw => rw [hc] at hf; cases hf
    | ub => rw [hc] at hf; cases hf
    | ok mix =>
      rw [hc, Res.bind_ok', Res.ok.injEq] at hf
      obtain ⟨st, h1, -⟩ := state_eq reactions rho0 eps0 species mix hc T P x hx
      rw [← hf]
      simp only
      rw [if_neg (by simp [(fits_iff' m species.length).mpr hm, hx]), h1, Res.bind_ok', he]
      rfl
  · intro h
    obtain ⟨i, j, -, -, -, -, -, -, he⟩ := Bilinear.C18_cell aphi aphi_regular T P ((aphi_covers T P).2 h)
    exact ⟨_, he⟩

/-- The coefficient of `C80_gibbs_wrong` is the one of the table at 25 °C and 1 bar. -/
theorem aphi_25 : Bilinear.eval aphi (29815 / 100) 100000 = .ok A25 := by
  have h := Bilinear.C18_grid_points aphi aphi_regular 1 0 (by simp [aphi, aphiTemperatures]) (by simp [aphi, aphiPressures])
  have e1 : aphi.X 1 = 29815 / 100 := by norm_num [Bilinear.Interpolator.X, aphi, aphiTemperatures]
  have e2 : aphi.Y 0 = 100000 := by norm_num [Bilinear.Interpolator.Y, aphi, aphiPressures]
  have e3 : aphi.Z 1 0 = A25 := by
    have h : aphiData[1]? = some (19573639 / 50000000) := by decide +kernel
    simp only [Bilinear.Interpolator.Z, aphi, List.getD_eq_getElem?_getD, List.getElem?_map, Nat.zero_mul, Nat.add_zero, h, Option.map_some,
      Option.getD_some, A25]
    norm_num
  rw [e1, e2, e3] at h
  exact h

/-! ## Phases without cations or without anions -/

theorem bind_ne_ok {α β : Type} (x : Res α) (g : α → Res β) (r : β) (h : ∀ a, x = .ok a → g a ≠ .ok r) : Res.bind x g ≠ .ok r := by
  cases x with
  | ok a => exact h a rfl
  | throw => exact fun h => by cases h
  | ub => exact fun h => by cases h

/-- In a phase without cations, or without anions, no evaluation returns; without ions it is undefined: the loops over pairs of ions
run until a signed counter overflows. -/
theorem C80_one_sign_wrong (reactions : List Registries.Reaction) (rho0 eps0 : ℝ) (species : List (Species ℝ)) (f : Fn)
    (hf : pitzer reactions rho0 eps0 species = .ok f) :
    ((∀ s ∈ species, ¬ 0 < s.charge) ∨ (∀ s ∈ species, ¬ s.charge < 0) → ∀ (T P : ℝ) (x : List ℝ) (m r : Mem), f T P x m ≠ .ok r) ∧
    ((∀ s ∈ species, s.charge = 0) → ∀ (T P : ℝ) (x : List ℝ) (m : Mem), Fits m species.length → x.length = species.length →
      27315 / 100 ≤ T ∧ T ≤ 62315 / 100 ∧ 100000 ≤ P ∧ P ≤ 500000000 → f T P x m = .ub) := by
  obtain hdom := C80_domain reactions rho0 eps0 species f hf
  unfold pitzer at hf
  cases hc : construct reactions rho0 eps0 species with
  | throw => rw [hc] at hf; cases hf
  | ub => rw [hc] at hf; cases hf
  | ok mix =>
    rw [hc, Res.bind_ok', Res.ok.injEq] at hf
    obtain ⟨⟨sw, hsw, -⟩, -, hperm, -, hN, -, hC, hA', hsN, -, hsC, hsA, -⟩ := C49_partition reactions rho0 eps0 species mix hc
    have nilC : (∀ s ∈ species, ¬ 0 < s.charge) → mix.ix.idxCations = [] := fun h => List.eq_nil_iff_forall_not_mem.2 fun i hi => by
      obtain ⟨_, s, hs, h0⟩ := (hC i).1 hi
      exact h s (List.mem_of_getElem? hs) h0
    have nilA : (∀ s ∈ species, ¬ s.charge < 0) → mix.ix.idxAnions = [] := fun h => List.eq_nil_iff_forall_not_mem.2 fun i hi => by
      obtain ⟨_, s, hs, h0⟩ := (hA' i).1 hi
      exact h s (List.mem_of_getElem? hs) h0
    have waterC : ∀ d : Solution, d.cations = [] → lnActivityWater tabulated d = .ub := fun d hd => by
      unfold lnActivityWater waterPairs pairLoop; rw [hd]; rfl
    have waterA : ∀ d : Solution, d.anions = [] → ∀ r, lnActivityWater tabulated d ≠ .ok r := fun d hd r => by
      unfold lnActivityWater
      refine bind_ne_ok _ _ _ fun a _ => ?_
      unfold waterPairs pairLoop; rw [hd]; exact fun h => by cases h
    refine ⟨?_, ?_⟩
    · intro h T P x m r
      rw [← hf]
      simp only
      split
      · exact fun h => by cases h
      · refine bind_ne_ok _ _ _ fun st _ => bind_ne_ok _ _ _ fun A _ => bind_ne_ok _ _ _ fun p hp => ?_
        exfalso
        revert hp
        unfold evaluate
        refine bind_ne_ok _ _ _ fun _ _ => bind_ne_ok _ _ _ fun _ _ => bind_ne_ok _ _ _ fun _ _ => bind_ne_ok _ _ _ fun lw hw => ?_
        exfalso
        rcases h with h | h
        · rw [waterC _ (by simp [solutionOf, solutes, nilC h])] at hw; cases hw
        · exact waterA _ (by simp [solutionOf, solutes, nilA h]) _ hw
    · intro h T P x m hm hx hTP
      have nC := nilC fun s hs => by rw [h s hs]; exact lt_irrefl _
      have nA := nilA fun s hs => by rw [h s hs]; exact lt_irrefl _
      obtain ⟨A, hA⟩ := (hdom T P).2 hTP
      obtain ⟨st, h1, -⟩ := state_eq reactions rho0 eps0 species mix hc T P x hx
      rw [← hf]
      simp only
      rw [if_neg (by simp [(fits_iff' m species.length).mpr hm, hx]), h1, Res.bind_ok', hA, Res.bind_ok']
      unfold evaluate
      simp only [nC, nA, List.zip_nil_left, setAll, Res.bind_ok']
      have hs : ∀ (l : List (Nat × Solute)) (v : List ℝ), ∃ r, setAll (fun s => .ok (lnGammaNeutral (solutionOf mix st A) s)) l v = .ok r := by
        intro l
        induction l with
        | nil => intro v; exact ⟨v, rfl⟩
        | cons a l ih => intro v; exact ih _
      obtain ⟨r, hr⟩ := hs (mix.ix.idxNeutral.zip (solutionOf mix st A).neutrals) m.props.ln_g
      rw [hr, Res.bind_ok', waterC _ (by simp [solutionOf, solutes, nC])]
      rfl

/-! ## Lookups -/

/-- The interaction parameters do not depend on the order in which the species are named. -/
theorem C80_symmetric (f g h : Formula) :
    theta f g = theta g f ∧ lambda f g = lambda g f ∧ psi f g h = psi g f h ∧ psi f g h = psi f h g ∧ zeta f g h = zeta g f h ∧
      zeta f g h = zeta f h g := by
  exact ⟨pairParam_comm _ _ _, pairParam_comm _ _ _, tripleParam_perm _ _ _ _ _ _ _ (List.Perm.swap _ _ _),
    tripleParam_perm _ _ _ _ _ _ _ ((List.Perm.swap _ _ _).cons _), tripleParam_perm _ _ _ _ _ _ _ (List.Perm.swap _ _ _),
    tripleParam_perm _ _ _ _ _ _ _ ((List.Perm.swap _ _ _).cons _)⟩

/-- The parameters of salts are found for every spelling of the formulas, those of ions of the same sign and of neutral solutes only for
the spelling of the tables: with `Ca+2` for `Ca++`, as in the PHREEQC databases, they are zero without a warning. -/
theorem C80_spelling_wrong :
    (∀ T, salt beta0Data ⟨c!"Ca+2", [(c!"Ca", 1)], 2⟩ fClm T = salt beta0Data fCapp fClm T) ∧
    theta fNap fCapp ≠ 0 ∧ theta fNap ⟨c!"Ca+2", [(c!"Ca", 1)], 2⟩ = 0 ∧
    psi fNap fCapp fClm ≠ 0 ∧ psi fNap ⟨c!"Ca+2", [(c!"Ca", 1)], 2⟩ fClm = 0 ∧
    lambda fCO2 fCapp ≠ 0 ∧ lambda fCO2 ⟨c!"Ca+2", [(c!"Ca", 1)], 2⟩ = 0 := by
  refine ⟨fun T => ?_, by decide +kernel, by decide +kernel, by decide +kernel, by decide +kernel, by decide +kernel, by decide +kernel⟩
  unfold salt
  have h : beta0Data.find? (fun l => (⟨c!"Ca+2", [(c!"Ca", 1)], 2⟩ : Formula).equivalent l.1 && fClm.equivalent l.2.1) =
      beta0Data.find? (fun l => fCapp.equivalent l.1 && fClm.equivalent l.2.1) := by decide +kernel
  rw [h]

/-- Every line of the tables of salts has a number of coefficients that the code knows. -/
theorem C80_lines (l : Formula × Formula × List ℚ) (h : l ∈ beta0Data ++ beta1Data ++ beta2Data ++ cphiData) :
    (saltFunction l.2.2).isSome = true := by
  have key : ∀ l ∈ beta0Data ++ beta1Data ++ beta2Data ++ cphiData, l.2.2.length = 1 ∨ l.2.2.length = 2 ∨ l.2.2.length = 5 := by
    decide +kernel
  rcases key l h with h | h | h
  · obtain ⟨a, ha⟩ := List.length_eq_one_iff.1 h
    rw [ha]; rfl
  · obtain ⟨a, b, ha⟩ := List.length_eq_two.1 h
    rw [ha]; rfl
  · match hl : l.2.2, h with
    | [a, b, c, d, e], _ => rfl

/-- The slope in temperature of a parameter with these coefficients: for five coefficients `P(Tr) + c₁ (1/T - 1/Tr) + c₂ ln(T/Tr) + c₃ (T - Tr) +
c₄ (T² - Tr²)` of Pitzer's tables, for two a straight line. -/
noncomputable def slopeT (c : List ℚ) (T : ℝ) : ℝ :=
  if c.length = 5 then -(c.getD 1 0 : ℚ) / T ^ 2 + (c.getD 2 0 : ℚ) / T + (c.getD 3 0 : ℚ) + 2 * (c.getD 4 0 : ℚ) * T
  else if c.length = 2 then (c.getD 1 0 : ℚ) else 0

/-- **C80**, temperature: every parameter of a salt has its tabulated value at 25 °C, and the slope of the published equation. -/
theorem C80_temperature (c : List ℚ) (f : ℝ → ℝ) (h : saltFunction c = some f) :
    f 298.15 = (c.getD 0 0 : ℚ) ∧ ∀ T, 0 < T → HasDerivAt f (slopeT c T) T := by
  unfold saltFunction at h
  simp only at h
  split at h
  · cases h
    exact ⟨rfl, fun T _ => by simpa [slopeT] using hasDerivAt_const T _⟩
  · cases h
    rename_i c0 c1
    refine ⟨by norm_num, fun T _ => ?_⟩
    have h1 := (((hasDerivAt_id' T).sub_const (29815 / 100 : ℝ)).const_mul (c1 : ℝ)).const_add (c0 : ℝ)
    exact h1.congr_deriv (by simp [slopeT])
  · cases h
    rename_i c0 c1 c2 c3 c4
    refine ⟨by norm_num, fun T hT => ?_⟩
    have hT' : T ≠ 0 := hT.ne'
    have d1 : HasDerivAt (fun x : ℝ => (c1 : ℝ) * (1 / x - 1 / (29815 / 100))) (c1 * (-(1 / T ^ 2))) T := by
      have := (((hasDerivAt_inv hT').sub_const (1 / (29815 / 100 : ℝ))).const_mul (c1 : ℝ))
      simpa [one_div] using this
    have d2 : HasDerivAt (fun x : ℝ => (c2 : ℝ) * Real.log (x / (29815 / 100))) (c2 * (1 / T)) T := by
      have h0 := ((hasDerivAt_id' T).div_const (29815 / 100 : ℝ)).log (by positivity)
      refine (h0.const_mul (c2 : ℝ)).congr_deriv ?_
      field_simp
    have d3 : HasDerivAt (fun x : ℝ => (c3 : ℝ) * (x - 29815 / 100)) (c3 * 1) T :=
      ((hasDerivAt_id' T).sub_const _).const_mul _
    have d4 : HasDerivAt (fun x : ℝ => (c4 : ℝ) * (x * x - 29815 / 100 * (29815 / 100))) (c4 * (1 * T + T * 1)) T :=
      (((hasDerivAt_id' T).mul (hasDerivAt_id' T)).sub_const _).const_mul _
    have := (((d1.const_add (c0 : ℝ)).add d2).add d3).add d4
    refine this.congr_deriv ?_
    simp only [slopeT, List.length_cons, List.length_nil, List.getD_cons_zero, List.getD_cons_succ]
    norm_num
    ring
  · cases h

example : ∃ f, saltFunction [73 / 1000, 1 / 10, 2, 3, 4] = some f ∧ f 298.15 = 73 / 1000 := ⟨_, rfl, by norm_num⟩

/-! ## The hypotheses are met -/

/-- Sodium and potassium chloride with carbon dioxide: one charge of each sign, and no entry for triplets with chloride. -/
def chlorides : Kinds 2 1 1 := ⟨![fNap, fKp], ![1, 1], ![fClm], ![-1], ![fB_OH_3]⟩

example (T A : ℝ) : DerivedFrom (chlorides.excessGibbs (fun _ => 0) T A) tabulated chlorides T A ⟨![1, 2], ![3], ![1 / 10]⟩ := by
  refine C80_gibbs_partial chlorides _ T A _ (by norm_num) (by norm_num) ⟨fun i j => ?_, fun i j => ?_⟩ (fun n c a => ?_) ?_ ?_
  · fin_cases i <;> fin_cases j <;> rfl
  · rw [Subsingleton.elim i j]
  · fin_cases n; fin_cases a; fin_cases c <;> decide +kernel
  · norm_num [Kinds.ionicStrength, chlorides, Fin.sum_univ_two]
  · norm_num [Molalities.sum, Fin.sum_univ_two]

/-- The interaction parameters of this solution are not zero. -/
example : theta fNap fKp ≠ 0 ∧ psi fNap fKp fClm ≠ 0 ∧ lambda fB_OH_3 fNap ≠ 0 := by decide +kernel

example (T : ℝ) : DerivedFrom (brine.excessGibbs (fun x => x ^ 2) T A25) (exact (fun x => x ^ 2) (fun x => 2 * x ^ 2)) brine T A25 (scaled 1) := by
  refine C80_exact_functions brine _ _ T A25 _ (by norm_num) (by norm_num) (by norm_num [A25]) (fun c => ?_) (fun a => ?_) (fun x hx => ?_)
    (fun n => n.elim0) ?_ ?_
  · fin_cases c <;> norm_num [brine]
  · fin_cases a; norm_num [brine]
  · exact (hasDerivAt_pow 2 x).congr_deriv (by field_simp; ring)
  · rw [brine_strength]; norm_num
  · norm_num [Molalities.sum, scaled, path, dx, dy, Fin.sum_univ_two]

/-- Water, sodium and chloride. -/
def saltWater : List (Species ℝ) := [⟨c!"H2O", waterFormula, 0⟩, ⟨c!"Na+", fNap, 1⟩, ⟨c!"Cl-", fClm, -1⟩]

/-- The mixture made of these species. -/
def saltMixture : Mixture ℝ where
  species := saltWater
  ix := ⟨[], [⟨c!"Na+", fNap, 1⟩, ⟨c!"Cl-", fClm, -1⟩], [⟨c!"Na+", fNap, 1⟩], [⟨c!"Cl-", fClm, -1⟩], [], [1, 2], [1], [2]⟩
  z := [0, 1, -1]
  idxWater := 0
  D := []
  rho := fun _ _ => 1
  epsilon := fun _ _ => 1

theorem saltWater_construct : construct [] 1 1 saltWater = .ok saltMixture := by
  have hw : indexWithFormula saltWater waterFormula = .ok 0 := by
    have : findWithFormula saltWater waterFormula = 0 := by
      unfold findWithFormula Chem.indexfn
      rw [saltWater, List.findIdx_cons]
      simp only
      rw [show waterFormula.equivalent waterFormula = true from by decide +kernel]
      rfl
    unfold indexWithFormula
    rw [this]
    rfl
  have hv : visitAll 0 {} 0 saltWater = saltMixture.ix := by
    norm_num [visitAll, visit, saltWater, saltMixture]
  unfold construct
  rw [hw, Res.bind_ok']
  simp only [hv]
  rfl

/-- An evaluation in salt water returns. -/
example : ∃ (f : Fn) (r : Mem), pitzer [] 1 1 saltWater = .ok f ∧
    f (29815 / 100) 100000 [9 / 10, 1 / 20, 1 / 20] ⟨⟨0, 0, 0, 0, 0, 0, 0, [0, 0, 0], [0, 0, 0]⟩, none, {}⟩ = .ok r := by
  have hf : ∃ f, pitzer [] 1 1 saltWater = .ok f := by
    unfold pitzer
    rw [saltWater_construct]
    exact ⟨_, rfl⟩
  obtain ⟨f, hf⟩ := hf
  obtain ⟨mix, hmix, h⟩ := C80_outputs [] 1 1 saltWater f hf _ _ _ aphi_25
    ⟨⟨0, 0, 0, 0, 0, 0, 0, [0, 0, 0], [0, 0, 0]⟩, none, {}⟩ ⟨rfl, rfl⟩ [9 / 10, 1 / 20, 1 / 20] rfl
  rw [saltWater_construct, Res.ok.injEq] at hmix
  subst hmix
  have hd := C80_gibbs_partial (kindsOf saltWater saltMixture.ix.idxCations saltMixture.ix.idxAnions saltMixture.ix.idxNeutral) (fun _ => 0)
    (29815 / 100) A25 (molalitiesOf [9 / 10, 1 / 20, 1 / 20] 0 saltMixture.ix.idxCations saltMixture.ix.idxAnions saltMixture.ix.idxNeutral)
    Nat.one_pos Nat.one_pos ⟨fun i j => by rw [show i = j from Subsingleton.elim (α := Fin 1) i j],
      fun i j => by rw [show i = j from Subsingleton.elim (α := Fin 1) i j]⟩ (fun n => Fin.elim0 n)
    (by
      show 0 < 1 / 2 * (∑ c : Fin 1, _ + ∑ a : Fin 1, _)
      norm_num [kindsOf, molalitiesOf, saltMixture, speciesAt, saltWater, molality, waterMolarMass])
    (by
      show ∑ c : Fin 1, _ + ∑ a : Fin 1, _ + ∑ n : Fin 0, _ ≠ (0 : ℝ)
      norm_num [molalitiesOf, saltMixture, molality, waterMolarMass])
  obtain ⟨lc, la, ln, hc, ha, -, -, hw⟩ := hd
  obtain ⟨r, hr, -⟩ := h (by norm_num [saltMixture]) rfl lc la _ hc ha hw
  exact ⟨f, r, hf, hr⟩

end Verif.Pitzer
