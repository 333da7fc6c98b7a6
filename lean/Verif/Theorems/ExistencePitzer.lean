import Verif.Theorems.ExistenceAqueous
import Verif.Theorems.PitzerOutputs

/-!
# C114: the model of Pitzer is continuous in solutions with one charge of each sign
-/

namespace Verif.Pitzer

section Continuity

variable {X : Type} [TopologicalSpace X] {nc na nn : Nat} (k : Kinds nc na nn) (T A : ℝ) (m : X → Molalities nc na nn)
  (hc : ∀ c, Continuous fun x => (m x).c c) (ha : ∀ a, Continuous fun x => (m x).a a) (hn : ∀ n, Continuous fun x => (m x).n n)
  (hI : ∀ x, 0 < k.ionicStrength (m x))

include hc ha

theorem cont_strength : Continuous fun x => k.ionicStrength (m x) := by
  unfold Kinds.ionicStrength
  fun_prop

theorem cont_charges : Continuous fun x => k.chargeSum (m x) := by
  unfold Kinds.chargeSum
  fun_prop

include hI

theorem cont_shape (b : ℝ) (hb : 0 < b) : Continuous fun x => shape (b * √(k.ionicStrength (m x))) := by
  have h := cont_strength k m hc ha
  unfold shape
  refine Continuous.div (by fun_prop) (by fun_prop) fun x => ?_
  have := Real.sqrt_pos.2 (hI x)
  positivity

theorem cont_gPrime (b : ℝ) (hb : 0 < b) : Continuous fun x => gPrime (b * √(k.ionicStrength (m x))) := by
  have h := cont_strength k m hc ha
  unfold gPrime
  refine Continuous.div (by fun_prop) (by fun_prop) fun x => ?_
  have := Real.sqrt_pos.2 (hI x)
  positivity

theorem cont_bVal (c : Fin nc) (a : Fin na) : Continuous fun x => bVal k T (m x) c a := by
  have s1 := cont_shape k m hc ha hI (14 / 10) (by norm_num)
  have s2 := cont_shape k m hc ha hI 12 (by norm_num)
  have s3 := cont_shape k m hc ha hI 2 (by norm_num)
  unfold bVal secondVirial
  split_ifs <;> fun_prop

theorem cont_bPrime (c : Fin nc) (a : Fin na) : Continuous fun x => bPrime k T A (m x) c a := by
  have h := cont_strength k m hc ha
  have h0 : ∀ x, k.ionicStrength (m x) ≠ 0 := fun x => (hI x).ne'
  have s1 := cont_gPrime k m hc ha hI (14 / 10) (by norm_num)
  have s2 := cont_gPrime k m hc ha hI 12 (by norm_num)
  have s3 := cont_gPrime k m hc ha hI 2 (by norm_num)
  unfold bPrime BPrime
  by_cases h2 : |k.zc c| = 2 ∧ |k.za a| = 2
  · refine Continuous.congr ?_ fun x => (if_pos (show twoTwo (k.cation (m x) c) (k.anion (m x) a) from h2)).symm
    simp only [sol_I, sol_T, Kinds.cation, Kinds.anion]
    exact ((continuous_const.mul s1).div h h0).add ((continuous_const.mul s2).div h h0)
  · refine Continuous.congr ?_ fun x => (if_neg (show ¬ twoTwo (k.cation (m x) c) (k.anion (m x) a) from h2)).symm
    simp only [sol_I, sol_T, Kinds.cation, Kinds.anion]
    exact (continuous_const.mul s3).div h h0

theorem cont_Db : Continuous fun x => Db k A (m x) := by
  have h := (cont_strength k m hc ha).sqrt
  have h0 : ∀ x, 1 + 12 / 10 * √(k.ionicStrength (m x)) ≠ 0 := fun x => by positivity
  unfold Db
  exact continuous_const.mul ((h.div (by fun_prop) h0).add (continuous_const.mul (Continuous.log (by fun_prop) h0)))

theorem cont_pVal (i j : Fin nc) : Continuous fun x => pVal (fun _ => 0) k A (m x) i j := by
  unfold pVal electrostatic
  simp only [mul_zero, sub_zero]
  exact continuous_const

theorem cont_qVal (i j : Fin na) : Continuous fun x => qVal (fun _ => 0) k A (m x) i j := by
  unfold qVal electrostatic
  simp only [mul_zero, sub_zero]
  exact continuous_const

theorem cont_gradF : Continuous fun x => gradF (m x).c (m x).a (bPrime k T A (m x)) (fun _ _ => 0) (fun _ _ => 0) (Db k A (m x)) := by
  have b := cont_bPrime k T A m hc ha hI
  have d := cont_Db k A m hc ha hI
  unfold gradF
  fun_prop

include hn

theorem cont_cation (c : Fin nc) : Continuous fun x => gradCation (m x).c (m x).a (m x).n (bVal k T (m x)) (bPrime k T A (m x)) (tVal k T)
    (pVal (fun _ => 0) k A (m x)) (fun _ _ => 0) (fun _ _ => 0) (rVal k) (sVal k) (lVal k) k.zc (Db k A (m x)) (k.chargeSum (m x)) c := by
  have b := cont_bVal k T m hc ha hI
  have p := cont_pVal k A m hc ha hI
  have f := cont_gradF k T A m hc ha hI
  have z := cont_charges k m hc ha
  unfold gradCation
  fun_prop

theorem cont_anion (a : Fin na) : Continuous fun x => gradAnion (m x).c (m x).a (m x).n (bVal k T (m x)) (bPrime k T A (m x)) (tVal k T)
    (fun _ _ => 0) (qVal (fun _ => 0) k A (m x)) (fun _ _ => 0) (rVal k) (sVal k) (mVal k) k.za (Db k A (m x)) (k.chargeSum (m x)) a := by
  have b := cont_bVal k T m hc ha hI
  have p := cont_qVal k A m hc ha hI
  have f := cont_gradF k T A m hc ha hI
  have z := cont_charges k m hc ha
  unfold gradAnion
  fun_prop

theorem cont_neutral (n : Fin nn) : Continuous fun x => lnGammaNeutral (k.solution T A (m x)) (k.neutral (m x) n) := by
  simp only [lnGammaNeutral, sol_cations, sol_anions, total_ofFn, Kinds.cation, Kinds.anion, Kinds.neutral]
  fun_prop

theorem cont_water (h1 : k.OneCharge) (pc : 0 < nc) (pa : 0 < na) (hs : ∀ x, (m x).sum ≠ 0) :
    ∃ v : X → ℝ, Continuous v ∧ ∀ x, lnActivityWater tabulated (k.solution T A (m x)) = .ok (v x) := by
  have b := cont_bVal k T m hc ha hI
  have b' := cont_bPrime k T A m hc ha hI
  have p := cont_pVal k A m hc ha hI
  have q := cont_qVal k A m hc ha hI
  have z := cont_charges k m hc ha
  have i := cont_strength k m hc ha
  have h := i.sqrt
  have h0 : ∀ x, 1 + 12 / 10 * √(k.ionicStrength (m x)) ≠ 0 := fun x => by positivity
  have hsum : Continuous fun x => (m x).sum := by unfold Molalities.sum; fun_prop
  have e1 : ∀ x c a, BPhi (k.solution T A (m x)) (k.cation (m x) c) (k.anion (m x) a) =
      bVal k T (m x) c a + k.ionicStrength (m x) * bPrime k T A (m x) c a := by
    intro x c a
    rw [BPhi_eq _ _ _ (by simpa using hI x), B_eq]
    rfl
  have e2 : ∀ x c a, C (k.solution T A (m x)) (k.cation (m x) c) (k.anion (m x) a) = tVal k T c a := by
    intro x c a
    rw [C_eq]
    rfl
  have cd : Continuous fun x => -A * k.ionicStrength (m x) * √(k.ionicStrength (m x)) / (1 + 12 / 10 * √(k.ionicStrength (m x))) :=
    Continuous.div (by fun_prop) (by fun_prop) h0
  have cs : Continuous fun x => 2 / (m x).sum := continuous_const.div hsum hs
  refine ⟨fun x => -(1 + 2 / (m x).sum * (-A * k.ionicStrength (m x) * √(k.ionicStrength (m x)) / (1 + 12 / 10 * √(k.ionicStrength (m x)))
      + ∑ c, ∑ a, (m x).c c * (m x).a a * (bVal k T (m x) c a + k.ionicStrength (m x) * bPrime k T A (m x) c a + k.chargeSum (m x) * tVal k T c a)
      + 1 / 2 * ∑ i, ∑ j, (m x).c i * (m x).c j * (pVal (fun _ => 0) k A (m x) i j + k.ionicStrength (m x) * 0 + ∑ a, (m x).a a * rVal k i j a)
      + 1 / 2 * ∑ i, ∑ j, (m x).a i * (m x).a j * (qVal (fun _ => 0) k A (m x) i j + k.ionicStrength (m x) * 0 + ∑ c, (m x).c c * sVal k i j c)
      + ∑ n, ∑ c, (m x).n n * (m x).c c * (lambda (k.fn n) (k.fc c) : ℚ)
      + ∑ n, ∑ a, (m x).n n * (m x).a a * (lambda (k.fn n) (k.fa a) : ℚ)
      + ∑ n, ∑ c, ∑ a, (m x).n n * (m x).c c * (m x).a a * (zeta (k.fn n) (k.fc c) (k.fa a) : ℚ))) * (m x).sum * Aqueous.waterMolarMass, ?_, fun x => ?_⟩
  · fun_prop
  · unfold lnActivityWater
    rw [waterPairs_cations tabulated (fun _ => 0) k T A (m x) (fun _ _ => 0) pc (gives_one k T A (m x) k.zc h1.1 _),
      waterPairs_anions tabulated (fun _ => 0) k T A (m x) (fun _ _ => 0) pa (gives_one k T A (m x) k.za h1.2 _)]
    simp only [Res.bind_ok', sol_T, sol_I, sol_A, sol_Z, sol_sum, sol_cations, sol_anions, sol_neutrals, total_ofFn, e1, e2]
    rfl

end Continuity

end Verif.Pitzer

namespace Verif.Existence

open Activity Aqueous ChemicalProps IdealEquilibrium Pitzer

variable {N : Nat} {reactions : List Registries.Reaction} {rho0 eps0 : ℝ} {species : List (Species ℝ)} {mix : Mixture ℝ}

theorem molality_eq (w : Nat) (x : Fin N → ℝ) (j : Nat) : molality (List.ofFn x) w j = molal w x j := rfl

theorem pitzer_solution (h : construct reactions rho0 eps0 species = .ok mix) (hN : species.length = N) (T P : ℝ)
    (hr : 27315 / 100 ≤ T ∧ T ≤ 62315 / 100 ∧ 100000 ≤ P ∧ P ≤ 500000000) (ho : OneChargeOfEachSign species) :
    ∃ f, pitzer reactions rho0 eps0 species = .ok f ∧ Existence.Solution N f mix T P := by
  obtain ⟨f, hf⟩ : ∃ f, pitzer reactions rho0 eps0 species = .ok f := ⟨_, by unfold pitzer; rw [h]; rfl⟩
  refine ⟨f, hf, ?_, ?_⟩
  swap
  · intro x m r hr
    unfold pitzer at hf
    rw [h, Res.bind_ok', Res.ok.injEq] at hf
    rw [← hf] at hr
    by_contra hc
    have hc : m.fits species.length = false := by
      rw [← Bool.not_eq_true, fits_iff', hN]
      exact hc
    simp only [hc, Bool.not_false, Bool.true_or, if_true] at hr
    cases hr
  obtain ⟨A, hA⟩ := (C80_domain reactions rho0 eps0 species f hf T P).2 hr
  obtain ⟨⟨sw, hsw, hwater⟩, -, hperm, -, hNe, -, hC, hAn, -⟩ := C49_partition reactions rho0 eps0 species mix h
  obtain ⟨hw0, ⟨sc, sc1, sc2⟩, ⟨sa, sa1, sa2⟩, uc, ua⟩ := ho
  have at_eq : ∀ i s, species[i]? = some s → speciesAt species i = s := by
    intro i s hs
    simp [speciesAt, List.getD_eq_getElem?_getD, hs]
  have hz : (speciesAt species mix.idxWater).charge = 0 := by
    rw [at_eq _ _ hsw]
    exact hw0 sw (List.mem_of_getElem? hsw) hwater
  have pos_c : 0 < mix.ix.idxCations.length := by
    obtain ⟨i, hi⟩ := List.mem_iff_getElem?.1 sc1
    refine List.length_pos_of_mem ((hC i).2 ⟨?_, sc, hi, sc2⟩)
    rintro rfl
    rw [at_eq _ _ hi] at hz
    rw [hz] at sc2
    exact lt_irrefl _ sc2
  have pos_a : 0 < mix.ix.idxAnions.length := by
    obtain ⟨i, hi⟩ := List.mem_iff_getElem?.1 sa1
    refine List.length_pos_of_mem ((hAn i).2 ⟨?_, sa, hi, sa2⟩)
    rintro rfl
    rw [at_eq _ _ hi] at hz
    rw [hz] at sa2
    exact lt_irrefl _ sa2
  have lc : ∀ i ∈ mix.ix.idxCations, i < N ∧ speciesAt species i ∈ species ∧ 0 < (speciesAt species i).charge := by
    intro i hi
    obtain ⟨-, s, h1, h2⟩ := (hC i).1 hi
    rw [at_eq _ _ h1]
    exact ⟨hN ▸ (List.getElem?_eq_some_iff.mp h1).1, List.mem_of_getElem? h1, h2⟩
  have la : ∀ i ∈ mix.ix.idxAnions, i < N ∧ speciesAt species i ∈ species ∧ (speciesAt species i).charge < 0 := by
    intro i hi
    obtain ⟨-, s, h1, h2⟩ := (hAn i).1 hi
    rw [at_eq _ _ h1]
    exact ⟨hN ▸ (List.getElem?_eq_some_iff.mp h1).1, List.mem_of_getElem? h1, h2⟩
  have lnn : ∀ i ∈ mix.ix.idxNeutral, i < N := by
    intro i hi
    obtain ⟨-, s, h1, -⟩ := (hNe i).1 hi
    exact hN ▸ (List.getElem?_eq_some_iff.mp h1).1
  obtain ⟨k, hk⟩ : ∃ k, k = kindsOf species mix.ix.idxCations mix.ix.idxAnions mix.ix.idxNeutral := ⟨_, rfl⟩
  obtain ⟨mo, hmo⟩ : ∃ mo : Compositions N → Molalities mix.ix.idxCations.length mix.ix.idxAnions.length mix.ix.idxNeutral.length,
    mo = fun x => molalitiesOf (List.ofFn x.1) mix.idxWater mix.ix.idxCations mix.ix.idxAnions mix.ix.idxNeutral := ⟨_, rfl⟩
  have cm : ∀ j, Continuous fun x : Compositions N => molal mix.idxWater x.1 j := fun j =>
    continuousOn_iff_continuous_restrict.1 (cont_molal h hN j)
  have hc : ∀ c, Continuous fun x => (mo x).c c := fun c => by rw [hmo]; exact cm _
  have ha : ∀ a, Continuous fun x => (mo x).a a := fun a => by rw [hmo]; exact cm _
  have hn : ∀ n, Continuous fun x => (mo x).n n := fun n => by rw [hmo]; exact cm _
  have qc : ∀ x c, 0 < (mo x).c c := fun x c => by rw [hmo]; exact molal_pos h hN x.2 (lc _ (List.getElem_mem _)).1
  have qa : ∀ x a, 0 < (mo x).a a := fun x a => by rw [hmo]; exact molal_pos h hN x.2 (la _ (List.getElem_mem _)).1
  have qn : ∀ x n, 0 < (mo x).n n := fun x n => by rw [hmo]; exact molal_pos h hN x.2 (lnn _ (List.getElem_mem _))
  have zc : ∀ c, 0 < k.zc c := fun c => by rw [hk]; exact (lc _ (List.getElem_mem _)).2.2
  have one : k.OneCharge := by
    rw [hk]
    constructor
    · intro i j
      exact uc _ (lc _ (List.getElem_mem _)).2.1 _ (lc _ (List.getElem_mem _)).2.1 (lc _ (List.getElem_mem _)).2.2 (lc _ (List.getElem_mem _)).2.2
    · intro i j
      exact ua _ (la _ (List.getElem_mem _)).2.1 _ (la _ (List.getElem_mem _)).2.1 (la _ (List.getElem_mem _)).2.2 (la _ (List.getElem_mem _)).2.2
  have hI : ∀ x, 0 < k.ionicStrength (mo x) := by
    intro x
    refine mul_pos (by norm_num) (add_pos_of_pos_of_nonneg (Finset.sum_pos (fun c _ => ?_) ⟨⟨0, pos_c⟩, Finset.mem_univ _⟩) (Finset.sum_nonneg fun a _ => ?_))
    · have := zc c
      have := qc x c
      positivity
    · have := qa x a
      positivity
  have hs : ∀ x, (mo x).sum ≠ 0 := by
    intro x
    refine ne_of_gt (add_pos_of_pos_of_nonneg (add_pos_of_pos_of_nonneg (Finset.sum_pos (fun c _ => qc x c) ⟨⟨0, pos_c⟩, Finset.mem_univ _⟩)
      (Finset.sum_nonneg fun a _ => (qa x a).le)) (Finset.sum_nonneg fun n _ => (qn x n).le))
  obtain ⟨vw, cw, ew⟩ := cont_water k T A mo hc ha hn hI one pos_c pos_a hs
  have cn := cont_neutral k T A mo hc ha hn hI
  obtain ⟨Lc, cc, ec⟩ : ∃ Lc : Compositions N → Fin mix.ix.idxCations.length → ℝ, (∀ c, Continuous fun x => Lc x c) ∧
      ∀ x c, lnGammaCation tabulated (k.solution T A (mo x)) (k.cation (mo x) c) = .ok (Lc x c) := ⟨_, cont_cation k T A mo hc ha hn hI, fun x c =>
    cation_eq tabulated (fun _ => 0) k T A (mo x) _ _ pos_c pos_a (gives_one k T A (mo x) k.zc one.1 _) (gives_one k T A (mo x) k.za one.2 _) c⟩
  obtain ⟨La, ca, ea⟩ : ∃ La : Compositions N → Fin mix.ix.idxAnions.length → ℝ, (∀ a, Continuous fun x => La x a) ∧
      ∀ x a, lnGammaAnion tabulated (k.solution T A (mo x)) (k.anion (mo x) a) = .ok (La x a) := ⟨_, cont_anion k T A mo hc ha hn hI, fun x a =>
    anion_eq tabulated (fun _ => 0) k T A (mo x) _ _ pos_c pos_a (gives_one k T A (mo x) k.zc one.1 _) (gives_one k T A (mo x) k.za one.2 _) a⟩
  have key := fun (x : Compositions N) (m : Mem) (hm : Fits m N) =>
    evaluation h f hf T P A hA m (hN.symm ▸ hm) (List.ofFn x.1) (by simp [hN]) (entry_pos x.2 (water_lt h hN)).ne' hz k hk (mo x) (by rw [hmo]) _ _ _ (ec x) (ea x) (ew x)
  have cl : ∀ j, j < N → Continuous fun x : Compositions N => Real.log (molal mix.idxWater x.1 j) := fun j hj =>
    (cm j).log fun x => (molal_pos h hN x.2 hj).ne'
  have entries : ∀ j : Fin N, ∃ v : Compositions N → ℝ, Continuous v ∧ ∀ x m, Fits m N → ∀ r, f T P (List.ofFn x.1) m = .ok r → r.props.ln_a.getD j 0 = v x := by
    intro j
    have other : (j : Nat) ≠ mix.idxWater → ∀ (x : Compositions N) (m : Mem) (_ : Fits m N) (r : Mem), f T P (List.ofFn x.1) m = .ok r → ∃ r3 : List ℝ,
        (∀ c : Fin mix.ix.idxCations.length, r3.getD mix.ix.idxCations[c] 0 = Lc x c) ∧ (∀ a : Fin mix.ix.idxAnions.length, r3.getD mix.ix.idxAnions[a] 0 = La x a) ∧
        (∀ n : Fin mix.ix.idxNeutral.length, r3.getD mix.ix.idxNeutral[n] 0 = lnGammaNeutral (k.solution T A (mo x)) (k.neutral (mo x) n)) ∧
        r.props.ln_a.getD j 0 = r3.getD j 0 + Real.log (molal mix.idxWater x.1 j) := by
      intro hj x m hm r hr
      obtain ⟨st, r3, h1, h2, h3, h4, h5, h6, h7, h8⟩ := key x m hm
      refine ⟨r3, h6, h7, h8, ?_⟩
      rw [h5] at hr
      cases hr
      have lt : (j : Nat) < species.length := hN.symm ▸ j.2
      show ((List.zipWith (fun g m => g + Real.log m) r3 st.m).set mix.idxWater (vw x)).getD j 0 = _
      rw [← molality_eq, ← h3 j lt]
      simp [List.getElem_set_ne (Ne.symm hj), h4, h2, lt]
    have hmem : (j : Nat) ∈ mix.idxWater :: (mix.ix.idxNeutral ++ mix.ix.idxCations ++ mix.ix.idxAnions) := by
      rw [hperm.mem_iff, List.mem_range, hN]
      exact j.2
    have hnd := (hperm.nodup_iff).2 List.nodup_range
    simp only [List.nodup_cons, List.mem_append, not_or] at hnd
    obtain ⟨⟨⟨wN, wC⟩, wA⟩, -⟩ := hnd
    simp only [List.mem_cons, List.mem_append] at hmem
    rcases hmem with hw | ((hj | hj) | hj)
    · refine ⟨vw, cw, ?_⟩
      intro x m hm r hr
      obtain ⟨st, r3, h1, h2, h3, h4, h5, -⟩ := key x m hm
      rw [h5] at hr
      cases hr
      show ((List.zipWith (fun g m => g + Real.log m) r3 st.m).set mix.idxWater (vw x)).getD j 0 = _
      rw [hw]
      simp [h4, h2, hN, water_lt h hN]
    · obtain ⟨i, hi⟩ := List.get_of_mem hj
      refine ⟨_, (cn i).add (cl j j.2), fun x m hm r hr => ?_⟩
      obtain ⟨r3, h6, h7, h8, e⟩ := other (fun e => wN (e ▸ hj)) x m hm r hr
      rw [e, ← hi, List.get_eq_getElem]
      exact congrArg (· + _) (h8 i)
    · obtain ⟨i, hi⟩ := List.get_of_mem hj
      refine ⟨_, (cc i).add (cl j j.2), fun x m hm r hr => ?_⟩
      obtain ⟨r3, h6, h7, h8, e⟩ := other (fun e => wC (e ▸ hj)) x m hm r hr
      rw [e, ← hi, List.get_eq_getElem]
      exact congrArg (· + _) (h6 i)
    · obtain ⟨i, hi⟩ := List.get_of_mem hj
      refine ⟨_, (ca i).add (cl j j.2), fun x m hm r hr => ?_⟩
      obtain ⟨r3, h6, h7, h8, e⟩ := other (fun e => wA (e ▸ hj)) x m hm r hr
      rw [e, ← hi, List.get_eq_getElem]
      exact congrArg (· + _) (h7 i)
  choose v cv hv using entries
  open Classical in
  refine ⟨fun x j => if hx : x ∈ Compositions N then v j ⟨x, hx⟩ else 0, ?_, ?_⟩
  · refine continuousOn_pi.2 fun j => continuousOn_iff_continuous_restrict.2 ((cv j).congr fun x => ?_)
    simp [Set.restrict]
  · intro x hx m hm hworld
    obtain ⟨st, r3, h1, h2, h3, h4, h5, -⟩ := key ⟨x, hx⟩ m hm
    refine ⟨_, h5, ?_, ?_, ⟨st, rfl, h1⟩, ?_, ?_⟩
    · show (r3.set _ _).length = N
      rw [List.length_set, h4, hN]
    · have len : ((List.zipWith (fun g m => g + Real.log m) r3 st.m).set mix.idxWater (vw ⟨x, hx⟩)).length = N := by
        simp [h4, h2, hN]
      apply List.ext_getElem
      · simpa using len
      · intro j j1 j2
        rw [List.getElem_ofFn]
        dsimp only
        rw [dif_pos hx]
        have hj : j < N := by simpa using j2
        rw [← hv ⟨j, hj⟩ ⟨x, hx⟩ m hm _ h5]
        exact (List.getD_eq_getElem _ _ j1).symm
    · intro idx hi
      have : m.world.rumpf = some idx := hi
      rw [hworld] at this
      cases this
    · intro idx hi
      have : m.world.duan = some idx := hi
      rw [hworld] at this
      cases this

/-- **C114 (Pitzer).** The model of Pitzer, alone or followed by models for dissolved gases and neutral species, is continuous between 0 and 350 °C and 1 and 5000 bar in
every solution with cations and anions, if all the cations have the same charge and all the anions. With several charges of one sign it uses step functions (C80). -/
theorem C114_pitzer_partial (reactions : List Registries.Reaction) (hd : Dissociates reactions) (rho0 eps0 : ℝ) (standard : List (ℝ → ℝ → Option (Std ℝ)))
    (species : List (Species ℝ)) (hl : species.length = standard.length) (hw : HasWater species) (ho : OneChargeOfEachSign species) (tail : List Model)
    (ht : ∀ model ∈ tail, Dissolved species model) (ideal : Model) (T P : ℝ) (hr : 27315 / 100 ≤ T ∧ T ≤ 62315 / 100 ∧ 100000 ≤ P ∧ P ≤ 500000000) :
    ContinuousModel (phase standard species (chain (pitzer reactions rho0 eps0 :: tail)) ideal) T P := by
  obtain ⟨mix, h⟩ := construct_ok reactions rho0 eps0 species hw
  obtain ⟨f, h1, h2⟩ := pitzer_solution h hl T P hr ho
  exact continuous_chain standard _ tail ideal f h1 T P mix h2 fun model hm => dissolved_changes h hl hd T P model (ht model hm)

/-- Carbonated brine, with the models of Pitzer, and of Drummond for the dissolved gas. -/
example : ContinuousModel (phase [constant 0, constant 0, constant 0, constant 0] saltyWater
    (chain [pitzer [] 997 78, drummond co2 ⟨-11312 / 10000, 14 / 10000, 284, 9 / 10, 1 / 1000⟩]) idealAqueous) (29815 / 100) 100000 := by
  refine C114_pitzer_partial [] (by intro r hr; cases hr) 997 78 _ saltyWater rfl ⟨_, List.mem_cons_self, by decide +kernel⟩ ?_ [drummond co2 _] ?_ _ _ _ (by norm_num)
  · refine ⟨?_, ⟨⟨c!"Na+", naPlus, 1⟩, by simp [saltyWater, Activity.carbonated], one_pos⟩, ⟨⟨c!"Cl-", clMinus, -1⟩, by simp [saltyWater, Activity.carbonated], neg_one_lt_zero⟩, ?_, ?_⟩
    · intro s hs hi
      simp only [saltyWater, Activity.carbonated, List.mem_cons, List.not_mem_nil, or_false] at hs
      rcases hs with rfl | rfl | rfl | rfl
      · rfl
      · exact absurd hi (show ¬ waterFormula.equivalent naPlus = true by decide +kernel)
      · exact absurd hi (show ¬ waterFormula.equivalent clMinus = true by decide +kernel)
      · rfl
    · intro s hs t ht h1 h2
      simp only [saltyWater, Activity.carbonated, List.mem_cons, List.not_mem_nil, or_false] at hs ht
      rcases hs with rfl | rfl | rfl | rfl <;> rcases ht with rfl | rfl | rfl | rfl <;> first | rfl | (norm_num at h1; done) | (norm_num at h2; done)
    · intro s hs t ht h1 h2
      simp only [saltyWater, Activity.carbonated, List.mem_cons, List.not_mem_nil, or_false] at hs ht
      rcases hs with rfl | rfl | rfl | rfl <;> rcases ht with rfl | rfl | rfl | rfl <;> first | rfl | (norm_num at h1; done) | (norm_num at h2; done)
  · intro model hm
    rw [List.mem_singleton] at hm
    subst hm
    exact .drummond co2 _ ⟨⟨c!"CO2(aq)", co2, 0⟩, by simp [saltyWater, Activity.carbonated], by decide +kernel⟩

end Verif.Existence
