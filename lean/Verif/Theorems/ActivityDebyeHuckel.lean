import Verif.Theorems.ActivityHKF

/-!
# C61: the Debye–Hückel model
-/

namespace Verif.Activity

open Verif.Aqueous Verif.ChemicalProps

/-- The Debye–Hückel parameters A and B for a temperature, water density (kg/m³) and dielectric constant. -/
noncomputable def paramA (T rho eps : ℝ) : ℝ := 1824829238 / 1000 * √(rho / 1000) / (T * eps * √(T * eps))
noncomputable def paramB (T rho eps : ℝ) : ℝ := 5029158649 / 100000000 * √(rho / 1000) / √(T * eps)

theorem dhIon_eq (d : DHState) (a b z : ℝ) : dhIon d a b z = extendedDebyeHuckel d.A d.B a b z d.I := by
  unfold dhIon extendedDebyeHuckel
  ring_nf

theorem dhSigma_eq (d : DHState) (a : ℝ) : dhSigma d a = sigma d.B a d.I := by
  unfold dhSigma sigma
  by_cases h : a = 0
  · rw [if_neg (not_not.mpr h), if_pos h]
  · rw [if_pos h, if_neg h]
    rw [show 1 + a * d.B * √d.I - 1 = a * d.B * √d.I from by ring]
    rw [div_eq_mul_inv]
    congr 1
    ring

/-- The contribution of an ion to the activity of water. -/
noncomputable def waterTerm (d : DHState) (ion : Ion) : ℝ :=
  ion.ms * dhIon d ion.a ion.b ion.z + 2 / 3 * d.A * d.I * √d.I * dhSigma d ion.a * Real.log 10
    - d.I * d.I * ion.b / (ion.z * ion.z) * Real.log 10

theorem dh_fold (d : DHState) (m : List ℝ) (iw : Nat) (L : List Ion) (g a : List ℝ) (hiw : iw < a.length)
    (hL : ∀ ion ∈ L, ion.index ≠ iw ∧ ion.index < a.length) (hnd : (L.map Ion.index).Nodup) :
    let r := L.foldl (dhTurn d m iw) (g, a)
    r.1 = L.foldl (fun g ion => g.set ion.index (dhIon d ion.a ion.b ion.z)) g ∧ r.2.length = a.length ∧
    r.2.getD iw 0 = a.getD iw 0 + (L.map (waterTerm d)).sum ∧
    (∀ ion ∈ L, r.2.getD ion.index 0 = dhIon d ion.a ion.b ion.z + Real.log (m.getD ion.index 0)) ∧
    ∀ j, j ≠ iw → (∀ ion ∈ L, ion.index ≠ j) → r.2.getD j 0 = a.getD j 0 := by
  induction L generalizing g a with
  | nil => simp
  | cons ion L ih =>
    intro r
    obtain ⟨h1, h2⟩ := hL ion List.mem_cons_self
    rw [List.map_cons, List.nodup_cons] at hnd
    set v := dhIon d ion.a ion.b ion.z + Real.log (m.getD ion.index 0) with hv
    set a' := (a.set ion.index v).set iw ((a.set ion.index v).getD iw 0 + waterTerm d ion) with ha'
    have hr : r = L.foldl (dhTurn d m iw) (g.set ion.index (dhIon d ion.a ion.b ion.z), a') := rfl
    have hlen : a'.length = a.length := by simp [ha']
    have hget : ∀ j, a'.getD j 0 = if j = iw then a.getD iw 0 + waterTerm d ion else if j = ion.index then v else a.getD j 0 := by
      intro j
      rw [ha', getD_set _ _ _ _ (by simpa using hiw)]
      by_cases hj : j = iw
      · rw [if_pos hj, if_pos hj, getD_set _ _ _ _ h2, if_neg (Ne.symm h1)]
      · rw [if_neg hj, if_neg hj, getD_set _ _ _ _ h2]
    obtain ⟨i1, i2, i3, i4, i5⟩ := ih (g.set ion.index (dhIon d ion.a ion.b ion.z)) a' (by rw [hlen]; exact hiw)
      (fun i hi => by rw [hlen]; exact hL i (List.mem_cons_of_mem _ hi)) hnd.2
    rw [← hr] at i1 i2 i3 i4 i5
    refine ⟨i1, by rw [i2, hlen], ?_, ?_, ?_⟩
    · rw [i3, hget, if_pos rfl, List.map_cons, List.sum_cons, add_assoc]
    · intro ion' hion
      rcases List.mem_cons.mp hion with rfl | hion
      · rw [i5 _ h1 (fun i hi e => hnd.1 (List.mem_map.mpr ⟨i, hi, e⟩)), hget, if_neg h1, if_pos rfl]
      · exact i4 ion' hion
    · intro j hj hne
      rw [i5 j hj (fun i hi => hne i (List.mem_cons_of_mem _ hi)), hget, if_neg hj,
        if_neg (Ne.symm (hne ion List.mem_cons_self))]

/-- **C61.** The activities and activity coefficients in a solution of ions: the extended Debye–Hückel formula at the ionic strength of the
solution, and the activity of water. -/
theorem C61_activities (reactions : List Registries.Reaction) (rho0 eps0 : ℝ) (p : DHParams) (species : List (Species ℝ)) (f : Fn)
    (hf : debyeHuckel reactions rho0 eps0 p species = .ok f) (w : Fin species.length) (hs : IonicSolution species w) (m : Mem)
    (hm : Fits m species.length) (T P : ℝ) (x : List ℝ) (hx : x.length = species.length) (hxw : x.getD w 0 ≠ 0) :
    let I := 1 / 2 * ∑ i ∈ Finset.univ.erase w, species[i].charge ^ 2 * molality x w i
    let A := paramA T rho0 eps0
    let B := paramB T rho0 eps0
    let a : Fin species.length → ℝ := fun i => p.aion species[i].formula
    let b : Fin species.length → ℝ := fun i => p.bion species[i].formula
    let g : Fin species.length → ℝ := fun i => extendedDebyeHuckel A B (a i) (b i) species[i].charge I
    (∃ r, f T P x m = .ok r) ∧
    lnA (f T P x m) w = - waterMolarMass * ((1 - x.getD w 0) / (waterMolarMass * x.getD w 0) +
      ∑ i ∈ Finset.univ.erase w, (molality x w i * g i +
        (2 / 3 * A * (I * √I) * sigma B (a i) I - I ^ 2 * b i / species[i].charge ^ 2) * Real.log 10)) ∧
    (∀ i : Fin species.length, i ≠ w → lnA (f T P x m) i = g i + Real.log (molality x w i) ∧ lnG (f T P x m) i = g i) ∧
    lnG (f T P x m) w = lnA (f T P x m) w - Real.log (x.getD w 0) := by
  intro I A B a b g
  have hM : (0 : ℝ) < waterMolarMass := by unfold waterMolarMass; norm_num
  obtain ⟨mix, hmix⟩ := construct_ok reactions rho0 eps0 species w hs.water
  unfold debyeHuckel at hf
  rw [hmix] at hf
  simp only [Res.bind_ok', Res.ok.injEq] at hf
  obtain ⟨hw, hN, hN', hnd, hmem, hch, hsum⟩ := ionic_indices reactions rho0 eps0 species mix hmix w hs
  obtain ⟨st, h1, h2, h3, h4, hT, -, hrho, heps⟩ := ionic_state reactions rho0 eps0 species mix hmix w hs T P x hx hxw
  have hget : ∀ i, i < species.length → st.m.getD i 0 = molality x w i := by
    intro i hi
    rw [h2]
    simp [molality, hx, hi]
  have hI : st.Is = I := by
    rw [h4]
    show _ = 1 / 2 * ∑ i ∈ Finset.univ.erase w, species[i].charge ^ 2 * molality x w i
    congr 1
    apply Finset.sum_congr rfl
    intro i _
    rw [hget i i.2]
    ring
  have hd : dhState st = ⟨I, A, B⟩ := by
    unfold dhState
    simp only [hI, hT, hrho, heps]
    rfl
  have hions : dhIons p mix st.ms = mix.ix.idxCharged.map fun j =>
      ⟨j, st.m.getD j 0, (spAt species j).charge, p.aion (spAt species j).formula, p.bion (spAt species j).formula⟩ := by
    unfold dhIons
    rw [h3, hch]
    exact ions_map (fun j ms s => ⟨j, ms, s.charge, p.aion s.formula, p.bion s.formula⟩) _ _ _
  rw [← hf]
  simp only [(fits_iff' m species.length).mpr hm, hx, h1, hw]
  rw [if_neg (by simp)]
  simp only [Res.bind_ok', hd, hN, List.zip_nil_left, List.map_nil, List.foldl_nil]
  rw [hions]
  set L : List Ion := mix.ix.idxCharged.map fun j =>
      ⟨j, st.m.getD j 0, (spAt species j).charge, p.aion (spAt species j).formula, p.bion (spAt species j).formula⟩ with hL
  have hLi : L.map Ion.index = mix.ix.idxCharged := by rw [hL, List.map_map]; exact List.map_id _
  set a0 := m.props.ln_a.set w (1 / waterMolarMass * (1 - x.getD w 0) / x.getD w 0) with ha0
  have ha0l : a0.length = species.length := by rw [ha0, List.length_set, hm.2]
  obtain ⟨r1, r2, r3, r4, -⟩ := dh_fold ⟨I, A, B⟩ st.m w L m.props.ln_g a0 (by rw [ha0l]; exact w.2) (by
    intro ion hion
    have : ion.index ∈ mix.ix.idxCharged := by rw [← hLi]; exact List.mem_map.mpr ⟨ion, hion, rfl⟩
    rw [ha0l]
    exact (hmem _).mp this) (by rw [hLi]; exact hnd)
  set r := L.foldl (dhTurn ⟨I, A, B⟩ st.m w) (m.props.ln_g, a0) with hr
  have hr2 : r.2.length = species.length := by rw [r2, ha0l]
  have hr1 : r.1.length = species.length := by rw [r1, foldl_set_length Ion.index, hm.1]
  have hwater : r.2.getD w 0 * (-1 / (1 / waterMolarMass)) = - waterMolarMass * ((1 - x.getD w 0) / (waterMolarMass * x.getD w 0) +
      ∑ i ∈ Finset.univ.erase w, (molality x w i * g i +
        (2 / 3 * A * (I * √I) * sigma B (a i) I - I ^ 2 * b i / species[i].charge ^ 2) * Real.log 10)) := by
    rw [r3, ha0, getD_set _ _ _ _ (by rw [hm.2]; exact w.2), if_pos rfl, hL, List.map_map, hsum]
    have : ∑ i ∈ Finset.univ.erase w, (waterTerm ⟨I, A, B⟩ ∘ fun j => (⟨j, st.m.getD j 0, (spAt species j).charge,
          p.aion (spAt species j).formula, p.bion (spAt species j).formula⟩ : Ion)) (i : Nat) =
        ∑ i ∈ Finset.univ.erase w, (molality x w i * g i +
          (2 / 3 * A * (I * √I) * sigma B (a i) I - I ^ 2 * b i / species[i].charge ^ 2) * Real.log 10) := by
      apply Finset.sum_congr rfl
      intro i _
      simp only [Function.comp, waterTerm]
      rw [hget i i.2, spAt_eq, dhIon_eq, dhSigma_eq]
      show molality x w i * g i + 2 / 3 * A * I * √I * sigma B (a i) I * Real.log 10 -
        I * I * b i / (species[i].charge * species[i].charge) * Real.log 10 = _
      ring
    rw [this, show (-1 : ℝ) / (1 / waterMolarMass) = - waterMolarMass from by field_simp,
      show 1 / waterMolarMass * (1 - x.getD w 0) / x.getD w 0 = (1 - x.getD w 0) / (waterMolarMass * x.getD w 0) from by field_simp]
    ring
  simp only [lnA, lnG, propsOf]
  refine ⟨⟨_, rfl⟩, ?_, ?_, ?_⟩
  · rw [getD_set _ _ _ _ (by rw [hr2]; exact w.2), if_pos rfl, hwater]
  · intro i hi
    have hiw : ¬ (i : Nat) = w := fun e => hi (Fin.ext e)
    have hiC : (i : Nat) ∈ mix.ix.idxCharged := (hmem i).mpr ⟨fun e => hi (Fin.ext e), i.2⟩
    have hion : (⟨i, st.m.getD i 0, (spAt species i).charge, p.aion (spAt species i).formula, p.bion (spAt species i).formula⟩ : Ion) ∈ L :=
      List.mem_map.mpr ⟨i, hiC, rfl⟩
    constructor
    · rw [getD_set _ _ _ _ (by rw [hr2]; exact w.2), if_neg hiw]
      have := r4 _ hion
      simp only at this
      rw [this, hget i i.2, spAt_eq, dhIon_eq]
    · rw [getD_set _ _ _ _ (by rw [hr1]; exact w.2), if_neg hiw, r1]
      have := foldl_set_mem Ion.index (fun ion => dhIon ⟨I, A, B⟩ ion.a ion.b ion.z) L m.props.ln_g (by rw [hLi]; exact hnd) _ hion
        (by rw [hm.1]; exact i.2)
      simp only at this
      rw [this, spAt_eq, dhIon_eq]
  · rw [getD_set _ _ _ _ (by rw [hr1]; exact w.2), if_pos rfl]

/-! ## Neutral species -/

theorem neutral_fold (d : DHState) (m : List ℝ) (L : List (Nat × ℝ)) (g a : List ℝ) :
    L.foldl (dhNeutral d m) (g, a) = (L.foldl (fun g q => g.set q.1 (Real.log 10 * q.2 * d.I)) g,
      L.foldl (fun a q => a.set q.1 (Real.log 10 * q.2 * d.I + Real.log (m.getD q.1 0))) a) := by
  induction L generalizing g a with
  | nil => rfl
  | cons q L ih => exact ih _ _

theorem turn_fold_length (d : DHState) (m : List ℝ) (iw : Nat) (L : List Ion) (g a : List ℝ) :
    (L.foldl (dhTurn d m iw) (g, a)).1.length = g.length ∧ (L.foldl (dhTurn d m iw) (g, a)).2.length = a.length := by
  induction L generalizing g a with
  | nil => exact ⟨rfl, rfl⟩
  | cons q L ih =>
    obtain ⟨h1, h2⟩ := ih (g.set q.index (dhIon d q.a q.b q.z)) (dhTurn d m iw (g, a) q).2
    rw [List.length_set] at h1
    refine ⟨h1, ?_⟩
    rw [List.foldl_cons]
    refine Eq.trans h2 ?_
    simp [dhTurn]

/-- **C61.** The activity coefficient of a neutral solute is proportional to the stoichiometric ionic strength, with the parameter for its formula, and its
activity is that times its molality, in any solution. -/
theorem C61_neutral (reactions : List Registries.Reaction) (rho0 eps0 : ℝ) (p : DHParams) (species : List (Species ℝ)) (f : Fn)
    (hf : debyeHuckel reactions rho0 eps0 p species = .ok f) (m : Mem) (hm : Fits m species.length) (T P : ℝ) (x : List ℝ)
    (hx : x.length = species.length) : ∃ mix st, construct reactions rho0 eps0 species = .ok mix ∧ mix.state T P x = .ok st ∧
      ∀ i : Fin species.length, (i : Nat) ≠ mix.idxWater → species[i].charge = 0 →
        lnG (f T P x m) i = p.bneutral species[i].formula * st.Is * Real.log 10 ∧
        lnA (f T P x m) i = p.bneutral species[i].formula * st.Is * Real.log 10 + Real.log (st.m.getD i 0) := by
  unfold debyeHuckel at hf
  cases hmix : construct reactions rho0 eps0 species with
  | throw => rw [hmix] at hf; cases hf
  | ub => rw [hmix] at hf; cases hf
  | ok mix =>
    rw [hmix] at hf
    simp only [Res.bind_ok', Res.ok.injEq] at hf
    obtain ⟨st, h1, -⟩ := state_eq reactions rho0 eps0 species mix hmix T P x hx
    obtain ⟨-, -, -, -, hN, -, -, -, hNs, -, -, -, hneu, -⟩ := C49_partition reactions rho0 eps0 species mix hmix
    refine ⟨mix, st, rfl, h1, ?_⟩
    intro i hiw hz
    rw [← hf]
    simp only [(fits_iff' m species.length).mpr hm, hx, h1]
    rw [if_neg (by simp)]
    simp only [Res.bind_ok', lnG, lnA, propsOf, neutral_fold]
    have hlen : mix.ix.neutral.length = mix.ix.idxNeutral.length := by simpa using congrArg List.length hneu
    set L := (mix.ix.idxNeutral.zip mix.ix.neutral).map fun q => (q.1, p.bneutral q.2.formula) with hL
    have hfst : L.map Prod.fst = mix.ix.idxNeutral := by
      rw [hL, List.map_map]
      exact List.map_fst_zip (by omega)
    have hnd : (L.map Prod.fst).Nodup := by rw [hfst]; exact hNs.imp fun h => Nat.ne_of_lt h
    have hmem : ((i : Nat), p.bneutral species[i].formula) ∈ L := by
      have hi : (i : Nat) ∈ mix.ix.idxNeutral := (hN i).mpr ⟨hiw, _, List.getElem?_eq_getElem i.2, hz⟩
      obtain ⟨k, hk, e⟩ := List.mem_iff_getElem.mp hi
      have := congrArg (fun l => l[k]?) hneu
      simp only [List.getElem?_map, List.getElem?_eq_getElem hk, List.getElem?_eq_getElem (hlen ▸ hk), Option.map_some, Option.some.injEq, e] at this
      rw [List.getElem?_eq_getElem i.2, Option.some.injEq] at this
      refine List.mem_map.mpr ⟨((i : Nat), species[i]), ?_, rfl⟩
      refine List.mem_iff_getElem.mpr ⟨k, by simp [hlen, hk], ?_⟩
      rw [List.getElem_zip, e, this]
      rfl
    obtain ⟨l1, l2⟩ := turn_fold_length (dhState st) st.m mix.idxWater (dhIons p mix st.ms) m.props.ln_g
      (m.props.ln_a.set mix.idxWater (1 / waterMolarMass * (1 - x.getD mix.idxWater 0) / x.getD mix.idxWater 0))
    rw [List.length_set, hm.2] at l2
    rw [hm.1] at l1
    have e1 : ∀ g : List ℝ, g.length = species.length → (L.foldl (fun g q => g.set q.1 (Real.log 10 * q.2 * (dhState st).I)) g).getD i 0 =
        p.bneutral species[i].formula * st.Is * Real.log 10 := by
      intro g hg
      have := foldl_set_mem Prod.fst (fun q : Nat × ℝ => Real.log 10 * q.2 * (dhState st).I) L g hnd _ hmem (by rw [hg]; exact i.2)
      refine Eq.trans this ?_
      show Real.log 10 * p.bneutral species[i].formula * st.Is = _
      ring
    have e2 : ∀ g : List ℝ, g.length = species.length →
        (L.foldl (fun g q => g.set q.1 (Real.log 10 * q.2 * (dhState st).I + Real.log (st.m.getD q.1 0))) g).getD i 0 =
        p.bneutral species[i].formula * st.Is * Real.log 10 + Real.log (st.m.getD i 0) := by
      intro g hg
      have := foldl_set_mem Prod.fst (fun q : Nat × ℝ => Real.log 10 * q.2 * (dhState st).I + Real.log (st.m.getD q.1 0)) L g hnd _ hmem
        (by rw [hg]; exact i.2)
      refine Eq.trans this ?_
      show Real.log 10 * p.bneutral species[i].formula * st.Is + Real.log (st.m.getD i 0) = _
      ring
    exact ⟨e1 _ (by rw [List.length_set, l1]), e2 _ (by rw [List.length_set, l2])⟩

/-! ## Dilution -/

/-- The amounts along a dilution path: the amount of water is constant and those of the solutes are multiplied by the same factor. -/
noncomputable def dilution {N : Nat} (n : Fin N → ℝ) (w : Fin N) : Fin N → ℝ → ℝ := fun i s => if i = w then n w else s * n i

theorem dilution_facts {N : Nat} (n : Fin N → ℝ) (w : Fin N) (hn : ∀ i, 0 < n i) (s : ℝ) (hs : 0 < s) :
    let x := moleFractionsOf (along (dilution n w) s)
    x.length = N ∧ x.getD w 0 ≠ 0 ∧ (∀ i : Fin N, i ≠ w → molality x w i = s * (n i / (waterMolarMass * n w))) ∧
    (1 - x.getD w 0) / (waterMolarMass * x.getD w 0) = s * ∑ i ∈ Finset.univ.erase w, n i / (waterMolarMass * n w) := by
  intro x
  have hM : (0 : ℝ) < waterMolarMass := by unfold waterMolarMass; norm_num
  have hw0 := hn w
  have hxw : dilution n w w s = n w := if_pos rfl
  have hxo : ∀ i, i ≠ w → dilution n w i s = s * n i := fun i hi => if_neg hi
  have hsumx : (along (dilution n w) s).sum = n w + s * ∑ i ∈ Finset.univ.erase w, n i := by
    rw [along, List.sum_ofFn, ← Finset.add_sum_erase _ _ (Finset.mem_univ w), hxw, Finset.mul_sum]
    congr 1
    apply Finset.sum_congr rfl
    intro i hi
    rw [hxo i (Finset.ne_of_mem_erase hi)]
  have hC : 0 ≤ ∑ i ∈ Finset.univ.erase w, n i := Finset.sum_nonneg fun i _ => (hn i).le
  have hden : 0 < n w + s * ∑ i ∈ Finset.univ.erase w, n i := by positivity
  have hmf : ∀ i : Fin N, x.getD i 0 = dilution n w i s / (n w + s * ∑ i ∈ Finset.univ.erase w, n i) := by
    intro i
    have hl : (i : Nat) < (along (dilution n w) s).length := by simp [along]
    have : x.getD i 0 = (along (dilution n w) s).getD i 0 / (along (dilution n w) s).sum := by
      show (moleFractionsOf (along (dilution n w) s)).getD i 0 = _
      unfold moleFractionsOf
      simp [hl]
    rw [this, hsumx]
    congr 1
    simp [along]
  refine ⟨by simp [x, moleFractionsOf, along], ?_, ?_, ?_⟩
  · rw [hmf, hxw]
    exact (div_pos hw0 hden).ne'
  · intro i hi
    unfold molality
    rw [hmf, hmf, hxw, hxo i hi]
    field_simp
  · rw [hmf, hxw, ← Finset.sum_div]
    field_simp
    ring

/-- The derivative of the integrated Debye–Hückel term along a dilution path. -/
theorem deriv_sigma (B a I t : ℝ) (hB : 0 < B) (ha : 0 ≤ a) (hI : 0 < I) (ht : 0 < t) :
    HasDerivAt (fun s => I * s * √(I * s) * sigma B a (I * s)) (3 * I * √(I * t) / (1 + a * B * √(I * t))) t := by
  have h := deriv_sqrt I t hI ht
  have hs : 0 < √(I * t) := Real.sqrt_pos.mpr (mul_pos hI ht)
  have hsq : √(I * t) ^ 2 = I * t := Real.sq_sqrt (mul_pos hI ht).le
  rcases eq_or_lt_of_le ha with h0 | hpos
  · have h2 : HasDerivAt (fun s => I * s * √(I * s) * 2) ((I * √(I * t) + I * t * (I / (2 * √(I * t)))) * 2) t := by
      have h1 : HasDerivAt (fun s => I * s) I t := by simpa using (hasDerivAt_id t).const_mul I
      exact (h1.fun_mul h).mul_const 2
    refine (h2.congr_of_eventuallyEq (Filter.Eventually.of_forall fun s => ?_)).congr_deriv ?_
    · simp only [sigma]
      rw [if_pos h0.symm]
    · rw [← h0]
      have : I * t * (I / (2 * √(I * t))) = I * √(I * t) / 2 := by
        rw [← hsq]
        rw [hsq]
        field_simp
        rw [hsq]
      rw [this]
      ring
  · set c := a * B with hc
    have hcpos : 0 < c := mul_pos hpos hB
    have hl : 0 < 1 + c * √(I * t) := by positivity
    have hy : HasDerivAt (fun s => c * √(I * s)) (c * (I / (2 * √(I * t)))) t := h.const_mul c
    have hlog : HasDerivAt (fun s => Real.log (1 + c * √(I * s))) (c * (I / (2 * √(I * t))) / (1 + c * √(I * t))) t :=
      (hy.const_add 1).log hl.ne'
    have hall := (((hy.fun_pow 2).fun_sub (hy.const_mul 2)).fun_add (hlog.const_mul 2)).const_mul (3 / c ^ 3)
    refine (hall.congr_of_eventuallyEq ?_).congr_deriv ?_
    · filter_upwards [eventually_gt_nhds ht] with s hs0
      have hss : 0 < √(I * s) := Real.sqrt_pos.mpr (mul_pos hI hs0)
      have hsq' : √(I * s) ^ 2 = I * s := Real.sq_sqrt (mul_pos hI hs0).le
      simp only [sigma]
      rw [if_neg hpos.ne', ← hc]
      have : I * s * √(I * s) * (3 / (c * √(I * s)) ^ 3) = 3 / c ^ 3 := by
        have h3 : √(I * s) ^ 3 = I * s * √(I * s) := by rw [pow_succ, hsq']
        rw [mul_pow, h3]
        field_simp
      rw [← mul_assoc, this]
    · field_simp
      ring

/-- The water activity that Gibbs–Duhem gives for these ion activity coefficients: each integrated term is weighted by the share of the
ion in the ionic strength. -/
noncomputable def consistentWater {N : Nat} (S : Finset (Fin N)) (A B : ℝ) (a b z mol : Fin N → ℝ) : ℝ :=
  let I := 1 / 2 * ∑ i ∈ S, z i ^ 2 * mol i
  (-waterMolarMass) * (∑ i ∈ S, mol i + ∑ i ∈ S, (mol i * extendedDebyeHuckel A B (a i) (b i) (z i) I +
    (1 / 2 * z i ^ 2 * mol i / I) * (2 / 3 * A * (I * √I) * sigma B (a i) I - I ^ 2 * b i / z i ^ 2) * Real.log 10))

/-- What the activity of water lacks: the terms that are not weighted. -/
noncomputable def waterDefect {N : Nat} (S : Finset (Fin N)) (A B : ℝ) (a b z mol : Fin N → ℝ) : ℝ :=
  let I := 1 / 2 * ∑ i ∈ S, z i ^ 2 * mol i
  (-waterMolarMass) * Real.log 10 * ∑ i ∈ S, (1 - 1 / 2 * z i ^ 2 * mol i / I) *
    (2 / 3 * A * (I * √I) * sigma B (a i) I - I ^ 2 * b i / z i ^ 2)

/-- The activity of water along a dilution path. -/
theorem dh_water (reactions : List Registries.Reaction) (rho0 eps0 : ℝ) (p : DHParams) (species : List (Species ℝ)) (f : Fn)
    (hf : debyeHuckel reactions rho0 eps0 p species = .ok f) (w : Fin species.length) (hs : IonicSolution species w) (m : Mem)
    (hm : Fits m species.length) (T P : ℝ) (x : List ℝ) (hx : x.length = species.length) (hxw : x.getD w 0 ≠ 0)
    (hsum : (1 - x.getD w 0) / (waterMolarMass * x.getD w 0) = ∑ i ∈ Finset.univ.erase w, molality x w i) :
    let S := Finset.univ.erase w
    let a : Fin species.length → ℝ := fun i => p.aion species[i].formula
    let b : Fin species.length → ℝ := fun i => p.bion species[i].formula
    let z : Fin species.length → ℝ := fun i => species[i].charge
    let mol : Fin species.length → ℝ := fun i => molality x w i
    lnA (f T P x m) w = consistentWater S (paramA T rho0 eps0) (paramB T rho0 eps0) a b z mol +
      waterDefect S (paramA T rho0 eps0) (paramB T rho0 eps0) a b z mol := by
  intro S a b z mol
  obtain ⟨-, e, -⟩ := C61_activities reactions rho0 eps0 p species f hf w hs m hm T P x hx hxw
  rw [e, hsum]
  unfold consistentWater waterDefect
  simp only
  have key : ∀ (M l Q : ℝ) (q g F R : Fin species.length → ℝ), M * (Q + ∑ i ∈ S, (q i * g i + R i * l)) =
      M * (Q + ∑ i ∈ S, (q i * g i + F i * R i * l)) + M * l * ∑ i ∈ S, (1 - F i) * R i := by
    intro M l Q q g F R
    rw [mul_assoc, ← mul_add, add_assoc, Finset.mul_sum, ← Finset.sum_add_distrib]
    congr 2
    exact Finset.sum_congr rfl fun i _ => by ring
  exact key _ _ _ _ _ _ _

/-- **C61.** The exact error of the activity of water: it differs from the value that Gibbs–Duhem gives by the terms below. -/
theorem C61_water (reactions : List Registries.Reaction) (rho0 eps0 : ℝ) (p : DHParams) (species : List (Species ℝ)) (f : Fn)
    (hf : debyeHuckel reactions rho0 eps0 p species = .ok f) (w : Fin species.length) (hs : IonicSolution species w) (m : Mem)
    (hm : Fits m species.length) (T P : ℝ) (n : Fin species.length → ℝ) (hn : ∀ i, 0 < n i) (s : ℝ) (h0 : 0 < s) :
    let mol : Fin species.length → ℝ := fun i => s * (n i / (waterMolarMass * n w))
    let S := Finset.univ.erase w
    let a : Fin species.length → ℝ := fun i => p.aion species[i].formula
    let b : Fin species.length → ℝ := fun i => p.bion species[i].formula
    let z : Fin species.length → ℝ := fun i => species[i].charge
    lnA (f T P (moleFractionsOf (along (dilution n w) s)) m) w =
      consistentWater S (paramA T rho0 eps0) (paramB T rho0 eps0) a b z mol +
      waterDefect S (paramA T rho0 eps0) (paramB T rho0 eps0) a b z mol := by
  intro mol S a b z
  obtain ⟨h1, h2, h3, h4⟩ := dilution_facts n w hn s h0
  have hmol : ∀ i ∈ S, molality (moleFractionsOf (along (dilution n w) s)) w i = mol i := fun i hi => h3 i (Finset.ne_of_mem_erase hi)
  have := dh_water reactions rho0 eps0 p species f hf w hs m hm T P _ h1 h2 (by
    rw [h4, Finset.mul_sum]
    exact Finset.sum_congr rfl fun i hi => (h3 i (Finset.ne_of_mem_erase hi)).symm)
  simp only at this
  rw [this]
  have hI : ∀ z : Fin species.length → ℝ, ∑ i ∈ S, z i ^ 2 * molality (moleFractionsOf (along (dilution n w) s)) w i =
      ∑ i ∈ S, z i ^ 2 * mol i := fun z => Finset.sum_congr rfl fun i hi => by rw [hmol i hi]
  unfold consistentWater waterDefect
  simp only
  rw [hI]
  congr 1
  · congr 1
    congr 1
    · exact Finset.sum_congr rfl hmol
    · exact Finset.sum_congr rfl fun i hi => by rw [hmol i hi]
  · congr 1
    exact Finset.sum_congr rfl fun i hi => by rw [hmol i hi]

/-- The derivatives along a dilution path: those of the ions, of the consistent activity of water and of the defect. -/
theorem dh_derivatives {N : Nat} (S : Finset (Fin N)) (A B : ℝ) (a b z μ : Fin N → ℝ) (hB : 0 < B) (ha : ∀ i ∈ S, 0 ≤ a i)
    (hz : ∀ i ∈ S, z i ≠ 0) (hμ : ∀ i ∈ S, 0 < μ i) (hS : S.Nonempty) (t : ℝ) (ht : 0 < t) :
    let I := 1 / 2 * ∑ i ∈ S, z i ^ 2 * μ i
    let dg : Fin N → ℝ := fun i => Real.log 10 * (-A * z i ^ 2 * (I / (2 * √(I * t)) / (1 + a i * B * √(I * t)) ^ 2) + b i * I)
    0 < I ∧
    (∀ i ∈ S, HasDerivAt (fun s => extendedDebyeHuckel A B (a i) (b i) (z i) (I * s)) (dg i) t) ∧
    HasDerivAt (fun s => consistentWater S A B a b z fun i => s * μ i) (-waterMolarMass * ∑ i ∈ S, (μ i + t * μ i * dg i)) t ∧
    HasDerivAt (fun s => waterDefect S A B a b z fun i => s * μ i)
      (-waterMolarMass * Real.log 10 * ∑ i ∈ S, (1 - 1 / 2 * z i ^ 2 * μ i / I) *
        (2 * A * I * √(I * t) / (1 + a i * B * √(I * t)) - 2 * I ^ 2 * t * b i / z i ^ 2)) t := by
  intro I dg
  have hIpos : 0 < I := by
    refine mul_pos (by norm_num) (Finset.sum_pos (fun i hi => ?_) hS)
    exact mul_pos (by have := hz i hi; positivity) (hμ i hi)
  have hlin : HasDerivAt (fun s => I * s) I t := by simpa using (hasDerivAt_id t).const_mul I
  have hg : ∀ i ∈ S, HasDerivAt (fun s => extendedDebyeHuckel A B (a i) (b i) (z i) (I * s)) (dg i) t := by
    intro i hi
    have hq := deriv_quotient (a i * B) I t (mul_nonneg (ha i hi) hB.le) hIpos ht
    have := (((hq.const_mul (-A * z i ^ 2)).fun_add (hlin.const_mul (b i))).const_mul (Real.log 10))
    refine this.congr_of_eventuallyEq (Filter.Eventually.of_forall fun s => ?_)
    simp only [extendedDebyeHuckel]
    ring
  have hIs : ∀ s, 1 / 2 * ∑ i ∈ S, z i ^ 2 * (s * μ i) = I * s := by
    intro s
    show _ = 1 / 2 * (∑ i ∈ S, z i ^ 2 * μ i) * s
    rw [mul_assoc, Finset.sum_mul]
    congr 1
    exact Finset.sum_congr rfl fun i _ => by ring
  have hR : ∀ i ∈ S, HasDerivAt (fun s => 2 / 3 * A * (I * s * √(I * s)) * sigma B (a i) (I * s) - (I * s) ^ 2 * b i / z i ^ 2)
      (2 * A * I * √(I * t) / (1 + a i * B * √(I * t)) - 2 * I ^ 2 * t * b i / z i ^ 2) t := by
    intro i hi
    have h1 := (deriv_sigma B (a i) I t hB (ha i hi) hIpos ht).const_mul (2 / 3 * A)
    have h2 : HasDerivAt (fun s : ℝ => (I * s) ^ 2 * b i / z i ^ 2) (2 * I ^ 2 * t * b i / z i ^ 2) t :=
      (((hlin.fun_pow 2).mul_const (b i)).div_const (z i ^ 2)).congr_deriv (by simp; ring)
    refine ((h1.fun_sub h2).congr_of_eventuallyEq (Filter.Eventually.of_forall fun s => ?_)).congr_deriv ?_
    · simp only
      ring
    · ring
  have hshare : ∀ s, 0 < s → ∀ i, 1 / 2 * z i ^ 2 * (s * μ i) / (I * s) = 1 / 2 * z i ^ 2 * μ i / I := by
    intro s hs i
    field_simp
  refine ⟨hIpos, hg, ?_, ?_⟩
  · have hterm : ∀ i ∈ S, HasDerivAt (fun s => s * μ i + (s * μ i * extendedDebyeHuckel A B (a i) (b i) (z i) (I * s) +
        1 / 2 * z i ^ 2 * μ i / I * (2 / 3 * A * (I * s * √(I * s)) * sigma B (a i) (I * s) - (I * s) ^ 2 * b i / z i ^ 2) * Real.log 10))
        (μ i + t * μ i * dg i) t := by
      intro i hi
      have hm : HasDerivAt (fun s => s * μ i) (μ i) t := by simpa using (hasDerivAt_id t).mul_const (μ i)
      refine (hm.fun_add ((hm.fun_mul (hg i hi)).fun_add (((hR i hi).const_mul (1 / 2 * z i ^ 2 * μ i / I)).mul_const (Real.log 10)))).congr_deriv ?_
      simp only [extendedDebyeHuckel]
      have hzi := hz i hi
      have hl : 0 < 1 + a i * B * √(I * t) := by
        have := mul_nonneg (mul_nonneg (ha i hi) hB.le) (Real.sqrt_nonneg (I * t))
        linarith
      field_simp
      ring
    have := (HasDerivAt.fun_sum hterm).const_mul (-waterMolarMass)
    refine this.congr_of_eventuallyEq ?_
    filter_upwards [eventually_gt_nhds ht] with s hs
    unfold consistentWater
    simp only
    rw [hIs s, ← Finset.sum_add_distrib]
    congr 1
    exact Finset.sum_congr rfl fun i _ => by rw [hshare s hs i]
  · have := (HasDerivAt.fun_sum fun i hi => (hR i hi).const_mul (1 - 1 / 2 * z i ^ 2 * μ i / I)).const_mul (-waterMolarMass * Real.log 10)
    refine this.congr_of_eventuallyEq ?_
    filter_upwards [eventually_gt_nhds ht] with s hs
    unfold waterDefect
    simp only
    rw [hIs s]
    congr 1
    exact Finset.sum_congr rfl fun i _ => by rw [hshare s hs i]

/-- The ln activities of the ions along a dilution path. -/
theorem dh_ions (reactions : List Registries.Reaction) (rho0 eps0 : ℝ) (p : DHParams) (species : List (Species ℝ)) (f : Fn)
    (hf : debyeHuckel reactions rho0 eps0 p species = .ok f) (w : Fin species.length) (hs : IonicSolution species w) (m : Mem)
    (hm : Fits m species.length) (T P : ℝ) (n : Fin species.length → ℝ) (hn : ∀ i, 0 < n i) (s : ℝ) (h0 : 0 < s)
    (i : Fin species.length) (hi : i ≠ w) :
    lnA (f T P (moleFractionsOf (along (dilution n w) s)) m) i =
      extendedDebyeHuckel (paramA T rho0 eps0) (paramB T rho0 eps0) (p.aion species[i].formula) (p.bion species[i].formula)
        species[i].charge (1 / 2 * ∑ i ∈ Finset.univ.erase w, species[i].charge ^ 2 * (n i / (waterMolarMass * n w)) * s) +
      Real.log (s * (n i / (waterMolarMass * n w))) := by
  obtain ⟨h1, h2, h3, h4⟩ := dilution_facts n w hn s h0
  obtain ⟨-, -, e, -⟩ := C61_activities reactions rho0 eps0 p species f hf w hs m hm T P _ h1 h2
  rw [(e i hi).1, h3 i hi]
  have : ∑ j ∈ Finset.univ.erase w, species[j].charge ^ 2 * molality (moleFractionsOf (along (dilution n w) s)) w j =
      ∑ j ∈ Finset.univ.erase w, species[j].charge ^ 2 * (n j / (waterMolarMass * n w)) * s :=
    Finset.sum_congr rfl fun j hj => by rw [h3 j (Finset.ne_of_mem_erase hj)]; ring
  rw [this]

/-- **C61.** The solutes: with the consistent activity of water in place of the one reported, Gibbs–Duhem holds along every dilution path
of a solution of ions. -/
theorem C61_dilution_partial (reactions : List Registries.Reaction) (rho0 eps0 : ℝ) (p : DHParams) (species : List (Species ℝ)) (f : Fn)
    (hf : debyeHuckel reactions rho0 eps0 p species = .ok f) (w : Fin species.length) (hs : IonicSolution species w) (m : Mem)
    (hm : Fits m species.length) (T P : ℝ) (hB : 0 < paramB T rho0 eps0)
    (ha : ∀ i : Fin species.length, i ≠ w → 0 ≤ p.aion species[i].formula) (n : Fin species.length → ℝ) (hn : ∀ i, 0 < n i)
    (hsol : ∃ i, i ≠ w) (t : ℝ) (ht : 0 < t) :
    GibbsDuhem (dilution n w) (fun i s => if i = w then
      consistentWater (Finset.univ.erase w) (paramA T rho0 eps0) (paramB T rho0 eps0) (fun i => p.aion species[i].formula)
        (fun i => p.bion species[i].formula) (fun i => species[i].charge) (fun i => s * (n i / (waterMolarMass * n w)))
      else lnA (f T P (moleFractionsOf (along (dilution n w) s)) m) i) t ∧
    ((∃ d, HasDerivAt (fun s => waterDefect (Finset.univ.erase w) (paramA T rho0 eps0) (paramB T rho0 eps0)
        (fun i => p.aion species[i].formula) (fun i => p.bion species[i].formula) (fun i => species[i].charge)
        (fun i => s * (n i / (waterMolarMass * n w)))) d t ∧ d ≠ 0) →
      ¬ GibbsDuhem (dilution n w) (fun i s => lnA (f T P (moleFractionsOf (along (dilution n w) s)) m) i) t) := by
  have hM : (0 : ℝ) < waterMolarMass := by unfold waterMolarMass; norm_num
  have hw0 := hn w
  obtain ⟨i0, hi0⟩ := hsol
  set S := Finset.univ.erase w with hS
  let μ : Fin species.length → ℝ := fun i => n i / (waterMolarMass * n w)
  have hμ : ∀ i, 0 < μ i := fun i => div_pos (hn i) (mul_pos hM hw0)
  obtain ⟨hIpos, hg, hW, hD⟩ := dh_derivatives S (paramA T rho0 eps0) (paramB T rho0 eps0) (fun i => p.aion species[i].formula)
    (fun i => p.bion species[i].formula) (fun i => species[i].charge) μ hB (fun i hi => ha i (Finset.ne_of_mem_erase hi))
    (fun i hi => hs.ions i (Finset.ne_of_mem_erase hi)) (fun i _ => hμ i) ⟨i0, Finset.mem_erase.mpr ⟨hi0, Finset.mem_univ _⟩⟩ t ht
  set I := 1 / 2 * ∑ i ∈ S, species[i].charge ^ 2 * μ i with hI
  have hIs : ∀ s, 1 / 2 * ∑ i ∈ S, species[i].charge ^ 2 * (n i / (waterMolarMass * n w)) * s = I * s := by
    intro s
    rw [← Finset.sum_mul, ← mul_assoc]
  have hion : ∀ i, i ≠ w → ∃ dg, HasDerivAt (fun s => extendedDebyeHuckel (paramA T rho0 eps0) (paramB T rho0 eps0)
      (p.aion species[i].formula) (p.bion species[i].formula) species[i].charge (I * s)) dg t ∧
      HasDerivAt (fun s => lnA (f T P (moleFractionsOf (along (dilution n w) s)) m) i) (dg + 1 / t) t := by
    intro i hi
    have hgi := hg i (Finset.mem_erase.mpr ⟨hi, Finset.mem_univ _⟩)
    refine ⟨_, hgi, ?_⟩
    have hlog : HasDerivAt (fun s => Real.log (s * μ i)) (1 / t) t := by
      have h1 : HasDerivAt (fun s => s * μ i) (μ i) t := by simpa using (hasDerivAt_id t).mul_const (μ i)
      refine (h1.log (mul_pos ht (hμ i)).ne').congr_deriv ?_
      have := (hμ i).ne'
      field_simp
    refine (hgi.fun_add hlog).congr_of_eventuallyEq ?_
    filter_upwards [eventually_gt_nhds ht] with s hs0
    rw [dh_ions reactions rho0 eps0 p species f hf w hs m hm T P n hn s hs0 i hi, hIs s]
  have hsumW : ∀ dg : Fin species.length → ℝ, n w * (-waterMolarMass * ∑ i ∈ S, (μ i + t * μ i * dg i)) +
      ∑ i ∈ S, dilution n w i t * (dg i + 1 / t) = 0 := by
    intro dg
    rw [Finset.mul_sum, Finset.mul_sum, ← Finset.sum_add_distrib]
    apply Finset.sum_eq_zero
    intro i hi
    have hni : n i = waterMolarMass * n w * μ i := by
      show _ = waterMolarMass * n w * (n i / (waterMolarMass * n w))
      field_simp
    rw [show dilution n w i t = t * n i from if_neg (Finset.ne_of_mem_erase hi), hni]
    field_simp
    ring
  have hdw : dilution n w w t = n w := if_pos rfl
  choose! dg hdg1 hdg2 using hion
  have hdgeq : ∀ i ∈ S, dg i = _ := fun i hi => (hdg1 i (Finset.ne_of_mem_erase hi)).unique (hg i hi)
  have hWval : -waterMolarMass * ∑ i ∈ S, (μ i + t * μ i * dg i) = _ :=
    congrArg (fun q => -waterMolarMass * q) (Finset.sum_congr rfl fun i hi => by rw [hdgeq i hi])
  rw [← hWval] at hW
  constructor
  · refine ⟨fun i => if i = w then -waterMolarMass * ∑ i ∈ S, (μ i + t * μ i * dg i) else dg i + 1 / t, fun i => ?_, ?_⟩
    · by_cases hi : i = w
      · simp only [if_pos hi]
        exact hW
      · simp only [if_neg hi]
        exact hdg2 i hi
    · rw [← Finset.add_sum_erase _ _ (Finset.mem_univ w), ← hS]
      simp only [if_true, hdw]
      rw [← hsumW dg]
      congr 1
      exact Finset.sum_congr rfl fun i hi => by rw [if_neg (Finset.ne_of_mem_erase hi)]
  · rintro ⟨dd, hdd, hne⟩ ⟨d, hd, hsum⟩
    have hdwv : d w = -waterMolarMass * ∑ i ∈ S, (μ i + t * μ i * dg i) + dd := by
      refine (hd w).unique ((hW.fun_add hdd).congr_of_eventuallyEq ?_)
      filter_upwards [eventually_gt_nhds ht] with s hs0
      exact C61_water reactions rho0 eps0 p species f hf w hs m hm T P n hn s hs0
    have hdi : ∀ i ∈ S, d i = dg i + 1 / t := fun i hi => (hd i).unique (hdg2 i (Finset.ne_of_mem_erase hi))
    have hsumS : ∑ i ∈ S, dilution n w i t * d i = ∑ i ∈ S, dilution n w i t * (dg i + 1 / t) :=
      Finset.sum_congr rfl fun i hi => by rw [hdi i hi]
    rw [← Finset.add_sum_erase _ _ (Finset.mem_univ w), ← hS, hdw, hdwv, hsumS, mul_add] at hsum
    have := hsumW dg
    have h0 : n w * dd = 0 := by linarith
    rcases mul_eq_zero.mp h0 with h | h
    · exact hw0.ne' h
    · exact hne h

/-- **C61.** The activity of water reported violates Gibbs–Duhem, at every point of every dilution path of every solution with at least two
ions, when the parameters `b` are not positive (which includes the limiting law and Kielland's sizes). -/
theorem C61_wrong (reactions : List Registries.Reaction) (rho0 eps0 : ℝ) (p : DHParams) (species : List (Species ℝ)) (f : Fn)
    (hf : debyeHuckel reactions rho0 eps0 p species = .ok f) (w : Fin species.length) (hs : IonicSolution species w) (m : Mem)
    (hm : Fits m species.length) (T P : ℝ) (hA : 0 < paramA T rho0 eps0) (hB : 0 < paramB T rho0 eps0)
    (ha : ∀ i : Fin species.length, i ≠ w → 0 ≤ p.aion species[i].formula)
    (hb : ∀ i : Fin species.length, i ≠ w → p.bion species[i].formula ≤ 0) (n : Fin species.length → ℝ) (hn : ∀ i, 0 < n i)
    (h2 : ∃ i j : Fin species.length, i ≠ w ∧ j ≠ w ∧ i ≠ j) (t : ℝ) (ht : 0 < t) :
    ¬ GibbsDuhem (dilution n w) (fun i s => lnA (f T P (moleFractionsOf (along (dilution n w) s)) m) i) t := by
  have hM : (0 : ℝ) < waterMolarMass := by unfold waterMolarMass; norm_num
  have hl10 : (0 : ℝ) < Real.log 10 := Real.log_pos (by norm_num)
  obtain ⟨i0, j0, hi0, hj0, hij⟩ := h2
  refine (C61_dilution_partial reactions rho0 eps0 p species f hf w hs m hm T P hB ha n hn ⟨i0, hi0⟩ t ht).2 ?_
  set S := Finset.univ.erase w with hS
  let μ : Fin species.length → ℝ := fun i => n i / (waterMolarMass * n w)
  have hμ : ∀ i, 0 < μ i := fun i => div_pos (hn i) (mul_pos hM (hn w))
  have hi0S : i0 ∈ S := Finset.mem_erase.mpr ⟨hi0, Finset.mem_univ _⟩
  have hj0S : j0 ∈ S := Finset.mem_erase.mpr ⟨hj0, Finset.mem_univ _⟩
  obtain ⟨hIpos, -, -, hD⟩ := dh_derivatives S (paramA T rho0 eps0) (paramB T rho0 eps0) (fun i => p.aion species[i].formula)
    (fun i => p.bion species[i].formula) (fun i => species[i].charge) μ hB (fun i hi => ha i (Finset.ne_of_mem_erase hi))
    (fun i hi => hs.ions i (Finset.ne_of_mem_erase hi)) (fun i _ => hμ i) ⟨i0, hi0S⟩ t ht
  refine ⟨_, hD, ?_⟩
  set I := 1 / 2 * ∑ i ∈ S, species[i].charge ^ 2 * μ i with hI
  have hsI : 0 < √(I * t) := Real.sqrt_pos.mpr (mul_pos hIpos ht)
  have hzpos : ∀ i ∈ S, 0 < species[i].charge ^ 2 := fun i hi => by
    have := hs.ions i (Finset.ne_of_mem_erase hi)
    positivity
  have hpos : 0 < ∑ i ∈ S, (1 - 1 / 2 * species[i].charge ^ 2 * μ i / I) *
      (2 * paramA T rho0 eps0 * I * √(I * t) / (1 + p.aion species[i].formula * paramB T rho0 eps0 * √(I * t)) -
        2 * I ^ 2 * t * p.bion species[i].formula / species[i].charge ^ 2) := by
    refine Finset.sum_pos (fun i hi => mul_pos ?_ ?_) ⟨i0, hi0S⟩
    · rw [sub_pos, div_lt_one hIpos, hI, mul_assoc]
      refine mul_lt_mul_of_pos_left ?_ (by norm_num)
      -- another ion contributes to the ionic strength
      have : ∃ k ∈ S, k ≠ i := by
        by_cases h : i0 = i
        · exact ⟨j0, hj0S, fun e => hij (h.trans e.symm)⟩
        · exact ⟨i0, hi0S, h⟩
      obtain ⟨k, hk, hki⟩ := this
      exact Finset.single_lt_sum hki hi hk (mul_pos (hzpos k hk) (hμ k)) fun j hj _ => (mul_pos (hzpos j hj) (hμ j)).le
    · have hai := ha i (Finset.ne_of_mem_erase hi)
      have hbi := hb i (Finset.ne_of_mem_erase hi)
      have h1 : 0 < 2 * paramA T rho0 eps0 * I * √(I * t) / (1 + p.aion species[i].formula * paramB T rho0 eps0 * √(I * t)) := by
        positivity
      have h3 : 2 * I ^ 2 * t * p.bion species[i].formula / species[i].charge ^ 2 ≤ 0 := by
        apply div_nonpos_of_nonpos_of_nonneg _ (hzpos i hi).le
        exact mul_nonpos_of_nonneg_of_nonpos (by positivity) hbi
      linarith
  have : 0 < waterMolarMass * Real.log 10 * ∑ i ∈ S, (1 - 1 / 2 * species[i].charge ^ 2 * μ i / I) *
      (2 * paramA T rho0 eps0 * I * √(I * t) / (1 + p.aion species[i].formula * paramB T rho0 eps0 * √(I * t)) -
        2 * I ^ 2 * t * p.bion species[i].formula / species[i].charge ^ 2) := mul_pos (mul_pos hM hl10) hpos
  rw [neg_mul, neg_mul]
  exact (neg_lt_zero.mpr this).ne

/-- The hypotheses of C61_wrong hold for brine at 25 °C with the limiting law. -/
example : 0 < paramA 298 997 78 ∧ 0 < paramB 298 997 78 := by
  have h1 : 0 < √((997 : ℝ) / 1000) := Real.sqrt_pos.mpr (by norm_num)
  have h2 : 0 < √((298 : ℝ) * 78) := Real.sqrt_pos.mpr (by norm_num)
  unfold paramA paramB
  constructor <;> positivity

example (reactions : List Registries.Reaction) (rho0 eps0 : ℝ) : ∃ f, debyeHuckel reactions rho0 eps0 {} brine = .ok f := by
  obtain ⟨mix, hmix⟩ := construct_ok reactions rho0 eps0 brine ⟨0, by decide⟩ brine_ionic.water
  unfold debyeHuckel
  rw [hmix]
  exact ⟨_, rfl⟩

/-! ## Neutral solutes and limits -/

/-- The ln activity coefficient of an ion tends to zero at infinite dilution, as -A z² √I. -/
theorem C61_dilute_limit (A B a b z : ℝ) (ha : 0 ≤ a) (hB : 0 ≤ B) :
    Filter.Tendsto (fun I => extendedDebyeHuckel A B a b z I / √I) (nhdsWithin 0 (Set.Ioi 0)) (nhds (-A * z ^ 2 * Real.log 10)) := by
  have h : Filter.Tendsto (fun I : ℝ => Real.log 10 * (-A * z ^ 2 / (1 + a * B * √I) + b * √I)) (nhdsWithin 0 (Set.Ioi 0))
      (nhds (Real.log 10 * (-A * z ^ 2 / (1 + a * B * √0) + b * √0))) := by
    apply Filter.Tendsto.mono_left _ nhdsWithin_le_nhds
    apply ContinuousAt.tendsto
    have hne : 1 + a * B * √(0 : ℝ) ≠ 0 := by simp
    have hc : ContinuousAt (fun I : ℝ => √I) 0 := Real.continuous_sqrt.continuousAt
    exact continuousAt_const.mul ((continuousAt_const.div (continuousAt_const.add (continuousAt_const.mul hc)) hne).add
      (continuousAt_const.mul hc))
  rw [show Real.log 10 * (-A * z ^ 2 / (1 + a * B * √0) + b * √0) = -A * z ^ 2 * Real.log 10 from by simp; ring] at h
  refine h.congr' ?_
  filter_upwards [self_mem_nhdsWithin] with I hI
  have hs : 0 < √I := Real.sqrt_pos.mpr hI
  have hsq : √I * √I = I := Real.mul_self_sqrt (le_of_lt hI)
  unfold extendedDebyeHuckel
  have hl : 0 < 1 + a * B * √I := by positivity
  have e : b * I = b * √I * √I := by rw [mul_assoc, hsq]
  rw [eq_div_iff hs.ne', e]
  field_simp

end Verif.Activity
