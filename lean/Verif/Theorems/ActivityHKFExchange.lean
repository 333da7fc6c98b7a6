import Verif.Theorems.ActivityHKF
import Mathlib.Analysis.Calculus.Deriv.MeanValue

/-!
# C60: the Helgeson–Kirkham–Flowers model when one ion replaces another
-/

namespace Verif.Activity

open Verif.Aqueous Verif.ChemicalProps

/-- **C60.** When one ion replaces another of the same charge the ionic strength does not change, and Gibbs–Duhem holds if and only if the two
ions contribute the same to the osmotic coefficient. -/
theorem C60_exchange (reactions : List Registries.Reaction) (rho0 eps0 : ℝ) (p : HKFParams) (species : List (Species ℝ)) (f : Fn)
    (hf : hkf reactions rho0 eps0 p species = .ok f) (w : Fin species.length) (hs : IonicSolution species w) (m : Mem)
    (hm : Fits m species.length) (T P : ℝ) (n : Fin species.length → ℝ) (hn : ∀ i, 0 < n i) (a b : Fin species.length)
    (ha : a ≠ w) (hb : b ≠ w) (hab : a ≠ b) (hz : species[a].charge = species[b].charge) :
    let x : Fin species.length → ℝ → ℝ := fun i s => if i = a then n a - s else if i = b then n b + s else n i
    let d : HKFState := ⟨1 / 2 * ∑ i ∈ Finset.univ.erase w, species[i].charge * species[i].charge * (n i / (waterMolarMass * n w)),
      n w / ∑ i, n i, p.A T P, p.B T P, p.bNaCl T P, p.bNapClm T P⟩
    GibbsDuhem x (fun i s => lnA (f T P (moleFractionsOf (along x s)) m) i) 0 ↔
      hkfPsi d (p.radius species[a]) species[a].charge = hkfPsi d (p.radius species[b]) species[b].charge := by
  intro x d
  have hM : (0 : ℝ) < waterMolarMass := by unfold waterMolarMass; norm_num
  have hl10 : (0 : ℝ) < Real.log 10 := Real.log_pos (by norm_num)
  set S := Finset.univ.erase w with hS
  have haS : a ∈ S := Finset.mem_erase.mpr ⟨ha, Finset.mem_univ _⟩
  have hbS : b ∈ S.erase a := Finset.mem_erase.mpr ⟨hab.symm, Finset.mem_erase.mpr ⟨hb, Finset.mem_univ _⟩⟩
  set N := ∑ i, n i with hN
  have hNpos : 0 < N := Finset.sum_pos (fun i _ => hn i) ⟨w, Finset.mem_univ _⟩
  have hxa : ∀ s, x a s = n a - s := fun s => if_pos rfl
  have hxb : ∀ s, x b s = n b + s := fun s => by show (if b = a then n a - s else if b = b then n b + s else n b) = _; rw [if_neg hab.symm, if_pos rfl]
  have hxo : ∀ s i, i ≠ a → i ≠ b → x i s = n i := fun s i h1 h2 => by simp only [x]; rw [if_neg h1, if_neg h2]
  have hxw : ∀ s, x w s = n w := fun s => hxo s w ha.symm hb.symm
  -- a weighted sum over the solutes changes by the difference of the two weights
  have hsum : ∀ (c : Fin species.length → ℝ) (s : ℝ), ∑ i ∈ S, x i s * c i = ∑ i ∈ S, n i * c i + s * (c b - c a) := by
    intro c s
    rw [← Finset.add_sum_erase S _ haS, ← Finset.add_sum_erase (S.erase a) _ hbS, ← Finset.add_sum_erase S (fun i => n i * c i) haS,
      ← Finset.add_sum_erase (S.erase a) (fun i => n i * c i) hbS, hxa, hxb]
    have : ∑ i ∈ (S.erase a).erase b, x i s * c i = ∑ i ∈ (S.erase a).erase b, n i * c i := by
      apply Finset.sum_congr rfl
      intro i hi
      rw [hxo s i (Finset.ne_of_mem_erase (Finset.mem_of_mem_erase hi)) (Finset.ne_of_mem_erase hi)]
    rw [this]
    ring
  have hlen : ∀ s, (moleFractionsOf (along x s)).length = species.length := by intro s; simp [moleFractionsOf, along]
  have hsumx : ∀ s, (along x s).sum = N := by
    intro s
    rw [along, List.sum_ofFn, ← Finset.add_sum_erase _ _ (Finset.mem_univ w), hN, ← Finset.add_sum_erase Finset.univ n (Finset.mem_univ w), hxw,
      ← hS]
    have := hsum (fun _ => 1) s
    simp only [mul_one, sub_self, mul_zero, add_zero] at this
    rw [this]
  have hmf : ∀ s (i : Fin species.length), (moleFractionsOf (along x s)).getD i 0 = x i s / N := by
    intro s i
    have hl : (i : Nat) < (along x s).length := by simp [along]
    have : (moleFractionsOf (along x s)).getD i 0 = (along x s).getD i 0 / (along x s).sum := by
      unfold moleFractionsOf
      simp [hl]
    rw [this, hsumx]
    congr 1
    simp [along]
  have hw0 := hn w
  have hmol : ∀ s, ∀ i : Fin species.length, molality (moleFractionsOf (along x s)) w i = x i s * (1 / (waterMolarMass * n w)) := by
    intro s i
    unfold molality
    rw [hmf, hmf, hxw]
    field_simp
  have hx1 : n w / N ≠ 1 := by
    rw [Ne, div_eq_one_iff_eq hNpos.ne', hN, ← Finset.add_sum_erase Finset.univ n (Finset.mem_univ w)]
    have : 0 < ∑ i ∈ Finset.univ.erase w, n i := Finset.sum_pos (fun i _ => hn i) ⟨a, haS⟩
    linarith
  have hIs : ∀ s, 1 / 2 * ∑ i ∈ S, species[i].charge * species[i].charge * molality (moleFractionsOf (along x s)) w i = d.I := by
    intro s
    show _ = 1 / 2 * ∑ i ∈ S, species[i].charge * species[i].charge * (n i / (waterMolarMass * n w))
    have h1 : ∀ i ∈ S, species[i].charge * species[i].charge * molality (moleFractionsOf (along x s)) w i =
        x i s * (species[i].charge * species[i].charge * (1 / (waterMolarMass * n w))) := by
      intro i _
      rw [hmol]; ring
    rw [Finset.sum_congr rfl h1, hsum, hz, sub_self, mul_zero, add_zero]
    congr 1
    apply Finset.sum_congr rfl
    intro i _
    ring
  let ψ : Fin species.length → ℝ := fun i => hkfPsi d (p.radius species[i]) species[i].charge
  let r := min (n a) (n b)
  have hr : 0 < r := lt_min (hn a) (hn b)
  have hpos : ∀ s, |s| < r → ∀ i, 0 < x i s := by
    intro s hs0 i
    have h1 := abs_lt.1 hs0
    have h2 : r ≤ n a := min_le_left _ _
    have h3 : r ≤ n b := min_le_right _ _
    by_cases hia : i = a
    · subst hia; rw [hxa]; linarith
    · by_cases hib : i = b
      · subst hib; rw [hxb]; linarith
      · rw [hxo s i hia hib]; exact hn i
  have heval : ∀ s, |s| < r →
      lnA (f T P (moleFractionsOf (along x s)) m) w =
        Real.log 10 * waterMolarMass * ((∑ i ∈ S, n i * (1 / (waterMolarMass * n w) * ψ i)) + s * (1 / (waterMolarMass * n w) * ψ b - 1 / (waterMolarMass * n w) * ψ a)) ∧
      ∀ i, i ≠ w → lnA (f T P (moleFractionsOf (along x s)) m) i =
        hkfIon d (p.radius species[i]) species[i].charge + Real.log (x i s * (1 / (waterMolarMass * n w))) := by
    intro s hs0
    have hX : (moleFractionsOf (along x s)).getD w 0 = n w / N := by rw [hmf, hxw]
    obtain ⟨-, e1, e2⟩ := hkf_eval reactions rho0 eps0 p species f hf w hs m hm T P (moleFractionsOf (along x s)) (hlen s) (by
      intro i hi
      rw [hlen] at hi
      have := hmf s ⟨i, hi⟩
      rw [this]
      exact div_pos (hpos s hs0 _) hNpos) (by rw [hX]; exact hx1)
    rw [← hS] at e1 e2
    simp only [hIs, hX] at e1 e2
    refine ⟨?_, fun i hi => ?_⟩
    · rw [e1, ← hsum (fun i => 1 / (waterMolarMass * n w) * ψ i)]
      congr 1
      apply Finset.sum_congr rfl
      intro i _
      rw [hmol, mul_assoc]
    · rw [e2 i hi, hmol]
  have hnear : ∀ᶠ s in nhds (0 : ℝ), |s| < r := by
    have : Filter.Tendsto (fun s : ℝ => |s|) (nhds 0) (nhds |0|) := (continuous_abs.tendsto 0)
    rw [abs_zero] at this
    exact this.eventually (gt_mem_nhds hr)
  have hdw : HasDerivAt (fun s => lnA (f T P (moleFractionsOf (along x s)) m) w) (Real.log 10 * (ψ b - ψ a) / n w) 0 := by
    have h1 : HasDerivAt (fun s : ℝ => Real.log 10 * waterMolarMass * ((∑ i ∈ S, n i * (1 / (waterMolarMass * n w) * ψ i)) +
        s * (1 / (waterMolarMass * n w) * ψ b - 1 / (waterMolarMass * n w) * ψ a)))
        (Real.log 10 * waterMolarMass * (1 / (waterMolarMass * n w) * ψ b - 1 / (waterMolarMass * n w) * ψ a)) 0 := by
      refine HasDerivAt.const_mul _ (HasDerivAt.const_add _ ?_)
      simpa using (hasDerivAt_id (0 : ℝ)).mul_const (1 / (waterMolarMass * n w) * ψ b - 1 / (waterMolarMass * n w) * ψ a)
    refine (h1.congr_of_eventuallyEq ?_).congr_deriv (by field_simp)
    filter_upwards [hnear] with s hs0
    exact (heval s hs0).1
  have hk : 0 < 1 / (waterMolarMass * n w) := by positivity
  have hdi : ∀ i, i ≠ w → ∀ x', HasDerivAt (x i) x' 0 →
      HasDerivAt (fun s => lnA (f T P (moleFractionsOf (along x s)) m) i) (x' / x i 0) 0 := by
    intro i hi x' hx'
    have hp0 := hpos 0 (by simpa using hr) i
    have h1 := (hx'.mul_const (1 / (waterMolarMass * n w))).log (mul_pos hp0 hk).ne'
    refine ((h1.const_add (hkfIon d (p.radius species[i]) species[i].charge)).congr_of_eventuallyEq ?_).congr_deriv ?_
    · filter_upwards [hnear] with s hs0
      exact (heval s hs0).2 i hi
    · have := hp0.ne'
      field_simp
  have dx : ∀ i, HasDerivAt (x i) (if i = a then -1 else if i = b then 1 else 0) 0 := by
    intro i
    by_cases hia : i = a
    · subst hia
      rw [if_pos rfl]
      have : x i = fun s => n i - s := funext hxa
      rw [this]
      exact (hasDerivAt_id (0 : ℝ)).const_sub _
    · rw [if_neg hia]
      by_cases hib : i = b
      · subst hib
        rw [if_pos rfl]
        have : x i = fun s => n i + s := funext hxb
        rw [this]
        exact (hasDerivAt_id (0 : ℝ)).const_add _
      · rw [if_neg hib]
        have : x i = fun _ => n i := funext fun s => hxo s i hia hib
        rw [this]
        exact hasDerivAt_const _ _
  have total : ∀ g : Fin species.length → ℝ, (∀ i : Fin species.length, HasDerivAt (fun s => lnA (f T P (moleFractionsOf (along x s)) m) i) (g i) 0) →
      ∑ i, x i 0 * g i = Real.log 10 * (ψ b - ψ a) := by
    intro g hg
    rw [← Finset.add_sum_erase _ _ (Finset.mem_univ w), ← hS]
    have h1 : g w = Real.log 10 * (ψ b - ψ a) / n w := (hg w).unique hdw
    have h2 : ∀ i ∈ S, x i 0 * g i = if i = a then -1 else if i = b then 1 else 0 := by
      intro i hi
      have hp0 := (hpos 0 (by simpa using hr) i).ne'
      rw [(hg i).unique (hdi i (Finset.ne_of_mem_erase hi) _ (dx i)), mul_div_assoc', mul_div_cancel_left₀ _ hp0]
    rw [Finset.sum_congr rfl h2, ← Finset.add_sum_erase S _ haS, ← Finset.add_sum_erase (S.erase a) _ hbS, if_pos rfl, if_neg hab.symm, if_pos rfl]
    have h3 : ∑ i ∈ (S.erase a).erase b, (if i = a then (-1 : ℝ) else if i = b then 1 else 0) = 0 := by
      apply Finset.sum_eq_zero
      intro i hi
      rw [if_neg (Finset.ne_of_mem_erase (Finset.mem_of_mem_erase hi)), if_neg (Finset.ne_of_mem_erase hi)]
    rw [h3, h1, hxw]
    field_simp
    ring
  constructor
  · rintro ⟨g, hg, h0⟩
    rw [total g hg] at h0
    have : ψ b - ψ a = 0 := by
      rcases mul_eq_zero.1 h0 with h | h
      · exact absurd h hl10.ne'
      · exact h
    show ψ a = ψ b
    linarith
  · intro he
    have he : ψ a = ψ b := he
    refine ⟨fun i : Fin species.length => if i = w then Real.log 10 * (ψ b - ψ a) / n w else (if i = a then -1 else if i = b then 1 else 0) / x i 0, ?_, ?_⟩
    · intro i
      by_cases hi : i = w
      · subst hi
        simp only [if_true]
        exact hdw
      · simp only [if_neg hi]
        exact hdi i hi _ (dx i)
    · have := total (fun i : Fin species.length => if i = w then Real.log 10 * (ψ b - ψ a) / n w else (if i = a then -1 else if i = b then 1 else 0) / x i 0) (by
        intro i
        by_cases hi : i = w
        · subst hi
          simp only [if_true]
          exact hdw
        · simp only [if_neg hi]
          exact hdi i hi _ (dx i))
      rw [this, he, sub_self, mul_zero]

/-- The function of the osmotic coefficient is between zero and one. -/
theorem sigma_bounds (c : ℝ) (hc : 0 < c) :
    0 ≤ 3 / c ^ 3 * (1 + c - 1 / (1 + c) - 2 * Real.log (1 + c)) ∧ 3 / c ^ 3 * (1 + c - 1 / (1 + c) - 2 * Real.log (1 + c)) ≤ 1 := by
  have hd : ∀ t : ℝ, 0 ≤ t → HasDerivAt (fun t : ℝ => 1 + t - 1 / (1 + t) - 2 * Real.log (1 + t)) ((t / (1 + t)) ^ 2) t := by
    intro t ht
    have h0 : (1 + t) ≠ 0 := by positivity
    have h1 : HasDerivAt (fun t : ℝ => 1 + t) 1 t := (hasDerivAt_id t).const_add 1
    have h2 : HasDerivAt (fun t : ℝ => 1 / (1 + t)) (-1 / (1 + t) ^ 2) t := by simpa only [one_div] using h1.fun_inv h0
    have h3 := (h1.log h0).const_mul 2
    refine ((h1.fun_sub h2).fun_sub h3).congr_deriv ?_
    field_simp
    ring
  have hmono : MonotoneOn (fun t : ℝ => 1 + t - 1 / (1 + t) - 2 * Real.log (1 + t)) (Set.Ici 0) := by
    apply monotoneOn_of_deriv_nonneg (convex_Ici 0)
    · exact fun t ht => (hd t ht).continuousAt.continuousWithinAt
    · exact fun t ht => (hd t (interior_subset ht)).differentiableAt.differentiableWithinAt
    · intro t ht
      rw [(hd t (interior_subset ht)).deriv]
      positivity
  have hd2 : ∀ t : ℝ, 0 ≤ t → HasDerivAt (fun t : ℝ => t ^ 3 / 3 - (1 + t - 1 / (1 + t) - 2 * Real.log (1 + t))) (t ^ 2 - (t / (1 + t)) ^ 2) t := by
    intro t ht
    refine (((hasDerivAt_pow 3 t).div_const 3).fun_sub (hd t ht)).congr_deriv ?_
    push_cast
    ring
  have hmono2 : MonotoneOn (fun t : ℝ => t ^ 3 / 3 - (1 + t - 1 / (1 + t) - 2 * Real.log (1 + t))) (Set.Ici 0) := by
    apply monotoneOn_of_deriv_nonneg (convex_Ici 0)
    · exact fun t ht => (hd2 t ht).continuousAt.continuousWithinAt
    · exact fun t ht => (hd2 t (interior_subset ht)).differentiableAt.differentiableWithinAt
    · intro t ht
      have ht0 : 0 ≤ t := interior_subset ht
      rw [(hd2 t ht0).deriv, sub_nonneg]
      apply pow_le_pow_left₀ (by positivity)
      exact div_le_self ht0 (by linarith)
  have h1 := hmono (Set.mem_Ici.2 (le_refl 0)) (Set.mem_Ici.2 hc.le) hc.le
  have h2 := hmono2 (Set.mem_Ici.2 (le_refl 0)) (Set.mem_Ici.2 hc.le) hc.le
  simp only [add_zero, Real.log_one, div_one, mul_zero, sub_zero, sub_self] at h1 h2
  norm_num at h2
  have hc3 : 0 < c ^ 3 := by positivity
  constructor
  · exact mul_nonneg (by positivity) h1
  · rw [div_mul_eq_mul_div, div_le_one hc3]
    have : (1 + c)⁻¹ = 1 / (1 + c) := (one_div _).symm
    rw [this] at h2
    linarith

/-- **C60 (fails).** If two ions of the same charge have different radii, Gibbs–Duhem fails in every solution whose ionic strength is high
enough, when one of them replaces the other: the ln activities of the solutes then change as in an ideal solution, and that
of water changes too. -/
theorem C60_exchange_wrong (reactions : List Registries.Reaction) (rho0 eps0 : ℝ) (p : HKFParams) (species : List (Species ℝ)) (f : Fn)
    (hf : hkf reactions rho0 eps0 p species = .ok f) (w : Fin species.length) (hs : IonicSolution species w) (m : Mem)
    (hm : Fits m species.length) (T P : ℝ) (hA : 0 ≤ p.A T P) (hB : 0 < p.B T P) (hb0 : p.bNaCl T P ≠ 0) (a b : Fin species.length)
    (ha : a ≠ w) (hb : b ≠ w) (hab : a ≠ b) (hz : species[a].charge = species[b].charge) (hra : 0 < p.radius species[a])
    (hrb : 0 < p.radius species[b]) (hr : p.radius species[a] ≠ p.radius species[b]) :
    ∃ I0 : ℝ, ∀ n : Fin species.length → ℝ, (∀ i, 0 < n i) →
      I0 < 1 / 2 * ∑ i ∈ Finset.univ.erase w, species[i].charge * species[i].charge * (n i / (waterMolarMass * n w)) →
      let x : Fin species.length → ℝ → ℝ := fun i s => if i = a then n a - s else if i = b then n b + s else n i
      ¬ GibbsDuhem x (fun i s => lnA (f T P (moleFractionsOf (along x s)) m) i) 0 := by
  set z := species[a].charge with hzdef
  have hz0 : z ≠ 0 := hs.ions a ha
  have hM : (0 : ℝ) < waterMolarMass := by unfold waterMolarMass; norm_num
  set k := 1 / 2 * 166027 * |1 / p.radius species[a] - 1 / p.radius species[b]| * |p.bNaCl T P| with hk
  have hkpos : 0 < k := by
    have h1 : 1 / p.radius species[a] - 1 / p.radius species[b] ≠ 0 := by
      intro h
      apply hr
      have := sub_eq_zero.1 h
      rwa [one_div, one_div, inv_inj] at this
    have := abs_pos.2 h1
    have := abs_pos.2 hb0
    positivity
  refine ⟨(p.A T P / 3 / k) ^ 2, ?_⟩
  intro n hn hI x hgd
  have he := (C60_exchange reactions rho0 eps0 p species f hf w hs m hm T P n hn a b ha hb hab hz).1 hgd
  rw [← hz] at he
  set I := 1 / 2 * ∑ i ∈ Finset.univ.erase w, species[i].charge * species[i].charge * (n i / (waterMolarMass * n w)) with hIdef
  have hIpos : 0 < I := lt_of_le_of_lt (by positivity) hI
  have hs0 : 0 < √I := Real.sqrt_pos.2 hIpos
  have size : ∀ r, 0 < r → 0 < hkfSize r z * p.B T P * √I := by
    intro r hr
    have : 0 < hkfSize r z := by
      unfold hkfSize
      split <;> positivity
    positivity
  have sa := sigma_bounds _ (size _ hra)
  have sb := sigma_bounds _ (size _ hrb)
  unfold hkfPsi at he
  simp only at he
  set σa := 3 / (hkfSize (p.radius species[a]) z * p.B T P * √I) ^ 3 * (1 + hkfSize (p.radius species[a]) z * p.B T P * √I -
    1 / (1 + hkfSize (p.radius species[a]) z * p.B T P * √I) - 2 * Real.log (1 + hkfSize (p.radius species[a]) z * p.B T P * √I))
  set σb := 3 / (hkfSize (p.radius species[b]) z * p.B T P * √I) ^ 3 * (1 + hkfSize (p.radius species[b]) z * p.B T P * √I -
    1 / (1 + hkfSize (p.radius species[b]) z * p.B T P * √I) - 2 * Real.log (1 + hkfSize (p.radius species[b]) z * p.B T P * √I))
  have h1 : (z * z) * √I * (p.A T P / 3 * (σa - σb)) = (z * z) * √I * (1 / 2 * 166027 * (1 / p.radius species[a] - 1 / p.radius species[b]) * p.bNaCl T P * √I) := by
    have hsq : √I * √I = I := Real.mul_self_sqrt hIpos.le
    linear_combination he - (1 / 2 * 166027 * (1 / p.radius species[a] - 1 / p.radius species[b]) * p.bNaCl T P * (z * z)) * hsq
  have h2 := mul_left_cancel₀ (mul_ne_zero (mul_ne_zero hz0 hz0) hs0.ne') h1
  have h3 : k * √I ≤ p.A T P / 3 := by
    have : k * √I = |p.A T P / 3 * (σa - σb)| := by
      rw [h2, abs_mul, abs_mul, abs_mul, abs_mul, abs_of_pos hs0, hk]
      norm_num
    rw [this, abs_mul, abs_of_nonneg (by positivity : (0 : ℝ) ≤ p.A T P / 3)]
    have : |σa - σb| ≤ 1 := by rw [abs_le]; constructor <;> linarith [sa.1, sa.2, sb.1, sb.2]
    nlinarith
  have h4 : √I ≤ p.A T P / 3 / k := by rw [le_div_iff₀ hkpos]; linarith
  have h5 : I ≤ (p.A T P / 3 / k) ^ 2 := by
    rw [← Real.sq_sqrt hIpos.le]
    exact pow_le_pow_left₀ hs0.le h4 2
  linarith

/-! ## The hypotheses are satisfiable -/

/-- Water with sodium, potassium and chloride. -/
def brine2 : List (Species ℝ) := [⟨c!"H2O(aq)", waterFormula, 0⟩, ⟨c!"Na+", naPlus, 1⟩, ⟨c!"K+", ⟨c!"K+", [(c!"K", 1)], 1⟩, 1⟩,
  ⟨c!"Cl-", clMinus, -1⟩]

theorem brine2_ionic : IonicSolution brine2 (⟨0, by decide⟩ : Fin brine2.length) where
  water := by show waterFormula.equivalent waterFormula = true; decide +kernel
  first := by intro i hi; exact absurd hi (by simp [Fin.lt_def])
  ions := by
    intro i hi
    have hl : brine2.length = 4 := rfl
    rcases i with ⟨i, h⟩
    rw [hl] at h
    interval_cases i
    · exact absurd rfl hi
    · show (1 : ℝ) ≠ 0; norm_num
    · show (1 : ℝ) ≠ 0; norm_num
    · show (-1 : ℝ) ≠ 0; norm_num

/-- Solutions with balanced charges of any ionic strength. -/
example (I0 : ℝ) : ∃ n : Fin brine2.length → ℝ, (∀ i, 0 < n i) ∧ ∑ i, n i * brine2[i].charge = 0 ∧
    I0 < 1 / 2 * ∑ i ∈ Finset.univ.erase (⟨0, by decide⟩ : Fin brine2.length), brine2[i].charge * brine2[i].charge *
      (n i / (waterMolarMass * n ⟨0, by decide⟩)) := by
  have hM : (0 : ℝ) < waterMolarMass := by unfold waterMolarMass; norm_num
  let c := (|I0| + 1) * waterMolarMass
  have hc : 0 < c := by positivity
  refine ⟨fun i : Fin 4 => ![1, c, c, 2 * c] i, ?_, ?_, ?_⟩
  · intro i
    have hl : brine2.length = 4 := rfl
    rcases i with ⟨i, h⟩
    rw [hl] at h
    interval_cases i
    · show (0 : ℝ) < 1; norm_num
    · exact hc
    · exact hc
    · show 0 < 2 * c; positivity
  · show ∑ i : Fin 4, ![1, c, c, 2 * c] i * (brine2[i]'(i.2)).charge = 0
    rw [Fin.sum_univ_four]
    simp [brine2]
    ring
  · show I0 < 1 / 2 * ∑ i ∈ Finset.univ.erase (0 : Fin 4), (brine2[i]'(i.2)).charge * (brine2[i]'(i.2)).charge *
      (![1, c, c, 2 * c] i / (waterMolarMass * ![1, c, c, 2 * c] 0))
    rw [show (Finset.univ.erase (0 : Fin 4)) = {1, 2, 3} from by decide +kernel]
    rw [Finset.sum_insert (by decide), Finset.sum_insert (by decide), Finset.sum_singleton]
    simp [brine2]
    have : c / waterMolarMass = |I0| + 1 := by simp only [c]; field_simp
    have e : c / waterMolarMass + (c / waterMolarMass + 2 * c / waterMolarMass) = 4 * (c / waterMolarMass) := by ring
    rw [e, this]
    have := le_abs_self I0
    have := abs_nonneg I0
    linarith

end Verif.Activity
