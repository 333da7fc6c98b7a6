import Verif.Lemmas.Activity
import Mathlib.Analysis.SpecialFunctions.Log.Deriv
import Mathlib.Analysis.SpecialFunctions.Sqrt
import Mathlib.Algebra.BigOperators.Field
import Mathlib.Tactic.IntervalCases

/-!
# C60: the Helgeson–Kirkham–Flowers model
-/

namespace Verif.Activity

open Verif.Aqueous Verif.ChemicalProps

theorem hkf_fold (d : HKFState) (hxw : d.xw ≠ 1) (L : List Ion) (g : List ℝ) (phi : ℝ) (hms : ∀ ion ∈ L, ion.ms ≠ 0) :
    L.foldl (hkfTurn d) (g, phi) =
      (L.foldl (fun g ion => g.set ion.index (hkfIon d ion.a ion.z)) g,
        phi + (L.map fun ion => ion.ms * hkfPsi d ion.a ion.z).sum) := by
  induction L generalizing g phi with
  | nil => simp
  | cons ion L ih =>
    rw [List.foldl_cons, List.foldl_cons, List.map_cons, List.sum_cons]
    unfold hkfTurn
    rw [if_neg (hms ion List.mem_cons_self), if_pos hxw]
    have := ih (g.set ion.index (hkfIon d ion.a ion.z)) (phi + ion.ms * hkfPsi d ion.a ion.z)
      (fun i hi => hms i (List.mem_cons_of_mem _ hi))
    unfold hkfTurn at this
    rw [this, add_assoc]

/-- The ln activities in a solution of ions. -/
theorem hkf_eval (reactions : List Registries.Reaction) (rho0 eps0 : ℝ) (p : HKFParams) (species : List (Species ℝ)) (f : Fn)
    (hf : hkf reactions rho0 eps0 p species = .ok f) (w : Fin species.length) (hs : IonicSolution species w) (m : Mem)
    (hm : Fits m species.length) (T P : ℝ) (x : List ℝ) (hx : x.length = species.length) (hpos : ∀ i, i < x.length → 0 < x.getD i 0)
    (hx1 : x.getD w 0 ≠ 1) :
    let d : HKFState := ⟨1 / 2 * ∑ i ∈ Finset.univ.erase w, species[i].charge * species[i].charge * molality x w i, x.getD w 0,
      p.A T P, p.B T P, p.bNaCl T P, p.bNapClm T P⟩
    (∃ r, f T P x m = .ok r) ∧
    lnA (f T P x m) w = Real.log 10 * waterMolarMass *
      ∑ i ∈ Finset.univ.erase w, molality x w i * hkfPsi d (p.radius species[i]) species[i].charge ∧
    ∀ i : Fin species.length, i ≠ w →
      lnA (f T P x m) i = hkfIon d (p.radius species[i]) species[i].charge + Real.log (molality x w i) := by
  intro d
  obtain ⟨mix, hmix⟩ := construct_ok reactions rho0 eps0 species w hs.water
  unfold hkf at hf
  rw [hmix] at hf
  simp only [Res.bind_ok', Res.ok.injEq] at hf
  obtain ⟨hw, hN, -, hnd, hmem, hch, hsum⟩ := ionic_indices reactions rho0 eps0 species mix hmix w hs
  have hxw : 0 < x.getD w 0 := hpos w (by omega)
  have hM : (0 : ℝ) < waterMolarMass := by unfold waterMolarMass; norm_num
  obtain ⟨st, h1, h2, h3, h4, -⟩ := ionic_state reactions rho0 eps0 species mix hmix w hs T P x hx hxw.ne'
  have hget : ∀ i, i < species.length → st.m.getD i 0 = molality x w i := by
    intro i hi
    rw [h2]
    simp [molality, hx, hi]
  have hI : st.Is = d.I := by
    rw [h4]
    show _ = 1 / 2 * ∑ i ∈ Finset.univ.erase w, species[i].charge * species[i].charge * molality x w i
    congr 1
    apply Finset.sum_congr rfl
    intro i _
    rw [hget i i.2]
  have hmpos : ∀ i, i < species.length → 0 < molality x w i := fun i hi =>
    div_pos (hpos i (by omega)) (mul_pos hM hxw)
  have hions : hkfIons p mix st.ms =
      mix.ix.idxCharged.map fun j => ⟨j, st.m.getD j 0, (spAt species j).charge, p.radius (spAt species j), 0⟩ := by
    unfold hkfIons
    rw [h3, hch]
    exact ions_map (fun j ms s => ⟨j, ms, s.charge, p.radius s, 0⟩) _ _ _
  have hd : (⟨st.Is, x.getD w 0, p.A T P, p.B T P, p.bNaCl T P, p.bNapClm T P⟩ : HKFState) = d := by rw [hI]
  rw [← hf]
  simp only [(fits_iff' m species.length).mpr hm, hx, h1, hw]
  rw [if_neg (by simp)]
  simp only [Res.bind_ok', hd, hN, List.foldl_nil]
  rw [hions, hkf_fold d hx1 _ _ _ (by
    intro ion hion
    obtain ⟨j, hj, rfl⟩ := List.mem_map.mp hion
    have := (hmem j).mp hj
    simp only
    rw [hget j this.2]
    exact (hmpos j this.2).ne')]
  simp only [lnA, propsOf, List.map_map, List.foldl_map, zero_add]
  have hlen : (List.zipWith (fun g m => g + Real.log m)
      (mix.ix.idxCharged.foldl (fun g j => g.set j (hkfIon d (p.radius (spAt species j)) (spAt species j).charge)) m.props.ln_g)
      st.m).length = species.length := by
    rw [List.length_zipWith, foldl_set_length (fun j => j), hm.1, h2]
    simp [hx]
  refine ⟨⟨_, rfl⟩, ?_, ?_⟩
  · rw [getD_set _ _ _ _ (by rw [hlen]; exact w.2), if_pos rfl, if_pos hx1]
    congr 1
    rw [hsum]
    apply Finset.sum_congr rfl
    intro i _
    simp only [Function.comp]
    rw [hget i i.2, spAt_eq]
  · intro i hi
    rw [getD_set _ _ _ _ (by rw [hlen]; exact w.2), if_neg (fun e => hi (Fin.ext e))]
    have hi1 : (i : Nat) < (mix.ix.idxCharged.foldl (fun g j => g.set j (hkfIon d (p.radius (spAt species j)) (spAt species j).charge))
        m.props.ln_g).length := by rw [foldl_set_length (fun j => j), hm.1]; exact i.2
    have hi2 : (i : Nat) < st.m.length := by rw [h2]; simp [hx]
    have hz : ∀ (a b : List ℝ), (i : Nat) < a.length → (i : Nat) < b.length →
        (List.zipWith (fun g m => g + Real.log m) a b).getD i 0 = a.getD i 0 + Real.log (b.getD i 0) := by
      intro a b ha hb
      simp [ha, hb]
    rw [hz _ _ hi1 hi2, hget i i.2]
    congr 1
    have := foldl_set_mem (fun j : Nat => j) (fun j => hkfIon d (p.radius (spAt species j)) (spAt species j).charge)
      mix.ix.idxCharged m.props.ln_g (by simpa using hnd) (i : Nat) ((hmem i).mpr ⟨fun e => hi (Fin.ext e), i.2⟩)
      (by rw [hm.1]; exact i.2)
    rw [this, spAt_eq]

/-! ## Calculus -/

theorem deriv_sqrt (I t : ℝ) (hI : 0 < I) (ht : 0 < t) : HasDerivAt (fun s => √(I * s)) (I / (2 * √(I * t))) t := by
  have := ((hasDerivAt_id t).const_mul I).sqrt (by simp; exact ⟨hI.ne', ht.ne'⟩)
  simpa using this

/-- The derivative of `s / (1 + c s)` for `s = √(I t)`. -/
theorem deriv_quotient (c I t : ℝ) (hc : 0 ≤ c) (hI : 0 < I) (ht : 0 < t) :
    HasDerivAt (fun s => √(I * s) / (1 + c * √(I * s))) (I / (2 * √(I * t)) / (1 + c * √(I * t)) ^ 2) t := by
  have h := deriv_sqrt I t hI ht
  have hs : 0 < √(I * t) := Real.sqrt_pos.mpr (mul_pos hI ht)
  have hl : (1 + c * √(I * t)) ≠ 0 := by positivity
  refine (h.fun_div ((h.const_mul c).const_add 1) hl).congr_deriv ?_
  field_simp
  ring

/-- The derivative of the integral of `s² / (1 + c s)²` for `s = √(I t)`. -/
theorem deriv_integral (c I t : ℝ) (hc : 0 < c) (hI : 0 < I) (ht : 0 < t) :
    HasDerivAt (fun s => 1 / c ^ 3 * ((1 + c * √(I * s)) - 1 / (1 + c * √(I * s)) - 2 * Real.log (1 + c * √(I * s))))
      (I * √(I * t) / (2 * (1 + c * √(I * t)) ^ 2)) t := by
  have h := deriv_sqrt I t hI ht
  have hs : 0 < √(I * t) := Real.sqrt_pos.mpr (mul_pos hI ht)
  have hl : (1 + c * √(I * t)) ≠ 0 := by positivity
  have hL : HasDerivAt (fun s => 1 + c * √(I * s)) (c * (I / (2 * √(I * t)))) t := (h.const_mul c).const_add 1
  have hinv : HasDerivAt (fun s => 1 / (1 + c * √(I * s))) (-(c * (I / (2 * √(I * t)))) / (1 + c * √(I * t)) ^ 2) t := by
    simpa only [one_div] using hL.fun_inv hl
  have hlog := (hL.log hl).const_mul 2
  refine (((hL.fun_sub hinv).fun_sub hlog).const_mul (1 / c ^ 3)).congr_deriv ?_
  field_simp
  ring

/-- **C60.** Gibbs–Duhem along dilution paths: in a solution whose solutes are ions with balanced charge, when the amounts of all solutes
are scaled by the same factor, the sum of the derivatives of the ln activities weighted by the amounts is zero. -/
theorem C60_dilution_partial (reactions : List Registries.Reaction) (rho0 eps0 : ℝ) (p : HKFParams) (species : List (Species ℝ)) (f : Fn)
    (hf : hkf reactions rho0 eps0 p species = .ok f) (w : Fin species.length) (hs : IonicSolution species w) (m : Mem)
    (hm : Fits m species.length) (T P : ℝ) (hB : 0 < p.B T P) (hr : ∀ i : Fin species.length, i ≠ w → 0 < p.radius species[i])
    (n : Fin species.length → ℝ) (hn : ∀ i, 0 < n i) (hsol : ∃ i, i ≠ w)
    (hz : ∑ i ∈ Finset.univ.erase w, n i * species[i].charge = 0) (t : ℝ) (ht : 0 < t) :
    let x : Fin species.length → ℝ → ℝ := fun i s => if i = w then n w else s * n i
    GibbsDuhem x (fun i s => lnA (f T P (moleFractionsOf (along x s)) m) i) t := by
  intro x
  have hM : (0 : ℝ) < waterMolarMass := by unfold waterMolarMass; norm_num
  have hl10 : (0 : ℝ) < Real.log 10 := Real.log_pos (by norm_num)
  obtain ⟨i0, hi0⟩ := hsol
  set S := Finset.univ.erase w with hS
  set C := ∑ i ∈ S, n i with hC
  have hCpos : 0 < C := Finset.sum_pos (fun i _ => hn i) ⟨i0, Finset.mem_erase.mpr ⟨hi0, Finset.mem_univ _⟩⟩
  let μ : Fin species.length → ℝ := fun i => n i / (waterMolarMass * n w)
  have hμ : ∀ i, 0 < μ i := fun i => div_pos (hn i) (mul_pos hM (hn w))
  let z : Fin species.length → ℝ := fun i => species[i].charge
  let I := 1 / 2 * ∑ i ∈ S, z i * z i * μ i
  have hIpos : 0 < I := by
    refine mul_pos (by norm_num) (Finset.sum_pos (fun i hi => ?_) ⟨i0, Finset.mem_erase.mpr ⟨hi0, Finset.mem_univ _⟩⟩)
    exact mul_pos (mul_self_pos.mpr (hs.ions i (Finset.ne_of_mem_erase hi))) (hμ i)
  let c : Fin species.length → ℝ := fun i => hkfSize (p.radius species[i]) (z i) * p.B T P
  have hc : ∀ i, i ≠ w → 0 < c i := by
    intro i hi
    have hri := hr i hi
    have : 0 < hkfSize (p.radius species[i]) (z i) := by
      unfold hkfSize
      split <;> positivity
    exact mul_pos this hB
  let b : Fin species.length → ℝ := fun i =>
    166027 * (z i * z i) / p.radius species[i] * p.bNaCl T P + p.bNapClm T P - 19 / 100 * (|z i| - 1)
  -- mole fractions along the path
  have hlen : ∀ s, (moleFractionsOf (along x s)).length = species.length := by intro s; simp [moleFractionsOf, along]
  have hsumx : ∀ s, (along x s).sum = n w + s * C := by
    intro s
    rw [along, List.sum_ofFn, ← Finset.add_sum_erase _ _ (Finset.mem_univ w)]
    congr 1
    · simp [x]
    · rw [hC, Finset.mul_sum]
      apply Finset.sum_congr rfl
      intro i hi
      simp [x, Finset.ne_of_mem_erase hi]
  have hmf : ∀ s (i : Fin species.length), (moleFractionsOf (along x s)).getD i 0 = x i s / (n w + s * C) := by
    intro s i
    have hl : (i : Nat) < (along x s).length := by simp [along]
    have : (moleFractionsOf (along x s)).getD i 0 = (along x s).getD i 0 / (along x s).sum := by
      unfold moleFractionsOf
      simp [hl]
    rw [this, hsumx]
    congr 1
    simp [along]
  have hw0 := hn w
  have hxw : ∀ s, x w s = n w := fun s => if_pos rfl
  have hxo : ∀ s i, i ≠ w → x i s = s * n i := fun s i hi => if_neg hi
  have hmol : ∀ s, 0 < s → ∀ i : Fin species.length, i ≠ w → molality (moleFractionsOf (along x s)) w i = s * μ i := by
    intro s hs0 i hi
    have hden : 0 < n w + s * C := by positivity
    unfold molality
    rw [hmf, hmf, hxw, hxo s i hi]
    show _ = s * (n i / (waterMolarMass * n w))
    field_simp
  -- the ln activities along the path
  have heval : ∀ s, 0 < s →
      lnA (f T P (moleFractionsOf (along x s)) m) w =
        Real.log (n w / (n w + s * C)) + Real.log 10 * waterMolarMass * ∑ i ∈ S,
          (p.A T P * (z i * z i) * (μ i / I) *
            (1 / c i ^ 3 * ((1 + c i * √(I * s)) - 1 / (1 + c i * √(I * s)) - 2 * Real.log (1 + c i * √(I * s))))
            - 1 / 2 * (μ i * b i) * I * s ^ 2) ∧
      ∀ i, i ≠ w → lnA (f T P (moleFractionsOf (along x s)) m) i =
        Real.log 10 * (-(p.A T P * (z i * z i)) * (√(I * s) / (1 + c i * √(I * s))) + b i * (I * s))
          + Real.log (n w / (n w + s * C)) + Real.log (s * μ i) := by
    intro s hs0
    have hden : 0 < n w + s * C := by positivity
    have hsI : 0 < √(I * s) := Real.sqrt_pos.mpr (mul_pos hIpos hs0)
    have hX : (moleFractionsOf (along x s)).getD w 0 = n w / (n w + s * C) := by rw [hmf, hxw]
    have hX1 : n w / (n w + s * C) ≠ 1 := by
      rw [Ne, div_eq_one_iff_eq hden.ne']
      have : 0 < s * C := by positivity
      linarith
    obtain ⟨-, e1, e2⟩ := hkf_eval reactions rho0 eps0 p species f hf w hs m hm T P (moleFractionsOf (along x s)) (hlen s) (by
      intro i hi
      rw [hlen] at hi
      have hx0 : 0 < x ⟨i, hi⟩ s := by
        by_cases h : (⟨i, hi⟩ : Fin species.length) = w
        · rw [h, hxw]; exact hw0
        · rw [hxo s _ h]; exact mul_pos hs0 (hn _)
      have := hmf s ⟨i, hi⟩
      rw [this]
      exact div_pos hx0 hden) (by rw [hX]; exact hX1)
    have hIs : 1 / 2 * ∑ i ∈ S, species[i].charge * species[i].charge * molality (moleFractionsOf (along x s)) w i = I * s := by
      have : ∑ i ∈ S, species[i].charge * species[i].charge * molality (moleFractionsOf (along x s)) w i =
          (∑ i ∈ S, z i * z i * μ i) * s := by
        rw [Finset.sum_mul]
        apply Finset.sum_congr rfl
        intro i hi
        rw [hmol s hs0 i (Finset.ne_of_mem_erase hi)]
        show z i * z i * (s * μ i) = _
        ring
      rw [this]
      show _ = 1 / 2 * (∑ i ∈ S, z i * z i * μ i) * s
      ring
    rw [← hS] at e1 e2
    simp only [hIs, hX] at e1 e2
    refine ⟨?_, ?_⟩
    · rw [e1]
      set X := n w / (n w + s * C) with hXdef
      have hXeq : X / (1 - X) = n w / (s * C) := by
        rw [hXdef]
        have : 0 < s * C := by positivity
        have : 1 - n w / (n w + s * C) = s * C / (n w + s * C) := by field_simp; ring
        rw [this]
        field_simp
      have hterm : ∀ i ∈ S, molality (moleFractionsOf (along x s)) w i * hkfPsi ⟨I * s, X, p.A T P, p.B T P, p.bNaCl T P, p.bNapClm T P⟩
            (p.radius species[i]) species[i].charge =
          (p.A T P * (z i * z i) * (μ i / I) *
            (1 / c i ^ 3 * ((1 + c i * √(I * s)) - 1 / (1 + c i * √(I * s)) - 2 * Real.log (1 + c i * √(I * s))))
            - 1 / 2 * (μ i * b i) * I * s ^ 2) + (μ i * (n w / C * (Real.log X / Real.log 10)) +
            26935 * p.bNaCl T P * I * s ^ 2 * (μ i * z i)) := by
        intro i hi
        have hci := hc i (Finset.ne_of_mem_erase hi)
        rw [hmol s hs0 i (Finset.ne_of_mem_erase hi)]
        unfold hkfPsi
        simp only
        rw [hXeq]
        show s * μ i * (p.A T P * (z i * z i) * √(I * s) * (3 / (c i * √(I * s)) ^ 3 *
            ((1 + c i * √(I * s)) - 1 / (1 + c i * √(I * s)) - 2 * Real.log (1 + c i * √(I * s)))) / 3 +
            n w / (s * C) * (Real.log X / Real.log 10) -
            1 / 2 * ((166027 * (z i * z i) / p.radius species[i] - z i * 53870) * p.bNaCl T P + p.bNapClm T P - 19 / 100 * (|z i| - 1)) * (I * s)) = _
        generalize (1 + c i * √(I * s)) - 1 / (1 + c i * √(I * s)) - 2 * Real.log (1 + c i * √(I * s)) = q
        have hsq : √(I * s) ^ 2 = I * s := Real.sq_sqrt (mul_pos hIpos hs0).le
        have h1 : s * μ i * (p.A T P * (z i * z i) * √(I * s) * (3 / (c i * √(I * s)) ^ 3 * q) / 3) =
            p.A T P * (z i * z i) * (μ i / I) * (1 / c i ^ 3 * q) := by
          have : √(I * s) * (3 / (c i * √(I * s)) ^ 3 * q) / 3 = 1 / c i ^ 3 * q / (I * s) := by
            have hs3 : √(I * s) ^ 3 = √(I * s) * (I * s) := by rw [pow_succ, hsq]; ring
            rw [mul_pow, hs3]; field_simp
          calc s * μ i * (p.A T P * (z i * z i) * √(I * s) * (3 / (c i * √(I * s)) ^ 3 * q) / 3)
              = s * μ i * (p.A T P * (z i * z i)) * (√(I * s) * (3 / (c i * √(I * s)) ^ 3 * q) / 3) := by ring
            _ = _ := by rw [this]; field_simp
        have h2 : s * μ i * (n w / (s * C) * (Real.log X / Real.log 10)) = μ i * (n w / C * (Real.log X / Real.log 10)) := by
          field_simp
        calc _ = s * μ i * (p.A T P * (z i * z i) * √(I * s) * (3 / (c i * √(I * s)) ^ 3 * q) / 3) +
              s * μ i * (n w / (s * C) * (Real.log X / Real.log 10)) - s * μ i * (1 / 2 * ((166027 * (z i * z i) / p.radius species[i]
              - z i * 53870) * p.bNaCl T P + p.bNapClm T P - 19 / 100 * (|z i| - 1)) * (I * s)) := by ring
          _ = _ := by
              rw [h1, h2]
              show _ = _ - 1 / 2 * (μ i * (166027 * (z i * z i) / p.radius species[i] * p.bNaCl T P + p.bNapClm T P
                - 19 / 100 * (|z i| - 1))) * I * s ^ 2 + _
              ring
      rw [Finset.sum_congr rfl hterm, Finset.sum_add_distrib, Finset.sum_add_distrib, ← Finset.sum_mul, ← Finset.mul_sum]
      have hμz : ∑ i ∈ S, μ i * z i = 0 := by
        have : ∑ i ∈ S, μ i * z i = (∑ i ∈ S, n i * species[i].charge) / (waterMolarMass * n w) := by
          rw [Finset.sum_div]
          apply Finset.sum_congr rfl
          intro i _
          show n i / (waterMolarMass * n w) * species[i].charge = _
          ring
        rw [this, hz, zero_div]
      have hμs : ∑ i ∈ S, μ i = C / (waterMolarMass * n w) := by rw [hC, Finset.sum_div]
      rw [hμz, hμs]
      have : Real.log 10 * waterMolarMass * (C / (waterMolarMass * n w) * (n w / C * (Real.log X / Real.log 10))) = Real.log X := by
        field_simp
      linear_combination this
    · intro i hi
      rw [e2 i hi, hmol s hs0 i hi]
      unfold hkfIon
      simp only
      show (-(p.A T P * (z i * z i) * √(I * s)) / (1 + c i * √(I * s)) + Real.log (n w / (n w + s * C)) / Real.log 10 +
        b i * (I * s)) * Real.log 10 + _ = _
      field_simp
      ring
  -- derivatives
  have hden : 0 < n w + t * C := by positivity
  have hsI : 0 < √(I * t) := Real.sqrt_pos.mpr (mul_pos hIpos ht)
  have hX : HasDerivAt (fun s => Real.log (n w / (n w + s * C))) (- C / (n w + t * C)) t := by
    have h1 : HasDerivAt (fun s => n w + s * C) C t := by simpa using ((hasDerivAt_id t).mul_const C).const_add (n w)
    have h2 : HasDerivAt (fun s => Real.log (n w) - Real.log (n w + s * C)) (- (C / (n w + t * C))) t :=
      (h1.log hden.ne').const_sub _
    refine (h2.congr_of_eventuallyEq ?_).congr_deriv (by ring)
    filter_upwards [eventually_gt_nhds ht] with s hs0
    rw [Real.log_div hw0.ne' (by positivity)]
  let dW : ℝ := - C / (n w + t * C) + Real.log 10 * waterMolarMass * ∑ i ∈ S,
    (p.A T P * (z i * z i) * (μ i / I) * (I * √(I * t) / (2 * (1 + c i * √(I * t)) ^ 2)) - μ i * b i * I * t)
  let dI : Fin species.length → ℝ := fun i =>
    Real.log 10 * (-(p.A T P * (z i * z i)) * (I / (2 * √(I * t)) / (1 + c i * √(I * t)) ^ 2) + b i * I) - C / (n w + t * C) + 1 / t
  refine ⟨fun i => if i = w then dW else dI i, fun i => ?_, ?_⟩
  · by_cases hi : i = w
    · subst hi
      simp only [if_true]
      have : HasDerivAt (fun s => Real.log (n i / (n i + s * C)) + Real.log 10 * waterMolarMass * ∑ j ∈ S,
          (p.A T P * (z j * z j) * (μ j / I) *
            (1 / c j ^ 3 * ((1 + c j * √(I * s)) - 1 / (1 + c j * √(I * s)) - 2 * Real.log (1 + c j * √(I * s))))
            - 1 / 2 * (μ j * b j) * I * s ^ 2)) dW t := by
        refine hX.fun_add (HasDerivAt.const_mul _ (HasDerivAt.fun_sum fun j hj => ?_))
        have h1 := (deriv_integral (c j) I t (hc j (Finset.ne_of_mem_erase hj)) hIpos ht).const_mul (p.A T P * (z j * z j) * (μ j / I))
        have h2 : HasDerivAt (fun s : ℝ => 1 / 2 * (μ j * b j) * I * s ^ 2) (μ j * b j * I * t) t :=
          ((hasDerivAt_pow 2 t).const_mul (1 / 2 * (μ j * b j) * I)).congr_deriv (by simp; ring)
        exact h1.fun_sub h2
      refine this.congr_of_eventuallyEq ?_
      filter_upwards [eventually_gt_nhds ht] with s hs0
      exact (heval s hs0).1
    · simp only [if_neg hi]
      have hq := deriv_quotient (c i) I t (hc i hi).le hIpos ht
      have hlin : HasDerivAt (fun s => b i * (I * s)) (b i * I) t := by
        simpa using ((hasDerivAt_id t).const_mul I).const_mul (b i)
      have hlog : HasDerivAt (fun s => Real.log (s * μ i)) (1 / t) t := by
        have h1 : HasDerivAt (fun s => s * μ i) (μ i) t := by simpa using (hasDerivAt_id t).mul_const (μ i)
        refine (h1.log (mul_pos ht (hμ i)).ne').congr_deriv ?_
        have := (hμ i).ne'
        field_simp
      refine ((((hq.const_mul (-(p.A T P * (z i * z i)))).fun_add hlin).const_mul (Real.log 10)).fun_add hX |>.fun_add hlog
        |>.congr_of_eventuallyEq ?_).congr_deriv ?_
      · filter_upwards [eventually_gt_nhds ht] with s hs0
        exact (heval s hs0).2 i hi
      · show _ = Real.log 10 * (-(p.A T P * (z i * z i)) * (I / (2 * √(I * t)) / (1 + c i * √(I * t)) ^ 2) + b i * I)
          - C / (n w + t * C) + 1 / t
        ring
  · rw [← Finset.add_sum_erase _ _ (Finset.mem_univ w), ← hS]
    simp only [if_true, hxw]
    have hterm : ∀ i ∈ S, x i t * (if i = w then dW else dI i) =
        t * (Real.log 10 * waterMolarMass * n w) * (-(p.A T P * (z i * z i)) * μ i * (I / (2 * √(I * t)) / (1 + c i * √(I * t)) ^ 2) + μ i * b i * I)
          + n i * (1 - t * C / (n w + t * C)) := by
      intro i hi
      have hiw := Finset.ne_of_mem_erase hi
      rw [if_neg hiw, hxo t i hiw]
      have hni : n i = waterMolarMass * n w * μ i := by
        show _ = waterMolarMass * n w * (n i / (waterMolarMass * n w))
        field_simp
      show t * n i * (Real.log 10 * (-(p.A T P * (z i * z i)) * (I / (2 * √(I * t)) / (1 + c i * √(I * t)) ^ 2) + b i * I)
          - C / (n w + t * C) + 1 / t) = _
      have h1 : t * n i * (Real.log 10 * (-(p.A T P * (z i * z i)) * (I / (2 * √(I * t)) / (1 + c i * √(I * t)) ^ 2) + b i * I)
          - C / (n w + t * C) + 1 / t) = t * n i * (Real.log 10 * (-(p.A T P * (z i * z i)) * (I / (2 * √(I * t)) / (1 + c i * √(I * t)) ^ 2) + b i * I))
          + n i * (1 - t * C / (n w + t * C)) := by field_simp; ring
      rw [h1]
      congr 1
      rw [hni]
      ring
    rw [Finset.sum_congr rfl hterm, Finset.sum_add_distrib, ← Finset.mul_sum, ← Finset.sum_mul, ← hC]
    show n w * (- C / (n w + t * C) + Real.log 10 * waterMolarMass * ∑ i ∈ S,
      (p.A T P * (z i * z i) * (μ i / I) * (I * √(I * t) / (2 * (1 + c i * √(I * t)) ^ 2)) - μ i * b i * I * t)) + _ = 0
    have hcancel : ∑ i ∈ S, (p.A T P * (z i * z i) * (μ i / I) * (I * √(I * t) / (2 * (1 + c i * √(I * t)) ^ 2)) - μ i * b i * I * t) =
        - (t * ∑ i ∈ S, (-(p.A T P * (z i * z i)) * μ i * (I / (2 * √(I * t)) / (1 + c i * √(I * t)) ^ 2) + μ i * b i * I)) := by
      rw [Finset.mul_sum, ← Finset.sum_neg_distrib]
      apply Finset.sum_congr rfl
      intro i hi
      have hci := hc i (Finset.ne_of_mem_erase hi)
      have hsq : √(I * t) ^ 2 = I * t := Real.sq_sqrt (mul_pos hIpos ht).le
      have h1 : p.A T P * (z i * z i) * (μ i / I) * (I * √(I * t) / (2 * (1 + c i * √(I * t)) ^ 2)) =
          t * (p.A T P * (z i * z i) * μ i * (I / (2 * √(I * t)) / (1 + c i * √(I * t)) ^ 2)) := by
        have hl : (1 + c i * √(I * t)) ≠ 0 := by positivity
        field_simp
        rw [hsq]
        ring
      rw [h1]
      ring
    rw [hcancel]
    have : n w * (- C / (n w + t * C)) + C * (1 - t * C / (n w + t * C)) = 0 := by field_simp; ring
    linear_combination this

/-! ## Neutral solutes -/

/-- Water is the first species with the formula of water and sits at `w`; all other species are neutral. -/
structure NeutralSolution (species : List (Species ℝ)) (w : Fin species.length) : Prop where
  water : IsWater species[w]
  first : ∀ i : Fin species.length, i < w → ¬ IsWater species[i]
  neutral : ∀ i : Fin species.length, i ≠ w → species[i].charge = 0

/-- **C60.** When all solutes are neutral the ln activity of water is zero in every composition, however little water there is. -/
theorem C60_neutral (reactions : List Registries.Reaction) (rho0 eps0 : ℝ) (p : HKFParams) (species : List (Species ℝ)) (f : Fn)
    (hf : hkf reactions rho0 eps0 p species = .ok f) (w : Fin species.length) (hs : NeutralSolution species w) (m : Mem)
    (hm : Fits m species.length) (T P : ℝ) (x : List ℝ) (hx : x.length = species.length) (hxw : x.getD w 0 ≠ 0) :
    (∃ r, f T P x m = .ok r) ∧ lnA (f T P x m) w = 0 ∧
    ∀ i : Fin species.length, i ≠ w → lnA (f T P x m) i = Real.log (molality x w i) := by
  obtain ⟨mix, hmix⟩ := construct_ok reactions rho0 eps0 species w hs.water
  unfold hkf at hf
  rw [hmix] at hf
  simp only [Res.bind_ok', Res.ok.injEq] at hf
  have hw := water_index reactions rho0 eps0 species mix hmix w hs.water hs.first
  obtain ⟨-, -, -, -, hN, hC, -, -, hNs, -, -, -, -, hCsp, -, -, -, -⟩ := C49_partition reactions rho0 eps0 species mix hmix
  have hC0 : mix.ix.idxCharged = [] := by
    apply List.eq_nil_iff_forall_not_mem.mpr
    intro i hi
    obtain ⟨hiw, s, hs', h0⟩ := (hC i).mp hi
    obtain ⟨hl, rfl⟩ := List.getElem?_eq_some_iff.mp hs'
    exact h0 (hs.neutral ⟨i, hl⟩ (fun e => hiw (by rw [hw, ← e])))
  have hch : mix.ix.charged = [] := by
    rw [hC0] at hCsp
    exact List.map_eq_nil_iff.mp hCsp
  have hmem : ∀ i, i ∈ mix.ix.idxNeutral ↔ i ≠ w ∧ i < species.length := by
    intro i
    rw [hN i, hw]
    constructor
    · rintro ⟨hiw, s, hs', -⟩
      exact ⟨hiw, (List.getElem?_eq_some_iff.mp hs').1⟩
    · rintro ⟨hiw, hl⟩
      exact ⟨hiw, _, List.getElem?_eq_getElem hl, hs.neutral ⟨i, hl⟩ fun e => hiw (by rw [← e])⟩
  have hnd : mix.ix.idxNeutral.Nodup := hNs.imp fun h => Nat.ne_of_lt h
  obtain ⟨st, h1, -, -, h4, -, -, h7⟩ := state_eq reactions rho0 eps0 species mix hmix T P x hx
  rw [hw, if_neg hxw] at h4
  have hI : st.Is = 0 := by rw [h7, hC0]; simp
  have hget : ∀ i, i < species.length → st.m.getD i 0 = molality x w i := by
    intro i hi
    rw [h4]
    simp [molality, hx, hi]
  have hions : hkfIons p mix st.ms = [] := by unfold hkfIons; rw [hC0]; simp
  rw [← hf]
  simp only [(fits_iff' m species.length).mpr hm, hx, h1, hw]
  rw [if_neg (by simp)]
  simp only [Res.bind_ok', hions, List.foldl_nil, lnA, propsOf, hI, mul_zero]
  have hlen : (List.zipWith (fun g m => g + Real.log m) (mix.ix.idxNeutral.foldl (fun g i => g.set i (0 : ℝ)) m.props.ln_g) st.m).length =
      species.length := by
    rw [List.length_zipWith, foldl_set_length (fun j => j), hm.1, h4]
    simp [hx]
  refine ⟨⟨_, rfl⟩, ?_, ?_⟩
  · rw [getD_set _ _ _ _ (by rw [hlen]; exact w.2), if_pos rfl]
    split
    · rfl
    · rename_i h
      rw [not_not.mp h, Real.log_one]
  · intro i hi
    rw [getD_set _ _ _ _ (by rw [hlen]; exact w.2), if_neg (fun e => hi (Fin.ext e))]
    have hz : ∀ (a b : List ℝ), (i : Nat) < a.length → (i : Nat) < b.length →
        (List.zipWith (fun g m => g + Real.log m) a b).getD i 0 = a.getD i 0 + Real.log (b.getD i 0) := by
      intro a b ha hb
      simp [ha, hb]
    rw [hz _ _ (by rw [foldl_set_length (fun j => j), hm.1]; exact i.2) (by rw [h4]; simp [hx]), hget i i.2,
      foldl_set_mem (fun j : Nat => j) (fun _ => (0 : ℝ)) mix.ix.idxNeutral m.props.ln_g (by simpa using hnd) (i : Nat)
      ((hmem i).mpr ⟨fun e => hi (Fin.ext e), i.2⟩) (by rw [hm.1]; exact i.2), zero_add]

/-- **C60.** With neutral solutes, Gibbs–Duhem fails at every point of every dilution path: the weighted sum is the amount of solutes. -/
theorem C60_neutral_wrong (reactions : List Registries.Reaction) (rho0 eps0 : ℝ) (p : HKFParams) (species : List (Species ℝ)) (f : Fn)
    (hf : hkf reactions rho0 eps0 p species = .ok f) (w : Fin species.length) (hs : NeutralSolution species w) (m : Mem)
    (hm : Fits m species.length) (T P : ℝ) (n : Fin species.length → ℝ) (hn : ∀ i, 0 < n i) (hsol : ∃ i, i ≠ w) (t : ℝ) (ht : 0 < t) :
    let x : Fin species.length → ℝ → ℝ := fun i s => if i = w then n w else s * n i
    ¬ GibbsDuhem x (fun i s => lnA (f T P (moleFractionsOf (along x s)) m) i) t := by
  intro x
  have hM : (0 : ℝ) < waterMolarMass := by unfold waterMolarMass; norm_num
  have hw0 := hn w
  have hxw : ∀ s, x w s = n w := fun s => if_pos rfl
  have hxo : ∀ s i, i ≠ w → x i s = s * n i := fun s i hi => if_neg hi
  have hxpos : ∀ s, 0 < s → ∀ i, 0 < x i s := by
    intro s hs0 i
    by_cases hi : i = w
    · rw [hi, hxw]; exact hw0
    · rw [hxo s i hi]; exact mul_pos hs0 (hn i)
  have hsum : ∀ s, 0 < s → 0 < (along x s).sum := by
    intro s hs0
    rw [along, List.sum_ofFn]
    exact Finset.sum_pos (fun i _ => hxpos s hs0 i) ⟨w, Finset.mem_univ w⟩
  have hmf : ∀ s (i : Fin species.length), (moleFractionsOf (along x s)).getD i 0 = x i s / (along x s).sum := by
    intro s i
    have hl : (i : Nat) < (along x s).length := by simp [along]
    have : (moleFractionsOf (along x s)).getD i 0 = (along x s).getD i 0 / (along x s).sum := by
      unfold moleFractionsOf
      simp [hl]
    rw [this]
    congr 1
    simp [along]
  have heval : ∀ s, 0 < s → lnA (f T P (moleFractionsOf (along x s)) m) w = 0 ∧
      ∀ i : Fin species.length, i ≠ w →
        lnA (f T P (moleFractionsOf (along x s)) m) i = Real.log (s * (n i / (waterMolarMass * n w))) := by
    intro s hs0
    have hS := hsum s hs0
    obtain ⟨-, e1, e2⟩ := C60_neutral reactions rho0 eps0 p species f hf w hs m hm T P (moleFractionsOf (along x s))
      (by simp [moleFractionsOf, along]) (by rw [hmf, hxw]; exact (div_pos hw0 hS).ne')
    refine ⟨e1, fun i hi => ?_⟩
    rw [e2 i hi]
    unfold molality
    rw [hmf, hmf, hxw, hxo s i hi]
    congr 1
    field_simp
  rintro ⟨d, hd, hsum0⟩
  have hdw : d w = 0 := by
    refine (hd w).unique ((hasDerivAt_const t (0 : ℝ)).congr_of_eventuallyEq ?_)
    filter_upwards [eventually_gt_nhds ht] with s hs0
    exact (heval s hs0).1
  have hdi : ∀ i, i ≠ w → d i = 1 / t := by
    intro i hi
    have hk : 0 < n i / (waterMolarMass * n w) := div_pos (hn i) (mul_pos hM hw0)
    have h1 : HasDerivAt (fun s => s * (n i / (waterMolarMass * n w))) (n i / (waterMolarMass * n w)) t := by
      simpa using (hasDerivAt_id t).mul_const (n i / (waterMolarMass * n w))
    have h2 := h1.log (mul_pos ht hk).ne'
    refine (hd i).unique ((h2.congr_of_eventuallyEq ?_).congr_deriv ?_)
    · filter_upwards [eventually_gt_nhds ht] with s hs0
      exact (heval s hs0).2 i hi
    · have := hn i
      field_simp
  rw [← Finset.add_sum_erase _ _ (Finset.mem_univ w), hdw, mul_zero, zero_add] at hsum0
  have : ∑ i ∈ Finset.univ.erase w, x i t * d i = ∑ i ∈ Finset.univ.erase w, n i := by
    apply Finset.sum_congr rfl
    intro i hi
    have hi' := Finset.ne_of_mem_erase hi
    rw [hdi i hi', hxo t i hi']
    field_simp
  rw [this] at hsum0
  obtain ⟨i0, hi0⟩ := hsol
  have : 0 < ∑ i ∈ Finset.univ.erase w, n i :=
    Finset.sum_pos (fun i _ => hn i) ⟨i0, Finset.mem_erase.mpr ⟨hi0, Finset.mem_univ _⟩⟩
  linarith

/-! ## The hypotheses are satisfiable -/

/-- Brine: water, sodium and chloride. -/
def brine : List (Species ℝ) := [⟨c!"H2O(aq)", waterFormula, 0⟩, ⟨c!"Na+", naPlus, 1⟩, ⟨c!"Cl-", clMinus, -1⟩]

theorem brine_ionic : IonicSolution brine (⟨0, by decide⟩ : Fin brine.length) where
  water := by show waterFormula.equivalent waterFormula = true; decide +kernel
  first := by intro i hi; exact absurd hi (by simp [Fin.lt_def])
  ions := by
    intro i hi
    have hl : brine.length = 3 := rfl
    rcases i with ⟨i, h⟩
    rw [hl] at h
    interval_cases i
    · exact absurd rfl hi
    · show (1 : ℝ) ≠ 0; norm_num
    · show (-1 : ℝ) ≠ 0; norm_num

example (reactions : List Registries.Reaction) (rho0 eps0 : ℝ) (p : HKFParams) : ∃ f, hkf reactions rho0 eps0 p brine = .ok f := by
  obtain ⟨mix, hmix⟩ := construct_ok reactions rho0 eps0 brine ⟨0, by decide⟩ brine_ionic.water
  unfold hkf
  rw [hmix]
  exact ⟨_, rfl⟩

example : ∑ i ∈ Finset.univ.erase (⟨0, by decide⟩ : Fin brine.length), (fun _ => (1 : ℝ)) i * brine[i].charge = 0 := by
  show ∑ i ∈ Finset.univ.erase (0 : Fin 3), (1 : ℝ) * (brine[i]'(i.2)).charge = 0
  rw [show (Finset.univ.erase (0 : Fin 3)) = {1, 2} from by decide +kernel]
  simp [brine]

/-- Carbonated water. -/
def soda : List (Species ℝ) := [⟨c!"H2O(aq)", waterFormula, 0⟩, ⟨c!"CO2(aq)", ⟨c!"CO2", [(c!"C", 1), (c!"O", 2)], 0⟩, 0⟩]

theorem soda_neutral : NeutralSolution soda (⟨0, by decide⟩ : Fin soda.length) where
  water := by show waterFormula.equivalent waterFormula = true; decide +kernel
  first := by intro i hi; exact absurd hi (by simp [Fin.lt_def])
  neutral := by
    intro i hi
    have hl : soda.length = 2 := rfl
    rcases i with ⟨i, h⟩
    rw [hl] at h
    interval_cases i
    · exact absurd rfl hi
    · rfl

end Verif.Activity
