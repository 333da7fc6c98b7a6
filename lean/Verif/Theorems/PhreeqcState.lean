import Verif.Spec.PhreeqcState
import Mathlib.Data.List.GetD
import Mathlib.Tactic.Ring
import Mathlib.Tactic.Linarith
import Mathlib.Tactic.NormNum
import Mathlib.Tactic.FieldSimp

/-!
# C94: the properties of `Phreeqc` at given temperature, pressure and amounts
-/

namespace Verif.PhreeqcState

theorem waterMolarMass_pos : 0 < waterMolarMass := by norm_num [waterMolarMass]

/-- Temperature, pressure, Gibbs energies, volumes and equilibrium constants after `set(T, P)`. -/
theorem setTP_eq {y : Sys} (w : WellFormed y) (s : State) (T P : ℝ) :
    setTP y s T P = .ok { setTP0 s T P with
      mu := s.I
      k := phreeqcK y T P 0
      G0 := gibbs y T P 0
      V0 := volumes y T P 0 } := by
  have hw : y.iH2O < y.numSpecies := by have := w.water; unfold Sys.numSpecies; omega
  unfold setTP updateThermo
  simp only [lnActivityConstants, if_pos hw, Res.bind_ok']
  congr 2
  · simp only [molarGibbs, lnEquilibriumConstants, gibbs, phreeqcK, setTP0]
    apply List.map_congr_left
    intro x _
    ring
  · simp only [molarVolumes, volumes, phreeqcK, setTP0]
    congr 1
    · congr 1
      apply List.map_congr_left
      intro x _
      ring
    · apply List.map_congr_left
      intro x _
      ring

theorem getD_take_lt (n : List ℝ) (k i : Nat) (h : i < k) (hn : i < n.length) : at! (n.take k) i = .ok (n.getD i 0) := by
  rw [at!_of_lt _ _ (by simp; omega)]
  congr 1
  rw [List.getElem_take, List.getD_eq_getElem _ _ hn]

theorem ionic_eq {y : Sys} {n : List ℝ} :
    (List.zipWith (fun n z => n * z * z) (n.take y.z.length) y.z).sum * ((1 / 2) / kgWater y n) = ionicStrength y n := by
  unfold ionicStrength molalities aqueousAmounts
  rw [List.zipWith_map_left]
  generalize kgWater y n = m
  generalize n.take y.z.length = a
  generalize y.z = z
  induction a generalizing z with
  | nil => simp
  | cons x a ih =>
    cases z with
    | nil => simp
    | cons c z =>
      have := ih z
      simp only [List.zipWith_cons_cons, List.sum_cons]
      rw [add_mul, this]
      ring

/-- The state after `set(T, P, n)`. -/
theorem setTPn_eq {y : Sys} (w : WellFormed y) {s : State} (hg : NoGasLeft y s) (T P : ℝ) {n : List ℝ} (hn : n.length = y.numSpecies)
    (hw : 0 < n.getD y.iH2O 0) : ∃ s', setTPn y s T P n = .ok s' ∧
      s'.T = T ∧ s'.P = P ∧ s'.n = n ∧ s'.I = ionicStrength y n ∧ s'.k = phreeqcK y T P (ionicStrength y n) ∧
      s'.G0 = gibbs y T P 0 ∧ s'.V0 = volumes y T P 0 ∧ s'.G0I = gibbs y T P (ionicStrength y n) ∧
      s'.lm = logMolalities y n ∧
      s'.lngAq = (coefficients y T P n).map (· * Real.log 10) ∧
      s'.lnaAq = (List.zipWith (fun g m => match m with | some m => some (g + m * Real.log 10) | none => some 0)
        ((coefficients y T P n).map (· * Real.log 10)) (logMolalities y n)).set y.iH2O (logE (waterActivity y T P n)) ∧
      s'.lngGas = (if y.nGas = 0 then [] else (gases y T P n).2.map fun x => logE x.2) ∧
      s'.lnaGas = (if y.nGas = 0 then [] else (gases y T P n).2.map fun x => logE (x.1 * x.2 * (P / 100000))) ∧
      s'.vAq = (if 0 < (aqueousAmounts y n).sum then
        (List.zipWith (· * ·) ((phreeqcK y T P (ionicStrength y n)).vm.map (· / 1000000)) (aqueousAmounts y n)).sum / (aqueousAmounts y n).sum else 0) ∧
      (y.nGas ≠ 0 → s'.vGas = if 0 < (gasAmounts y n).sum then (gases y T P n).1 else 0) := by
  have hwl := w.water
  have hlen : ¬ (n.length < y.z.length + y.nGas ∨ n.length < y.minVol.length) := by
    rw [hn]; unfold Sys.numSpecies; omega
  have hnw : at! (n.take y.z.length) y.iH2O = .ok (n.getD y.iH2O 0) := getD_take_lt n _ _ hwl (by rw [hn]; unfold Sys.numSpecies; omega)
  have hm : 0 < n.getD y.iH2O 0 * waterMolarMass := mul_pos hw waterMolarMass_pos
  have hI := ionic_eq (y := y) (n := n)
  unfold kgWater at hI
  have hset : setSpeciesAmounts y (setTP0 s T P) n = .ok { setTP0 s T P with
      n := n, lm := logMolalities y n, I := ionicStrength y n, mu := ionicStrength y n } := by
    unfold setSpeciesAmounts
    rw [if_neg hlen]
    simp only [hnw, Res.bind_ok']
    rw [if_pos hm]
    simp only [hI]
    congr 2
    simp only [logMolalities, molalities, aqueousAmounts, kgWater, List.map_map]
    rfl
  have hthermo : updateThermo y { setTP0 s T P with n := n, lm := logMolalities y n, I := ionicStrength y n, mu := ionicStrength y n } =
      .ok { setTP0 s T P with n := n, lm := logMolalities y n, I := ionicStrength y n, mu := ionicStrength y n
                              k := phreeqcK y T P 0, G0 := gibbs y T P 0, V0 := volumes y T P 0 } :=
    setTP_eq w { s with n := n, lm := logMolalities y n, I := ionicStrength y n, mu := ionicStrength y n } T P
  unfold setTPn
  rw [hset, Res.bind_ok', hthermo, Res.bind_ok']
  unfold updateChemical
  dsimp only
  have hG : molarGibbs y { setTP0 s T P with
      n := n, lm := logMolalities y n, I := ionicStrength y n, mu := ionicStrength y n
      k := y.kTemp (setTP0 s T P).tc (setTP0 s T P).patm (ionicStrength y n), G0 := gibbs y T P 0, V0 := volumes y T P 0 } =
      gibbs y T P (ionicStrength y n) := by
    simp only [molarGibbs, lnEquilibriumConstants, gibbs, phreeqcK, setTP0]
    apply List.map_congr_left
    intro x _
    ring
  rw [hG]
  unfold updateAqueous
  dsimp only
  rw [hnw, Res.bind_ok']
  have hvt : (molarVolumes y { setTP0 s T P with
      n := n, lm := logMolalities y n, I := ionicStrength y n, mu := ionicStrength y n
      k := y.kTemp (setTP0 s T P).tc (setTP0 s T P).patm (ionicStrength y n), G0 := gibbs y T P 0, V0 := volumes y T P 0
      G0I := gibbs y T P (ionicStrength y n) }).take y.z.length = (phreeqcK y T P (ionicStrength y n)).vm.map (· / 1000000) := by
    simp only [molarVolumes]
    rw [List.append_assoc, List.take_append_of_le_length (by simp [w.vm]), List.take_of_length_le (by simp [w.vm])]
    apply List.map_congr_left
    intro x _
    ring
  have hr : (if y.isPitzer = true then y.pitzer (setTP0 s T P).tc (setTP0 s T P).patm (ionicStrength y n) (logMolalities y n)
      else (y.gammas (setTP0 s T P).tc (setTP0 s T P).patm (ionicStrength y n) (logMolalities y n), 0)).1 = coefficients y T P n := by
    unfold coefficients setTP0
    split <;> rfl
  have ha : (if y.isPitzer = true then logE (if y.isPitzer = true then y.pitzer (setTP0 s T P).tc (setTP0 s T P).patm (ionicStrength y n) (logMolalities y n)
      else (y.gammas (setTP0 s T P).tc (setTP0 s T P).patm (ionicStrength y n) (logMolalities y n), 0)).2
      else logE (n.getD y.iH2O 0 / (n.take y.z.length).sum)) = logE (waterActivity y T P n) := by
    unfold waterActivity setTP0 aqueousAmounts
    split <;> rfl
  rw [hvt, hr, ha, Res.bind_ok']
  have hlc : (coefficients y T P n).length = y.z.length := by
    unfold coefficients
    split
    · exact w.pitzer _ _ _ _
    · exact w.gammas _ _ _ _
  have hlm : (logMolalities y n).length = y.z.length := by
    unfold logMolalities molalities aqueousAmounts
    rw [List.length_map, List.length_map, List.length_take, hn]
    unfold Sys.numSpecies
    omega
  by_cases hgas : y.nGas = 0
  · obtain ⟨g1, g2⟩ := hg hgas
    unfold updateGaseous
    rw [if_pos hgas]
    unfold lnActivityCoefficients lnActivities fill
    dsimp only
    have e1 : (setTP0 s T P).lngGas = [] := g1
    have e2 : (setTP0 s T P).lnaGas = [] := g2
    rw [if_pos (by simp [e1, hlc, Sys.numSpecies, hgas]), if_pos (by simp [e2, hlc, hlm, Sys.numSpecies, hgas]), if_pos hgas, if_pos hgas]
    refine ⟨_, rfl, rfl, rfl, rfl, rfl, rfl, rfl, rfl, rfl, rfl, rfl, rfl, e1, e2, rfl, ?_⟩
    intro h
    exact absurd hgas h
  · unfold updateGaseous
    rw [if_neg hgas]
    unfold lnActivityCoefficients lnActivities fill
    dsimp only
    rw [if_pos (by simp [hlc, Sys.numSpecies, w.peng, Nat.add_assoc]), if_pos (by simp [hlc, hlm, Sys.numSpecies, w.peng, Nat.add_assoc]), if_neg hgas, if_neg hgas]
    exact ⟨_, rfl, rfl, rfl, rfl, rfl, rfl, rfl, rfl, rfl, rfl, rfl, rfl, rfl, rfl, rfl, fun _ => rfl⟩

/-- The logarithm of the activity that is put together from the parts. -/
theorem base_get {y : Sys} (w : WellFormed y) {T P : ℝ} {n : List ℝ} (hn : n.length = y.numSpecies) (hw : 0 < n.getD y.iH2O 0) :
    ((List.zipWith (fun g m => match m with | some m => some (g + m * Real.log 10) | none => some 0)
        ((coefficients y T P n).map (· * Real.log 10)) (logMolalities y n)).set y.iH2O (logE (waterActivity y T P n))) ++
      (if y.nGas = 0 then [] else (gases y T P n).2.map fun x => logE (x.1 * x.2 * (P / 100000))) ++ List.replicate y.minVol.length (some 0) =
    (List.range y.numSpecies).map (baseActivity y T P n) := by
  have hlc : (coefficients y T P n).length = y.z.length := by
    unfold coefficients
    split
    · exact w.pitzer _ _ _ _
    · exact w.gammas _ _ _ _
  have hlm : (logMolalities y n).length = y.z.length := by
    unfold logMolalities molalities aqueousAmounts
    rw [List.length_map, List.length_map, List.length_take, hn]
    unfold Sys.numSpecies
    omega
  have hlg : (if y.nGas = 0 then [] else (gases y T P n).2.map fun x => logE (x.1 * x.2 * (P / 100000))).length = y.nGas := by
    split
    · rename_i h; simp [h]
    · simp [gases, w.peng]
  have hM : 0 < kgWater y n := mul_pos hw waterMolarMass_pos
  have hlog : Real.log 10 ≠ 0 := ne_of_gt (Real.log_pos (by norm_num))
  apply List.ext_getElem?
  intro i
  by_cases hi : i < y.numSpecies
  · rw [List.getElem?_map, List.getElem?_range hi, Option.map_some]
    unfold baseActivity
    by_cases h1 : i < y.z.length
    · rw [List.append_assoc, List.getElem?_append_left (by simp [hlc, hlm, h1])]
      by_cases h2 : i = y.iH2O
      · rw [if_pos h2, h2, List.getElem?_set_self (by simp [hlc, hlm, w.water])]
      · rw [if_neg h2, if_pos h1, List.getElem?_set_ne (fun h => h2 h.symm)]
        have hin : i < n.length := by rw [hn]; exact hi
        rw [List.getElem?_zipWith, List.getElem?_map, List.getElem?_eq_getElem (by omega : i < (coefficients y T P n).length),
          List.getElem?_eq_getElem (by omega : i < (logMolalities y n).length)]
        have hlmi : (logMolalities y n)[i]'(by omega) = log10E (n[i] / kgWater y n) := by
          simp [logMolalities, molalities, aqueousAmounts]
        simp only [Option.map_some]
        rw [hlmi, List.getD_eq_getElem _ _ hin, List.getD_eq_getElem _ _ (by omega : i < (coefficients y T P n).length)]
        unfold log10E
        by_cases h3 : 0 < n[i]
        · rw [if_pos (div_pos h3 hM), if_pos h3]
          dsimp only
          rw [div_mul_cancel₀ _ hlog]
        · rw [if_neg (by rw [div_pos_iff]; push Not; exact ⟨fun h => absurd h h3, fun _ => le_of_lt hM⟩), if_neg h3]
    · have h2 : i ≠ y.iH2O := by have := w.water; omega
      rw [if_neg h2, if_neg h1]
      by_cases h4 : i < y.z.length + y.nGas
      · rw [if_pos h4, List.getElem?_append_left (by simp only [List.length_append, List.length_set, List.length_zipWith, List.length_map, hlc, hlm, hlg]; omega),
          List.getElem?_append_right (by simp [hlc, hlm]; omega)]
        have hne : y.nGas ≠ 0 := by omega
        rw [if_neg hne]
        simp only [List.length_set, List.length_zipWith, List.length_map, hlc, hlm, min_self]
        have hk : i - y.z.length < (gases y T P n).2.length := by simp [gases, w.peng]; omega
        rw [List.getElem?_map, List.getElem?_eq_getElem hk, List.getD_eq_getElem _ _ hk]
        rfl
      · rw [if_neg h4, List.getElem?_append_right (by simp only [List.length_append, List.length_set, List.length_zipWith, List.length_map, hlc, hlm, hlg]; omega)]
        simp only [List.length_append, List.length_set, List.length_zipWith, List.length_map, hlc, hlm, hlg, min_self]
        rw [List.getElem?_replicate, if_pos (by unfold Sys.numSpecies at hi; omega)]
  · rw [List.getElem?_eq_none (by
      simp only [List.length_append, List.length_set, List.length_zipWith, List.length_map, hlc, hlm, hlg, List.length_replicate, min_self]
      unfold Sys.numSpecies at hi; omega), List.getElem?_eq_none (by simp; omega)]

theorem gibbs_length {y : Sys} (w : WellFormed y) (T P I : ℝ) : (gibbs y T P I).length = y.numSpecies := by
  unfold gibbs
  rw [List.length_map, w.solve]

/-- After `set(T, P, n)` with some water, all properties are those at the given temperature, pressure and amounts, whatever was done before. -/
theorem C94_set {y : Sys} (w : WellFormed y) {s : State} (hg : NoGasLeft y s) (T P : ℝ) {n : List ℝ} (hn : n.length = y.numSpecies)
    (hw : 0 < n.getD y.iH2O 0) : ∃ s', setTPn y s T P n = .ok s' ∧ s'.T = T ∧ s'.P = P ∧ s'.n = n ∧
      s'.G0 = gibbs y T P 0 ∧ s'.V0 = volumes y T P 0 ∧
      lnActivities y s' = .ok ((List.range y.numSpecies).map (activity y T P n)) ∧
      lnActivityCoefficients y s' = .ok ((List.range y.numSpecies).map (coefficient y T P n)) ∧
      phaseMolarVolumes y s' = phaseVolumes y T P n := by
  obtain ⟨s', h, h1, h2, h3, h4, h5, h6, h7, h8, h9, h10, h11, h12, h13, h14, h15⟩ := setTPn_eq w hg T P hn hw
  refine ⟨s', h, h1, h2, h3, h6, h7, ?_, ?_, ?_⟩
  · unfold lnActivities fill
    rw [h11, h13, base_get w hn hw, if_pos (by simp), Res.bind_ok', h8, h6, h1]
    congr 1
    apply List.ext_getElem?
    intro i
    rw [List.getElem?_zipWith, List.getElem?_zipWith, List.getElem?_map, List.getElem?_map]
    by_cases hi : i < y.numSpecies
    · have l1 : i < (gibbs y T P (ionicStrength y n)).length := by rw [gibbs_length w]; exact hi
      have l2 : i < (gibbs y T P 0).length := by rw [gibbs_length w]; exact hi
      rw [List.getElem?_range hi, List.getElem?_eq_getElem l1, List.getElem?_eq_getElem l2]
      simp only [Option.map_some]
      unfold activity
      rw [List.getD_eq_getElem _ _ l1, List.getD_eq_getElem _ _ l2]
    · rw [List.getElem?_eq_none (by simp; omega : (List.range y.numSpecies).length ≤ i)]
      rfl
  · have hlc : (coefficients y T P n).length = y.z.length := by
      unfold coefficients
      split
      · exact w.pitzer _ _ _ _
      · exact w.gammas _ _ _ _
    have hlg : (if y.nGas = 0 then [] else (gases y T P n).2.map fun x => logE x.2).length = y.nGas := by
      split
      · rename_i h; simp [h]
      · simp [gases, w.peng]
    unfold lnActivityCoefficients fill
    rw [h10, h12, if_pos (by simp only [List.length_append, List.length_map, List.length_replicate, hlc, hlg]; rfl)]
    congr 1
    apply List.ext_getElem?
    intro i
    rw [List.getElem?_map (l := List.range _)]
    by_cases hi : i < y.numSpecies
    · rw [List.getElem?_range hi, Option.map_some]
      unfold coefficient
      by_cases q1 : i < y.z.length
      · rw [if_pos q1, List.append_assoc, List.getElem?_append_left (by simp [hlc, q1]), List.getElem?_map, List.getElem?_map,
          List.getElem?_eq_getElem (by omega : i < (coefficients y T P n).length), List.getD_eq_getElem _ _ (by omega : i < (coefficients y T P n).length)]
        rfl
      · rw [if_neg q1]
        by_cases q2 : i < y.z.length + y.nGas
        · have hne : y.nGas ≠ 0 := by omega
          have hk : i - y.z.length < (gases y T P n).2.length := by simp [gases, w.peng]; omega
          rw [if_pos q2, List.getElem?_append_left (by simp only [List.length_append, List.length_map, hlc, hlg]; omega),
            List.getElem?_append_right (by simp [hlc]; omega), if_neg hne]
          simp only [List.length_map, hlc]
          rw [List.getElem?_map, List.getElem?_eq_getElem hk, List.getD_eq_getElem _ _ hk]
          rfl
        · rw [if_neg q2, List.getElem?_append_right (by simp only [List.length_append, List.length_map, hlc, hlg]; omega)]
          simp only [List.length_append, List.length_map, hlc, hlg]
          rw [List.getElem?_replicate, if_pos (by unfold Sys.numSpecies at hi; omega)]
    · rw [List.getElem?_eq_none (by simp only [List.length_append, List.length_map, List.length_replicate, hlc, hlg]; unfold Sys.numSpecies at hi; omega),
        List.getElem?_eq_none (by simp; omega)]
      rfl
  · unfold phaseMolarVolumes phaseVolumes
    have hz : y.z.length ≠ 0 := by have := w.water; omega
    have hv : s'.V0.drop (s'.V0.length - y.minVol.length) = y.minVol.map (· / 1000000) := by
      rw [h7]
      unfold volumes
      rw [List.drop_append_of_le_length (by simp; omega), List.drop_eq_nil_of_le (by simp; omega)]
      rfl
    rw [if_pos hz, h14, hv]
    by_cases q : y.nGas = 0
    · simp [q]
    · simp [q, h15 q]

/-- If the call returns, no arrays of gases were left over. -/
theorem noGasLeft_of_ok {y : Sys} (w : WellFormed y) {s s' : State} {T P : ℝ} {n : List ℝ} (h : setTPn y s T P n = .ok s') (hn : n.length = y.numSpecies)
    (hw : 0 < n.getD y.iH2O 0) : NoGasLeft y s := by
  intro hgas
  unfold setTPn at h
  cases h1 : setSpeciesAmounts y (setTP0 s T P) n with
  | throw => rw [h1] at h; exact absurd h (by simp)
  | ub => rw [h1] at h; exact absurd h (by simp)
  | ok s1 =>
    rw [h1, Res.bind_ok'] at h
    have hwl := w.water
    have hnw : at! (n.take y.z.length) y.iH2O = .ok (n.getD y.iH2O 0) := getD_take_lt n _ _ hwl (by rw [hn]; unfold Sys.numSpecies; omega)
    have hs1 : s1.lngGas = s.lngGas ∧ s1.lnaGas = s.lnaGas ∧ s1.lm.length = y.z.length ∧ s1.n = n := by
      unfold setSpeciesAmounts at h1
      split at h1
      · exact absurd h1 (by simp)
      · simp only [hnw, Res.bind_ok'] at h1
        rw [if_pos (mul_pos hw waterMolarMass_pos)] at h1
        injection h1 with h1
        subst h1
        refine ⟨rfl, rfl, ?_, rfl⟩
        simp only [List.length_map, List.length_take, hn]
        unfold Sys.numSpecies
        omega
    obtain ⟨s2, h2, g1, g2, g3, g4⟩ : ∃ s2, updateThermo y s1 = .ok s2 ∧ s2.lngGas = s1.lngGas ∧ s2.lnaGas = s1.lnaGas ∧ s2.lm = s1.lm ∧ s2.n = s1.n := by
      have hw : y.iH2O < y.numSpecies := by unfold Sys.numSpecies; omega
      unfold updateThermo
      simp only [lnActivityConstants, if_pos hw, Res.bind_ok']
      exact ⟨_, rfl, rfl, rfl, rfl, rfl⟩
    rw [h2, Res.bind_ok'] at h
    unfold updateChemical at h
    dsimp only at h
    unfold updateAqueous at h
    dsimp only at h
    rw [g4, hs1.2.2.2, hnw, Res.bind_ok', Res.bind_ok'] at h
    unfold updateGaseous at h
    rw [if_pos hgas] at h
    unfold lnActivityCoefficients lnActivities fill at h
    dsimp only at h
    have hl : (if y.isPitzer = true then y.pitzer s2.tc s2.patm s2.mu s2.lm else (y.gammas s2.tc s2.patm s2.mu s2.lm, 0)).1.length = y.z.length := by
      split
      · exact w.pitzer _ _ _ _
      · exact w.gammas _ _ _ _
    generalize (if y.isPitzer = true then y.pitzer s2.tc s2.patm s2.mu s2.lm else (y.gammas s2.tc s2.patm s2.mu s2.lm, 0)) = r at h hl
    generalize (if y.isPitzer = true then logE r.2 else logE (n.getD y.iH2O 0 / (n.take y.z.length).sum)) = wa at h
    split at h
    · rename_i q1
      rw [Res.bind_ok'] at h
      split at h
      · rename_i q2
        simp only [List.length_append, List.length_map, List.length_replicate, List.length_set, List.length_zipWith, hl, g1, g2, g3, hs1.1, hs1.2.1,
          hs1.2.2.1, min_self, Sys.numSpecies, hgas] at q1 q2
        exact ⟨List.eq_nil_of_length_eq_zero (by omega), List.eq_nil_of_length_eq_zero (by omega)⟩
      · exact absurd h (by simp)
    · exact absurd h (by simp)

theorem run_append (c : Option Sys × State) (a b : List Op) : run c (a ++ b) = (run c a).bind fun c => run c b := by
  induction a generalizing c with
  | nil => rfl
  | cons o a ih =>
    simp only [List.cons_append, run]
    cases step c o with
    | ok d => simp [ih]
    | throw => rfl
    | ub => rfl

/-- After any sequence of calls that returns and ends with `set(T, P, n)` with some water, the properties are those at the given temperature, pressure and amounts. -/
theorem C94_history {c : Option Sys × State} {ops : List Op} {T P : ℝ} {n : List ℝ} {y : Sys} {s' : State}
    (h : run c (ops ++ [.setTPn T P n]) = .ok (some y, s')) (w : WellFormed y) (hn : n.length = y.numSpecies) (hw : 0 < n.getD y.iH2O 0) :
    s'.T = T ∧ s'.P = P ∧ s'.n = n ∧ s'.G0 = gibbs y T P 0 ∧ s'.V0 = volumes y T P 0 ∧
      lnActivities y s' = .ok ((List.range y.numSpecies).map (activity y T P n)) ∧
      lnActivityCoefficients y s' = .ok ((List.range y.numSpecies).map (coefficient y T P n)) ∧
      phaseMolarVolumes y s' = phaseVolumes y T P n := by
  rw [run_append] at h
  cases hc : run c ops with
  | throw => rw [hc] at h; exact absurd h (by simp)
  | ub => rw [hc] at h; exact absurd h (by simp)
  | ok d =>
    rw [hc, Res.bind_ok'] at h
    obtain ⟨y0, s0⟩ := d
    simp only [run, step] at h
    cases y0 with
    | none => exact absurd h (by simp)
    | some y0 =>
      dsimp only at h
      cases hs : setTPn y0 s0 T P n with
      | throw => rw [hs] at h; exact absurd h (by simp)
      | ub => rw [hs] at h; exact absurd h (by simp)
      | ok s1 =>
        rw [hs] at h
        simp only [Res.bind_ok', Res.ok.injEq, Prod.mk.injEq, Option.some.injEq] at h
        obtain ⟨rfl, rfl⟩ := h
        obtain ⟨s2, h2, rest⟩ := C94_set w (noGasLeft_of_ok w hs hn hw) T P hn hw
        rw [hs] at h2
        injection h2 with h2
        subst h2
        exact rest

/-- `set(T, P)` gives the standard properties at the new temperature and pressure and keeps the amounts.  The equilibrium constants are those without ionic strength. -/
theorem C94_setTP {y : Sys} (w : WellFormed y) (s : State) (T P : ℝ) : ∃ s', setTP y s T P = .ok s' ∧ s'.T = T ∧ s'.P = P ∧ s'.n = s.n ∧
    s'.G0 = gibbs y T P 0 ∧ s'.V0 = volumes y T P 0 ∧ lnEquilibriumConstants s' = (phreeqcK y T P 0).lk.map (· * ln10) ∧
    lnActivityConstants y s' = .ok ((List.range y.numSpecies).map fun i =>
      if i = y.iH2O then some 0 else if i < y.z.length then some (Real.log (55508472 / 1000000)) else
      if i < y.z.length + y.nGas then logE (P / 100000) else some 0) := by
  refine ⟨_, setTP_eq w s T P, rfl, rfl, rfl, rfl, rfl, rfl, ?_⟩
  have hw := w.water
  have hw' : y.iH2O < y.numSpecies := by unfold Sys.numSpecies; omega
  unfold lnActivityConstants
  rw [if_pos hw']
  congr 1
  apply List.ext_getElem?
  intro i
  simp only [setTP0]
  rw [List.getElem?_set, List.getElem?_map]
  simp only [List.length_append, List.length_replicate]
  by_cases hi : i < y.numSpecies
  · rw [List.getElem?_range hi, Option.map_some]
    by_cases h0 : y.iH2O = i
    · rw [if_pos h0, if_pos h0.symm, if_pos (by unfold Sys.numSpecies at hw'; omega)]
    · rw [if_neg h0, if_neg (fun h => h0 h.symm)]
      by_cases h1 : i < y.z.length
      · rw [if_pos h1, List.append_assoc, List.getElem?_append_left (by simpa using h1), List.getElem?_replicate, if_pos h1]
      · rw [if_neg h1]
        by_cases h2 : i < y.z.length + y.nGas
        · rw [if_pos h2, List.getElem?_append_left (by simpa using h2), List.getElem?_append_right (by simpa using h1), List.getElem?_replicate,
            if_pos (by simp; omega)]
        · rw [if_neg h2, List.getElem?_append_right (by simpa using h2), List.getElem?_replicate, if_pos (by simp; unfold Sys.numSpecies at hi; omega)]
  · have hn : (List.range y.numSpecies)[i]? = none := List.getElem?_eq_none (by simp; omega)
    rw [if_neg (by omega), hn, List.getElem?_eq_none (by simp; unfold Sys.numSpecies at hi; omega)]
    rfl

/-! ## Equilibrium constants and Gibbs energies -/

theorem dot_map (row u : List ℝ) (c : ℝ) : dot row (u.map fun x => -(c * x)) = -(c * dot row u) := by
  unfold dot
  induction row generalizing u with
  | nil => simp
  | cons a row ih =>
    cases u with
    | nil => simp
    | cons b u =>
      have := ih u
      simp only [List.map_cons, List.zipWith_cons_cons, List.sum_cons, this]
      ring

/-- The Gibbs energy of a reaction is minus `RT` times the logarithm of its equilibrium constant, at any ionic strength. -/
theorem reaction_gibbs {y : Sys} {nu : List (List ℝ)} {T P I : ℝ} (h : Solves y nu ((phreeqcK y T P I).lk.map (· * ln10))) {j : Nat} {row : List ℝ}
    (hj : nu[j]? = some row) : ∃ lk, (phreeqcK y T P I).lk[j]? = some lk ∧ dot row (gibbs y T P I) = -(gasConstant * T * (lk * ln10)) := by
  have hj' := congrArg (fun l => l[j]?) h
  simp only [List.getElem?_map, hj, Option.map_some] at hj'
  cases hl : (phreeqcK y T P I).lk[j]? with
  | none => rw [hl] at hj'; exact absurd hj' (by simp)
  | some lk =>
    rw [hl] at hj'
    simp only [Option.map_some, Option.some.injEq] at hj'
    refine ⟨lk, rfl, ?_⟩
    unfold gibbs
    rw [dot_map, hj']

/-- After `set(T, P)`, the standard Gibbs energies and the equilibrium constants that are returned belong together. -/
theorem C94_gibbs {y : Sys} (w : WellFormed y) {nu : List (List ℝ)} (s : State) (T P : ℝ) (h : Solves y nu ((phreeqcK y T P 0).lk.map (· * ln10))) :
    ∃ s', setTP y s T P = .ok s' ∧ ∀ (j : Nat) row, nu[j]? = some row → ∃ lnk, (lnEquilibriumConstants s')[j]? = some lnk ∧
      dot row s'.G0 = -(gasConstant * T * lnk) := by
  refine ⟨_, setTP_eq w s T P, ?_⟩
  intro j row hj
  obtain ⟨lk, hlk, hd⟩ := reaction_gibbs h hj
  refine ⟨lk * ln10, ?_, hd⟩
  simp [lnEquilibriumConstants, hlk]

theorem dot_add (row u v : List ℝ) (h : u.length = v.length) : dot row (List.zipWith (· + ·) u v) = dot row u + dot row v := by
  unfold dot
  induction row generalizing u v with
  | nil => simp
  | cons a row ih =>
    cases u with
    | nil =>
      cases v with
      | nil => simp
      | cons => simp at h
    | cons b u =>
      cases v with
      | nil => simp at h
      | cons c v =>
        have := ih u v (by simpa using h)
        simp only [List.zipWith_cons_cons, List.sum_cons, this]
        ring

theorem dot_smul (row u : List ℝ) (c : ℝ) : dot row (u.map fun x => c * x) = c * dot row u := by
  unfold dot
  induction row generalizing u with
  | nil => simp
  | cons a row ih =>
    cases u with
    | nil => simp
    | cons b u =>
      have := ih u
      simp only [List.map_cons, List.zipWith_cons_cons, List.sum_cons, this]
      ring

/-- The affinities are those of the law of mass action: with the chemical potentials from the standard Gibbs energies and the activities, the potential of a
reaction is `RT` times the logarithm of the activity product over the equilibrium constant at the ionic strength of the solution. -/
theorem C94_mass_action {y : Sys} (w : WellFormed y) {nu : List (List ℝ)} {T P : ℝ} {n : List ℝ} (hT : T ≠ 0)
    (h1 : Solves y nu ((phreeqcK y T P (ionicStrength y n)).lk.map (· * ln10))) {a base : List ℝ}
    (ha : (List.range y.numSpecies).map (activity y T P n) = a.map some) (hb : (List.range y.numSpecies).map (baseActivity y T P n) = base.map some)
    {j : Nat} {row : List ℝ} (hj : nu[j]? = some row) :
    ∃ lk, (phreeqcK y T P (ionicStrength y n)).lk[j]? = some lk ∧
      dot row (List.zipWith (· + ·) (gibbs y T P 0) (a.map (gasConstant * T * ·))) = gasConstant * T * (dot row base - lk * ln10) := by
  obtain ⟨lk, hlk, hd⟩ := reaction_gibbs h1 hj
  refine ⟨lk, hlk, ?_⟩
  have hR : gasConstant * T ≠ 0 := mul_ne_zero (by norm_num [gasConstant]) hT
  have la : a.length = y.numSpecies := by have := congrArg List.length ha; simpa using this.symm
  have lb : base.length = y.numSpecies := by have := congrArg List.length hb; simpa using this.symm
  have key : List.zipWith (· + ·) (gibbs y T P 0) (a.map (gasConstant * T * ·)) =
      List.zipWith (· + ·) (base.map fun x => gasConstant * T * x) (gibbs y T P (ionicStrength y n)) := by
    apply List.ext_getElem?
    intro i
    by_cases hi : i < y.numSpecies
    · have l1 : i < (gibbs y T P (ionicStrength y n)).length := by rw [gibbs_length w]; exact hi
      have l2 : i < (gibbs y T P 0).length := by rw [gibbs_length w]; exact hi
      have ea := congrArg (fun l => l[i]?) ha
      have eb := congrArg (fun l => l[i]?) hb
      simp only [List.getElem?_map, List.getElem?_range hi, List.getElem?_eq_getElem (by omega : i < a.length),
        List.getElem?_eq_getElem (by omega : i < base.length), Option.map_some, Option.some.injEq] at ea eb
      unfold activity at ea
      rw [eb, Option.map_some, Option.some.injEq, List.getD_eq_getElem _ _ l1, List.getD_eq_getElem _ _ l2] at ea
      rw [List.getElem?_zipWith, List.getElem?_zipWith, List.getElem?_map, List.getElem?_map, List.getElem?_eq_getElem l1, List.getElem?_eq_getElem l2,
        List.getElem?_eq_getElem (by omega : i < a.length), List.getElem?_eq_getElem (by omega : i < base.length)]
      simp only [Option.map_some, Option.some.injEq]
      rw [← ea, mul_add, mul_div_cancel₀ _ hR]
      ring
    · rw [List.getElem?_eq_none (by simp [gibbs_length w, la]; omega), List.getElem?_eq_none (by simp [gibbs_length w, lb]; omega)]
  rw [key, dot_add _ _ _ (by simp [gibbs_length w, lb]), dot_smul, hd]
  ring

/-! ## Wrong cases -/

/-- Water and one ion, with a reaction whose equilibrium constant depends on temperature and ionic strength. -/
noncomputable def demo : Sys where
  z := [0, 1]
  nGas := 0
  minVol := []
  iH2O := 0
  isPitzer := false
  solve b := [b.getD 0 0, 0]
  kTemp tc _ mu := ⟨[tc + mu], [18, 0]⟩
  gammas _ _ _ _ := [0, 0]
  pitzer _ _ _ _ := ([0, 0], 1)
  peng _ _ _ := (0, [])

theorem demo_wellFormed : WellFormed demo where
  water := by simp [demo]
  vm := by simp [demo]
  solve := by simp [demo, Sys.numSpecies]
  gammas := by simp [demo]
  pitzer := by simp [demo]
  peng := by simp [demo]

/-- The same with a gas. -/
noncomputable def withGas : Sys :=
  { demo with
    nGas := 1
    solve := fun b => [b.getD 0 0, 0, 0]
    peng := fun _ _ _ => (1, [(1, 1)]) }

theorem withGas_wellFormed : WellFormed withGas where
  water := by simp [demo, withGas]
  vm := by simp [demo, withGas]
  solve := by simp [demo, withGas, Sys.numSpecies]
  gammas := by simp [demo, withGas]
  pitzer := by simp [demo, withGas]
  peng := by simp [withGas]

/-- A new object. Its numbers are not initialised; zeros stand for them. -/
def fresh : State := ⟨0, 0, 0, [], 0, 0, 0, [], ⟨[], []⟩, [], [], [], [], [], [], [], [], 0, 0⟩

/-- The hypotheses above are met: a script is executed and the state is set twice. -/
example : ∃ s', run (none, fresh) ([.execute demo 300 100000 [1, 1], .setTP 310 100000] ++ [.setTPn 320 100000 [2, 1]]) = .ok (some demo, s') ∧
    WellFormed demo ∧ ([2, 1] : List ℝ).length = demo.numSpecies ∧ 0 < ([2, 1] : List ℝ).getD demo.iH2O 0 := by
  obtain ⟨s1, h1, _⟩ := C94_set demo_wellFormed (s := fresh) (by intro; exact ⟨rfl, rfl⟩) 300 100000 (n := [1, 1]) (by simp [demo, Sys.numSpecies])
    (by simp [demo])
  obtain ⟨_, e1, _, _, _, _, _, _, _, _, _, _, _, e12, e13, _⟩ := setTPn_eq demo_wellFormed (s := fresh) (by intro; exact ⟨rfl, rfl⟩) 300 100000
    (n := [1, 1]) (by simp [demo, Sys.numSpecies]) (by simp [demo])
  rw [h1] at e1
  injection e1 with e1
  subst e1
  have hz : demo.nGas = 0 := rfl
  rw [if_pos hz] at e12 e13
  have h2 := setTP_eq demo_wellFormed s1 310 100000
  obtain ⟨s3, h3, _⟩ := C94_set demo_wellFormed (s := { setTP0 s1 310 100000 with
      mu := s1.I, k := phreeqcK demo 310 100000 0, G0 := gibbs demo 310 100000 0, V0 := volumes demo 310 100000 0 })
    (by intro; exact ⟨e12, e13⟩) 320 100000 (n := [2, 1]) (by simp [demo, Sys.numSpecies]) (by simp [demo])
  refine ⟨s3, ?_, demo_wellFormed, by simp [demo, Sys.numSpecies], by simp [demo]⟩
  simp only [List.cons_append, List.nil_append, run, step, h1, Res.bind_ok']
  rw [h2]
  simp only [Res.bind_ok']
  rw [h3]
  rfl

/-- A new object cannot be used before a script was executed. -/
theorem C94_fresh_wrong (s : State) (T P : ℝ) (n : List ℝ) : run (none, s) [.setTP T P] = .ub ∧ run (none, s) [.setTPn T P n] = .ub := ⟨rfl, rfl⟩

/-- If a script with gases is executed and then one without, the arrays of the gases are still there and the arrays of all species are written beyond their
end, although each of the scripts can be executed on its own. -/
theorem C94_execute_wrong : (∃ c, run (none, fresh) [.execute demo 300 100000 [1, 1]] = .ok c) ∧
    (∃ c, run (none, fresh) [.execute withGas 300 100000 [1, 1, 1]] = .ok c) ∧
    ¬ ∃ c, run (none, fresh) [.execute withGas 300 100000 [1, 1, 1], .execute demo 300 100000 [1, 1]] = .ok c := by
  obtain ⟨s1, h1, _⟩ := C94_set demo_wellFormed (s := fresh) (by intro; exact ⟨rfl, rfl⟩) 300 100000 (n := [1, 1]) (by simp [demo, Sys.numSpecies])
    (by simp [demo])
  obtain ⟨s2, h2, _, _, _, _, _, _, _, _, _, _, _, e, _⟩ := setTPn_eq withGas_wellFormed (s := fresh) (by intro; exact ⟨rfl, rfl⟩) 300 100000 (n := [1, 1, 1])
    (by simp [demo, withGas, Sys.numSpecies]) (by simp [demo, withGas])
  refine ⟨⟨(some demo, s1), by simp only [run, step, h1, Res.bind_ok']⟩, ⟨(some withGas, s2), by simp only [run, step, h2, Res.bind_ok']⟩, ?_⟩
  rintro ⟨c, hc⟩
  simp only [run, step, h2, Res.bind_ok'] at hc
  cases h3 : setTPn demo s2 300 100000 [1, 1] with
  | throw => rw [h3] at hc; exact absurd hc (by simp)
  | ub => rw [h3] at hc; exact absurd hc (by simp)
  | ok s3 =>
    have := (noGasLeft_of_ok demo_wellFormed h3 (by simp [demo, Sys.numSpecies]) (by simp [demo]) rfl).1
    rw [e, if_neg (by simp [withGas])] at this
    simp [gases, withGas] at this

/-- The activities after `set(T, P)` are neither those at the new temperature nor those at the old one: the term for the ionic strength takes the difference of
Gibbs energies at two temperatures. -/
theorem C94_setTP_wrong : ∃ (y : Sys) (s s' : State) (n : List ℝ), WellFormed y ∧ setTPn y fresh 300 100000 n = .ok s ∧ setTP y s 400 100000 = .ok s' ∧
    s'.T = 400 ∧ s'.n = n ∧
    lnActivities y s' ≠ .ok ((List.range y.numSpecies).map (activity y 400 100000 n)) ∧
    lnActivities y s' ≠ .ok ((List.range y.numSpecies).map (activity y 300 100000 n)) := by
  obtain ⟨s, h, h1, h2, h3, h4, h5, h6, h7, h8, h9, h10, h11, h12, h13, h14, h15⟩ := setTPn_eq demo_wellFormed (s := fresh) (by intro; exact ⟨rfl, rfl⟩) 300 100000
    (n := [1, 0]) (by simp [demo, Sys.numSpecies]) (by simp [demo])
  refine ⟨demo, s, _, [1, 0], demo_wellFormed, h, setTP_eq demo_wellFormed s 400 100000, rfl, h3, ?_, ?_⟩
  all_goals
    intro hh
    unfold lnActivities fill at hh
    dsimp only [setTP0] at hh
    simp only [h8, h11, h13] at hh
    simp [demo, Sys.numSpecies, activity, baseActivity, gibbs, phreeqcK, waterActivity, aqueousAmounts, coefficients, logMolalities, molalities, kgWater,
      ionicStrength, logE, List.range_succ, gasConstant, ln10, log10E] at hh
    norm_num at hh

/-- After `set(T, P, n)` the equilibrium constants that are returned contain the effect of the ionic strength but the standard Gibbs energies do not: they do not
belong together. -/
theorem C94_lnK_wrong : ∃ (y : Sys) (nu : List (List ℝ)) (s : State) (n : List ℝ), WellFormed y ∧ (∀ T P I, Solves y nu ((phreeqcK y T P I).lk.map (· * ln10))) ∧
    setTPn y fresh 300 100000 n = .ok s ∧ ∃ row lnk, nu[0]? = some row ∧ (lnEquilibriumConstants s)[0]? = some lnk ∧
      dot row s.G0 ≠ -(gasConstant * 300 * lnk) := by
  obtain ⟨s, h, h1, h2, h3, h4, h5, h6, h7, h8, h9, h10, h11, h12, h13, h14, h15⟩ := setTPn_eq demo_wellFormed (s := fresh) (by intro; exact ⟨rfl, rfl⟩) 300 100000
    (n := [1, 1]) (by simp [demo, Sys.numSpecies]) (by simp [demo])
  refine ⟨demo, [[1, 0]], s, [1, 1], demo_wellFormed, ?_, h, [1, 0], (300 - 27315 / 100 + ionicStrength demo [1, 1]) * ln10, rfl, ?_, ?_⟩
  · intro T P I
    simp [Solves, demo, phreeqcK, dot]
  · simp [lnEquilibriumConstants, h5, phreeqcK, demo]
  · rw [h6]
    simp [demo, gibbs, phreeqcK, dot, ionicStrength, molalities, aqueousAmounts, kgWater, gasConstant, ln10, waterMolarMass]

/-- An aqueous species of amount zero has activity one, much more than at small amounts. -/
theorem C94_absent_wrong : ∃ (y : Sys) (s0 s1 : State) (a0 a1 : List (Option ℝ)) (x : ℝ), WellFormed y ∧
    setTPn y fresh 300 100000 [1, 0] = .ok s0 ∧ setTPn y fresh 300 100000 [1, 1 / 1000] = .ok s1 ∧
    lnActivities y s0 = .ok a0 ∧ lnActivities y s1 = .ok a1 ∧ a0[1]? = some (some 0) ∧ a1[1]? = some (some x) ∧ x < 0 := by
  obtain ⟨s0, h0, _, _, _, _, _, e0, _⟩ := C94_set demo_wellFormed (s := fresh) (by intro; exact ⟨rfl, rfl⟩) 300 100000 (n := [1, 0])
    (by simp [demo, Sys.numSpecies]) (by simp [demo])
  obtain ⟨s1, h1, _, _, _, _, _, e1, _⟩ := C94_set demo_wellFormed (s := fresh) (by intro; exact ⟨rfl, rfl⟩) 300 100000 (n := [1, 1 / 1000])
    (by simp [demo, Sys.numSpecies]) (by simp [demo])
  refine ⟨demo, s0, s1, _, _, Real.log (1 / 1000 / (1 * waterMolarMass)), demo_wellFormed, h0, h1, e0, e1, ?_, ?_, ?_⟩
  · simp [demo, Sys.numSpecies, activity, baseActivity, gibbs, phreeqcK]
  · simp [demo, Sys.numSpecies, activity, baseActivity, gibbs, phreeqcK, coefficients, kgWater]
  · apply Real.log_neg <;> norm_num [waterMolarMass]

theorem dry {s : State} {l : Option ℝ} (hl : s.lm[1]? = some l) (hl2 : s.lm.length = 2) (hg : s.lngGas = [] ∧ s.lnaGas = []) :
    ∃ s', setTPn demo s 300 100000 [0, 1] = .ok s' ∧ ∃ a, lnActivities demo s' = .ok a ∧
      a[1]? = some (match l with | some m => some (m * Real.log 10) | none => some 0) := by
  match hs : s.lm, hl2 with
  | [l0, l1], _ =>
    rw [hs] at hl
    simp only [List.getElem?_cons_succ, List.getElem?_cons_zero, Option.some.injEq] at hl
    subst hl
    unfold setTPn setSpeciesAmounts updateThermo updateChemical updateAqueous updateGaseous lnActivityConstants lnActivityCoefficients lnActivities fill
    simp [demo, setTP0, at!, Sys.numSpecies, hg.1, hg.2, hs, molarGibbs, lnEquilibriumConstants]
    cases l1 <;> rfl

/-- Without water the ionic strength is zero, whatever it was before: the equilibrium constants, the Gibbs energies and the volumes are those at ionic strength
zero, and activities are not corrected, so that those of minerals are one. -/
theorem C94_dry {y : Sys} (w : WellFormed y) {s s' : State} {T P : ℝ} {n : List ℝ} (hn : n.length = y.numSpecies) (hw : n.getD y.iH2O 0 = 0)
    (h : setTPn y s T P n = .ok s') : s'.T = T ∧ s'.P = P ∧ s'.n = n ∧ s'.I = 0 ∧ s'.G0 = gibbs y T P 0 ∧ s'.V0 = volumes y T P 0 ∧
      lnEquilibriumConstants s' = (phreeqcK y T P 0).lk.map (· * ln10) ∧
      ∀ a, lnActivities y s' = .ok a → ∀ i, y.z.length + y.nGas ≤ i → i < y.numSpecies → a[i]? = some (some 0) := by
  have hwl := w.water
  have hlen : ¬ (n.length < y.z.length + y.nGas ∨ n.length < y.minVol.length) := by
    rw [hn]; unfold Sys.numSpecies; omega
  have hnw : at! (n.take y.z.length) y.iH2O = .ok (n.getD y.iH2O 0) := getD_take_lt n _ _ hwl (by rw [hn]; unfold Sys.numSpecies; omega)
  have hset : setSpeciesAmounts y (setTP0 s T P) n = .ok { setTP0 s T P with n := n, I := 0, mu := 0 } := by
    unfold setSpeciesAmounts
    rw [if_neg hlen]
    simp only [hnw, Res.bind_ok']
    rw [hw, zero_mul, if_neg (lt_irrefl _)]
  have hthermo : updateThermo y { setTP0 s T P with n := n, I := 0, mu := 0 } =
      .ok { setTP0 s T P with n := n, I := 0, mu := 0, k := phreeqcK y T P 0, G0 := gibbs y T P 0, V0 := volumes y T P 0 } :=
    setTP_eq w { s with n := n, I := 0, mu := 0 } T P
  unfold setTPn at h
  rw [hset, Res.bind_ok', hthermo, Res.bind_ok'] at h
  unfold updateChemical at h
  dsimp only at h
  have hG : molarGibbs y { setTP0 s T P with
      n := n, I := 0, mu := 0
      k := y.kTemp (setTP0 s T P).tc (setTP0 s T P).patm 0, G0 := gibbs y T P 0, V0 := volumes y T P 0 } = gibbs y T P 0 := by
    simp only [molarGibbs, lnEquilibriumConstants, gibbs, phreeqcK, setTP0]
    apply List.map_congr_left
    intro x _
    ring
  rw [hG] at h
  obtain ⟨s1, h1, h⟩ := Res.bind_eq_ok.1 h
  obtain ⟨c, _, h⟩ := Res.bind_eq_ok.1 h
  obtain ⟨b, hb, h⟩ := Res.bind_eq_ok.1 h
  injection h with h
  unfold updateAqueous at h1
  obtain ⟨nw, _, h1⟩ := Res.bind_eq_ok.1 h1
  injection h1 with h1
  have e : s'.T = s1.T ∧ s'.P = s1.P ∧ s'.n = s1.n ∧ s'.I = s1.I ∧ s'.G0 = s1.G0 ∧ s'.V0 = s1.V0 ∧ s'.k = s1.k ∧ s'.G0I = s1.G0I := by
    rw [← h]
    unfold updateGaseous
    split <;> exact ⟨rfl, rfl, rfl, rfl, rfl, rfl, rfl, rfl⟩
  obtain ⟨e1, e2, e3, e4, e5, e6, e7, e8⟩ := e
  rw [← h1] at e1 e2 e3 e4 e5 e6 e7 e8
  refine ⟨e1, e2, e3, e4, e5, e6, ?_, ?_⟩
  · unfold lnEquilibriumConstants
    rw [e7]
    rfl
  · intro a ha i hi hi2
    unfold lnActivities fill at ha
    split at ha
    · rename_i hl
      rw [Res.bind_ok'] at ha
      injection ha with ha
      have l2 : i < (gibbs y T P 0).length := by rw [gibbs_length w]; exact hi2
      rw [← ha, e8, e5]
      dsimp only
      rw [List.getElem?_zipWith, List.getElem?_zipWith, List.getElem?_eq_getElem l2]
      have hm : (s'.lnaAq ++ s'.lnaGas ++ List.replicate y.minVol.length (some (0 : ℝ)))[i]? = some (some 0) := by
        simp only [List.length_append, List.length_replicate] at hl
        unfold Sys.numSpecies at hl hi2
        rw [List.getElem?_append_right (by simp only [List.length_append]; omega), List.getElem?_replicate, if_pos (by simp only [List.length_append]; omega)]
      rw [hm]
      simp
    · exact absurd ha (by simp [Res.bind])

/-- The hypotheses hold for the system of the example without water, after amounts with water. -/
example : ∃ s s' : State, setTPn demo fresh 300 100000 [1, 1] = .ok s ∧ s.I ≠ 0 ∧ setTPn demo s 300 100000 [0, 1] = .ok s' ∧ s'.I = 0 := by
  obtain ⟨s1, h1, _, _, _, i1, _, _, _, _, e1, _, _, g1, g1', _⟩ := setTPn_eq demo_wellFormed (s := fresh) (by intro; exact ⟨rfl, rfl⟩) 300 100000
    (n := [1, 1]) (by simp [demo, Sys.numSpecies]) (by simp [demo])
  have hz : demo.nGas = 0 := rfl
  rw [if_pos hz] at g1 g1'
  have hM := waterMolarMass_pos
  obtain ⟨t1, k1, _⟩ := dry (s := s1) (l := some (Real.log (1 / (1 * waterMolarMass)) / Real.log 10))
    (by rw [e1]; simp [logMolalities, molalities, aqueousAmounts, demo, kgWater, log10E, hM]) (by rw [e1]; simp [logMolalities, molalities, aqueousAmounts, demo])
    ⟨g1, g1'⟩
  refine ⟨s1, t1, h1, ?_, k1, (C94_dry demo_wellFormed (by simp [demo, Sys.numSpecies]) (by simp [demo]) k1).2.2.2.1⟩
  rw [i1]
  simp [demo, ionicStrength, molalities, aqueousAmounts, kgWater, waterMolarMass]

/-- Without water the properties depend on the calls before: the molalities are those of the last amounts with water. -/
theorem C94_dry_wrong : ∃ (y : Sys) (n1 n2 n : List ℝ) (s1 s2 : State), WellFormed y ∧ n.length = y.numSpecies ∧
    run (none, fresh) [.execute y 300 100000 n1, .setTPn 300 100000 n] = .ok (some y, s1) ∧
    run (none, fresh) [.execute y 300 100000 n2, .setTPn 300 100000 n] = .ok (some y, s2) ∧ lnActivities y s1 ≠ lnActivities y s2 := by
  obtain ⟨s1, h1, _, _, _, _, _, _, _, _, e1, _, _, g1, g1', _⟩ := setTPn_eq demo_wellFormed (s := fresh) (by intro; exact ⟨rfl, rfl⟩) 300 100000
    (n := [1, 1]) (by simp [demo, Sys.numSpecies]) (by simp [demo])
  obtain ⟨s2, h2, _, _, _, _, _, _, _, _, e2, _, _, g2, g2', _⟩ := setTPn_eq demo_wellFormed (s := fresh) (by intro; exact ⟨rfl, rfl⟩) 300 100000
    (n := [1, 2]) (by simp [demo, Sys.numSpecies]) (by simp [demo])
  have hz : demo.nGas = 0 := rfl
  rw [if_pos hz] at g1 g2 g1' g2'
  have hM := waterMolarMass_pos
  obtain ⟨t1, k1, a1, l1, q1⟩ := dry (s := s1) (l := some (Real.log (1 / (1 * waterMolarMass)) / Real.log 10))
    (by rw [e1]; simp [logMolalities, molalities, aqueousAmounts, demo, kgWater, log10E, hM]) (by rw [e1]; simp [logMolalities, molalities, aqueousAmounts, demo])
    ⟨g1, g1'⟩
  obtain ⟨t2, k2, a2, l2, q2⟩ := dry (s := s2) (l := some (Real.log (2 / (1 * waterMolarMass)) / Real.log 10))
    (by rw [e2]; simp [logMolalities, molalities, aqueousAmounts, demo, kgWater, log10E, hM]) (by rw [e2]; simp [logMolalities, molalities, aqueousAmounts, demo])
    ⟨g2, g2'⟩
  refine ⟨demo, [1, 1], [1, 2], [0, 1], t1, t2, demo_wellFormed, by simp [demo, Sys.numSpecies], ?_, ?_, ?_⟩
  · simp only [run, step, h1, k1, Res.bind_ok']
  · simp only [run, step, h2, k2, Res.bind_ok']
  · rw [l1, l2]
    intro h
    injection h with h
    rw [h, q2] at q1
    simp only [Option.some.injEq] at q1
    have h10 : Real.log 10 ≠ 0 := (Real.log_pos (by norm_num)).ne'
    rw [div_mul_cancel₀ _ h10, div_mul_cancel₀ _ h10] at q1
    have := Real.log_injOn_pos (by simp [hM]) (by simp [hM]) q1
    rw [div_eq_div_iff (by positivity) (by positivity)] at this
    nlinarith

/-- The matrix of the example solves its equations, and its Gibbs energies depend on temperature. -/
example : (∀ T P I, Solves demo [[1, 0]] ((phreeqcK demo T P I).lk.map (· * ln10))) ∧ gibbs demo 300 100000 0 ≠ gibbs demo 400 100000 0 := by
  constructor
  · intro T P I
    simp [Solves, demo, phreeqcK, dot]
  · simp [gibbs, demo, phreeqcK, gasConstant, ln10]
    norm_num

/-- The activities of the example are numbers, as the law of mass action needs. -/
example : ∃ a base : List ℝ, (List.range demo.numSpecies).map (activity demo 300 100000 [1, 1]) = a.map some ∧
    (List.range demo.numSpecies).map (baseActivity demo 300 100000 [1, 1]) = base.map some := by
  refine ⟨(List.range 2).map fun i => (activity demo 300 100000 [1, 1] i).getD 0, (List.range 2).map fun i => (baseActivity demo 300 100000 [1, 1] i).getD 0, ?_, ?_⟩
  · simp [demo, Sys.numSpecies, List.range_succ, activity, baseActivity, waterActivity, aqueousAmounts, logE]
  · simp [demo, Sys.numSpecies, List.range_succ, baseActivity, waterActivity, aqueousAmounts, logE]

end Verif.PhreeqcState
