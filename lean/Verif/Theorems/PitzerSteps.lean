import Verif.Theorems.PitzerDefects
import Verif.Theorems.ExistencePitzer

/-!
# C114: the model of Pitzer is not continuous with several charges of one sign
-/

namespace Verif.Pitzer

open Verif.Aqueous Filter Topology

/-- The ionic strength at which `24 A √I` is 9.5. -/
noncomputable def stepI : ℝ := (95 / 10 / (24 * A25)) ^ 2

theorem sqrt_stepI : √stepI = 95 / 10 / (24 * A25) := Real.sqrt_sq (by norm_num [A25])

/-- The entries of the tables that are read, with number `n` for the pair of divalent ions. -/
def Entries (n : Nat) (I : ℝ) : Prop :=
  (tabulated.J0 (6 * 1 * A25 * √I) = .ok (J0region2.getD 13 0 : ℚ) ∧ tabulated.J1 (6 * 1 * A25 * √I) = .ok (J1region2.getD 13 0 : ℚ)) ∧
  (tabulated.J0 (6 * 2 * A25 * √I) = .ok (J0region2.getD 37 0 : ℚ) ∧ tabulated.J1 (6 * 2 * A25 * √I) = .ok (J1region2.getD 37 0 : ℚ)) ∧
  (tabulated.J0 (6 * 4 * A25 * √I) = .ok (J0region2.getD n 0 : ℚ) ∧ tabulated.J1 (6 * 4 * A25 * √I) = .ok (J1region2.getD n 0 : ℚ))

theorem entries_below (I : ℝ) (h1 : 1003 / 1000 < I) (h2 : I < stepI) : Entries 84 I := by
  have hs1 : 1001 / 1000 < √I := Real.lt_sqrt_of_sq_lt (by norm_num; linarith)
  have hs2 : √I < 95 / 10 / (24 * A25) := by
    rw [← sqrt_stepI]
    exact Real.sqrt_lt_sqrt (by linarith) h2
  norm_num [A25] at hs2
  have h1 := tenths I 1 13 (by norm_num) (by norm_num [A25]; linarith) (by norm_num [A25]; linarith) (by norm_num [A25]; linarith)
  have h2 := tenths I 2 37 (by norm_num) (by norm_num [A25]; linarith) (by norm_num [A25]; linarith) (by norm_num [A25]; linarith)
  have h3 := tenths I 4 84 (by norm_num) (by norm_num [A25]; linarith) (by norm_num [A25]; linarith) (by norm_num [A25]; linarith)
  simp only [Nat.cast_one, Nat.cast_ofNat] at h1 h2 h3
  exact ⟨h1, h2, h3⟩

theorem entries_at : Entries 85 stepI := by
  have hs := sqrt_stepI
  norm_num [A25] at hs
  have h1 := tenths stepI 1 13 (by norm_num) (by rw [hs]; norm_num [A25]) (by rw [hs]; norm_num [A25]) (by rw [hs]; norm_num [A25])
  have h2 := tenths stepI 2 37 (by norm_num) (by rw [hs]; norm_num [A25]) (by rw [hs]; norm_num [A25]) (by rw [hs]; norm_num [A25])
  have h3 := tenths stepI 4 85 (by norm_num) (by rw [hs]; norm_num [A25]) (by rw [hs]; norm_num [A25]) (by rw [hs]; norm_num [A25])
  simp only [Nat.cast_one, Nat.cast_ofNat] at h1 h2 h3
  exact ⟨h1, h2, h3⟩

noncomputable def L0 (n : Nat) : ℝ := ((J0region2.getD 37 0 : ℚ) : ℝ) - 1 / 2 * ((J0region2.getD 13 0 : ℚ) : ℝ) - 1 / 2 * ((J0region2.getD n 0 : ℚ) : ℝ)
noncomputable def L1 (n : Nat) : ℝ := ((J1region2.getD 37 0 : ℚ) : ℝ) - 1 / 2 * ((J1region2.getD 13 0 : ℚ) : ℝ) - 1 / 2 * ((J1region2.getD n 0 : ℚ) : ℝ)

/-- The terms with a prime. -/
noncomputable def primesOf (n : Nat) (I : ℝ) (i j : Fin 2) : ℝ := if i = j then 0 else 2 / (8 * I * I) * L1 n - 2 / (4 * I) * L0 n / I

theorem electrostatic_entries (n : Nat) (I : ℝ) (h : Entries n I) : electrostatic J0value A25 1 2 I = 2 / (4 * I) * L0 n := by
  obtain ⟨⟨a, _⟩, ⟨b, _⟩, ⟨c, _⟩⟩ := h
  unfold electrostatic L0 J0value
  rw [show 6 * 1 * 2 * A25 * √I = 6 * 2 * A25 * √I by ring, show 6 * 1 * 1 * A25 * √I = 6 * 1 * A25 * √I by ring,
    show 6 * 2 * 2 * A25 * √I = 6 * 4 * A25 * √I by ring, a, b, c]
  simp [valueOf]

theorem thetaE_entries (n : Nat) (d : Solution) (hA : d.A = A25) (h : Entries n d.I) :
    thetaE tabulated d 1 2 = .ok (2 / (4 * d.I) * L0 n) ∧ thetaE tabulated d 2 1 = .ok (2 / (4 * d.I) * L0 n) ∧
    thetaEPrime tabulated d 1 2 = .ok (2 / (8 * d.I * d.I) * L1 n - 2 / (4 * d.I) * L0 n / d.I) ∧
    thetaEPrime tabulated d 2 1 = .ok (2 / (8 * d.I * d.I) * L1 n - 2 / (4 * d.I) * L0 n / d.I) := by
  obtain ⟨⟨a, a'⟩, ⟨b, b'⟩, ⟨c, c'⟩⟩ := h
  have e1 : 6 * 1 * 2 * d.A * √d.I = 6 * 2 * A25 * √d.I := by rw [hA]; ring
  have e2 : 6 * 1 * 1 * d.A * √d.I = 6 * 1 * A25 * √d.I := by rw [hA]; ring
  have e3 : 6 * 2 * 2 * d.A * √d.I = 6 * 4 * A25 * √d.I := by rw [hA]; ring
  have e4 : 6 * 2 * 1 * d.A * √d.I = 6 * 2 * A25 * √d.I := by rw [hA]; ring
  have t1 : thetaE tabulated d 1 2 = .ok (2 / (4 * d.I) * L0 n) := by
    unfold thetaE
    rw [if_neg (by norm_num)]
    simp only [e1, e2, e3, a, b, c, Res.bind_ok']
    congr 1; unfold L0; ring
  have t2 : thetaE tabulated d 2 1 = .ok (2 / (4 * d.I) * L0 n) := by
    unfold thetaE
    rw [if_neg (by norm_num)]
    simp only [e4, e2, e3, a, b, c, Res.bind_ok']
    congr 1; unfold L0; ring
  refine ⟨t1, t2, ?_, ?_⟩
  · unfold thetaEPrime
    rw [if_neg (by norm_num)]
    simp only [e1, e2, e3, a', b', c', t1, Res.bind_ok']
    congr 1; unfold L1; ring
  · unfold thetaEPrime
    rw [if_neg (by norm_num)]
    simp only [e4, e2, e3, a', b', c', t2, Res.bind_ok']
    congr 1; unfold L1; ring

theorem gives_entries (n : Nat) (T t : ℝ) (h : Entries n t) :
    Gives tabulated J0value (brine.solution T A25 (scaled t)) brine.zc (primesOf n t) := by
  have hd := thetaE_entries n (brine.solution T A25 (scaled t)) rfl (by rw [sol_I, brine_strength]; exact h)
  simp only [sol_I, brine_strength] at hd
  obtain ⟨a, b, c, d⟩ := hd
  have he := electrostatic_entries n t h
  have he' : electrostatic J0value A25 2 1 t = 2 / (4 * t) * L0 n := by rw [electrostatic_comm, he]
  constructor
  · intro i j
    rw [sol_I, brine_strength, sol_A]
    fin_cases i <;> fin_cases j <;> simp [brine, electrostatic_self] <;> first | (rw [thetaE, if_pos rfl]) | skip
    · exact a.trans (by rw [he])
    · exact b.trans (by rw [he'])
  · intro i j
    fin_cases i <;> fin_cases j <;> simp [brine, primesOf] <;> first | (rw [thetaEPrime, if_pos rfl]) | skip
    · exact c
    · exact d
  · intro i j
    simp only [primesOf, eq_comm]
  · intro i; simp [primesOf]

/-- The ln activity coefficient of sodium without the electrostatic terms of sodium and calcium. -/
noncomputable def base (T t : ℝ) : ℝ :=
  gradCation (scaled t).c (scaled t).a (scaled t).n (bVal brine T (scaled t)) (bPrime brine T A25 (scaled t)) (tVal brine T)
    (pVal (fun _ => 0) brine A25 (scaled t)) (fun _ _ => 0) (fun _ _ => 0) (rVal brine) (sVal brine) (lVal brine) brine.zc (Db brine A25 (scaled t))
    (brine.chargeSum (scaled t)) 0

theorem sodium_value (n : Nat) (T t : ℝ) (ht : 0 < t) (h : Entries n t) :
    lnGammaCation tabulated (brine.solution T A25 (scaled t)) (brine.cation (scaled t) 0) = .ok (base T t + (7 / 32 * L0 n + 1 / 64 * L1 n)) := by
  rw [cation_eq tabulated J0value brine T A25 (scaled t) (primesOf n t) (fun _ _ => 0) (by norm_num) (by norm_num) (gives_entries n T t h)
    (gives_chloride T t) 0]
  congr 1
  have e0 : pVal J0value brine A25 (scaled t) 0 0 = pVal (fun _ => 0) brine A25 (scaled t) 0 0 := by
    simp [pVal, electrostatic_self]
  have e1 : pVal J0value brine A25 (scaled t) 0 1 = pVal (fun _ => 0) brine A25 (scaled t) 0 1 + 2 / (4 * t) * L0 n := by
    have := electrostatic_entries n t h
    simp only [pVal, brine_strength]
    rw [show brine.zc 0 = 1 from rfl, show brine.zc 1 = 2 from rfl, this]
    simp [electrostatic]
  unfold base gradCation gradF
  simp only [Fin.sum_univ_two, Fin.sum_univ_one, e0, e1]
  simp only [primesOf, scaled, path, dx, brine]
  simp
  field_simp
  ring

theorem base_continuous (T : ℝ) (t : ℝ) (ht : 0 < t) : ContinuousAt (base T) t := by
  have h := cont_cation (X := {t : ℝ // 0 < t}) brine T A25 (fun t => scaled t.1)
    (fun c => by simp only [scaled, path]; fun_prop) (fun a => by simp only [scaled, path]; fun_prop) (fun n => n.elim0)
    (fun x => by rw [brine_strength]; exact x.2) 0
  have h' : Continuous ((Set.Ioi (0 : ℝ)).restrict (base T)) := h
  exact (continuousOn_iff_continuous_restrict.2 h').continuousAt (Ioi_mem_nhds ht)

theorem step_ne : 7 / 32 * L0 84 + 1 / 64 * L1 84 ≠ 7 / 32 * L0 85 + 1 / 64 * L1 85 := by
  have h : (14 * J0region2.getD 84 0 + J1region2.getD 84 0 : ℚ) ≠ 14 * J0region2.getD 85 0 + J1region2.getD 85 0 := by decide +kernel
  unfold L0 L1
  generalize J0region2.getD 84 0 = a at *
  generalize J1region2.getD 84 0 = b at *
  generalize J0region2.getD 85 0 = c at *
  generalize J1region2.getD 85 0 = d at *
  intro e
  apply h
  have : ((14 * a + b : ℚ) : ℝ) = ((14 * c + d : ℚ) : ℝ) := by push_cast; linarith
  exact_mod_cast this

/-- **C114 (Pitzer) is limited to one charge of each sign.** In a solution with `t/4` mol/kg Na⁺, `t/4` mol/kg Ca²⁺ and `3t/4` mol/kg Cl⁻ at 25 °C and 1 bar the ln activity
coefficient of sodium is computed for all `t` from 1.003 to about 1.0224, and it is not a continuous function of `t` at the end of this range: it jumps. -/
theorem C114_pitzer_wrong (T : ℝ) : 1022 / 1000 < stepI ∧ stepI < 1023 / 1000 ∧
    (∀ t, 1003 / 1000 < t → t ≤ stepI → ∃ v, lnGammaCation tabulated (brine.solution T A25 (scaled t)) (brine.cation (scaled t) 0) = .ok v) ∧
    ¬ ContinuousAt (fun t => valueOf (lnGammaCation tabulated (brine.solution T A25 (scaled t)) (brine.cation (scaled t) 0))) stepI := by
  have h0 : 1022 / 1000 < stepI := by norm_num [stepI, A25]
  have h1 : stepI < 1023 / 1000 := by norm_num [stepI, A25]
  refine ⟨h0, h1, fun t ht1 ht2 => ?_, fun hcont => ?_⟩
  · rcases eq_or_lt_of_le ht2 with rfl | h
    · exact ⟨_, sodium_value 85 T _ (by linarith) entries_at⟩
    · exact ⟨_, sodium_value 84 T t (by linarith) (entries_below t ht1 h)⟩
  · have hb := base_continuous T stepI (by linarith)
    have hd : Tendsto (fun t => valueOf (lnGammaCation tabulated (brine.solution T A25 (scaled t)) (brine.cation (scaled t) 0)) - base T t) (𝓝[<] stepI)
        (𝓝 (valueOf (lnGammaCation tabulated (brine.solution T A25 (scaled stepI)) (brine.cation (scaled stepI) 0)) - base T stepI)) :=
      (hcont.sub hb).tendsto.mono_left nhdsWithin_le_nhds
    rw [sodium_value 85 T stepI (by linarith) entries_at] at hd
    have hc : Tendsto (fun t => valueOf (lnGammaCation tabulated (brine.solution T A25 (scaled t)) (brine.cation (scaled t) 0)) - base T t) (𝓝[<] stepI)
        (𝓝 (7 / 32 * L0 84 + 1 / 64 * L1 84)) := by
      refine tendsto_const_nhds.congr' ?_
      filter_upwards [Ioo_mem_nhdsLT (show (1003 / 1000 : ℝ) < stepI by linarith)] with t ht
      rw [sodium_value 84 T t (by linarith [ht.1]) (entries_below t ht.1 ht.2)]
      simp [valueOf]
    have e := tendsto_nhds_unique hc hd
    apply step_ne
    rw [e]
    simp [valueOf]

end Verif.Pitzer
