import Verif.Theorems.Pitzer
import Verif.Theorems.Bilinear
import Mathlib.Analysis.Calculus.MeanValue

/-!
# C80: where the Pitzer model departs from Pitzer's equations
-/

namespace Verif.Pitzer

open Verif.Aqueous

variable {nc na nn : Nat}

/-! ## The tables of `J0` and `J1` -/

theorem interpolate_eq (x x0 x1 : ℝ) (l : List ℚ) (i : Nat) (h01 : x0 < x1) (hl : 2 ≤ l.length) (hi : i < l.length)
    (h1 : x0 + i * ((x1 - x0) / ((l.length : ℝ) - 1)) ≤ x) (h2 : x < x0 + (i + 1) * ((x1 - x0) / ((l.length : ℝ) - 1))) :
    interpolate x x0 x1 l = .ok (l.getD i 0 : ℚ) := by
  have hN : (0 : ℝ) < (l.length : ℝ) - 1 := by
    have : (2 : ℝ) ≤ l.length := by exact_mod_cast hl
    linarith
  have hd : 0 < (x1 - x0) / ((l.length : ℝ) - 1) := div_pos (by linarith) hN
  have hf : ⌊(x - x0) / ((x1 - x0) / ((l.length : ℝ) - 1))⌋₊ = i := by
    rw [Nat.floor_eq_iff (div_nonneg (by nlinarith [Nat.cast_nonneg (α := ℝ) i]) hd.le)]
    constructor
    · rw [le_div_iff₀ hd]; linarith
    · rw [div_lt_iff₀ hd]; linarith
  unfold interpolate
  simp only [hf]
  rw [if_neg (by omega), Bilinear.at!_getD l i hi]
  rfl

/-- Between two whole tenths, from 1 to 10, the value is the entry for the lower of them. -/
theorem regions_tenths (t1 t2 t3 t4 t5 : List ℚ) (x : ℝ) (i : Nat) (hl : t2.length = 91) (hi : i < 90) (h0 : 1 < x)
    (h1 : 1 + (i : ℝ) / 10 ≤ x) (h2 : x < 1 + ((i : ℝ) + 1) / 10) : regions t1 t2 t3 t4 t5 x = .ok (t2.getD i 0 : ℚ) := by
  have hi' : (i : ℝ) + 1 ≤ 90 := by exact_mod_cast hi
  unfold regions
  rw [if_neg (by rintro ⟨_, h⟩; linarith), if_pos ⟨h0.le, by linarith⟩]
  have e : ((t2.length : ℕ) : ℝ) = 91 := by rw [hl]; norm_num
  exact interpolate_eq x 1 10 t2 i (by norm_num) (by omega) (by omega) (by rw [e]; linarith) (by rw [e]; linarith)

theorem interpolate_ok (x x0 x1 : ℝ) (l : List ℚ) (h01 : x0 < x1) (hl : 2 ≤ l.length) (h0 : x0 ≤ x) (h1 : x ≤ x1) :
    ∃ i, i < l.length ∧ interpolate x x0 x1 l = .ok (l.getD i 0 : ℚ) := by
  have hN : (0 : ℝ) < (l.length : ℝ) - 1 := by
    have : (2 : ℝ) ≤ l.length := by exact_mod_cast hl
    linarith
  have hd : 0 < (x1 - x0) / ((l.length : ℝ) - 1) := div_pos (by linarith) hN
  have hb : (x - x0) / ((x1 - x0) / ((l.length : ℝ) - 1)) ≤ (l.length : ℝ) - 1 := by
    rw [div_le_iff₀ hd, mul_div_cancel₀ _ hN.ne']; linarith
  have hnn : 0 ≤ (x - x0) / ((x1 - x0) / ((l.length : ℝ) - 1)) := div_nonneg (by linarith) hd.le
  have hi : ⌊(x - x0) / ((x1 - x0) / ((l.length : ℝ) - 1))⌋₊ < l.length := by
    have h := (Nat.floor_le hnn).trans hb
    have : ((⌊(x - x0) / ((x1 - x0) / ((l.length : ℝ) - 1))⌋₊ : ℕ) : ℝ) < (l.length : ℝ) := by linarith
    exact_mod_cast this
  have h3 := Nat.floor_le hnn
  have h4 := Nat.lt_floor_add_one ((x - x0) / ((x1 - x0) / ((l.length : ℝ) - 1)))
  rw [le_div_iff₀ hd] at h3
  rw [div_lt_iff₀ hd] at h4
  exact ⟨_, hi, interpolate_eq x x0 x1 l _ h01 hl hi (by linarith) (by linarith)⟩

theorem regions_range (t1 t2 t3 t4 t5 : List ℚ) (h1 : 2 ≤ t1.length) (h2 : 2 ≤ t2.length) (h3 : 2 ≤ t3.length) (h4 : 2 ≤ t4.length)
    (h5 : 2 ≤ t5.length) (x : ℝ) :
    (0 ≤ x ∧ x ≤ 10000 → ∃ y ∈ t1 ++ t2 ++ t3 ++ t4 ++ t5, regions t1 t2 t3 t4 t5 x = .ok (y : ℚ)) ∧
    (¬ (0 ≤ x ∧ x ≤ 10000) → regions t1 t2 t3 t4 t5 x = .throw) := by
  have key : ∀ (l : List ℚ) (i : Nat), i < l.length → l.getD i 0 ∈ l := fun l i hi => by
    rw [List.getD_eq_getElem _ _ hi]; exact List.getElem_mem hi
  constructor
  · rintro ⟨hx0, hx1⟩
    unfold regions
    by_cases a1 : 0 ≤ x ∧ x ≤ 1
    · obtain ⟨i, hi, he⟩ := interpolate_ok x 0 1 t1 (by norm_num) h1 a1.1 a1.2
      exact ⟨_, by have := key t1 i hi; simp only [List.mem_append]; tauto, by rw [if_pos a1, he]⟩
    by_cases a2 : 1 ≤ x ∧ x ≤ 10
    · obtain ⟨i, hi, he⟩ := interpolate_ok x 1 10 t2 (by norm_num) h2 a2.1 a2.2
      exact ⟨_, by have := key t2 i hi; simp only [List.mem_append]; tauto, by rw [if_neg a1, if_pos a2, he]⟩
    by_cases a3 : 10 ≤ x ∧ x ≤ 100
    · obtain ⟨i, hi, he⟩ := interpolate_ok x 10 100 t3 (by norm_num) h3 a3.1 a3.2
      exact ⟨_, by have := key t3 i hi; simp only [List.mem_append]; tauto, by rw [if_neg a1, if_neg a2, if_pos a3, he]⟩
    by_cases a4 : 100 ≤ x ∧ x ≤ 1000
    · obtain ⟨i, hi, he⟩ := interpolate_ok x 100 1000 t4 (by norm_num) h4 a4.1 a4.2
      exact ⟨_, by have := key t4 i hi; simp only [List.mem_append]; tauto, by rw [if_neg a1, if_neg a2, if_neg a3, if_pos a4, he]⟩
    have b1 : 1 < x := by by_contra h; exact a1 ⟨hx0, not_lt.1 h⟩
    have b2 : 10 < x := by by_contra h; exact a2 ⟨b1.le, not_lt.1 h⟩
    have b3 : 100 < x := by by_contra h; exact a3 ⟨b2.le, not_lt.1 h⟩
    have b4 : 1000 < x := by by_contra h; exact a4 ⟨b3.le, not_lt.1 h⟩
    obtain ⟨i, hi, he⟩ := interpolate_ok x 1000 10000 t5 (by norm_num) h5 b4.le hx1
    exact ⟨_, by have := key t5 i hi; simp only [List.mem_append]; tauto,
      by rw [if_neg a1, if_neg a2, if_neg a3, if_neg a4, if_pos ⟨b4.le, hx1⟩, he]⟩
  · intro h
    unfold regions
    have aux : ∀ a b : ℝ, 0 ≤ a → b ≤ 10000 → ¬ (a ≤ x ∧ x ≤ b) := fun a b ha hb hh => h ⟨ha.trans hh.1, hh.2.trans hb⟩
    rw [if_neg (aux _ _ (by norm_num) (by norm_num)), if_neg (aux _ _ (by norm_num) (by norm_num)),
      if_neg (aux _ _ (by norm_num) (by norm_num)), if_neg (aux _ _ (by norm_num) (by norm_num)),
      if_neg (aux _ _ (by norm_num) (by norm_num))]

/-- The functions of the electrostatic terms return an entry of their tables from 0 to 10000 and throw otherwise; nothing outside the
tables is read. -/
theorem C80_tables (x : ℝ) :
    (0 ≤ x ∧ x ≤ 10000 → ∃ y ∈ J0region1 ++ J0region2 ++ J0region3 ++ J0region4 ++ J0region5, tabulated.J0 x = .ok (y : ℚ)) ∧
    (0 ≤ x ∧ x ≤ 10000 → ∃ y ∈ J1region1 ++ J1region2 ++ J1region3 ++ J1region4 ++ J1region5, tabulated.J1 x = .ok (y : ℚ)) ∧
    (¬ (0 ≤ x ∧ x ≤ 10000) → tabulated.J0 x = .throw ∧ tabulated.J1 x = .throw) := by
  have h0 := regions_range J0region1 J0region2 J0region3 J0region4 J0region5 (by decide) (by decide) (by decide) (by decide) (by decide) x
  have h1 := regions_range J1region1 J1region2 J1region3 J1region4 J1region5 (by decide) (by decide) (by decide) (by decide) (by decide) x
  exact ⟨h0.1, h1.1, fun h => ⟨h0.2 h, h1.2 h⟩⟩

/-! ## Ions of different charges -/

/-- The real-valued function of the table of `J0`. -/
noncomputable def J0value (x : ℝ) : ℝ := valueOf (tabulated.J0 x)

/-- A solution of NaCl and CaCl₂. -/
def brine : Kinds 2 1 0 := ⟨![fNap, fCapp], ![1, 2], ![fClm], ![-1], ![]⟩

/-- The Debye-Hückel coefficient of the table of the code at 25 °C and 1 bar. -/
noncomputable def A25 : ℝ := 39147278 / 100000000

noncomputable def dx : Fin 2 → ℝ := ![1 / 4, 1 / 4]
noncomputable def dy : Fin 1 → ℝ := ![3 / 4]
noncomputable def du : Fin 0 → ℝ := ![]

/-- Molalities `t/4`, `t/4` and `3t/4`. -/
noncomputable def scaled (t : ℝ) : Molalities 2 1 0 := path (fun c t => t * dx c) (fun a t => t * dy a) (fun n t => t * du n) t

theorem brine_strength (t : ℝ) : brine.ionicStrength (scaled t) = t := by
  simp [Kinds.ionicStrength, brine, scaled, path, dx, dy, Fin.sum_univ_two]
  ring

theorem tenths (I : ℝ) (n i : Nat) (hi : i < 90) (hn : 1 + (i : ℝ) / 10 ≤ 6 * n * A25 * √I) (h : 6 * n * A25 * √I < 1 + ((i : ℝ) + 1) / 10)
    (h0 : 1 < 6 * n * A25 * √I) :
    tabulated.J0 (6 * n * A25 * √I) = .ok (J0region2.getD i 0 : ℚ) ∧ tabulated.J1 (6 * n * A25 * √I) = .ok (J1region2.getD i 0 : ℚ) :=
  ⟨regions_tenths _ _ _ _ _ _ i (by decide) hi h0 hn h, regions_tenths _ _ _ _ _ _ i (by decide) hi h0 hn h⟩

/-- Between the ionic strengths 0.999 and 1.0005 the tables give the same entries. -/
theorem entries (I : ℝ) (h1 : 999 / 1000 < I) (h2 : I < 10005 / 10000) :
    (tabulated.J0 (6 * 1 * A25 * √I) = .ok (J0region2.getD 13 0 : ℚ) ∧ tabulated.J1 (6 * 1 * A25 * √I) = .ok (J1region2.getD 13 0 : ℚ)) ∧
    (tabulated.J0 (6 * 2 * A25 * √I) = .ok (J0region2.getD 36 0 : ℚ) ∧ tabulated.J1 (6 * 2 * A25 * √I) = .ok (J1region2.getD 36 0 : ℚ)) ∧
    (tabulated.J0 (6 * 4 * A25 * √I) = .ok (J0region2.getD 83 0 : ℚ) ∧ tabulated.J1 (6 * 4 * A25 * √I) = .ok (J1region2.getD 83 0 : ℚ)) := by
  have hs1 : 999 / 1000 < √I := Real.lt_sqrt_of_sq_lt (by norm_num; linarith)
  have hs2 : √I < 100025 / 100000 := by
    rw [Real.sqrt_lt' (by norm_num)]; norm_num; linarith
  have h1 := tenths I 1 13 (by norm_num) (by norm_num [A25]; linarith) (by norm_num [A25]; linarith) (by norm_num [A25]; linarith)
  have h2 := tenths I 2 36 (by norm_num) (by norm_num [A25]; linarith) (by norm_num [A25]; linarith) (by norm_num [A25]; linarith)
  have h3 := tenths I 4 83 (by norm_num) (by norm_num [A25]; linarith) (by norm_num [A25]; linarith) (by norm_num [A25]; linarith)
  simp only [Nat.cast_one, Nat.cast_ofNat] at h1 h2 h3
  exact ⟨h1, h2, h3⟩

noncomputable def K0 : ℝ := ((J0region2.getD 36 0 : ℚ) : ℝ) - 1 / 2 * ((J0region2.getD 13 0 : ℚ) : ℝ) - 1 / 2 * ((J0region2.getD 83 0 : ℚ) : ℝ)
noncomputable def K1 : ℝ := ((J1region2.getD 36 0 : ℚ) : ℝ) - 1 / 2 * ((J1region2.getD 13 0 : ℚ) : ℝ) - 1 / 2 * ((J1region2.getD 83 0 : ℚ) : ℝ)

theorem K1_ne : K1 ≠ 0 := by
  have h : (J1region2.getD 36 0 : ℚ) - 1 / 2 * J1region2.getD 13 0 - 1 / 2 * J1region2.getD 83 0 ≠ 0 := by decide +kernel
  unfold K1
  generalize J1region2.getD 36 0 = a at *
  generalize J1region2.getD 13 0 = b at *
  generalize J1region2.getD 83 0 = c at *
  intro h'
  apply h
  have : (((a - 1 / 2 * b - 1 / 2 * c : ℚ)) : ℝ) = 0 := by push_cast; exact h'
  exact_mod_cast this

theorem electrostatic_brine (I : ℝ) (h1 : 999 / 1000 < I) (h2 : I < 10005 / 10000) :
    electrostatic J0value A25 1 2 I = 2 / (4 * I) * K0 := by
  obtain ⟨⟨a, _⟩, ⟨b, _⟩, ⟨c, _⟩⟩ := entries I h1 h2
  unfold electrostatic K0 J0value
  rw [show 6 * 1 * 2 * A25 * √I = 6 * 2 * A25 * √I by ring, show 6 * 1 * 1 * A25 * √I = 6 * 1 * A25 * √I by ring,
    show 6 * 2 * 2 * A25 * √I = 6 * 4 * A25 * √I by ring, a, b, c]
  simp [valueOf]

theorem thetaE_brine (d : Solution) (hA : d.A = A25) (h1 : 999 / 1000 < d.I) (h2 : d.I < 10005 / 10000) :
    thetaE tabulated d 1 2 = .ok (2 / (4 * d.I) * K0) ∧ thetaE tabulated d 2 1 = .ok (2 / (4 * d.I) * K0) ∧
    thetaEPrime tabulated d 1 2 = .ok (2 / (8 * d.I * d.I) * K1 - 2 / (4 * d.I) * K0 / d.I) ∧
    thetaEPrime tabulated d 2 1 = .ok (2 / (8 * d.I * d.I) * K1 - 2 / (4 * d.I) * K0 / d.I) := by
  obtain ⟨⟨a, a'⟩, ⟨b, b'⟩, ⟨c, c'⟩⟩ := entries d.I h1 h2
  have e1 : 6 * 1 * 2 * d.A * √d.I = 6 * 2 * A25 * √d.I := by rw [hA]; ring
  have e2 : 6 * 1 * 1 * d.A * √d.I = 6 * 1 * A25 * √d.I := by rw [hA]; ring
  have e3 : 6 * 2 * 2 * d.A * √d.I = 6 * 4 * A25 * √d.I := by rw [hA]; ring
  have e4 : 6 * 2 * 1 * d.A * √d.I = 6 * 2 * A25 * √d.I := by rw [hA]; ring
  have t1 : thetaE tabulated d 1 2 = .ok (2 / (4 * d.I) * K0) := by
    unfold thetaE
    rw [if_neg (by norm_num)]
    simp only [e1, e2, e3, a, b, c, Res.bind_ok']
    congr 1; unfold K0; ring
  have t2 : thetaE tabulated d 2 1 = .ok (2 / (4 * d.I) * K0) := by
    unfold thetaE
    rw [if_neg (by norm_num)]
    simp only [e4, e2, e3, a, b, c, Res.bind_ok']
    congr 1; unfold K0; ring
  refine ⟨t1, t2, ?_, ?_⟩
  · unfold thetaEPrime
    rw [if_neg (by norm_num)]
    simp only [e1, e2, e3, a', b', c', t1, Res.bind_ok']
    congr 1; unfold K1; ring
  · unfold thetaEPrime
    rw [if_neg (by norm_num)]
    simp only [e4, e2, e3, a', b', c', t2, Res.bind_ok']
    congr 1; unfold K1; ring

/-- The terms with a prime in the brine. -/
noncomputable def primes (I : ℝ) (i j : Fin 2) : ℝ := if i = j then 0 else 2 / (8 * I * I) * K1 - 2 / (4 * I) * K0 / I

/-- The derivatives of the terms without a prime. -/
noncomputable def slopes (I : ℝ) (i j : Fin 2) : ℝ := if i = j then 0 else -(K0 / 2 / (I * I))

theorem gives_brine (T t : ℝ) (h1 : 999 / 1000 < t) (h2 : t < 10005 / 10000) :
    Gives tabulated J0value (brine.solution T A25 (scaled t)) brine.zc (primes t) := by
  have hd := thetaE_brine (brine.solution T A25 (scaled t)) rfl (by rw [sol_I, brine_strength]; exact h1)
    (by rw [sol_I, brine_strength]; exact h2)
  simp only [sol_I, brine_strength] at hd
  obtain ⟨a, b, c, d⟩ := hd
  have he := electrostatic_brine t h1 h2
  have he' : electrostatic J0value A25 2 1 t = 2 / (4 * t) * K0 := by rw [electrostatic_comm, he]
  constructor
  · intro i j
    rw [sol_I, brine_strength, sol_A]
    fin_cases i <;> fin_cases j <;> simp [brine, electrostatic_self] <;> first | (rw [thetaE, if_pos rfl]) | skip
    · exact a.trans (by rw [he])
    · exact b.trans (by rw [he'])
  · intro i j
    fin_cases i <;> fin_cases j <;> simp [brine, primes] <;> first | (rw [thetaEPrime, if_pos rfl]) | skip
    · exact c
    · exact d
  · intro i j
    simp only [primes, eq_comm]
  · intro i; simp [primes]

theorem gives_chloride (T t : ℝ) : Gives tabulated J0value (brine.solution T A25 (scaled t)) brine.za (fun _ _ => 0) := by
  have h : ∀ i j, brine.za i = brine.za j := fun i j => by rw [Subsingleton.elim i j]
  exact ⟨fun i j => by rw [thetaE, if_pos (h i j), h i j, electrostatic_self], fun i j => by rw [thetaEPrime, if_pos (h i j)],
    fun _ _ => rfl, fun _ => rfl⟩

theorem slope (z : Fin 2 → ℝ) (hz : z = ![1, 2]) (i j : Fin 2) : HasDerivAt (electrostatic J0value A25 (z i) (z j)) (slopes 1 i j) 1 := by
  have hc : HasDerivAt (fun I : ℝ => 2 / (4 * I) * K0) (-(K0 / 2 / (1 * 1))) 1 := by
    have h := (((hasDerivAt_id (1 : ℝ)).inv one_ne_zero).const_mul (K0 / 2)).congr_of_eventuallyEq
      (f₁ := fun I : ℝ => 2 / (4 * I) * K0) (Filter.Eventually.of_forall fun I => by
        simp only [Pi.inv_apply, id]
        by_cases hI : I = 0
        · simp [hI]
        · field_simp <;> ring)
    exact h.congr_deriv (by simp)
  have hn : ∀ᶠ I in nhds (1 : ℝ), electrostatic J0value A25 1 2 I = 2 / (4 * I) * K0 := by
    filter_upwards [lt_mem_nhds (show (999 / 1000 : ℝ) < 1 by norm_num), gt_mem_nhds (show (1 : ℝ) < 10005 / 10000 by norm_num)] with I h1 h2
    exact electrostatic_brine I h1 h2
  have hn' : ∀ᶠ I in nhds (1 : ℝ), electrostatic J0value A25 2 1 I = 2 / (4 * I) * K0 := by
    filter_upwards [hn] with I h
    rw [electrostatic_comm, h]
  have h0 : ∀ w : ℝ, HasDerivAt (electrostatic J0value A25 w w) 0 1 := fun w =>
    (hasDerivAt_const (1 : ℝ) (0 : ℝ)).congr_of_eventuallyEq (Filter.Eventually.of_forall fun I => electrostatic_self _ _ _ _)
  subst hz
  fin_cases i <;> fin_cases j <;> simp [slopes]
  · exact h0 1
  · simpa using hc.congr_of_eventuallyEq hn
  · simpa using hc.congr_of_eventuallyEq hn'
  · exact h0 2

/-- With ions of different charges of the same sign the activity coefficients and the activity of water are not derived from any excess
Gibbs energy: the tables of `J0` and `J1` are read without interpolation, so that `J0` is a step function, whose derivative is not given by
`J1`. The solution is one of NaCl and CaCl₂ at 25 °C and 1 bar. -/
theorem C80_gibbs_wrong (T : ℝ) : ¬ ∃ G : Molalities 2 1 0 → ℝ, ∀ m : Molalities 2 1 0, (∀ c, 0 < m.c c) → (∀ a, 0 < m.a a) →
    DerivedFrom G tabulated brine T A25 m := by
  rintro ⟨G, hG⟩
  have hpos : ∀ t : ℝ, 0 < t → DerivedFrom G tabulated brine T A25 (scaled t) := fun t ht => by
    refine hG _ (fun c => ?_) (fun a => ?_)
    · fin_cases c <;> simp [scaled, path, dx] <;> linarith
    · fin_cases a; simp [scaled, path, dy]; linarith
  have hz : brine.NoTriplets := fun n => n.elim0
  have hsum : ∀ t : ℝ, 0 < t → (scaled t).sum ≠ 0 := fun t ht => by
    simp [Molalities.sum, scaled, path, dx, dy, Fin.sum_univ_two]
    intro h; linarith
  -- the function is the excess Gibbs energy with the step function
  have hval : ∀ t : ℝ, 999 / 1000 < t → t < 10005 / 10000 → G (scaled t) = brine.excessGibbs J0value T A25 (scaled t) := by
    intro t h1 h2
    have ht : 0 < t := by linarith
    obtain ⟨lc, la, ln, hc, ha, hn, _, hw⟩ := hpos t ht
    have hw' := water_value tabulated J0value brine T A25 (scaled t) (primes t) (fun _ _ => 0) (by norm_num) (by norm_num)
      (by rw [brine_strength]; exact ht) (hsum t ht) hz (gives_brine T t h1 h2) (gives_chloride T t)
    have ec : ∀ c, lc c = _ := fun c => Res.ok.inj ((hc c).symm.trans
      (cation_eq tabulated J0value brine T A25 (scaled t) (primes t) (fun _ _ => 0) (by norm_num) (by norm_num) (gives_brine T t h1 h2)
        (gives_chloride T t) c))
    have ea : ∀ c, la c = _ := fun c => Res.ok.inj ((ha c).symm.trans
      (anion_eq tabulated J0value brine T A25 (scaled t) (primes t) (fun _ _ => 0) (by norm_num) (by norm_num) (gives_brine T t h1 h2)
        (gives_chloride T t) c))
    have e := Res.ok.inj (hw.symm.trans hw')
    have hM : -waterMolarMass ≠ (0 : ℝ) := by norm_num [waterMolarMass]
    have e' := mul_left_cancel₀ hM e
    simp only [ec, ea, Finset.univ_eq_empty, Finset.sum_empty] at e'
    linarith
  have hs := brine_strength 1
  unfold scaled at hs
  have hd0 := gibbs_deriv J0value brine T A25 (slopes 1) (fun _ _ => 0) (fun c t => t * dx c) (fun a t => t * dy a) (fun n t => t * du n)
    dx dy du 1 (fun c => by simpa using (hasDerivAt_id (1 : ℝ)).mul_const (dx c))
    (fun a => by simpa using (hasDerivAt_id (1 : ℝ)).mul_const (dy a)) (fun n => n.elim0) (by rw [hs]; norm_num) hz
    (by rw [hs]; exact fun i j => slope brine.zc rfl i j)
    (fun i j => by
      rw [Subsingleton.elim i j]
      exact (hasDerivAt_const _ (0 : ℝ)).congr_of_eventuallyEq (Filter.Eventually.of_forall fun I => electrostatic_self _ _ _ _))
  have hd := hd0.congr_of_eventuallyEq (f₁ := fun t => G (scaled t)) (by
    filter_upwards [lt_mem_nhds (show (999 / 1000 : ℝ) < 1 by norm_num), gt_mem_nhds (show (1 : ℝ) < 10005 / 10000 by norm_num)] with t h1 h2
    exact hval t h1 h2)
  obtain ⟨lc, la, ln, hc, ha, hn, hgrad, _⟩ := hpos 1 one_pos
  have hd' := hgrad (fun c t => t * dx c) (fun a t => t * dy a) (fun n t => t * du n) dx dy du 1 rfl
    (fun c => by simpa using (hasDerivAt_id (1 : ℝ)).mul_const (dx c)) (fun a => by simpa using (hasDerivAt_id (1 : ℝ)).mul_const (dy a))
    (fun n => n.elim0)
  have ec : ∀ c, lc c = _ := fun c => Res.ok.inj ((hc c).symm.trans
    (cation_eq tabulated J0value brine T A25 (scaled 1) (primes 1) (fun _ _ => 0) (by norm_num) (by norm_num)
      (gives_brine T 1 (by norm_num) (by norm_num)) (gives_chloride T 1) c))
  have ea : ∀ c, la c = _ := fun c => Res.ok.inj ((ha c).symm.trans
    (anion_eq tabulated J0value brine T A25 (scaled 1) (primes 1) (fun _ _ => 0) (by norm_num) (by norm_num)
      (gives_brine T 1 (by norm_num) (by norm_num)) (gives_chloride T 1) c))
  have e := hd'.unique hd
  simp only [ec, ea, Finset.univ_eq_empty, Finset.sum_empty, gradCation, gradAnion, gradF] at e
  simp only [Fin.sum_univ_two, Fin.sum_univ_one, primes, slopes, scaled, path, dx, dy, brine] at e
  simp at e
  apply K1_ne
  linarith

/-! ## Neutral solutes with a cation and an anion -/

/-- A solution of sodium sulfate and carbon dioxide. -/
def carbonated : Kinds 1 1 1 := ⟨![fNap], ![1], ![fSO4mm], ![-2], ![fCO2]⟩

theorem gives_one (k : Kinds nc na nn) (T A : ℝ) (m : Molalities nc na nn) {n : Nat} (z : Fin n → ℝ) (h : ∀ i j, z i = z j) (J : ℝ → ℝ) :
    Gives tabulated J (k.solution T A m) z (fun _ _ => 0) :=
  ⟨fun i j => by rw [thetaE, if_pos (h i j), h i j, electrostatic_self], fun i j => by rw [thetaEPrime, if_pos (h i j)],
    fun _ _ => rfl, fun _ => rfl⟩

theorem neutral_value (T A c a n : ℝ) :
    lnGammaNeutral (carbonated.solution T A ⟨![c], ![a], ![n]⟩) (carbonated.neutral ⟨![c], ![a], ![n]⟩ 0)
      = 2 * c * (lambda fCO2 fNap : ℚ) + 2 * a * (lambda fCO2 fSO4mm : ℚ) + c * a * (zeta fCO2 fNap fSO4mm : ℚ) := by
  simp [lnGammaNeutral, total, Kinds.solution, carbonated, Kinds.cation, Kinds.anion, Kinds.neutral]

theorem zeta_CO2 : zeta fCO2 fNap fSO4mm = -15 / 1000 := by decide +kernel

/-- With a neutral solute for which the tables have an entry with a cation and an anion of the solution the activity coefficients are not
derived from any excess Gibbs energy: the entry is used for the neutral solute and for water, but not for the ions. -/
theorem C80_triplets_wrong (T A : ℝ) : ¬ ∃ G : Molalities 1 1 1 → ℝ, ∀ m : Molalities 1 1 1, (∀ c, 0 < m.c c) → (∀ a, 0 < m.a a) →
    (∀ n, 0 < m.n n) → DerivedFrom G tabulated carbonated T A m := by
  rintro ⟨G, hG⟩
  have hpos : ∀ c a n : ℝ, 0 < c → 0 < a → 0 < n → DerivedFrom G tabulated carbonated T A ⟨![c], ![a], ![n]⟩ := fun c a n hc ha hn => by
    refine hG _ (fun i => ?_) (fun i => ?_) (fun i => ?_) <;> fin_cases i <;> simpa
  have hn : ∀ c a n : ℝ, 0 < c → 0 < a → 0 < n → HasDerivAt (fun t => G ⟨![c], ![a], ![t]⟩)
      (2 * c * (lambda fCO2 fNap : ℚ) + 2 * a * (lambda fCO2 fSO4mm : ℚ) + c * a * (zeta fCO2 fNap fSO4mm : ℚ)) n := by
    intro c a n hc ha hn
    obtain ⟨lc, la, ln, _, _, hl, hg, _⟩ := hpos c a n hc ha hn
    have h := hg (fun _ _ => c) (fun _ _ => a) (fun _ t => t) (fun _ => 0) (fun _ => 0) (fun _ => 1) n
      (by unfold path; congr 1 <;> funext i <;> fin_cases i <;> rfl)
      (fun _ => hasDerivAt_const _ _) (fun _ => hasDerivAt_const _ _) (fun _ => hasDerivAt_id _)
    have hl0 := hl 0
    rw [neutral_value] at hl0
    rw [hl0]
    refine (h.congr_of_eventuallyEq (Filter.Eventually.of_forall fun t => ?_)).congr_deriv (by simp)
    simp only [path]
    congr 2 <;> (try funext i) <;> (try fin_cases i) <;> rfl
  have hD : ∀ c a : ℝ, 0 < c → 0 < a → G ⟨![c], ![a], ![2]⟩ - G ⟨![c], ![a], ![1]⟩ =
      2 * c * (lambda fCO2 fNap : ℚ) + 2 * a * (lambda fCO2 fSO4mm : ℚ) + c * a * (zeta fCO2 fNap fSO4mm : ℚ) := by
    intro c a hc ha
    obtain ⟨w, _, hw⟩ := exists_hasDerivAt_eq_slope (fun t => G ⟨![c], ![a], ![t]⟩) (fun _ => _) (show (1 : ℝ) < 2 by norm_num)
      (fun t ht => (hn c a t hc ha (by linarith [ht.1])).continuousAt.continuousWithinAt)
      (fun t ht => hn c a t hc ha (by linarith [ht.1]))
    rw [hw]; norm_num
  have hc : ∀ n : ℝ, 0 < n → ∃ l, lnGammaCation tabulated (carbonated.solution T A ⟨![1], ![1], ![n]⟩) (carbonated.cation ⟨![1], ![1], ![n]⟩ 0) = .ok l ∧
      HasDerivAt (fun t => G ⟨![t], ![1], ![n]⟩) l 1 := by
    intro n hn
    obtain ⟨lc, la, ln, hl, _, _, hg, _⟩ := hpos 1 1 n one_pos one_pos hn
    refine ⟨_, hl 0, ?_⟩
    have h := hg (fun _ t => t) (fun _ _ => 1) (fun _ _ => n) (fun _ => 1) (fun _ => 0) (fun _ => 0) 1
      (by unfold path; congr 1 <;> funext i <;> fin_cases i <;> rfl)
      (fun _ => hasDerivAt_id _) (fun _ => hasDerivAt_const _ _) (fun _ => hasDerivAt_const _ _)
    refine (h.congr_of_eventuallyEq (Filter.Eventually.of_forall fun t => ?_)).congr_deriv (by simp)
    simp only [path]
    congr 2 <;> (try funext i) <;> (try fin_cases i) <;> rfl
  obtain ⟨l1, h1, d1⟩ := hc 1 one_pos
  obtain ⟨l2, h2, d2⟩ := hc 2 two_pos
  have z1 : ∀ i j, carbonated.zc i = carbonated.zc j := fun i j => by rw [Subsingleton.elim i j]
  have z2 : ∀ i j, carbonated.za i = carbonated.za j := fun i j => by rw [Subsingleton.elim i j]
  rw [cation_eq tabulated (fun _ => 0) carbonated T A _ (fun _ _ => 0) (fun _ _ => 0) one_pos one_pos (gives_one _ _ _ _ _ z1 _)
    (gives_one _ _ _ _ _ z2 _)] at h1 h2
  have e1 := Res.ok.inj h1
  have e2 := Res.ok.inj h2
  have hl : l2 - l1 = 2 * (lambda fCO2 fNap : ℚ) := by
    rw [← e1, ← e2]
    simp [gradCation, gradF, bVal, bPrime, pVal, Db, Kinds.chargeSum, Kinds.ionicStrength, lVal, carbonated, Kinds.solution, BPrime, twoTwo,
      Kinds.cation, Kinds.anion]
    ring
  have hder : HasDerivAt (fun t => G ⟨![t], ![1], ![2]⟩ - G ⟨![t], ![1], ![1]⟩) (2 * (lambda fCO2 fNap : ℚ) + (zeta fCO2 fNap fSO4mm : ℚ)) 1 := by
    have h := ((((hasDerivAt_id (1 : ℝ)).const_mul 2).mul_const ((lambda fCO2 fNap : ℚ) : ℝ)).add_const (2 * 1 * ((lambda fCO2 fSO4mm : ℚ) : ℝ))).add
      (((hasDerivAt_id (1 : ℝ)).mul_const (1 : ℝ)).mul_const ((zeta fCO2 fNap fSO4mm : ℚ) : ℝ))
    refine (h.congr_of_eventuallyEq ?_).congr_deriv (by simp)
    filter_upwards [lt_mem_nhds (show (0 : ℝ) < 1 by norm_num)] with t ht
    rw [hD t 1 ht one_pos]; simp
  have h := (d2.sub d1).unique hder
  rw [hl, zeta_CO2] at h
  norm_num at h

end Verif.Pitzer
