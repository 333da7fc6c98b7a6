import Verif.Spec.CubicEOS
import Verif.Lemmas.CubicEOS
import Verif.Lemmas.CubicEOSExample
import Verif.Theorems.Cardano

/-!
# Theorems C46, C47, C48, C57 and C58: cubic equations of state
-/

namespace Verif.CubicEOS

variable {n : Nat}

/-! ## C46 -/

/-- **C46 (equation of state).** A compressibility factor is a root of the code's polynomial if and only if the volume `Z R T / P` satisfies
the equation of state. -/
theorem C46_equation_of_state (e : Eos n) (T P : ℝ) (x : Fin n → ℝ) (Z : ℝ) (hT : T ≠ 0) (hP : P ≠ 0) (hb : bmix e x ≠ 0)
    (h0 : volume T P Z ≠ bmix e x) (h1 : volume T P Z + epsilon e.model * bmix e x ≠ 0) (h2 : volume T P Z + sigma e.model * bmix e x ≠ 0) :
    poly e T P x Z = 0 ↔ EquationOfState e T P x (volume T P Z) := by
  unfold poly EquationOfState
  rw [cubic_factored]
  have h0' : volume T P Z - bmix e x ≠ 0 := sub_ne_zero.2 h0
  have hR := R_ne
  have hβ : beta e T P x = bmix e x * (P / (R * T)) := by unfold beta; ring
  have hZ : Z = volume T P Z * (P / (R * T)) := by unfold volume; field_simp
  have hq : q e T x = amix e T x / (bmix e x * R * T) := rfl
  generalize volume T P Z = V at *
  generalize bmix e x = b at *
  generalize amix e T x = am at *
  generalize epsilon e.model = ε at *
  generalize sigma e.model = σ at *
  rw [hβ, hq, hZ]
  have e1 : (V * (P / (R * T)) - 1 - b * (P / (R * T))) * (V * (P / (R * T)) + ε * (b * (P / (R * T)))) * (V * (P / (R * T)) + σ * (b * (P / (R * T)))) +
      am / (b * R * T) * (b * (P / (R * T))) * (V * (P / (R * T)) - b * (P / (R * T))) =
      (P / (R * T)) ^ 2 * ((P / (R * T) * (V - b) - 1) * ((V + ε * b) * (V + σ * b)) + am / (R * T) * (V - b)) := by
    field_simp
    ring
  rw [e1]
  have hc : (P / (R * T)) ^ 2 ≠ 0 := pow_ne_zero 2 (div_ne_zero hP (mul_ne_zero hR hT))
  rw [mul_eq_zero, or_iff_right hc]
  have hu : (V + ε * b) * (V + σ * b) ≠ 0 := mul_ne_zero h1 h2
  generalize (V + ε * b) * (V + σ * b) = u at *
  generalize hw : V - b = w at *
  constructor
  · intro h
    field_simp at h ⊢
    linear_combination h
  · intro h
    field_simp at h ⊢
    linear_combination h

example : EquationOfState Ex.mix Ex.T Ex.P Ex.x (volume Ex.T Ex.P Ex.Z) := by
  have hR := R_ne
  have hv : volume Ex.T Ex.P Ex.Z = R / 3 := by
    unfold volume Ex.T Ex.P Ex.Z
    field_simp
    norm_num
  refine (C46_equation_of_state Ex.mix Ex.T Ex.P Ex.x Ex.Z Ex.T_pos.ne' Ex.P_pos.ne' Ex.regular.bpos.ne' ?_ ?_ ?_).1 Ex.root
  · rw [hv, Ex.bmix_eq]
    intro h
    have := R_pos
    linarith
  · rw [hv]
    simp [Ex.mix, epsilon, R_ne]
  · rw [hv]
    simp [Ex.mix, sigma, R_ne]

theorem r_eq (e : Eos n) (T : ℝ) (i j : Fin n) : r e T i j = 1 - kij e T i j := by
  unfold r kij
  cases (e.interaction T).k <;> simp

theorem rT_eq (e : Eos n) (T : ℝ) (i j : Fin n) : rT e T i j = - kijT e T i j := by
  unfold rT kijT
  cases (e.interaction T).kT <;> simp

theorem rTT_eq (e : Eos n) (T : ℝ) (i j : Fin n) : rTT e T i j = - kijTT e T i j := by
  unfold rTT kijTT
  cases (e.interaction T).kTT <;> simp

theorem aij_hasDerivAt (e : Eos n) (T : ℝ) (h : Admissible e T) (i j : Fin n) :
    HasDerivAt (fun T => aij e T i j) (aijT e T i j) T ∧ HasDerivAt (fun T => aijT e T i j) (aijTT e T i j) T := by
  have ha := mul_pos (h.a i) (h.a j)
  have ds := s_hasDerivAt e T h.T_pos i j (h.Tcr i) (h.Tcr j) ha
  have ds2 := sT_hasDerivAt e T h.T_pos i j (h.Tcr i) (h.Tcr j) ha
  have dr : HasDerivAt (fun T => r e T i j) (rT e T i j) T := by
    simp only [r_eq, rT_eq]
    exact (h.kT i j).const_sub 1
  have dr2 : HasDerivAt (fun T => rT e T i j) (rTT e T i j) T := by
    simp only [rT_eq, rTT_eq]
    exact (h.kTT i j).neg
  refine ⟨dr.mul ds, ((dr2.mul ds).add (dr.mul ds2)).congr_deriv ?_⟩
  unfold aijTT
  ring

/-- **C46 (mixture parameters).** The derivatives of the parameters of the mixture, and of `q` and its derivative. -/
theorem C46_mixture (e : Eos n) (T : ℝ) (x : Fin n → ℝ) (h : Admissible e T) :
    (∀ k, HasDerivAt (fun T => a e T k) (aT e T k) T ∧ HasDerivAt (fun T => aT e T k) (aTT e T k) T) ∧
    HasDerivAt (fun T => amix e T x) (amixT e T x) T ∧ HasDerivAt (fun T => amixT e T x) (amixTT e T x) T ∧
    (amix e T x ≠ 0 → bmix e x ≠ 0 → HasDerivAt (fun T => q e T x) (qT e T x) T ∧ HasDerivAt (fun T => qT e T x) (qTT e T x) T) := by
  have d1 : HasDerivAt (fun T => amix e T x) (amixT e T x) T :=
    HasDerivAt.fun_sum fun i _ => HasDerivAt.fun_sum fun j _ => (aij_hasDerivAt e T h i j).1.const_mul _
  have d2 : HasDerivAt (fun T => amixT e T x) (amixTT e T x) T :=
    HasDerivAt.fun_sum fun i _ => HasDerivAt.fun_sum fun j _ => (aij_hasDerivAt e T h i j).2.const_mul _
  refine ⟨fun k => a_hasDerivAt e T h.T_pos k (h.Tcr k), d1, d2, fun ha hb => ?_⟩
  have hT := h.T_pos.ne'
  have hR := R_ne
  have d0 : HasDerivAt (fun T => bmix e x * R * T) (bmix e x * R) T := by simpa using (hasDerivAt_id T).const_mul (bmix e x * R)
  have dq : HasDerivAt (fun T => q e T x) (qT e T x) T := by
    refine (d1.div d0 (mul_ne_zero (mul_ne_zero hb hR) hT)).congr_deriv ?_
    unfold qT q
    field_simp
  refine ⟨dq, ?_⟩
  have d3 : HasDerivAt (fun T => amixT e T x / amix e T x - 1 / T) ((amixTT e T x * amix e T x - amixT e T x * amixT e T x) / amix e T x ^ 2 - (-1 / T ^ 2)) T := by
    refine (d2.div d1 ha).sub ?_
    exact ((hasDerivAt_const T (1 : ℝ)).div (hasDerivAt_id T) hT).congr_deriv (by simp)
  refine (dq.mul d3).congr_deriv ?_
  have hq0 : q e T x ≠ 0 := by unfold q; exact div_ne_zero ha (mul_ne_zero (mul_ne_zero hb hR) hT)
  unfold qTT qT
  generalize q e T x = qq at *
  generalize amix e T x = am at *
  field_simp
  ring

theorem beta_hasDerivAt_T (e : Eos n) (T P : ℝ) (x : Fin n → ℝ) (hT : T ≠ 0) : HasDerivAt (fun T => beta e T P x) (betaT e T P x) T := by
  have hR := R_ne
  have d0 : HasDerivAt (fun T => R * T) R T := by simpa using (hasDerivAt_id T).const_mul R
  refine ((hasDerivAt_const T (P * bmix e x)).div d0 (mul_ne_zero hR hT)).congr_deriv ?_
  unfold betaT beta
  field_simp
  ring

theorem beta_hasDerivAt_P (e : Eos n) (T P : ℝ) (x : Fin n → ℝ) (hP : P ≠ 0) : HasDerivAt (fun P => beta e T P x) (betaP e T P x) P := by
  have d0 : HasDerivAt (fun P => P * bmix e x) (bmix e x) P := by simpa using (hasDerivAt_id P).mul_const (bmix e x)
  refine (d0.div_const (R * T)).congr_deriv ?_
  unfold betaP beta
  field_simp

theorem coefficients_hasDerivAt (ε σ : ℝ) (β q : ℝ → ℝ) (β' q' t : ℝ) (hβ : HasDerivAt β β' t) (hq : HasDerivAt q q' t) :
    HasDerivAt (fun u => cA ε σ (β u)) (cA' ε σ β') t ∧ HasDerivAt (fun u => cB ε σ (β u) (q u)) (cB' ε σ (β t) (q t) β' q') t ∧
    HasDerivAt (fun u => cC ε σ (β u) (q u)) (cC' ε σ (β t) (q t) β' q') t := by
  refine ⟨(hβ.const_mul _).sub_const 1, ?_, ?_⟩
  · refine (((hβ.const_mul (ε * σ - ε - σ)).mul hβ).sub ((hq.const_sub (ε + σ)).mul hβ)).congr_deriv ?_
    unfold cB'
    ring
  · refine ((((hβ.const_mul (-ε * σ)).mul hβ).mul hβ).sub ((((hq.const_add (ε * σ)).mul hβ)).mul hβ)).congr_deriv ?_
    unfold cC'
    simp only [Pi.mul_apply]
    ring

/-- **C46 (coefficients).** The derivatives with respect to temperature and pressure of the coefficients of the polynomial. -/
theorem C46_coefficients (e : Eos n) (T P : ℝ) (x : Fin n → ℝ) (h : Admissible e T) (hP : P ≠ 0) (ha : amix e T x ≠ 0) (hb : bmix e x ≠ 0) :
    (HasDerivAt (fun T => cA (epsilon e.model) (sigma e.model) (beta e T P x)) (cA' (epsilon e.model) (sigma e.model) (betaT e T P x)) T ∧
     HasDerivAt (fun T => cB (epsilon e.model) (sigma e.model) (beta e T P x) (q e T x))
       (cB' (epsilon e.model) (sigma e.model) (beta e T P x) (q e T x) (betaT e T P x) (qT e T x)) T ∧
     HasDerivAt (fun T => cC (epsilon e.model) (sigma e.model) (beta e T P x) (q e T x))
       (cC' (epsilon e.model) (sigma e.model) (beta e T P x) (q e T x) (betaT e T P x) (qT e T x)) T) ∧
    (HasDerivAt (fun P => cA (epsilon e.model) (sigma e.model) (beta e T P x)) (cA' (epsilon e.model) (sigma e.model) (betaP e T P x)) P ∧
     HasDerivAt (fun P => cB (epsilon e.model) (sigma e.model) (beta e T P x) (q e T x))
       (cB' (epsilon e.model) (sigma e.model) (beta e T P x) (q e T x) (betaP e T P x) 0) P ∧
     HasDerivAt (fun P => cC (epsilon e.model) (sigma e.model) (beta e T P x) (q e T x))
       (cC' (epsilon e.model) (sigma e.model) (beta e T P x) (q e T x) (betaP e T P x) 0) P) :=
  ⟨coefficients_hasDerivAt _ _ (fun T => beta e T P x) (fun T => q e T x) _ _ T (beta_hasDerivAt_T e T P x h.T_pos.ne') ((C46_mixture e T x h).2.2.2 ha hb).1,
   coefficients_hasDerivAt _ _ (fun P => beta e T P x) (fun _ => q e T x) _ _ P (beta_hasDerivAt_P e T P x hP) (hasDerivAt_const P _)⟩

/-- **C46 (compressibility factor).** Wherever a root depends continuously on temperature (pressure) and is simple, `ZT` (`ZP`) is its derivative. -/
theorem C46_Z_derivatives (e : Eos n) (T P : ℝ) (x : Fin n → ℝ) (h : Admissible e T) (hP : P ≠ 0) (ha : amix e T x ≠ 0) (hb : bmix e x ≠ 0) (Z : ℝ → ℝ) :
    (ContinuousAt Z T → (∀ᶠ T in nhds T, poly e T P x (Z T) = 0) → Simple e T P x (Z T) →
      HasDerivAt Z (cZ' (epsilon e.model) (sigma e.model) (beta e T P x) (q e T x) (betaT e T P x) (qT e T x) (Z T)) T) ∧
    (ContinuousAt Z P → (∀ᶠ P in nhds P, poly e T P x (Z P) = 0) → Simple e T P x (Z P) →
      HasDerivAt Z (cZ' (epsilon e.model) (sigma e.model) (beta e T P x) (q e T x) (betaP e T P x) 0 (Z P)) P) := by
  obtain ⟨⟨a1, a2, a3⟩, b1, b2, b3⟩ := C46_coefficients e T P x h hP ha hb
  exact ⟨fun hc hr hD => root_hasDerivAt _ _ _ Z _ _ _ T a1 a2 a3 hc hr hD, fun hc hr hD => root_hasDerivAt _ _ _ Z _ _ _ P b1 b2 b3 hc hr hD⟩

/-- **C46 (families of roots).** Through every simple root there passes a family of roots that is continuous in temperature, and one that is continuous in
pressure, to which the theorems on derivatives apply. -/
theorem C46_branch (e : Eos n) (T P : ℝ) (x : Fin n → ℝ) (h : Admissible e T) (hP : P ≠ 0) (ha : amix e T x ≠ 0) (hb : bmix e x ≠ 0) (z : ℝ)
    (hz : poly e T P x z = 0) (hD : Simple e T P x z) :
    (∃ Z : ℝ → ℝ, Z T = z ∧ ContinuousAt Z T ∧ ∀ᶠ T in nhds T, poly e T P x (Z T) = 0) ∧
    (∃ Z : ℝ → ℝ, Z P = z ∧ ContinuousAt Z P ∧ ∀ᶠ P in nhds P, poly e T P x (Z P) = 0) := by
  obtain ⟨⟨a1, a2, a3⟩, b1, b2, b3⟩ := C46_coefficients e T P x h hP ha hb
  exact ⟨exists_branch _ _ _ T z a1.continuousAt a2.continuousAt a3.continuousAt hz hD,
    exists_branch _ _ _ P z b1.continuousAt b2.continuousAt b3.continuousAt hz hD⟩

theorem foldl_max_spec (l : List ℝ) : ∀ a, a ≤ l.foldl max a ∧ (∀ y ∈ l, y ≤ l.foldl max a) ∧ (l.foldl max a = a ∨ l.foldl max a ∈ l) := by
  induction l with
  | nil => intro a; simp
  | cons b l ih =>
    intro a
    obtain ⟨h1, h2, h3⟩ := ih (max a b)
    rw [List.foldl_cons]
    refine ⟨le_trans (le_max_left _ _) h1, ?_, ?_⟩
    · intro y hy
      rcases List.mem_cons.1 hy with rfl | hy
      · exact le_trans (le_max_right _ _) h1
      · exact h2 y hy
    · rcases h3 with h3 | h3
      · rw [h3]
        rcases max_cases a b with ⟨h, -⟩ | ⟨h, -⟩ <;> rw [h]
        · exact .inl rfl
        · exact .inr List.mem_cons_self
      · exact .inr (List.mem_cons_of_mem _ h3)

theorem foldl_min_spec (l : List ℝ) : ∀ a, l.foldl min a ≤ a ∧ (∀ y ∈ l, l.foldl min a ≤ y) ∧ (l.foldl min a = a ∨ l.foldl min a ∈ l) := by
  induction l with
  | nil => intro a; simp
  | cons b l ih =>
    intro a
    obtain ⟨h1, h2, h3⟩ := ih (min a b)
    rw [List.foldl_cons]
    refine ⟨le_trans h1 (min_le_left _ _), ?_, ?_⟩
    · intro y hy
      rcases List.mem_cons.1 hy with rfl | hy
      · exact le_trans h1 (min_le_right _ _)
      · exact h2 y hy
    · rcases h3 with h3 | h3
      · rw [h3]
        rcases min_cases a b with ⟨h, -⟩ | ⟨h, -⟩ <;> rw [h]
        · exact .inl rfl
        · exact .inr List.mem_cons_self
      · exact .inr (List.mem_cons_of_mem _ h3)

theorem maxOf_spec (l : List ℝ) (h : l ≠ []) : maxOf l ∈ l ∧ ∀ y ∈ l, y ≤ maxOf l := by
  obtain ⟨a, l, rfl⟩ := List.exists_cons_of_ne_nil h
  obtain ⟨-, h2, h3⟩ := foldl_max_spec (a :: l) a
  refine ⟨?_, h2⟩
  rcases h3 with h3 | h3
  · unfold maxOf
    rw [List.headD_cons, h3]
    exact List.mem_cons_self
  · exact h3

theorem minOf_spec (l : List ℝ) (h : l ≠ []) : minOf l ∈ l ∧ ∀ y ∈ l, minOf l ≤ y := by
  obtain ⟨a, l, rfl⟩ := List.exists_cons_of_ne_nil h
  obtain ⟨-, h2, h3⟩ := foldl_min_spec (a :: l) a
  refine ⟨?_, h2⟩
  rcases h3 with h3 | h3
  · unfold minOf
    rw [List.headD_cons, h3]
    exact List.mem_cons_self
  · exact h3

theorem realRoots_ne_nil (eps b c d : ℝ) : Cardano.realRoots (Cardano.cardano eps b c d) ≠ [] := by
  have h : (Cardano.cardano eps b c d).1.im = 0 := by
    unfold Cardano.cardano
    dsimp only
    split_ifs <;> exact Complex.ofReal_im _
  unfold Cardano.realRoots
  rw [if_pos h]
  simp

/-- The polynomial's real roots as computed by the code, for the tolerance `eps`. -/
noncomputable def rootsOf (eps : ℝ) (e : Eos n) (T P : ℝ) (x : Fin n → ℝ) : List ℝ :=
  Cardano.realRoots (Cardano.cardano eps (cA (epsilon e.model) (sigma e.model) (beta e T P x)) (cB (epsilon e.model) (sigma e.model) (beta e T P x) (q e T x))
    (cC (epsilon e.model) (sigma e.model) (beta e T P x) (q e T x)))

/-- **C46 (choice of the root), partial.** Outside the tolerance band of the cubic solver (see C21), the compressibility factor used is a root of the
polynomial: the largest real root for a vapor, the smallest for a liquid. -/
theorem C46_root_partial (eps : ℝ) (h0 : 0 ≤ eps) (e : Eos n) (T P : ℝ) (x : Fin n → ℝ)
    (hd : eps < |Cardano.discr (cA (epsilon e.model) (sigma e.model) (beta e T P x)) (cB (epsilon e.model) (sigma e.model) (beta e T P x) (q e T x))
      (cC (epsilon e.model) (sigma e.model) (beta e T P x) (q e T x))| ∨
      Cardano.discr (cA (epsilon e.model) (sigma e.model) (beta e T P x)) (cB (epsilon e.model) (sigma e.model) (beta e T P x) (q e T x))
      (cC (epsilon e.model) (sigma e.model) (beta e T P x) (q e T x)) = 0) :
    poly e T P x (selectZ .vapor (rootsOf eps e T P x)) = 0 ∧ poly e T P x (selectZ .liquid (rootsOf eps e T P x)) = 0 ∧
    ∀ Z, poly e T P x Z = 0 → Z ≤ selectZ .vapor (rootsOf eps e T P x) ∧ selectZ .liquid (rootsOf eps e T P x) ≤ Z := by
  have key := Cardano.C21_real_roots_partial eps _ _ _ h0 hd
  have hne : rootsOf eps e T P x ≠ [] := realRoots_ne_nil _ _ _ _
  obtain ⟨m1, m2⟩ := maxOf_spec _ hne
  obtain ⟨l1, l2⟩ := minOf_spec _ hne
  exact ⟨(key _).1 m1, (key _).1 l1, fun Z hZ => ⟨m2 Z ((key Z).2 hZ), l2 Z ((key Z).2 hZ)⟩⟩

theorem poly_continuous (e : Eos n) (T P : ℝ) (x : Fin n → ℝ) : Continuous (poly e T P x) := by
  unfold poly
  fun_prop

/-- **C46 (vapor).** The polynomial always has a root above `beta`, that is, with a volume greater than the co-volume; the largest root is one. -/
theorem C46_physical_root (e : Eos n) (T P : ℝ) (x : Fin n → ℝ) (hT : 0 < T) (hP : 0 < P) (hb : 0 < bmix e x) (ha : 0 ≤ amix e T x) :
    ∃ Z, beta e T P x < Z ∧ poly e T P x Z = 0 := by
  have hβ : 0 < beta e T P x := div_pos (mul_pos hP hb) (mul_pos R_pos hT)
  have hq : 0 ≤ q e T x := div_nonneg ha (mul_pos (mul_pos hb R_pos) hT).le
  have hε : 0 < 1 + epsilon e.model := by cases e.model <;> norm_num [epsilon]
  have hσ : 0 < 1 + sigma e.model := by cases e.model <;> norm_num [sigma]
  have h1 : poly e T P x (beta e T P x) < 0 := by
    unfold poly
    rw [cubic_factored]
    have : 0 < (1 + epsilon e.model) * (1 + sigma e.model) * (beta e T P x) ^ 2 := by positivity
    nlinarith
  have h2 : 0 ≤ poly e T P x (beta e T P x + 1) := by
    unfold poly
    rw [cubic_factored]
    have : 0 ≤ q e T x * beta e T P x := mul_nonneg hq hβ.le
    nlinarith
  obtain ⟨Z, ⟨h3, -⟩, h4⟩ := intermediate_value_Icc (by linarith : beta e T P x ≤ beta e T P x + 1) (poly_continuous e T P x).continuousOn ⟨h1.le, h2⟩
  refine ⟨Z, lt_of_le_of_ne h3 ?_, h4⟩
  rintro rfl
  exact h1.ne h4

/-- **C46 (liquid).** With the Redlich-Kwong, Soave-Redlich-Kwong and Peng-Robinson equations the polynomial has a negative root at every sufficiently
high pressure: the smallest root, which the code uses for a liquid, is then not a compressibility factor. -/
theorem C46_negative_root (e : Eos n) (T : ℝ) (x : Fin n → ℝ) (hm : e.model ≠ .vanDerWaals) (hT : 0 < T) (hb : 0 < bmix e x) (ha : 0 < amix e T x) :
    ∃ P0, ∀ P, P0 < P → ∃ Z, Z < 0 ∧ poly e T P x Z = 0 := by
  have hR := R_pos
  have hq : 0 < q e T x := div_pos ha (mul_pos (mul_pos hb R_pos) hT)
  refine ⟨6 * q e T x * (R * T) / bmix e x, fun P hP => ?_⟩
  have hRT : 0 < R * T := mul_pos hR hT
  have hβ : 6 * q e T x < beta e T P x := by
    unfold beta
    rw [lt_div_iff₀ hRT]
    rw [div_lt_iff₀ hb] at hP
    linarith
  have hβ0 : 0 < beta e T P x := by linarith
  generalize hββ : beta e T P x = β at hβ hβ0
  have hmid : ∀ Z, poly e T P x Z = (Z - 1 - β) * (Z + epsilon e.model * β) * (Z + sigma e.model * β) + q e T x * β * (Z - β) := by
    intro Z
    unfold poly
    rw [cubic_factored, hββ]
  generalize q e T x = qq at *
  have hc := poly_continuous e T P x
  have key : ∀ lo mid : ℝ, lo ≤ mid → mid < 0 → poly e T P x lo ≤ 0 → 0 ≤ poly e T P x mid → ∃ Z, Z < 0 ∧ poly e T P x Z = 0 := by
    intro lo mid h1 h2 h3 h4
    obtain ⟨Z, ⟨-, h5⟩, h6⟩ := intermediate_value_Icc h1 hc.continuousOn ⟨h3, h4⟩
    exact ⟨Z, lt_of_le_of_lt h5 h2, h6⟩
  have hqb : 0 < qq * β := mul_pos hq hβ0
  have hbb : 0 < β * β := mul_pos hβ0 hβ0
  cases h : e.model with
  | vanDerWaals => exact absurd h hm
  | redlichKwong | soaveRedlichKwong =>
    refine key (-β) (-β / 2) (by linarith) (by linarith) ?_ ?_
    · rw [hmid, h]
      simp only [epsilon, sigma]
      nlinarith
    · rw [hmid, h]
      simp only [epsilon, sigma]
      have : (-β / 2 - 1 - β) * (-β / 2 + 0 * β) * (-β / 2 + 1 * β) + qq * β * (-β / 2 - β) = β * β / 4 * (3 / 2 * β + 1 - 6 * qq) := by ring
      rw [this]
      exact mul_nonneg (by linarith) (by linarith)
  | pengRobinson =>
    refine key (-(1 + 1.4142135623730951) * β) (-β) (by nlinarith) (by linarith) ?_ ?_
    · rw [hmid, h]
      simp only [epsilon, sigma]
      nlinarith
    · rw [hmid, h]
      simp only [epsilon, sigma]
      have : (-β - 1 - β) * (-β + (1 - 1.4142135623730951) * β) * (-β + (1 + 1.4142135623730951) * β) + qq * β * (-β - β) =
          β * β * (1.4142135623730951 ^ 2 * (2 * β + 1) - 2 * qq) := by ring
      rw [this]
      refine mul_nonneg hbb.le ?_
      have : (1 : ℝ) ≤ 1.4142135623730951 ^ 2 := by norm_num
      nlinarith

/-- A pure fluid with the Redlich-Kwong equation meets the hypotheses of `C46_negative_root`. -/
example : let e : Eos 1 := { fluidtype := .liquid, model := .redlichKwong, method := .none, Tcr := fun _ => 1, Pcr := fun _ => 1, omega := fun _ => 0, interaction := fun _ => {} }
    0 < bmix e (fun _ => 1) ∧ 0 < amix e 1 (fun _ => 1) := by
  have hR := R_pos
  constructor
  · simp only [bmix, bbar, Omega, Finset.univ_unique, Finset.sum_const, Finset.card_singleton, one_smul]
    positivity
  · simp only [amix, aij, r, s, a, factor, alpha, Psi, Finset.univ_unique, Finset.sum_const, Finset.card_singleton, one_smul]
    norm_num
    exact hR.ne'

/-! ## C57 -/

theorem Regular.T0 {e : Eos n} {T P : ℝ} {x : Fin n → ℝ} {Z : ℝ} (h : Regular e T P x Z) : T ≠ 0 := h.Tpos.ne'

theorem Regular.P0 {e : Eos n} {T P : ℝ} {x : Fin n → ℝ} {Z : ℝ} (h : Regular e T P x Z) : P ≠ 0 := h.Ppos.ne'

theorem Regular.b {e : Eos n} {T P : ℝ} {x : Fin n → ℝ} {Z : ℝ} (h : Regular e T P x Z) : bmix e x ≠ 0 := h.bpos.ne'

theorem Regular.beta_pos {e : Eos n} {T P : ℝ} {x : Fin n → ℝ} {Z : ℝ} (h : Regular e T P x Z) : 0 < beta e T P x :=
  div_pos (mul_pos h.Ppos h.bpos) (mul_pos R_pos h.Tpos)

theorem Regular.eps_pos {e : Eos n} {T P : ℝ} {x : Fin n → ℝ} {Z : ℝ} (h : Regular e T P x Z) : 0 < Z + epsilon e.model * beta e T P x := by
  have h1 := h.beta_pos
  have h2 := h.Zbeta
  have h3 : 0 < 1 + epsilon e.model := by cases e.model <;> norm_num [epsilon]
  nlinarith [mul_pos h3 h1]

theorem Regular.sig_pos {e : Eos n} {T P : ℝ} {x : Fin n → ℝ} {Z : ℝ} (h : Regular e T P x Z) : 0 < Z + sigma e.model * beta e T P x := by
  have h1 := h.beta_pos
  have h2 := h.Zbeta
  have h3 : 0 < 1 + sigma e.model := by cases e.model <;> norm_num [sigma]
  nlinarith [mul_pos h3 h1]

theorem Regular.eps {e : Eos n} {T P : ℝ} {x : Fin n → ℝ} {Z : ℝ} (h : Regular e T P x Z) : Z + epsilon e.model * beta e T P x ≠ 0 := h.eps_pos.ne'

theorem Regular.sig {e : Eos n} {T P : ℝ} {x : Fin n → ℝ} {Z : ℝ} (h : Regular e T P x Z) : Z + sigma e.model * beta e T P x ≠ 0 := h.sig_pos.ne'

theorem Regular.Zb {e : Eos n} {T P : ℝ} {x : Fin n → ℝ} {Z : ℝ} (h : Regular e T P x Z) : Z - beta e T P x ≠ 0 := (sub_pos.2 h.Zbeta).ne'

theorem Regular.beta_ne {e : Eos n} {T P : ℝ} {x : Fin n → ℝ} {Z : ℝ} (h : Regular e T P x Z) : beta e T P x ≠ 0 :=
  div_ne_zero (mul_ne_zero h.P0 h.b) (mul_ne_zero R_ne h.T0)

theorem factored {e : Eos n} {T P : ℝ} {x : Fin n → ℝ} {Z : ℝ} (h : poly e T P x Z = 0) :
    (Z - 1 - beta e T P x) * (Z + epsilon e.model * beta e T P x) * (Z + sigma e.model * beta e T P x) + q e T x * beta e T P x * (Z - beta e T P x) = 0 := by
  rw [← cubic_factored]; exact h

/-- **C57 (Gibbs-Helmholtz and heat capacity).** Along every continuous family of simple roots, the residual enthalpy is that of the residual
Gibbs energy by the Gibbs-Helmholtz equation and the residual heat capacity is the temperature derivative of the residual enthalpy. -/
theorem C57_enthalpy (e : Eos n) (props : Props n) (T P : ℝ) (x : Fin n → ℝ) (Z : ℝ → ℝ) (h : Admissible e T) (hreg : Regular e T P x (Z T))
    (hc : ContinuousAt Z T) (hroot : ∀ᶠ T in nhds T, poly e T P x (Z T) = 0) (hD : Simple e T P x (Z T)) :
    HasDerivAt (fun T => (evaluate e props T P x (Z T)).Gres / T) (-(evaluate e props T P x (Z T)).Hres / T ^ 2) T ∧
    HasDerivAt (fun T => (evaluate e props T P x (Z T)).Hres) (evaluate e props T P x (Z T)).Cpres T := by
  have hZ := (C46_Z_derivatives e T P x h hreg.P0 hreg.a hreg.b Z).1 hc hroot hD
  obtain ⟨dq, dqT⟩ := (C46_mixture e T x h).2.2.2 hreg.a hreg.b
  have dβ := beta_hasDerivAt_T e T P x hreg.T0
  have hβ := hreg.beta_ne
  have hT := hreg.T0
  have dG := cG_hasDerivAt (ε := epsilon e.model) (σ := sigma e.model) (fun T => beta e T P x) Z (fun T => q e T x) _ _ _ T dβ hZ dq hβ
    hreg.eps hreg.sig hreg.Zb (factored hroot.self_of_nhds)
  have dI := cI_hasDerivAt (ε := epsilon e.model) (σ := sigma e.model) (fun T => beta e T P x) Z _ _ T dβ hZ (fun _ => hβ) hreg.eps hreg.sig
  constructor
  · have : (fun T => (evaluate e props T P x (Z T)).Gres / T) =ᶠ[nhds T] fun T => R * cG (epsilon e.model) (sigma e.model) (beta e T P x) (q e T x) (Z T) := by
      filter_upwards [eventually_ne_nhds hT] with u hu
      show R * u * _ / u = _
      field_simp
    refine ((dG.const_mul R).congr_of_eventuallyEq this).congr_deriv ?_
    show R * (betaT e T P x / beta e T P x * (Z T - 1) - qT e T x * cI _ _ _ _) = -(R * T * (Z T - 1 + T * qT e T x * cI _ _ _ _)) / T ^ 2
    unfold betaT
    generalize beta e T P x = bb at *
    field_simp
    ring
  · have d1 : HasDerivAt (fun T => T * qT e T x * cI (epsilon e.model) (sigma e.model) (beta e T P x) (Z T)) _ T := ((hasDerivAt_id T).mul dqT).mul dI
    have d2 := ((hasDerivAt_id T).const_mul R).mul ((hZ.sub_const 1).add d1)
    refine d2.congr_deriv ?_
    show _ = (R * T * (Z T - 1 + T * qT e T x * cI _ _ _ _)) / T + R * T * _
    simp only [Pi.mul_apply, Pi.add_apply, id]
    field_simp
    ring

/-- **C57 (volume).** Along every continuous family of simple roots, the pressure derivative of the residual Gibbs energy is the difference of the
volume and the ideal volume. -/
theorem C57_volume (e : Eos n) (props : Props n) (T P : ℝ) (x : Fin n → ℝ) (Z : ℝ → ℝ) (h : Admissible e T) (hreg : Regular e T P x (Z P))
    (hc : ContinuousAt Z P) (hroot : ∀ᶠ P in nhds P, poly e T P x (Z P) = 0) (hD : Simple e T P x (Z P)) :
    HasDerivAt (fun P => (evaluate e props T P x (Z P)).Gres) (volume T P (Z P) - R * T / P) P := by
  have hZ := (C46_Z_derivatives e T P x h hreg.P0 hreg.a hreg.b Z).2 hc hroot hD
  have dβ := beta_hasDerivAt_P e T P x hreg.P0
  have hβ := hreg.beta_ne
  have hP := hreg.P0
  have dG := cG_hasDerivAt (ε := epsilon e.model) (σ := sigma e.model) (fun P => beta e T P x) Z (fun _ => q e T x) _ _ _ P dβ hZ (hasDerivAt_const P _) hβ
    hreg.eps hreg.sig hreg.Zb (factored hroot.self_of_nhds)
  refine (dG.const_mul (R * T)).congr_deriv ?_
  unfold betaP volume
  generalize beta e T P x = bb at *
  field_simp
  ring

/-- **C57 (heat capacity at constant volume).** With the temperature and pressure derivatives `VT`, `VP` of the volume, the difference of the residual
heat capacities is `R + T VT² / VP`. -/
theorem C57_Cv (e : Eos n) (props : Props n) (T P : ℝ) (x : Fin n → ℝ) (Z Z2 : ℝ → ℝ) (hZ2 : Z2 P = Z T) (h : Admissible e T) (hreg : Regular e T P x (Z T))
    (hcT : ContinuousAt Z T) (hrootT : ∀ᶠ T in nhds T, poly e T P x (Z T) = 0)
    (hcP : ContinuousAt Z2 P) (hrootP : ∀ᶠ P in nhds P, poly e T P x (Z2 P) = 0) (hD : Simple e T P x (Z T)) :
    ∃ VT VP, HasDerivAt (fun T => volume T P (Z T)) VT T ∧ HasDerivAt (fun P => volume T P (Z2 P)) VP P ∧
      (evaluate e props T P x (Z T)).Cvres = (evaluate e props T P x (Z T)).Cpres + R + T * VT ^ 2 / VP := by
  have dT := (C46_Z_derivatives e T P x h hreg.P0 hreg.a hreg.b Z).1 hcT hrootT hD
  have dP := (C46_Z_derivatives e T P x h hreg.P0 hreg.a hreg.b Z2).2 hcP hrootP (by rw [hZ2]; exact hD)
  have hT := hreg.T0
  have hP := hreg.P0
  refine ⟨_, _, ((dT.mul_const R).mul (hasDerivAt_id T)).div_const P, ((dP.mul_const R).mul_const T).div (hasDerivAt_id P) hP, ?_⟩
  unfold evaluate
  simp only [id, hZ2]
  generalize cZ' (epsilon e.model) (sigma e.model) (beta e T P x) (q e T x) (betaT e T P x) (qT e T x) (Z T) = ZT
  generalize cZ' (epsilon e.model) (sigma e.model) (beta e T P x) (q e T x) (betaP e T P x) 0 (Z T) = ZP
  have e1 : ZT * (R * T / P) + Z T * (R * T / P / T) = (ZT * R * T + Z T * R * 1) / P := by field_simp
  have e2 : ZP * (R * T / P) + Z T * (-(R * T / P) / P) = (ZP * R * T * P - Z T * R * T * 1) / P ^ 2 := by field_simp; ring
  rw [e1, e2]
  ring

/-- The hypotheses of the theorems of this section are met by a mixture of two species at a state with one root. -/
example : ∃ Z Z2 : ℝ → ℝ, Z2 Ex.P = Z Ex.T ∧ Admissible Ex.mix Ex.T ∧ Regular Ex.mix Ex.T Ex.P Ex.x (Z Ex.T) ∧
    ContinuousAt Z Ex.T ∧ (∀ᶠ T in nhds Ex.T, poly Ex.mix T Ex.P Ex.x (Z T) = 0) ∧
    ContinuousAt Z2 Ex.P ∧ (∀ᶠ P in nhds Ex.P, poly Ex.mix Ex.T P Ex.x (Z2 P) = 0) ∧ Simple Ex.mix Ex.T Ex.P Ex.x (Z Ex.T) := by
  obtain ⟨⟨Z, a1, a2, a3⟩, Z2, b1, b2, b3⟩ := C46_branch Ex.mix Ex.T Ex.P Ex.x (Ex.admissible _ Ex.T_pos) Ex.P_pos.ne' Ex.regular.a Ex.regular.b Ex.Z Ex.root Ex.simple
  refine ⟨Z, Z2, by rw [a1, b1], Ex.admissible _ Ex.T_pos, ?_, a2, a3, b2, b3, ?_⟩
  · rw [a1]; exact Ex.regular
  · rw [a1]; exact Ex.simple

end Verif.CubicEOS
