import Verif.Theorems.CubicEOS

/-!
# Theorems C48 and C58: repeated evaluations and phase identification with the cubic equations of state
-/

namespace Verif.CubicEOS

variable {n : Nat}

/-! ## C48 -/

/-- The state is accepted: there is some substance, and the phase identified for the real roots is the type of the fluid. -/
def Accepted (solve3 : ℝ → ℝ → ℝ → List ℝ) (solve4 : List ℝ → List ℝ) (e : Eos n) (T P : ℝ) (x : Fin n → ℝ) (roots : List ℝ) : Prop :=
  (∃ i, 0 < x i) ∧ solve3 (cA (epsilon e.model) (sigma e.model) (beta e T P x)) (cB (epsilon e.model) (sigma e.model) (beta e T P x) (q e T x))
    (cC (epsilon e.model) (sigma e.model) (beta e T P x) (q e T x)) = roots ∧ (roots.length = 1 ∨ roots.length = 3) ∧
  identify solve4 e T P x roots = .ok e.fluidtype

theorem compute_accepted {solve3 : ℝ → ℝ → ℝ → List ℝ} {solve4 : List ℝ → List ℝ} {e : Eos n} {T P : ℝ} {x : Fin n → ℝ} {roots : List ℝ}
    (h : Accepted solve3 solve4 e T P x roots) (props : Props n) :
    compute solve3 solve4 e props T P x = .ok (evaluate e props T P x (selectZ e.fluidtype roots)) := by
  obtain ⟨⟨i, hi⟩, h1, h2, h3⟩ := h
  unfold compute
  rw [if_neg (fun hx => absurd (hx i) (not_le.2 hi))]
  dsimp only
  rw [h1, if_pos h2, h3]
  dsimp only
  rw [if_neg (not_not.2 rfl)]

/-- **C48 (other properties), partial.** In an accepted state everything but the residual volume and its derivatives is the same whatever was evaluated
before (missing: the residual volume, see `C48_volume`). -/
theorem C48_others_partial (solve3 : ℝ → ℝ → ℝ → List ℝ) (solve4 : List ℝ → List ℝ) (e : Eos n) (T P : ℝ) (x : Fin n → ℝ) (roots : List ℝ)
    (h : Accepted solve3 solve4 e T P x roots) (props props' : Props n) :
    ∃ r r', compute solve3 solve4 e props T P x = .ok r ∧ compute solve3 solve4 e props' T P x = .ok r' ∧
      r'.Gres = r.Gres ∧ r'.Hres = r.Hres ∧ r'.Cpres = r.Cpres ∧ r'.Cvres = r.Cvres ∧ r'.ln_phi = r.ln_phi :=
  ⟨_, _, compute_accepted h props, compute_accepted h props', rfl, rfl, rfl, rfl, rfl⟩

/-- **C48 (residual volume).** In an accepted state the reported residual volume is the volume minus the residual volume reported by the previous
evaluation; the same holds for its derivatives. -/
theorem C48_volume (solve3 : ℝ → ℝ → ℝ → List ℝ) (solve4 : List ℝ → List ℝ) (e : Eos n) (T P : ℝ) (x : Fin n → ℝ) (roots : List ℝ)
    (h : Accepted solve3 solve4 e T P x roots) (props : Props n) :
    ∃ r, compute solve3 solve4 e props T P x = .ok r ∧ r.Vres = volume T P (selectZ e.fluidtype roots) - props.Vres ∧
      ∀ props' r', compute solve3 solve4 e props' T P x = .ok r' → r'.VresT + props'.VresT = r.VresT + props.VresT ∧ r'.VresP + props'.VresP = r.VresP + props.VresP := by
  refine ⟨_, compute_accepted h props, ?_, ?_⟩
  · show selectZ e.fluidtype roots * (R * T / P) - props.Vres = _
    unfold volume
    ring
  · intro props' r' hr
    rw [compute_accepted h props'] at hr
    cases hr
    unfold evaluate
    constructor <;> ring

theorem computes_replicate {solve3 : ℝ → ℝ → ℝ → List ℝ} {solve4 : List ℝ → List ℝ} {e : Eos n} {T P : ℝ} {x : Fin n → ℝ} {roots : List ℝ}
    (h : Accepted solve3 solve4 e T P x roots) (k : Nat) : ∀ props : Props n,
    ∃ r, computes solve3 solve4 e props (List.replicate k (T, P, x)) = .ok r ∧
      r.Vres = if Even k then props.Vres else volume T P (selectZ e.fluidtype roots) - props.Vres := by
  induction k with
  | zero => intro props; exact ⟨props, rfl, by simp⟩
  | succ k ih =>
    intro props
    obtain ⟨r1, h1, h2, -⟩ := C48_volume solve3 solve4 e T P x roots h props
    obtain ⟨r, h3, h4⟩ := ih r1
    refine ⟨r, ?_, ?_⟩
    · rw [List.replicate_succ, computes, h1]
      exact h3
    · rw [h4, h2]
      by_cases hk : Even k
      · rw [if_pos hk, if_neg (by rw [Nat.even_add_one]; exact not_not.2 hk)]
      · rw [if_neg hk, if_pos (by rw [Nat.even_add_one]; exact hk)]
        ring

/-- **C48 is false.** From a fresh object, repeated evaluations of one accepted state report the whole volume and zero in turn: never the residual volume
unless the volume is zero or that of an ideal gas, and not even the same value twice unless the volume is zero. -/
theorem C48_alternates (solve3 : ℝ → ℝ → ℝ → List ℝ) (solve4 : List ℝ → List ℝ) (e : Eos n) (T P : ℝ) (x : Fin n → ℝ) (roots : List ℝ)
    (h : Accepted solve3 solve4 e T P x roots) (fresh : Props n) (hf : fresh.Vres = 0) (k : Nat) :
    ∃ r, computes solve3 solve4 e fresh (List.replicate k (T, P, x)) = .ok r ∧ r.Vres = if Even k then 0 else volume T P (selectZ e.fluidtype roots) := by
  obtain ⟨r, h1, h2⟩ := computes_replicate h k fresh
  refine ⟨r, h1, ?_⟩
  rw [h2, hf, sub_zero]

/-- **C48 (first evaluation).** At positive temperature and pressure, the residual volume reported by the first evaluation of an accepted state is too large
by the ideal volume `RT/P`. -/
theorem C48_wrong (solve3 : ℝ → ℝ → ℝ → List ℝ) (solve4 : List ℝ → List ℝ) (e : Eos n) (T P : ℝ) (x : Fin n → ℝ) (roots : List ℝ)
    (h : Accepted solve3 solve4 e T P x roots) (fresh : Props n) (hf : fresh.Vres = 0) (hT : 0 < T) (hP : 0 < P) :
    ∃ r, compute solve3 solve4 e fresh T P x = .ok r ∧ r.Vres = (volume T P (selectZ e.fluidtype roots) - R * T / P) + R * T / P ∧ 0 < R * T / P := by
  obtain ⟨r, h1, h2, -⟩ := C48_volume solve3 solve4 e T P x roots h fresh
  refine ⟨r, h1, ?_, div_pos (mul_pos R_pos hT) hP⟩
  rw [h2, hf]
  ring

/-- **C48 (rejected states).** When the identified phase is not the type of the fluid, all residual properties keep the values of the previous
evaluation, whatever its state; only the logarithms of the fugacity coefficients are set, to 100. The same holds, without that setting, when no species is
present. -/
theorem C48_stale (solve3 : ℝ → ℝ → ℝ → List ℝ) (solve4 : List ℝ → List ℝ) (e : Eos n) (T P : ℝ) (x : Fin n → ℝ) (props r : Props n)
    (h : compute solve3 solve4 e props T P x = .ok r)
    (hrej : (∀ i, x i ≤ 0) ∨ identify solve4 e T P x (solve3 (cA (epsilon e.model) (sigma e.model) (beta e T P x))
      (cB (epsilon e.model) (sigma e.model) (beta e T P x) (q e T x)) (cC (epsilon e.model) (sigma e.model) (beta e T P x) (q e T x))) ≠ .ok e.fluidtype) :
    r.Vres = props.Vres ∧ r.VresT = props.VresT ∧ r.VresP = props.VresP ∧ r.Gres = props.Gres ∧ r.Hres = props.Hres ∧ r.Cpres = props.Cpres ∧
    r.Cvres = props.Cvres ∧ r.ln_phi = if ∀ i, x i ≤ 0 then props.ln_phi else fun _ => 100 := by
  unfold compute at h
  by_cases hx : ∀ i, x i ≤ 0
  · rw [if_pos hx] at h
    cases h
    rw [if_pos hx]
    exact ⟨rfl, rfl, rfl, rfl, rfl, rfl, rfl, rfl⟩
  · rw [if_neg hx] at h ⊢
    have hrej := hrej.resolve_left hx
    dsimp only at h
    split_ifs at h with hl
    generalize hi : identify solve4 e T P x _ = f at h hrej
    match f, h, hrej with
    | .ok f, h, hrej =>
      dsimp only at h
      rw [if_pos (fun hf => hrej (by rw [hf]))] at h
      cases h
      exact ⟨rfl, rfl, rfl, rfl, rfl, rfl, rfl, rfl⟩
    | .throw, h, _ => exact absurd h (by simp)
    | .ub, h, _ => exact absurd h (by simp)

/-- The example: the only real root is 2, and the state is accepted for a solver that finds it. -/
example : Accepted (fun _ _ _ => [Ex.Z]) (fun _ => []) Ex.mix Ex.T Ex.P Ex.x [Ex.Z] ∧ (∀ z, z ∈ [Ex.Z] ↔ poly Ex.mix Ex.T Ex.P Ex.x z = 0) ∧
    volume Ex.T Ex.P Ex.Z ≠ 0 := by
  refine ⟨⟨⟨0, by norm_num [Ex.x]⟩, rfl, .inl rfl, rfl⟩, fun z => by rw [Ex.root_iff, List.mem_singleton], ?_⟩
  have := R_ne
  unfold volume Ex.Z Ex.T Ex.P
  positivity

/-! ## C58 -/

theorem pressure_hasDerivAt (ε σ T am bm V : ℝ) (h0 : V - bm ≠ 0) (h1 : V + ε * bm ≠ 0) (h2 : V + σ * bm ≠ 0) :
    HasDerivAt (pressure ε σ T am bm) (-(R * T) / (V - bm) ^ 2 + am * ((V + σ * bm) + (V + ε * bm)) / ((V + ε * bm) * (V + σ * bm)) ^ 2) V := by
  have d0 : HasDerivAt (fun V => V - bm) 1 V := (hasDerivAt_id V).sub_const bm
  have d1 : HasDerivAt (fun V => V + ε * bm) 1 V := (hasDerivAt_id V).add_const _
  have d2 : HasDerivAt (fun V => V + σ * bm) 1 V := (hasDerivAt_id V).add_const _
  refine (((hasDerivAt_const V (R * T)).div d0 h0).sub ((hasDerivAt_const V am).div (d1.mul d2) (mul_ne_zero h1 h2))).congr_deriv ?_
  simp only [Pi.mul_apply]
  ring

/-- **C58 (stationary points).** Above the co-volume, the roots of the quartic polynomial of the code are the volumes at which the pressure of the equation
of state is stationary. -/
theorem C58_stationary (ε σ T am bm V : ℝ) (hb : 0 < bm) (hε : -1 < ε) (hσ : -1 < σ) (hV : bm < V) :
    evalPoly (quartic ε σ T am bm) V = 0 ↔ Stationary ε σ T am bm V := by
  have h0 : V - bm ≠ 0 := (sub_pos.2 hV).ne'
  have h1 : V + ε * bm ≠ 0 := by nlinarith
  have h2 : V + σ * bm ≠ 0 := by nlinarith
  have d := pressure_hasDerivAt ε σ T am bm V h0 h1 h2
  have he : evalPoly (quartic ε σ T am bm) V = -(-(R * T) / (V - bm) ^ 2 + am * ((V + σ * bm) + (V + ε * bm)) / ((V + ε * bm) * (V + σ * bm)) ^ 2) *
      ((V - bm) ^ 2 * ((V + ε * bm) * (V + σ * bm)) ^ 2) := by
    have e1 : -(-(R * T) / (V - bm) ^ 2 + am * ((V + σ * bm) + (V + ε * bm)) / ((V + ε * bm) * (V + σ * bm)) ^ 2) * ((V - bm) ^ 2 * ((V + ε * bm) * (V + σ * bm)) ^ 2) =
        R * T * ((V + ε * bm) * (V + σ * bm)) ^ 2 - am * ((V + σ * bm) + (V + ε * bm)) * (V - bm) ^ 2 := by
      generalize V - bm = w at *
      generalize V + ε * bm = u at *
      generalize V + σ * bm = v at *
      field_simp
      ring
    rw [e1]
    unfold evalPoly quartic
    simp only [List.foldr_cons, List.foldr_nil]
    ring
  rw [he, mul_eq_zero, or_iff_left (mul_ne_zero (pow_ne_zero 2 h0) (pow_ne_zero 2 (mul_ne_zero h1 h2))), neg_eq_zero]
  constructor
  · intro h
    rw [h] at d
    exact ⟨hV, d⟩
  · rintro ⟨-, h⟩
    exact d.unique h

theorem quartic_at_b (ε σ T am bm : ℝ) (hT : 0 < T) (hb : 0 < bm) (hε : -1 < ε) (hσ : -1 < σ) : evalPoly (quartic ε σ T am bm) bm ≠ 0 := by
  have : evalPoly (quartic ε σ T am bm) bm = R * T * ((1 + ε) * bm * ((1 + σ) * bm)) ^ 2 := by
    unfold evalPoly quartic
    simp only [List.foldr_cons, List.foldr_nil]
    ring
  rw [this]
  have h1 : 0 < 1 + ε := by linarith
  have h2 : 0 < 1 + σ := by linarith
  have := R_pos
  positivity

/-- **C58 (one root).** With a solver that finds the real roots of the quartic polynomial, the phase identified when there is a single compressibility factor
is a vapor if the pressure is below the pressure at every stationary point above the co-volume (in particular if there is none), a liquid if there are
stationary points and the pressure is above all of theirs, and otherwise an exception. -/
theorem C58_one_root (solve4 : List ℝ → List ℝ) (ε σ T P am bm : ℝ) (hT : 0 < T) (hb : 0 < bm) (hε : -1 < ε) (hσ : -1 < σ)
    (hsolve : ∀ v, v ∈ solve4 (quartic ε σ T am bm) ↔ evalPoly (quartic ε σ T am bm) v = 0) :
    (pressureComparison solve4 P T am bm ε σ = .ok .vapor ↔ ∀ V, Stationary ε σ T am bm V → P < pressure ε σ T am bm V) ∧
    (pressureComparison solve4 P T am bm ε σ = .ok .liquid ↔ (∃ V, Stationary ε σ T am bm V) ∧ ∀ V, Stationary ε σ T am bm V → pressure ε σ T am bm V < P) ∧
    pressureComparison solve4 P T am bm ε σ ≠ .ub := by
  have hmem : ∀ v, v ∈ (solve4 (quartic ε σ T am bm)).filter (fun v => ¬ v < bm) ↔ Stationary ε σ T am bm v := by
    intro v
    rw [List.mem_filter, hsolve]
    simp only [decide_eq_true_eq, not_lt]
    constructor
    · rintro ⟨h1, h2⟩
      have h3 : bm < v := lt_of_le_of_ne h2 (by rintro rfl; exact quartic_at_b ε σ T am bm hT hb hε hσ h1)
      exact (C58_stationary ε σ T am bm v hb hε hσ h3).1 h1
    · intro h
      exact ⟨(C58_stationary ε σ T am bm v hb hε hσ h.1).2 h, h.1.le⟩
  unfold pressureComparison
  dsimp only
  generalize (solve4 (quartic ε σ T am bm)).filter (fun v => ¬ v < bm) = roots at hmem
  by_cases hr : roots = []
  · subst hr
    rw [if_pos rfl]
    have hno : ∀ V, ¬ Stationary ε σ T am bm V := fun V hV => by simpa using (hmem V).2 hV
    refine ⟨⟨fun _ V hV => absurd hV (hno V), fun _ => rfl⟩, ⟨fun h => by simp at h, fun h => absurd h.1.choose_spec (hno _)⟩, by simp⟩
  · rw [if_neg hr]
    have hne : roots.map (pressure ε σ T am bm) ≠ [] := by simpa using hr
    obtain ⟨mn1, mn2⟩ := minOf_spec _ hne
    obtain ⟨mx1, mx2⟩ := maxOf_spec _ hne
    generalize hmn : minOf (roots.map (pressure ε σ T am bm)) = mn at *
    generalize hmx : maxOf (roots.map (pressure ε σ T am bm)) = mx at *
    have hle : mn ≤ mx := mn2 _ mx1
    have hlow : P < mn ↔ ∀ V, Stationary ε σ T am bm V → P < pressure ε σ T am bm V := by
      constructor
      · intro h V hV
        exact lt_of_lt_of_le h (mn2 _ (List.mem_map.2 ⟨V, (hmem V).2 hV, rfl⟩))
      · intro h
        obtain ⟨V, hV, hVe⟩ := List.mem_map.1 mn1
        rw [← hVe]
        exact h V ((hmem V).1 hV)
    have hhigh : mx < P ↔ (∃ V, Stationary ε σ T am bm V) ∧ ∀ V, Stationary ε σ T am bm V → pressure ε σ T am bm V < P := by
      obtain ⟨V0, hV0, -⟩ := List.mem_map.1 mx1
      constructor
      · intro h
        exact ⟨⟨V0, (hmem V0).1 hV0⟩, fun V hV => lt_of_le_of_lt (mx2 _ (List.mem_map.2 ⟨V, (hmem V).2 hV, rfl⟩)) h⟩
      · rintro ⟨-, h⟩
        obtain ⟨V, hV, hVe⟩ := List.mem_map.1 mx1
        rw [← hVe]
        exact h V ((hmem V).1 hV)
    rw [← hlow, ← hhigh]
    by_cases h1 : P < mn
    · rw [if_pos h1]
      exact ⟨by simp [h1], ⟨fun h => by simp at h, fun h => by linarith⟩, by simp⟩
    · rw [if_neg h1]
      by_cases h2 : P > mx
      · rw [if_pos h2]
        exact ⟨⟨fun h => by simp at h, fun h => absurd h h1⟩, by simp [h2], by simp⟩
      · rw [if_neg h2]
        exact ⟨⟨fun h => by simp at h, fun h => absurd h h1⟩, ⟨fun h => by simp at h, fun h => absurd h h2⟩, by simp⟩

theorem gibbs_three (solve4 : List ℝ → List ℝ) (e : Eos n) (T P : ℝ) (x : Fin n → ℝ) (z0 z1 z2 : ℝ) (hm : e.method = .gibbsEnergyAndEquationOfState)
    (h01 : z0 ≤ z1) (h12 : z1 ≤ z2) :
    identify solve4 e T P x [z0, z1, z2] = .ok (gibbsComparison P T (amix e T x) (bmix e x) z0 z2 (epsilon e.model) (sigma e.model)) := by
  unfold identify
  rw [hm]
  dsimp only [byGibbs]
  by_cases h : z0 < z2
  · rw [if_pos h, if_pos h]
  · have : z0 = z2 := le_antisymm (le_trans h01 h12) (not_lt.1 h)
    rw [if_neg h, if_neg h, this]

/-- **C58 (three roots).** With three real roots in ascending order (as `C21_ascending` says they are), all of them with a volume greater than the co-volume, the
Gibbs energy method identifies a vapor exactly when the residual Gibbs energy of the vapor is less than that of the liquid. -/
theorem C58_gibbs (solve4 : List ℝ → List ℝ) (e : Eos n) (props : Props n) (T P : ℝ) (x : Fin n → ℝ) (z0 z1 z2 : ℝ) (hm : e.method = .gibbsEnergyAndEquationOfState)
    (h01 : z0 ≤ z1) (h12 : z1 ≤ z2) (hreg : Regular e T P x z0) :
    (identify solve4 e T P x [z0, z1, z2] = .ok .vapor ∧ (evaluate e props T P x (selectZ .vapor [z0, z1, z2])).Gres < (evaluate e props T P x (selectZ .liquid [z0, z1, z2])).Gres) ∨
    (identify solve4 e T P x [z0, z1, z2] = .ok .liquid ∧ (evaluate e props T P x (selectZ .liquid [z0, z1, z2])).Gres ≤ (evaluate e props T P x (selectZ .vapor [z0, z1, z2])).Gres) := by
  have h02 : z0 ≤ z2 := le_trans h01 h12
  have hmax : selectZ .vapor [z0, z1, z2] = z2 := by
    show max (max (max z0 z0) z1) z2 = z2
    rw [max_self, max_eq_right h01, max_eq_right h12]
  have hmin : selectZ .liquid [z0, z1, z2] = z0 := by
    show min (min (min z0 z0) z1) z2 = z0
    rw [min_self, min_eq_left h01, min_eq_left h02]
  have hreg2 : Regular e T P x z2 := ⟨hreg.Tpos, hreg.Ppos, hreg.a, hreg.bpos, lt_of_lt_of_le hreg.Zbeta h02⟩
  rw [gibbs_three solve4 e T P x z0 z1 z2 hm h01 h12, hmax, hmin]
  have hnum : ∀ z, Regular e T P x z → 0 < z - P * bmix e x / (R * T) ∧ (epsilon e.model ≠ sigma e.model →
      0 < (z + sigma e.model * (P * bmix e x / (R * T))) / (z + epsilon e.model * (P * bmix e x / (R * T)))) :=
    fun z h => ⟨sub_pos.2 h.Zbeta, fun _ => div_pos h.sig_pos h.eps_pos⟩
  unfold gibbsComparison
  dsimp only
  by_cases hlt : (evaluate e props T P x z2).Gres < (evaluate e props T P x z0).Gres
  · rw [if_pos ⟨hnum z2 hreg2, hnum z0 hreg, hlt⟩]
    exact .inl ⟨rfl, hlt⟩
  · rw [if_neg (fun h => hlt h.2.2)]
    exact .inr ⟨rfl, not_lt.1 hlt⟩

/-- **C58 (exactly one phase).** With the Gibbs energy method, of a vapor and a liquid with the same data at the same state exactly one is accepted, unless the
identification throws. -/
theorem C58_exactly_one (solve4 : List ℝ → List ℝ) (e : Eos n) (T P : ℝ) (x : Fin n → ℝ) (roots : List ℝ) (hm : e.method = .gibbsEnergyAndEquationOfState) :
    (identify solve4 { e with fluidtype := .vapor } T P x roots = .ok .vapor ∧ identify solve4 { e with fluidtype := .liquid } T P x roots ≠ .ok .liquid) ∨
    (identify solve4 { e with fluidtype := .vapor } T P x roots ≠ .ok .vapor ∧ identify solve4 { e with fluidtype := .liquid } T P x roots = .ok .liquid) ∨
    (identify solve4 { e with fluidtype := .vapor } T P x roots = .throw ∧ identify solve4 { e with fluidtype := .liquid } T P x roots = .throw) := by
  have hno : ∀ zs, byGibbs solve4 P T (amix e T x) (bmix e x) zs (epsilon e.model) (sigma e.model) ≠ .ub := by
    intro zs
    unfold byGibbs
    split
    · unfold pressureComparison
      dsimp only
      split_ifs <;> simp
    · simp
    · simp
  have h1 : ∀ f, ∃ zs, identify solve4 { e with fluidtype := f } T P x roots = byGibbs solve4 P T (amix e T x) (bmix e x) zs (epsilon e.model) (sigma e.model) ∧
      identify solve4 { e with fluidtype := .vapor } T P x roots = byGibbs solve4 P T (amix e T x) (bmix e x) zs (epsilon e.model) (sigma e.model) := by
    intro f
    unfold identify
    simp only [hm]
    exact ⟨_, rfl, rfl⟩
  obtain ⟨zs, h2, h3⟩ := h1 .liquid
  rw [h2, h3]
  cases hb : byGibbs solve4 P T (amix e T x) (bmix e x) zs (epsilon e.model) (sigma e.model) with
  | ok f => cases f <;> simp
  | throw => simp
  | ub => exact absurd hb (hno zs)

/-- **C58 (volume method).** With the volume method a vapor and a liquid with the same data at the same state are not both rejected; both can be accepted. -/
theorem C58_volume (solve4 : List ℝ → List ℝ) (e : Eos n) (T P : ℝ) (x : Fin n → ℝ) (roots : List ℝ) (hm : e.method = .volume) (hr : roots ≠ []) (hT : 0 < T) (hP : 0 < P)
    (hb : 0 < bmix e x) :
    (identify solve4 { e with fluidtype := .vapor } T P x roots = .ok .vapor ∨ identify solve4 { e with fluidtype := .liquid } T P x roots = .ok .liquid) ∧
    ((identify solve4 { e with fluidtype := .vapor } T P x roots = .ok .vapor ∧ identify solve4 { e with fluidtype := .liquid } T P x roots = .ok .liquid) ↔
      volume T P (minOf roots) ≤ 1.75 * bmix e x ∧ 1.75 * bmix e x < volume T P (maxOf roots)) := by
  have hle : minOf roots ≤ maxOf roots := (minOf_spec roots hr).2 _ (maxOf_spec roots hr).1
  have hi : ∀ f, identify solve4 { e with fluidtype := f } T P x roots = .ok (byVolume T P (selectZ f roots) (bmix e x)) := by
    intro f
    unfold identify
    simp only [hm]
    rfl
  have hv : ∀ z, byVolume T P z (bmix e x) = if 1.75 * bmix e x < volume T P z then .vapor else .liquid := by
    intro z
    unfold byVolume volume
    simp only [gt_iff_lt, lt_div_iff₀ hb]
  have hmono : volume T P (minOf roots) ≤ volume T P (maxOf roots) := by
    unfold volume
    have := R_pos
    gcongr
  rw [hi, hi, hv, hv]
  simp only [selectZ]
  by_cases h1 : 1.75 * bmix e x < volume T P (minOf roots)
  · have h2 : 1.75 * bmix e x < volume T P (maxOf roots) := lt_of_lt_of_le h1 hmono
    simp [h1, h2]
  · by_cases h2 : 1.75 * bmix e x < volume T P (maxOf roots)
    · simp [h1, h2, not_lt.1 h1]
    · simp [h1, h2]

/-- **C58 (unphysical roots).** If the smallest of three real roots is not greater than `beta` (see `C46_negative_root`), the Gibbs energy method identifies a
liquid, although a volume not greater than the co-volume is not that of any phase: a logarithm of a negative number is compared. -/
theorem C58_unphysical (solve4 : List ℝ → List ℝ) (e : Eos n) (T P : ℝ) (x : Fin n → ℝ) (z0 z1 z2 : ℝ) (hm : e.method = .gibbsEnergyAndEquationOfState)
    (h01 : z0 ≤ z1) (h12 : z1 ≤ z2) (h : z0 ≤ beta e T P x) : identify solve4 e T P x [z0, z1, z2] = .ok .liquid := by
  rw [gibbs_three solve4 e T P x z0 z1 z2 hm h01 h12]
  unfold gibbsComparison
  dsimp only
  rw [if_neg]
  rintro ⟨-, ⟨h1, -⟩, -⟩
  exact absurd h (not_le.2 (sub_pos.1 h1))

/-- The pressure of a van der Waals fluid can be stationary above the co-volume. -/
example (T : ℝ) : Stationary 0 0 T (27 * R * T / 8) 1 3 := by
  refine ⟨by norm_num, ?_⟩
  refine (pressure_hasDerivAt 0 0 T (27 * R * T / 8) 1 3 (by norm_num) (by norm_num) (by norm_num)).congr_deriv ?_
  ring

/-- A pure fluid below its critical point with three roots, all of them with a volume greater than the co-volume. -/
example : (∀ z, poly Ex.pure Ex.T3 Ex.P3 (fun _ => 1) z = 0 ↔ z = 11 / 60 ∨ z = 22 / 60 ∨ z = 33 / 60) ∧ Regular Ex.pure Ex.T3 Ex.P3 (fun _ => 1) (11 / 60) ∧
    Ex.pure.method = .gibbsEnergyAndEquationOfState := ⟨Ex.pure_roots, Ex.pure_regular, rfl⟩

end Verif.CubicEOS
