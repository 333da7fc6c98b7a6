import Verif.Lemmas.Pitzer

/-!
# C80: the Pitzer model

`Reaktoro/Thermodynamics/Aqueous/ActivityModelPitzerHMW.cpp`.
-/

namespace Verif.Pitzer

open Verif.Aqueous Verif.ChemicalProps Verif.Activity

variable {nc na nn : Nat}

/-! ## Values of the functions -/

theorem C_eq (d : Solution) (c a : Solute) : C d c a = thirdVirial c.formula a.formula c.z a.z d.T := by
  unfold C thirdVirial; ring

theorem B_eq (d : Solution) (c a : Solute) : B d c a = secondVirial c.formula a.formula c.z a.z d.T d.I := by
  unfold B secondVirial twoTwo
  split <;> simp [g_eq]; ring

theorem BPhi_eq (d : Solution) (c a : Solute) (hI : 0 < d.I) : BPhi d c a = B d c a + d.I * BPrime d c a := by
  have hs : 0 < √d.I := Real.sqrt_pos.2 hI
  unfold BPhi B BPrime
  have e : ∀ p : ℝ, 0 < p → Real.exp (-p * √d.I) = shape (p * √d.I) + gPrime (p * √d.I) := by
    intro p hp
    rw [shape_add _ (by positivity)]; congr 1; ring
  split
  · rw [e _ (by norm_num), e _ (by norm_num)]
    simp only [g_eq]; field_simp; ring
  · rw [e _ (by norm_num)]
    simp only [g_eq]; field_simp; ring

theorem hasDerivAt_secondVirial (d : Solution) (c a : Solute) (hI : 0 < d.I) :
    HasDerivAt (secondVirial c.formula a.formula c.z a.z d.T) (BPrime d c a) d.I := by
  unfold secondVirial BPrime twoTwo
  split
  · have h := (((hasDerivAt_shape (14 / 10) d.I (by norm_num) hI).const_mul (salt beta1Data c.formula a.formula d.T)).add
      ((hasDerivAt_shape 12 d.I (by norm_num) hI).const_mul (salt beta2Data c.formula a.formula d.T))).const_add
        (salt beta0Data c.formula a.formula d.T)
    exact (h.congr_of_eventuallyEq (Filter.Eventually.of_forall fun t => by simp)).congr_deriv (by ring)
  · have h := ((hasDerivAt_shape 2 d.I (by norm_num) hI).const_mul (salt beta1Data c.formula a.formula d.T)).const_add
        (salt beta0Data c.formula a.formula d.T)
    exact h.congr_deriv (by ring)

theorem electrostatic_self (J : ℝ → ℝ) (A z I : ℝ) : electrostatic J A z z I = 0 := by unfold electrostatic; ring

theorem electrostatic_comm (J : ℝ → ℝ) (A zi zj I : ℝ) : electrostatic J A zi zj I = electrostatic J A zj zi I := by
  unfold electrostatic
  rw [show 6 * zi * zj * A * √I = 6 * zj * zi * A * √I by ring]; ring

/-- What the functions `J0` and `J1` give in a solution: the electrostatic terms are those of `J`, and the terms with a prime are `p'`. -/
structure Gives (S : Screening) (J : ℝ → ℝ) (d : Solution) {n : Nat} (z : Fin n → ℝ) (p' : Fin n → Fin n → ℝ) : Prop where
  value : ∀ i j, thetaE S d (z i) (z j) = .ok (electrostatic J d.A (z i) (z j) d.I)
  prime : ∀ i j, thetaEPrime S d (z i) (z j) = .ok (p' i j)
  symm : ∀ i j, p' i j = p' j i
  self : ∀ i, p' i i = 0

section Solution

variable (k : Kinds nc na nn) (T A : ℝ) (m : Molalities nc na nn)

@[simp] theorem sol_T : (k.solution T A m).T = T := rfl
@[simp] theorem sol_I : (k.solution T A m).I = k.ionicStrength m := rfl
@[simp] theorem sol_A : (k.solution T A m).A = A := rfl
@[simp] theorem sol_Z : (k.solution T A m).Z = k.chargeSum m := rfl
@[simp] theorem sol_sum : (k.solution T A m).sum = m.sum := rfl
@[simp] theorem sol_cations : (k.solution T A m).cations = List.ofFn (k.cation m) := rfl
@[simp] theorem sol_anions : (k.solution T A m).anions = List.ofFn (k.anion m) := rfl
@[simp] theorem sol_neutrals : (k.solution T A m).neutrals = List.ofFn (k.neutral m) := rfl

end Solution

section Core

variable (S : Screening) (J : ℝ → ℝ) (k : Kinds nc na nn) (T A : ℝ) (m : Molalities nc na nn)
  (p' : Fin nc → Fin nc → ℝ) (q' : Fin na → Fin na → ℝ)

noncomputable def Db (k : Kinds nc na nn) (A : ℝ) (m : Molalities nc na nn) : ℝ :=
  -A * (√(k.ionicStrength m) / (1 + 12 / 10 * √(k.ionicStrength m))
    + 2 / (12 / 10) * Real.log (1 + 12 / 10 * √(k.ionicStrength m)))

noncomputable def bPrime : Fin nc → Fin na → ℝ := fun c a => BPrime (k.solution T A m) (k.cation m c) (k.anion m a)
noncomputable def bVal : Fin nc → Fin na → ℝ := fun c a => secondVirial (k.fc c) (k.fa a) (k.zc c) (k.za a) T (k.ionicStrength m)
noncomputable def tVal (k : Kinds nc na nn) (T : ℝ) : Fin nc → Fin na → ℝ := fun c a => thirdVirial (k.fc c) (k.fa a) (k.zc c) (k.za a) T
noncomputable def pVal : Fin nc → Fin nc → ℝ := fun i j =>
  (theta (k.fc i) (k.fc j) : ℚ) + electrostatic J A (k.zc i) (k.zc j) (k.ionicStrength m)
noncomputable def qVal : Fin na → Fin na → ℝ := fun i j =>
  (theta (k.fa i) (k.fa j) : ℚ) + electrostatic J A (k.za i) (k.za j) (k.ionicStrength m)
noncomputable def rVal (k : Kinds nc na nn) : Fin nc → Fin nc → Fin na → ℝ := fun i j a => (psi (k.fc i) (k.fc j) (k.fa a) : ℚ)
noncomputable def sVal (k : Kinds nc na nn) : Fin na → Fin na → Fin nc → ℝ := fun i j c => (psi (k.fa i) (k.fa j) (k.fc c) : ℚ)
noncomputable def lVal (k : Kinds nc na nn) : Fin nn → Fin nc → ℝ := fun n c => (lambda (k.fn n) (k.fc c) : ℚ)
noncomputable def mVal (k : Kinds nc na nn) : Fin nn → Fin na → ℝ := fun n a => (lambda (k.fn n) (k.fa a) : ℚ)

theorem computeF_eq (hc : 0 < nc) (ha : 0 < na) (hp : Gives S J (k.solution T A m) k.zc p') (hq : Gives S J (k.solution T A m) k.za q') :
    computeF S (k.solution T A m) = .ok (gradF m.c m.a (bPrime k T A m) p' q' (Db k A m)) := by
  unfold computeF
  have h1 : pairLoop (fun i j => Res.bind (PhiPrime S (k.solution T A m) i j) fun p => .ok (i.m * j.m * p)) (k.solution T A m).cations
      = .ok (1 / 2 * ∑ i, ∑ j, m.c i * m.c j * p' i j) := by
    refine (pairLoop_ofFn (fun i j => Res.bind (PhiPrime S (k.solution T A m) i j) fun p => .ok (i.m * j.m * p))
      (fun i j => i.m * j.m * valueOf (PhiPrime S (k.solution T A m) i j)) (k.cation m) hc
      (fun i j => by simp [PhiPrime, Kinds.cation, hp.prime, valueOf])
      (fun i j => by simp [PhiPrime, Kinds.cation, hp.prime, valueOf, hp.symm i j, mul_comm (m.c i)])
      (fun i => by simp [PhiPrime, Kinds.cation, hp.prime, valueOf, hp.self])).trans ?_
    simp [PhiPrime, Kinds.cation, hp.prime, valueOf]
  have h2 : pairLoop (fun i j => Res.bind (PhiPrime S (k.solution T A m) i j) fun p => .ok (i.m * j.m * p)) (k.solution T A m).anions
      = .ok (1 / 2 * ∑ i, ∑ j, m.a i * m.a j * q' i j) := by
    refine (pairLoop_ofFn (fun i j => Res.bind (PhiPrime S (k.solution T A m) i j) fun p => .ok (i.m * j.m * p))
      (fun i j => i.m * j.m * valueOf (PhiPrime S (k.solution T A m) i j)) (k.anion m) ha
      (fun i j => by simp [PhiPrime, Kinds.anion, hq.prime, valueOf])
      (fun i j => by simp [PhiPrime, Kinds.anion, hq.prime, valueOf, hq.symm i j, mul_comm (m.a i)])
      (fun i => by simp [PhiPrime, Kinds.anion, hq.prime, valueOf, hq.self])).trans ?_
    simp [PhiPrime, Kinds.anion, hq.prime, valueOf]
  simp only [h1, h2, Res.bind_ok']
  simp only [sol_T, sol_I, sol_A, sol_Z, sol_cations, sol_anions, sol_neutrals, total_ofFn, gradF, Db, bPrime, Kinds.cation, Kinds.anion]

theorem cation_eq (hc : 0 < nc) (ha : 0 < na) (hp : Gives S J (k.solution T A m) k.zc p') (hq : Gives S J (k.solution T A m) k.za q')
    (c : Fin nc) : lnGammaCation S (k.solution T A m) (k.cation m c) =
      .ok (gradCation m.c m.a m.n (bVal k T m) (bPrime k T A m) (tVal k T) (pVal J k A m) p' q' (rVal k) (sVal k) (lVal k) k.zc (Db k A m)
        (k.chargeSum m) c) := by
  unfold lnGammaCation lnGammaIon
  rw [computeF_eq S J k T A m p' q' hc ha hp hq]
  have h1 : sumM (fun c' => Res.bind (Phi S (k.solution T A m) (k.cation m c) c') fun p =>
      .ok (c'.m * (2 * p + total (k.solution T A m).anions fun a => a.m * (psi (k.cation m c).formula c'.formula a.formula : ℚ))))
      (k.solution T A m).cations = .ok (∑ j, m.c j * (2 * pVal J k A m c j + ∑ a, m.a a * rVal k c j a)) := by
    refine (sumM_ofFn (fun c' => Res.bind (Phi S (k.solution T A m) (k.cation m c) c') fun p =>
      .ok (c'.m * (2 * p + total (k.solution T A m).anions fun a => a.m * (psi (k.cation m c).formula c'.formula a.formula : ℚ))))
      (fun c' => c'.m * (2 * valueOf (Phi S (k.solution T A m) (k.cation m c) c') +
        total (k.solution T A m).anions fun a => a.m * (psi (k.cation m c).formula c'.formula a.formula : ℚ))) (k.cation m)
      (fun j => by simp [Phi, Kinds.cation, hp.value, valueOf])).trans ?_
    simp [Phi, Kinds.cation, Kinds.anion, hp.value, valueOf, total_ofFn, pVal, rVal]
  have h2 : pairLoop (fun i j => .ok (i.m * j.m * (psi i.formula j.formula (k.cation m c).formula : ℚ))) (k.solution T A m).anions =
      .ok (1 / 2 * ∑ i, ∑ j, m.a i * m.a j * sVal k i j c) := by
    refine (pairLoop_ofFn (fun i j => .ok (i.m * j.m * (psi i.formula j.formula (k.cation m c).formula : ℚ)))
      (fun i j => i.m * j.m * (psi i.formula j.formula (k.cation m c).formula : ℚ)) (k.anion m) ha (fun i j => rfl)
      (fun i j => by rw [psi_comm]; ring) (fun i => by rw [psi_self]; simp)).trans ?_
    simp [Kinds.anion, Kinds.cation, sVal]
  simp only [h1, h2, Res.bind_ok']
  simp only [sol_T, sol_I, sol_A, sol_Z, sol_cations, sol_anions, sol_neutrals, total_ofFn, gradCation, B_eq, C_eq, Kinds.cation, Kinds.anion, Kinds.neutral, bVal, tVal, lVal]

theorem anion_eq (hc : 0 < nc) (ha : 0 < na) (hp : Gives S J (k.solution T A m) k.zc p') (hq : Gives S J (k.solution T A m) k.za q')
    (a : Fin na) : lnGammaAnion S (k.solution T A m) (k.anion m a) =
      .ok (gradAnion m.c m.a m.n (bVal k T m) (bPrime k T A m) (tVal k T) p' (qVal J k A m) q' (rVal k) (sVal k) (mVal k) k.za (Db k A m)
        (k.chargeSum m) a) := by
  unfold lnGammaAnion lnGammaIon
  rw [computeF_eq S J k T A m p' q' hc ha hp hq]
  have h1 : sumM (fun c' => Res.bind (Phi S (k.solution T A m) (k.anion m a) c') fun p =>
      .ok (c'.m * (2 * p + total (k.solution T A m).cations fun c => c.m * (psi (k.anion m a).formula c'.formula c.formula : ℚ))))
      (k.solution T A m).anions = .ok (∑ j, m.a j * (2 * qVal J k A m a j + ∑ c, m.c c * sVal k a j c)) := by
    refine (sumM_ofFn (fun c' => Res.bind (Phi S (k.solution T A m) (k.anion m a) c') fun p =>
      .ok (c'.m * (2 * p + total (k.solution T A m).cations fun c => c.m * (psi (k.anion m a).formula c'.formula c.formula : ℚ))))
      (fun c' => c'.m * (2 * valueOf (Phi S (k.solution T A m) (k.anion m a) c') +
        total (k.solution T A m).cations fun c => c.m * (psi (k.anion m a).formula c'.formula c.formula : ℚ))) (k.anion m)
      (fun j => by simp [Phi, Kinds.anion, hq.value, valueOf])).trans ?_
    simp [Phi, Kinds.cation, Kinds.anion, hq.value, valueOf, total_ofFn, qVal, sVal]
  have h2 : pairLoop (fun i j => .ok (i.m * j.m * (psi i.formula j.formula (k.anion m a).formula : ℚ))) (k.solution T A m).cations =
      .ok (1 / 2 * ∑ i, ∑ j, m.c i * m.c j * rVal k i j a) := by
    refine (pairLoop_ofFn (fun i j => .ok (i.m * j.m * (psi i.formula j.formula (k.anion m a).formula : ℚ)))
      (fun i j => i.m * j.m * (psi i.formula j.formula (k.anion m a).formula : ℚ)) (k.cation m) hc (fun i j => rfl)
      (fun i j => by rw [psi_comm]; ring) (fun i => by rw [psi_self]; simp)).trans ?_
    simp [Kinds.anion, Kinds.cation, rVal]
  simp only [h1, h2, Res.bind_ok']
  simp only [sol_T, sol_I, sol_A, sol_Z, sol_cations, sol_anions, sol_neutrals, total_ofFn, gradAnion, B_eq, C_eq, Kinds.cation, Kinds.anion, Kinds.neutral, bVal, tVal, mVal]

theorem neutral_eq (hz : k.NoTriplets) (n : Fin nn) :
    lnGammaNeutral (k.solution T A m) (k.neutral m n) = gradNeutral m.c m.a (lVal k) (mVal k) n := by
  simp only [lnGammaNeutral, sol_cations, sol_anions, total_ofFn, gradNeutral, Kinds.cation, Kinds.anion, Kinds.neutral, lVal, mVal, hz n]
  simp

theorem waterPairs_cations (hc : 0 < nc) (hp : Gives S J (k.solution T A m) k.zc p') :
    waterPairs S (k.solution T A m) (k.solution T A m).cations (k.solution T A m).anions =
      .ok (1 / 2 * ∑ i, ∑ j, m.c i * m.c j * (pVal J k A m i j + k.ionicStrength m * p' i j + ∑ a, m.a a * rVal k i j a)) := by
  unfold waterPairs
  refine (pairLoop_ofFn (fun i j => Res.bind (PhiPhi S (k.solution T A m) i j) fun p =>
      .ok (i.m * j.m * (p + total (k.solution T A m).anions fun a => a.m * (psi i.formula j.formula a.formula : ℚ))))
    (fun i j => i.m * j.m * (valueOf (PhiPhi S (k.solution T A m) i j) +
      total (k.solution T A m).anions fun a => a.m * (psi i.formula j.formula a.formula : ℚ))) (k.cation m) hc
    (fun i j => by simp [PhiPhi, Kinds.cation, hp.value, hp.prime, valueOf])
    (fun i j => by
      simp only [PhiPhi, Kinds.cation, hp.value, hp.prime, valueOf, Res.bind_ok']
      rw [theta_comm, electrostatic_comm, hp.symm i j]
      simp only [psi_comm (k.fc i) (k.fc j)]; ring)
    (fun i => by
      simp only [PhiPhi, Kinds.cation, hp.value, hp.prime, valueOf, Res.bind_ok']
      rw [theta_self, electrostatic_self, hp.self i]
      simp [psi_self, total_ofFn])).trans ?_
  simp [PhiPhi, Kinds.cation, Kinds.anion, hp.value, hp.prime, valueOf, total_ofFn, pVal, rVal]

theorem waterPairs_anions (ha : 0 < na) (hq : Gives S J (k.solution T A m) k.za q') :
    waterPairs S (k.solution T A m) (k.solution T A m).anions (k.solution T A m).cations =
      .ok (1 / 2 * ∑ i, ∑ j, m.a i * m.a j * (qVal J k A m i j + k.ionicStrength m * q' i j + ∑ c, m.c c * sVal k i j c)) := by
  unfold waterPairs
  refine (pairLoop_ofFn (fun i j => Res.bind (PhiPhi S (k.solution T A m) i j) fun p =>
      .ok (i.m * j.m * (p + total (k.solution T A m).cations fun a => a.m * (psi i.formula j.formula a.formula : ℚ))))
    (fun i j => i.m * j.m * (valueOf (PhiPhi S (k.solution T A m) i j) +
      total (k.solution T A m).cations fun a => a.m * (psi i.formula j.formula a.formula : ℚ))) (k.anion m) ha
    (fun i j => by simp [PhiPhi, Kinds.anion, hq.value, hq.prime, valueOf])
    (fun i j => by
      simp only [PhiPhi, Kinds.anion, hq.value, hq.prime, valueOf, Res.bind_ok']
      rw [theta_comm, electrostatic_comm, hq.symm i j]
      simp only [psi_comm (k.fa i) (k.fa j)]; ring)
    (fun i => by
      simp only [PhiPhi, Kinds.anion, hq.value, hq.prime, valueOf, Res.bind_ok']
      rw [theta_self, electrostatic_self, hq.self i]
      simp [psi_self, total_ofFn])).trans ?_
  simp [PhiPhi, Kinds.cation, Kinds.anion, hq.value, hq.prime, valueOf, total_ofFn, qVal, sVal]

end Core

theorem gibbs_deriv (J : ℝ → ℝ) (k : Kinds nc na nn) (T A : ℝ) (p' : Fin nc → Fin nc → ℝ) (q' : Fin na → Fin na → ℝ)
    (x : Fin nc → ℝ → ℝ) (y : Fin na → ℝ → ℝ) (u : Fin nn → ℝ → ℝ) (dx : Fin nc → ℝ) (dy : Fin na → ℝ) (du : Fin nn → ℝ) (s : ℝ)
    (hx : ∀ c, HasDerivAt (x c) (dx c) s) (hy : ∀ a, HasDerivAt (y a) (dy a) s) (hu : ∀ n, HasDerivAt (u n) (du n) s)
    (hI : 0 < k.ionicStrength (path x y u s)) (hz : k.NoTriplets)
    (hp : ∀ i j, HasDerivAt (electrostatic J A (k.zc i) (k.zc j)) (p' i j) (k.ionicStrength (path x y u s)))
    (hq : ∀ i j, HasDerivAt (electrostatic J A (k.za i) (k.za j)) (q' i j) (k.ionicStrength (path x y u s))) :
    HasDerivAt (fun t => k.excessGibbs J T A (path x y u t))
      (∑ c, dx c * gradCation (path x y u s).c (path x y u s).a (path x y u s).n (bVal k T (path x y u s)) (bPrime k T A (path x y u s))
          (tVal k T) (pVal J k A (path x y u s)) p' q' (rVal k) (sVal k) (lVal k) k.zc (Db k A (path x y u s)) (k.chargeSum (path x y u s)) c
        + ∑ a, dy a * gradAnion (path x y u s).c (path x y u s).a (path x y u s).n (bVal k T (path x y u s)) (bPrime k T A (path x y u s))
          (tVal k T) p' (qVal J k A (path x y u s)) q' (rVal k) (sVal k) (mVal k) k.za (Db k A (path x y u s)) (k.chargeSum (path x y u s)) a
        + ∑ n, du n * gradNeutral (path x y u s).c (path x y u s).a (lVal k) (mVal k) n) s := by
  set m := path x y u s with hm
  rw [gradient_sum _ _ _ _ _ _ _ _ _ _ _ _ _ _ _ _ _ _ dx dy du (1 / 2 * (∑ c, k.zc c ^ 2 * dx c + ∑ a, k.za a ^ 2 * dy a))
    (∑ c, dx c * |k.zc c| + ∑ a, dy a * |k.za a|) rfl rfl]
  have hI' : HasDerivAt (fun t => k.ionicStrength (path x y u t))
      (1 / 2 * (∑ c, k.zc c ^ 2 * dx c + ∑ a, k.za a ^ 2 * dy a)) s :=
    ((HasDerivAt.fun_sum fun c _ => (hx c).const_mul (k.zc c ^ 2)).add
      (HasDerivAt.fun_sum fun a _ => (hy a).const_mul (k.za a ^ 2))).const_mul (1 / 2)
  have hZ' : HasDerivAt (fun t => k.chargeSum (path x y u t)) (∑ c, dx c * |k.zc c| + ∑ a, dy a * |k.za a|) s :=
    (HasDerivAt.fun_sum fun c _ => (hx c).mul_const |k.zc c|).add (HasDerivAt.fun_sum fun a _ => (hy a).mul_const |k.za a|)
  generalize 1 / 2 * (∑ c, k.zc c ^ 2 * dx c + ∑ a, k.za a ^ 2 * dy a) = I' at *
  generalize ∑ c, dx c * |k.zc c| + ∑ a, dy a * |k.za a| = Z' at *
  have h1 := ((hasDerivAt_debye A _ hI).comp s hI').congr_deriv (show _ = 2 * Db k A m * I' by rfl)
  have h2 := hasDerivAt_bilinear m.c dx m.a dy x y
    (fun c a t => 2 * secondVirial (k.fc c) (k.fa a) (k.zc c) (k.za a) T (k.ionicStrength (path x y u t))
      + k.chargeSum (path x y u t) * thirdVirial (k.fc c) (k.fa a) (k.zc c) (k.za a) T)
    (fun c a => 2 * bVal k T m c a + k.chargeSum m * tVal k T c a) (fun c a => 2 * (bPrime k T A m c a * I') + Z' * tVal k T c a) s
    hx (fun _ => rfl) hy (fun _ => rfl)
    (fun c a => by
      have h := (hasDerivAt_secondVirial (k.solution T A m) (k.cation m c) (k.anion m a) hI).comp s hI'
      exact (h.const_mul 2).add (hZ'.mul_const _))
    (fun c a => rfl)
  have h3 := hasDerivAt_quadratic m.c dx x
    (fun i j t => 2 * ((theta (k.fc i) (k.fc j) : ℚ) + electrostatic J A (k.zc i) (k.zc j) (k.ionicStrength (path x y u t)))
      + ∑ a, y a t * (psi (k.fc i) (k.fc j) (k.fa a) : ℚ))
    (fun i j => 2 * pVal J k A m i j + ∑ a, m.a a * rVal k i j a) (fun i j => 2 * (p' i j * I') + ∑ a, dy a * rVal k i j a) s
    hx (fun _ => rfl)
    (fun i j => by
      have h := (hp i j).comp s hI'
      exact ((h.const_add _).const_mul 2).add (HasDerivAt.fun_sum fun a _ => (hy a).mul_const _))
    (fun i j => rfl)
    (fun i j => by
      simp only [pVal, rVal]
      rw [theta_comm, electrostatic_comm]
      simp only [psi_comm (k.fc i) (k.fc j)])
  have h4 := hasDerivAt_quadratic m.a dy y
    (fun i j t => 2 * ((theta (k.fa i) (k.fa j) : ℚ) + electrostatic J A (k.za i) (k.za j) (k.ionicStrength (path x y u t)))
      + ∑ c, x c t * (psi (k.fa i) (k.fa j) (k.fc c) : ℚ))
    (fun i j => 2 * qVal J k A m i j + ∑ c, m.c c * sVal k i j c) (fun i j => 2 * (q' i j * I') + ∑ c, dx c * sVal k i j c) s
    hy (fun _ => rfl)
    (fun i j => by
      have h := (hq i j).comp s hI'
      exact ((h.const_add _).const_mul 2).add (HasDerivAt.fun_sum fun a _ => (hx a).mul_const _))
    (fun i j => rfl)
    (fun i j => by
      simp only [qVal, sVal]
      rw [theta_comm, electrostatic_comm]
      simp only [psi_comm (k.fa i) (k.fa j)])
  have h5 := hasDerivAt_bilinear m.n du m.c dx u x (fun n c _ => 2 * (lambda (k.fn n) (k.fc c) : ℝ)) (fun n c => 2 * lVal k n c)
    (fun _ _ => 0) s hu (fun _ => rfl) hx (fun _ => rfl) (fun n c => hasDerivAt_const _ _) (fun n c => rfl)
  have h6 := hasDerivAt_bilinear m.n du m.a dy u y (fun n a _ => 2 * (lambda (k.fn n) (k.fa a) : ℝ)) (fun n a => 2 * mVal k n a)
    (fun _ _ => 0) s hu (fun _ => rfl) hy (fun _ => rfl) (fun n c => hasDerivAt_const _ _) (fun n c => rfl)
  refine (((((h1.add h2).add h3).add h4).add h5).add h6).congr_of_eventuallyEq (Filter.Eventually.of_forall fun t => ?_)
  simp only [Kinds.excessGibbs, hz _ _ _, Pi.add_apply, Function.comp]
  simp [path]

theorem water_value (S : Screening) (J : ℝ → ℝ) (k : Kinds nc na nn) (T A : ℝ) (m : Molalities nc na nn) (p' : Fin nc → Fin nc → ℝ)
    (q' : Fin na → Fin na → ℝ) (hc : 0 < nc) (ha : 0 < na) (hI : 0 < k.ionicStrength m) (hm : m.sum ≠ 0) (hz : k.NoTriplets)
    (hp : Gives S J (k.solution T A m) k.zc p') (hq : Gives S J (k.solution T A m) k.za q') :
    lnActivityWater S (k.solution T A m) = .ok (-waterMolarMass * (m.sum
      + (∑ c, m.c c * gradCation m.c m.a m.n (bVal k T m) (bPrime k T A m) (tVal k T) (pVal J k A m) p' q' (rVal k) (sVal k) (lVal k) k.zc
            (Db k A m) (k.chargeSum m) c
        + ∑ a, m.a a * gradAnion m.c m.a m.n (bVal k T m) (bPrime k T A m) (tVal k T) p' (qVal J k A m) q' (rVal k) (sVal k) (mVal k) k.za
            (Db k A m) (k.chargeSum m) a
        + ∑ n, m.n n * gradNeutral m.c m.a (lVal k) (mVal k) n)
      - k.excessGibbs J T A m)) := by
  unfold lnActivityWater
  rw [waterPairs_cations S J k T A m p' hc hp, waterPairs_anions S J k T A m q' ha hq]
  rw [gradient_sum _ _ _ _ _ _ _ _ _ _ _ _ _ _ _ _ _ _ m.c m.a m.n (k.ionicStrength m) (k.chargeSum m) rfl rfl]
  simp only [Res.bind_ok', sol_T, sol_I, sol_A, sol_Z, sol_sum, sol_cations, sol_anions, sol_neutrals, total_ofFn, Kinds.cation, Kinds.anion,
    Kinds.neutral, hz _ _ _]
  have e1 : ∀ c a, BPhi (k.solution T A m) ⟨k.fc c, k.zc c, m.c c⟩ ⟨k.fa a, k.za a, m.a a⟩ =
      bVal k T m c a + k.ionicStrength m * bPrime k T A m c a := by
    intro c a
    rw [BPhi_eq _ _ _ (by simpa using hI), B_eq]
    rfl
  have e2 : ∀ c a, C (k.solution T A m) ⟨k.fc c, k.zc c, m.c c⟩ ⟨k.fa a, k.za a, m.a a⟩ = tVal k T c a := by
    intro c a; rw [C_eq]; rfl
  have eG : k.excessGibbs J T A m = -(4 * A * k.ionicStrength m / (12 / 10)) * Real.log (1 + 12 / 10 * √(k.ionicStrength m))
      + ∑ c, ∑ a, m.c c * m.a a * (2 * bVal k T m c a + k.chargeSum m * tVal k T c a)
      + 1 / 2 * ∑ i, ∑ j, m.c i * m.c j * (2 * pVal J k A m i j + ∑ a, m.a a * rVal k i j a)
      + 1 / 2 * ∑ i, ∑ j, m.a i * m.a j * (2 * qVal J k A m i j + ∑ c, m.c c * sVal k i j c)
      + ∑ n, ∑ c, m.n n * m.c c * (2 * lVal k n c) + ∑ n, ∑ a, m.n n * m.a a * (2 * mVal k n a) := by
    simp only [Kinds.excessGibbs, hz _ _ _]
    simp [bVal, tVal, pVal, qVal, rVal, sVal, lVal, mVal]
  simp only [e1, e2, eG]
  have g1 : ∑ c, m.c c * ∑ a, m.a a * (2 * bVal k T m c a + k.chargeSum m * tVal k T c a) =
      ∑ c, ∑ a, m.c c * m.a a * (2 * bVal k T m c a + k.chargeSum m * tVal k T c a) :=
    Finset.sum_congr rfl fun c _ => by rw [Finset.mul_sum]; exact Finset.sum_congr rfl fun a _ => by ring
  have g2 : ∑ a, m.a a * ∑ c, m.c c * (2 * bVal k T m c a + k.chargeSum m * tVal k T c a) =
      ∑ c, ∑ a, m.c c * m.a a * (2 * bVal k T m c a + k.chargeSum m * tVal k T c a) := by
    rw [Finset.sum_comm]
    exact Finset.sum_congr rfl fun c _ => by rw [Finset.mul_sum]; exact Finset.sum_congr rfl fun a _ => by ring
  have g3 : ∑ c, ∑ a, m.c c * m.a a * (bVal k T m c a + k.ionicStrength m * bPrime k T A m c a + k.chargeSum m * tVal k T c a) =
      1 / 2 * (∑ c, ∑ a, m.c c * m.a a * (2 * bVal k T m c a + k.chargeSum m * tVal k T c a)
        + ∑ c, ∑ a, m.c c * m.a a * (2 * (bPrime k T A m c a * k.ionicStrength m) + k.chargeSum m * tVal k T c a)) := by
    rw [← Finset.sum_add_distrib, Finset.mul_sum]
    refine Finset.sum_congr rfl fun c _ => ?_
    rw [← Finset.sum_add_distrib, Finset.mul_sum]
    exact Finset.sum_congr rfl fun a _ => by ring
  have q1 : ∀ {n : Nat} (v : Fin n → ℝ) (w : Fin n → Fin n → ℝ), ∑ i, v i * ∑ j, v j * w i j = ∑ i, ∑ j, v i * v j * w i j := fun v w =>
    Finset.sum_congr rfl fun c _ => by rw [Finset.mul_sum]; exact Finset.sum_congr rfl fun a _ => by ring
  have q2 : ∀ {n : Nat} (v : Fin n → ℝ) (w w' r : Fin n → Fin n → ℝ) (I : ℝ), ∑ i, ∑ j, v i * v j * (w i j + I * w' i j + r i j) =
      1 / 2 * (∑ i, ∑ j, v i * v j * (2 * w i j + r i j) + ∑ i, ∑ j, v i * v j * (2 * (w' i j * I) + r i j)) := by
    intro n v w w' r I
    rw [← Finset.sum_add_distrib, Finset.mul_sum]
    refine Finset.sum_congr rfl fun c _ => ?_
    rw [← Finset.sum_add_distrib, Finset.mul_sum]
    exact Finset.sum_congr rfl fun a _ => by ring
  have l1 : ∀ {q : Nat} (v : Fin nn → ℝ) (w : Fin q → ℝ) (L : Fin nn → Fin q → ℝ),
      ∑ n, v n * ∑ c, w c * (2 * L n c) = 2 * ∑ n, ∑ c, v n * w c * L n c := by
    intro q v w L
    rw [Finset.mul_sum]
    refine Finset.sum_congr rfl fun c _ => ?_
    rw [Finset.mul_sum, Finset.mul_sum]
    exact Finset.sum_congr rfl fun a _ => by ring
  have l2 : ∀ {q : Nat} (v : Fin nn → ℝ) (w : Fin q → ℝ) (L : Fin nn → Fin q → ℝ),
      ∑ c, w c * ∑ n, v n * (2 * L n c) = 2 * ∑ n, ∑ c, v n * w c * L n c := by
    intro q v w L
    rw [Finset.sum_comm, Finset.mul_sum]
    refine Finset.sum_congr rfl fun c _ => ?_
    rw [Finset.mul_sum, Finset.mul_sum]
    exact Finset.sum_congr rfl fun a _ => by ring
  have l3 : ∀ {q : Nat} (v : Fin nn → ℝ) (w : Fin q → ℝ) (L : Fin nn → Fin q → ℝ),
      ∑ n, ∑ c, v n * w c * (2 * L n c) = 2 * ∑ n, ∑ c, v n * w c * L n c := by
    intro q v w L
    rw [Finset.mul_sum]
    refine Finset.sum_congr rfl fun c _ => ?_
    rw [Finset.mul_sum]
    exact Finset.sum_congr rfl fun a _ => by ring
  rw [g1, g2, g3, q1, q1, q2, q2, l1, l1, l2, l2, l3, l3]
  simp only [mul_zero, Finset.sum_const_zero, Rat.cast_zero, add_zero, Db, lVal, mVal]
  congr 1
  have h1 : 0 < 1 + 12 / 10 * √(k.ionicStrength m) := by positivity
  field_simp
  ring

/-! ## The theorems -/

/-- The properties of a solution in which the electrostatic terms and their derivatives fit together. -/
theorem derived (S : Screening) (J : ℝ → ℝ) (k : Kinds nc na nn) (T A : ℝ) (m : Molalities nc na nn) (p' : Fin nc → Fin nc → ℝ)
    (q' : Fin na → Fin na → ℝ) (hc : 0 < nc) (ha : 0 < na) (hI : 0 < k.ionicStrength m) (hm : m.sum ≠ 0) (hz : k.NoTriplets)
    (hp : Gives S J (k.solution T A m) k.zc p') (hq : Gives S J (k.solution T A m) k.za q')
    (hp' : ∀ i j, HasDerivAt (electrostatic J A (k.zc i) (k.zc j)) (p' i j) (k.ionicStrength m))
    (hq' : ∀ i j, HasDerivAt (electrostatic J A (k.za i) (k.za j)) (q' i j) (k.ionicStrength m)) :
    DerivedFrom (k.excessGibbs J T A) S k T A m := by
  refine ⟨_, _, _, fun c => cation_eq S J k T A m p' q' hc ha hp hq c, fun a => anion_eq S J k T A m p' q' hc ha hp hq a,
    fun n => neutral_eq k T A m hz n, ?_, ?_⟩
  · intro x y u dx dy du s hs hx hy hu
    subst hs
    exact gibbs_deriv J k T A p' q' x y u dx dy du s hx hy hu hI hz hp' hq'
  · rw [water_value S J k T A m p' q' hc ha hI hm hz hp hq]

/-- Part of C80. In a solution where all cations have one charge and all anions have one charge, and where the tables have no entry for a
neutral solute with a cation and an anion of the solution, the activity coefficients and the activity of water are derived from the excess
Gibbs energy of Pitzer's equations. What is missing: solutions with ions of different charges of the same sign, and with such entries; the
claim is false there (`C80_gibbs_wrong`, `C80_triplets_wrong`). -/
theorem C80_gibbs_partial (k : Kinds nc na nn) (J : ℝ → ℝ) (T A : ℝ) (m : Molalities nc na nn) (hc : 0 < nc) (ha : 0 < na)
    (h1 : k.OneCharge) (hz : k.NoTriplets) (hI : 0 < k.ionicStrength m) (hm : m.sum ≠ 0) :
    DerivedFrom (k.excessGibbs J T A) tabulated k T A m := by
  have e : ∀ {n : Nat} (z : Fin n → ℝ) (h : ∀ i j, z i = z j) (i j : Fin n) (I : ℝ), electrostatic J A (z i) (z j) I = 0 :=
    fun z h i j I => by rw [h i j, electrostatic_self]
  have d : ∀ {n : Nat} (z : Fin n → ℝ) (h : ∀ i j, z i = z j), Gives tabulated J (k.solution T A m) z (fun _ _ => 0) := fun z h =>
    ⟨fun i j => by rw [thetaE, if_pos (h i j), sol_A, e z h], fun i j => by rw [thetaEPrime, if_pos (h i j)], fun _ _ => rfl, fun _ => rfl⟩
  have g : ∀ {n : Nat} (z : Fin n → ℝ) (h : ∀ i j, z i = z j) (i j : Fin n) (I : ℝ), HasDerivAt (electrostatic J A (z i) (z j)) 0 I :=
    fun z h i j I => (hasDerivAt_const I (0 : ℝ)).congr_of_eventuallyEq (Filter.Eventually.of_forall fun t => e z h i j t)
  exact derived tabulated J k T A m _ _ hc ha hI hm hz (d k.zc h1.1) (d k.za h1.2) (fun i j => g k.zc h1.1 i j _)
    (fun i j => g k.za h1.2 i j _)

theorem gives_exact (J J1 : ℝ → ℝ) (d : Solution) {n : Nat} (z : Fin n → ℝ) : Gives (exact J J1) J d z (fun i j =>
    z i * z j / (8 * d.I * d.I) * (J1 (6 * z i * z j * d.A * √d.I) - 1 / 2 * J1 (6 * z i * z i * d.A * √d.I)
      - 1 / 2 * J1 (6 * z j * z j * d.A * √d.I)) - electrostatic J d.A (z i) (z j) d.I / d.I) where
  value i j := by
    unfold thetaE
    split
    · next h => rw [h, electrostatic_self]
    · rfl
  prime i j := by
    unfold thetaEPrime
    split
    · next h => rw [h, electrostatic_self]; congr 1; ring
    · next h => simp [exact, thetaE, h, electrostatic]
  symm i j := by
    rw [electrostatic_comm, show 6 * z i * z j * d.A * √d.I = 6 * z j * z i * d.A * √d.I by ring]; ring
  self i := by rw [electrostatic_self]; ring

/-- Part of C80. With a differentiable function `J0` and with `J1 x = x J0' x`, as the electrostatic theory has them, the claim holds
for all charges: apart from the tables of `J0` and `J1` and the missing triplet terms the equations of the code are right. -/
theorem C80_exact_functions (k : Kinds nc na nn) (J J1 : ℝ → ℝ) (T A : ℝ) (m : Molalities nc na nn) (hc : 0 < nc) (ha : 0 < na)
    (hA : 0 < A) (hzc : ∀ c, 0 < k.zc c) (hza : ∀ a, k.za a < 0) (hJ : ∀ x, 0 < x → HasDerivAt J (J1 x / x) x) (hz : k.NoTriplets)
    (hI : 0 < k.ionicStrength m) (hm : m.sum ≠ 0) :
    DerivedFrom (k.excessGibbs J T A) (exact J J1) k T A m :=
  derived (exact J J1) J k T A m _ _ hc ha hI hm hz (gives_exact J J1 _ k.zc) (gives_exact J J1 _ k.za)
    (fun i j => hasDerivAt_electrostatic J J1 A _ _ _ hA hI (mul_pos (hzc i) (hzc j)) hJ)
    (fun i j => hasDerivAt_electrostatic J J1 A _ _ _ hA hI (mul_pos_of_neg_of_neg (hza i) (hza j)) hJ)

end Verif.Pitzer
