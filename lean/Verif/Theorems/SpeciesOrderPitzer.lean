import Verif.Theorems.SpeciesOrder

namespace Verif.SpeciesOrder

open Activity Aqueous ChemicalProps

variable {order : List Nat}


/-! ## Pitzer -/

section Pitzer

open Pitzer

theorem total_perm {α : Type} {l l' : List α} (h : l.Perm l') (f : α → ℝ) : Pitzer.total l f = Pitzer.total l' f := (h.map f).sum_eq

theorem bind_ok {α β : Type} {a : Res α} {f : α → Res β} {v : β} (h : Res.bind a f = .ok v) : ∃ x, a = .ok x ∧ f x = .ok v := by
  cases a with
  | ok x => exact ⟨x, rfl, h⟩
  | throw => cases h
  | ub => cases h

theorem sumM_perm {α : Type} (f : α → Res ℝ) {l l' : List α} (h : l.Perm l') : ∀ v, sumM f l = .ok v → sumM f l' = .ok v := by
  induction h with
  | nil => exact fun _ h => h
  | cons a _ ih =>
    intro v hv
    obtain ⟨x, h1, h2⟩ := bind_ok hv
    obtain ⟨y, h3, h4⟩ := bind_ok h2
    unfold sumM
    rw [h1, Res.bind_ok', ih y h3]
    exact h4
  | swap a b l =>
    intro v hv
    obtain ⟨x, h1, h2⟩ := bind_ok hv
    obtain ⟨y, h3, h4⟩ := bind_ok h2
    obtain ⟨z, h5, h6⟩ := bind_ok h3
    obtain ⟨w, h7, h8⟩ := bind_ok h6
    cases h4
    cases h8
    simp only [sumM, h1, h5, h7, Res.bind_ok']
    congr 1
    ring
  | trans _ _ ih1 ih2 => exact fun v hv => ih2 v (ih1 v hv)

theorem pairs_perm {α : Type} (f : α → α → Res ℝ) (hf : ∀ a b v, f a b = .ok v → f b a = .ok v) {l l' : List α} (h : l.Perm l') :
    ∀ v, pairs f l = .ok v → pairs f l' = .ok v := by
  induction h with
  | nil => exact fun _ h => h
  | cons a hp ih =>
    intro v hv
    obtain ⟨x, h1, h2⟩ := bind_ok hv
    obtain ⟨y, h3, h4⟩ := bind_ok h2
    unfold pairs
    rw [sumM_perm (f a) hp x h1, Res.bind_ok', ih y h3]
    exact h4
  | swap a b l =>
    intro v hv
    obtain ⟨x, h1, h2⟩ := bind_ok hv
    obtain ⟨y, h3, h4⟩ := bind_ok h2
    obtain ⟨x1, h5, h6⟩ := bind_ok h1
    obtain ⟨x2, h7, h8⟩ := bind_ok h6
    obtain ⟨y1, h9, h10⟩ := bind_ok h3
    obtain ⟨y2, h11, h12⟩ := bind_ok h10
    cases h4
    cases h8
    cases h12
    simp only [pairs, sumM, hf _ _ _ h5, h7, h9, h11, Res.bind_ok']
    congr 1
    ring
  | trans _ _ ih1 ih2 => exact fun v hv => ih2 v (ih1 v hv)

theorem pairLoop_perm {α : Type} (f : α → α → Res ℝ) (hf : ∀ a b v, f a b = .ok v → f b a = .ok v) {l l' : List α} (h : l.Perm l')
    (v : ℝ) (hv : pairLoop f l = .ok v) : pairLoop f l' = .ok v := by
  unfold pairLoop at hv ⊢
  rw [← h.length_eq]
  split at hv
  · cases hv
  · rename_i hn
    rw [if_neg hn]
    exact pairs_perm f hf h v hv

theorem identical_perm {a a' : List Formula} (h : a.Perm a') (b : List Formula) : identical a b = identical a' b := by
  unfold identical
  rw [Bool.eq_iff_iff]
  simp only [Bool.and_eq_true, List.all_eq_true, List.any_eq_true, h.mem_iff]

theorem theta_symm (f g : Formula) : theta f g = theta g f := by
  unfold theta pairParam
  rw [show (fun l : Formula × Formula × List ℚ => identical [f, g] [l.1, l.2.1]) = fun l => identical [g, f] [l.1, l.2.1] from
    funext fun l => identical_perm (List.Perm.swap _ _ _) _]

theorem psi_symm (f g h : Formula) : psi f g h = psi g f h := by
  unfold psi tripleParam
  rw [show (fun l : Formula × Formula × Formula × List ℚ => identical [f, g, h] [l.1, l.2.1, l.2.2.1]) = fun l => identical [g, f, h] [l.1, l.2.1, l.2.2.1] from
    funext fun l => identical_perm (List.Perm.swap _ _ _) _]

theorem thetaE_symm (S : Screening) (d : Solution) (a b v : ℝ) (h : thetaE S d a b = .ok v) : thetaE S d b a = .ok v := by
  unfold thetaE at h ⊢
  by_cases e : a = b
  · subst e; exact h
  · rw [if_neg e] at h
    rw [if_neg (Ne.symm e)]
    obtain ⟨x, h1, h⟩ := bind_ok h
    obtain ⟨y, h2, h⟩ := bind_ok h
    obtain ⟨z, h3, h⟩ := bind_ok h
    cases h
    have h1' : S.J0 (6 * b * a * d.A * √d.I) = .ok x := by rw [← h1]; congr 1; ring
    simp only [h1', h2, h3, Res.bind_ok']
    congr 1
    ring

theorem thetaEPrime_symm (S : Screening) (d : Solution) (a b v : ℝ) (h : thetaEPrime S d a b = .ok v) : thetaEPrime S d b a = .ok v := by
  unfold thetaEPrime at h ⊢
  by_cases e : a = b
  · subst e; exact h
  · rw [if_neg e] at h
    rw [if_neg (Ne.symm e)]
    obtain ⟨x, h1, h⟩ := bind_ok h
    obtain ⟨y, h2, h⟩ := bind_ok h
    obtain ⟨z, h3, h⟩ := bind_ok h
    obtain ⟨t, h4, h⟩ := bind_ok h
    cases h
    have h1' : S.J1 (6 * b * a * d.A * √d.I) = .ok x := by rw [← h1]; congr 1; ring
    simp only [h1', h2, h3, thetaE_symm S d a b t h4, Res.bind_ok']
    congr 1
    ring

/-- The same solution with the solutes in another order. -/
structure SameSolution (d d' : Solution) : Prop where
  T : d'.T = d.T
  I : d'.I = d.I
  A : d'.A = d.A
  Z : d'.Z = d.Z
  sum : d'.sum = d.sum
  cations : d.cations.Perm d'.cations
  anions : d.anions.Perm d'.anions
  neutrals : d.neutrals.Perm d'.neutrals

theorem computeF_perm (S : Screening) (d : Solution) (c a n : List Solute) (hc : d.cations.Perm c) (ha : d.anions.Perm a) (v : ℝ)
    (h : computeF S d = .ok v) : computeF S { d with cations := c, anions := a, neutrals := n } = .ok v := by
  unfold computeF at h ⊢
  obtain ⟨x, h1, h⟩ := bind_ok h
  obtain ⟨y, h2, h⟩ := bind_ok h
  cases h
  have hsymm : ∀ (i j : Solute) (v : ℝ), (Res.bind (PhiPrime S d i j) fun p => .ok (i.m * j.m * p)) = .ok v →
      (Res.bind (PhiPrime S d j i) fun p => .ok (j.m * i.m * p)) = .ok v := by
    intro i j v h
    obtain ⟨p, h1, h2⟩ := bind_ok h
    cases h2
    rw [show PhiPrime S d j i = .ok p from thetaEPrime_symm S d _ _ _ h1, Res.bind_ok']
    congr 1
    ring
  have e1 := pairLoop_perm _ hsymm hc x h1
  have e2 := pairLoop_perm _ hsymm ha y h2
  refine Eq.trans (b := Res.bind (pairLoop (fun i j => Res.bind (PhiPrime S d i j) fun p => .ok (i.m * j.m * p)) c) fun cc =>
    Res.bind (pairLoop (fun i j => Res.bind (PhiPrime S d i j) fun p => .ok (i.m * j.m * p)) a) fun aa =>
      .ok (-d.A * (√d.I / (1 + 12 / 10 * √d.I) + 2 / (12 / 10) * Real.log (1 + 12 / 10 * √d.I))
        + (Pitzer.total c fun c => Pitzer.total a fun a => c.m * a.m * BPrime d c a) + cc + aa)) rfl ?_
  rw [e1, e2]
  simp only [Res.bind_ok']
  rw [← total_perm hc]
  simp only [← total_perm ha]

theorem lnGammaIon_perm (S : Screening) (d : Solution) (c a n : List Solute) (hc : d.cations.Perm c) (ha : d.anions.Perm a) (hn : d.neutrals.Perm n)
    (same other same' other' : List Solute) (hs : same.Perm same') (ho : other.Perm other') (virial third : Solute → Solute → ℝ) (M : Solute) (v : ℝ)
    (h : lnGammaIon S d same other virial third M = .ok v) :
    lnGammaIon S { d with cations := c, anions := a, neutrals := n } same' other' virial third M = .ok v := by
  unfold lnGammaIon at h ⊢
  obtain ⟨F, h1, h⟩ := bind_ok h
  obtain ⟨x, h2, h⟩ := bind_ok h
  obtain ⟨y, h3, h⟩ := bind_ok h
  cases h
  rw [computeF_perm S d c a n hc ha F h1]
  have e2 := sumM_perm _ hs x h2
  have hsymm : ∀ (i j : Solute) (v : ℝ), (Res.ok (i.m * j.m * (psi i.formula j.formula M.formula : ℚ)) : Res ℝ) = .ok v →
      (Res.ok (j.m * i.m * (psi j.formula i.formula M.formula : ℚ)) : Res ℝ) = .ok v := by
    intro i j v h
    rw [← h, psi_symm]
    congr 1
    ring
  have e3 := pairLoop_perm _ hsymm ho y h3
  have e2' : sumM (fun c => Res.bind (Phi S d M c) fun p =>
      .ok (c.m * (2 * p + Pitzer.total other' fun a => a.m * (psi M.formula c.formula a.formula : ℚ)))) same' = .ok x := by
    rw [← e2]
    congr 1
    funext q
    rw [← total_perm ho]
  simp only [Res.bind_ok']
  refine Eq.trans (b := Res.bind (sumM (fun c => Res.bind (Phi S d M c) fun p =>
      .ok (c.m * (2 * p + Pitzer.total other' fun a => a.m * (psi M.formula c.formula a.formula : ℚ)))) same') fun second =>
    Res.bind (pairLoop (fun i j => .ok (i.m * j.m * (psi i.formula j.formula M.formula : ℚ))) other') fun triple =>
    .ok ((Pitzer.total other' fun a => a.m * (2 * virial M a + d.Z * third M a)) + second + triple +
      (Pitzer.total c fun c => Pitzer.total a fun a => |M.z| * c.m * a.m * C d c a) +
      (Pitzer.total n fun n => 2 * n.m * (lambda n.formula M.formula : ℚ)) + M.z * M.z * F)) rfl ?_
  rw [e2', e3]
  simp only [Res.bind_ok']
  rw [← total_perm ho, ← total_perm hc, ← total_perm hn]
  simp only [← total_perm ha]

theorem lnGammaCation_perm (S : Screening) (d : Solution) (c a n : List Solute) (hc : d.cations.Perm c) (ha : d.anions.Perm a) (hn : d.neutrals.Perm n) (M : Solute) (v : ℝ)
    (h : lnGammaCation S d M = .ok v) : lnGammaCation S { d with cations := c, anions := a, neutrals := n } M = .ok v :=
  lnGammaIon_perm S d c a n hc ha hn _ _ _ _ hc ha _ _ M v h

theorem lnGammaAnion_perm (S : Screening) (d : Solution) (c a n : List Solute) (hc : d.cations.Perm c) (ha : d.anions.Perm a) (hn : d.neutrals.Perm n) (M : Solute) (v : ℝ)
    (h : lnGammaAnion S d M = .ok v) : lnGammaAnion S { d with cations := c, anions := a, neutrals := n } M = .ok v :=
  lnGammaIon_perm S d c a n hc ha hn _ _ _ _ ha hc _ _ M v h

theorem lnGammaNeutral_perm (d : Solution) (c a n : List Solute) (hc : d.cations.Perm c) (ha : d.anions.Perm a) (M : Solute) :
    lnGammaNeutral { d with cations := c, anions := a, neutrals := n } M = lnGammaNeutral d M := by
  unfold lnGammaNeutral
  simp only [total_perm hc, total_perm ha]

theorem waterPairs_perm (S : Screening) (d : Solution) (c a n : List Solute) (same other same' other' : List Solute) (hs : same.Perm same') (ho : other.Perm other') (v : ℝ)
    (h : waterPairs S d same other = .ok v) : waterPairs S { d with cations := c, anions := a, neutrals := n } same' other' = .ok v := by
  unfold waterPairs at h ⊢
  have hsymm : ∀ (i j : Solute) (v : ℝ), (Res.bind (PhiPhi S d i j) fun p =>
      .ok (i.m * j.m * (p + Pitzer.total other fun a => a.m * (psi i.formula j.formula a.formula : ℚ)))) = .ok v →
      (Res.bind (PhiPhi S d j i) fun p => .ok (j.m * i.m * (p + Pitzer.total other fun a => a.m * (psi j.formula i.formula a.formula : ℚ)))) = .ok v := by
    intro i j v h
    obtain ⟨p, h1, h2⟩ := bind_ok h
    unfold PhiPhi at h1
    obtain ⟨t, h3, h4⟩ := bind_ok h1
    obtain ⟨t', h5, h6⟩ := bind_ok h4
    have : PhiPhi S d j i = .ok p := by
      unfold PhiPhi
      rw [thetaE_symm S d _ _ _ h3, Res.bind_ok', thetaEPrime_symm S d _ _ _ h5, Res.bind_ok', theta_symm, h6]
    rw [this, Res.bind_ok', ← h2]
    simp only [psi_symm j.formula i.formula]
    congr 1
    ring
  have e := pairLoop_perm _ hsymm hs v h
  rw [← e]
  refine Eq.trans (b := pairLoop (fun i j => Res.bind (PhiPhi S d i j) fun p =>
    .ok (i.m * j.m * (p + Pitzer.total other' fun a => a.m * (psi i.formula j.formula a.formula : ℚ)))) same') rfl ?_
  simp only [total_perm ho]

theorem lnActivityWater_perm (S : Screening) (d : Solution) (c a n : List Solute) (hc : d.cations.Perm c) (ha : d.anions.Perm a) (hn : d.neutrals.Perm n) (v : ℝ)
    (h : lnActivityWater S d = .ok v) : lnActivityWater S { d with cations := c, anions := a, neutrals := n } = .ok v := by
  unfold lnActivityWater at h ⊢
  obtain ⟨x, h1, h⟩ := bind_ok h
  obtain ⟨y, h2, h⟩ := bind_ok h
  simp only
  rw [waterPairs_perm S d c a n _ _ _ _ hc ha x h1, waterPairs_perm S d c a n _ _ _ _ ha hc y h2, ← h]
  simp only [Res.bind_ok']
  simp only [← total_perm hc, ← total_perm ha, ← total_perm hn]
  rfl

/-- The number an evaluation gives. -/
def valueOf : Res ℝ → ℝ
  | .ok v => v
  | _ => 0

theorem setAll_eq (f : Solute → Res ℝ) (idx : List Nat) (sol : Nat → Solute) (v w : List ℝ)
    (h : setAll f (idx.map fun j => (j, sol j)) v = .ok w) :
    w = idx.foldl (fun g j => g.set j (valueOf (f (sol j)))) v ∧ ∀ j ∈ idx, f (sol j) = .ok (valueOf (f (sol j))) := by
  induction idx generalizing v with
  | nil => cases h; exact ⟨rfl, by simp⟩
  | cons j idx ih =>
    rw [List.map_cons] at h
    obtain ⟨y, h1, h2⟩ := bind_ok h
    have hy : valueOf (f (sol j)) = y := by rw [h1]; rfl
    obtain ⟨e1, e2⟩ := ih _ h2
    refine ⟨by rw [e1, List.foldl_cons, hy], ?_⟩
    intro i hi
    rcases List.mem_cons.mp hi with rfl | hi
    · rw [hy, h1]
    · exact e2 i hi

theorem setAll_ok (f : Solute → Res ℝ) (idx : List Nat) (sol : Nat → Solute) (val : Nat → ℝ) (v : List ℝ) (h : ∀ j ∈ idx, f (sol j) = .ok (val j)) :
    setAll f (idx.map fun j => (j, sol j)) v = .ok (idx.foldl (fun g j => g.set j (val j)) v) := by
  induction idx generalizing v with
  | nil => rfl
  | cons j idx ih =>
    rw [List.map_cons]
    unfold setAll
    rw [h j List.mem_cons_self]
    exact ih _ fun i hi => h i (List.mem_cons_of_mem _ hi)

/-- The loop over the solutes of one kind. -/
theorem setAll_reorder {N : Nat} (ho : IsOrder order N) (f f' : Solute → Res ℝ) (hf : ∀ s v, f s = .ok v → f' s = .ok v) (idx idx' : List Nat) (sol sol' : Nat → Solute)
    (hp : (idx'.map (place order)).Perm idx) (hlt : ∀ k ∈ idx', k < N) (hsol : ∀ k ∈ idx', sol' k = sol (place order k)) (g w : List ℝ) (hg : g.length = N)
    (h : setAll f (idx.map fun j => (j, sol j)) g = .ok w) :
    setAll f' (idx'.map fun j => (j, sol' j)) (reorder order g) = .ok (reorder order w) ∧ w.length = N := by
  obtain ⟨e1, e2⟩ := setAll_eq f idx sol g w h
  have hv : ∀ k ∈ idx', f' (sol' k) = .ok (valueOf (f (sol (place order k)))) := fun k hk => by
    rw [hsol k hk]
    exact hf _ _ (e2 _ (hp.mem_iff.mp (List.mem_map_of_mem hk)))
  rw [setAll_ok f' idx' sol' (fun k => valueOf (f (sol (place order k)))) _ hv, e1,
    writes ho (fun j => valueOf (f (sol j))) (fun k => valueOf (f (sol (place order k)))) idx idx' hp hlt (fun _ _ => rfl) g hg]
  exact ⟨rfl, (foldl_set_length (fun j => j) _ _ _).trans hg⟩

theorem equivariant_pitzer (reactions : List Registries.Reaction) (rho0 eps0 : ℝ) : Equivariant (pitzer reactions rho0 eps0) [waterFormula] := by
  intro order species ho hone f hf
  unfold pitzer at hf ⊢
  cases hmix : construct reactions rho0 eps0 species with
  | throw => rw [hmix] at hf; cases hf
  | ub => rw [hmix] at hf; cases hf
  | ok mix =>
    rw [hmix] at hf
    obtain ⟨mix', hmix', hsp, hs⟩ := construct_reorder reactions rho0 eps0 species ho (hone _ (by simp)) mix hmix
    rw [hmix']
    cases hf
    refine ⟨_, rfl, ?_⟩
    intro T P x m m' hx hr r h
    have hox : IsOrder order x.length := by rw [hx]; exact ho
    simp only [sizes_ok hr.fits hx] at h
    simp only [sizes_ok (hr.fits' ho) (show (reorder order x).length = (reorder order species).length by rw [reorder_length x hox, reorder_length species ho, hx])]
    obtain ⟨st, st', e1, e2, hst⟩ := state_reorder reactions rho0 eps0 species mix mix' hmix hmix' hsp hs T P x hx
    rw [e1] at h
    rw [e2]
    simp only [Res.bind_ok', Bool.false_eq_true, if_false] at h ⊢
    obtain ⟨A, hA, h⟩ := bind_ok h
    obtain ⟨p, hp, h⟩ := bind_ok h
    cases h
    rw [hA, Res.bind_ok']
    have hw' := hs.water'
    have hN := hs.neutral_lt
    have hC := hs.charged_lt
    have hCa := hs.cations_lt
    have hAn := hs.anions_lt
    have hl := hst.length
    rw [hsp] at hw' hN hC hCa hAn hl
    have hom : IsOrder order st.m.length := by rw [hl]; exact ho
    have hg := hr.fits.1
    have hxw : (reorder order x).getD mix'.idxWater 0 = x.getD mix.idxWater 0 := by
      rw [reorder_getD x hox _ (by rw [hx]; exact hw'), hs.waters]
    set sol : Nat → Solute := fun j => ⟨(spAt species j).formula, (spAt species j).charge, st.m.getD j 0⟩ with hsol
    set sol' : Nat → Solute := fun k => ⟨(spAt (reorder order species) k).formula, (spAt (reorder order species) k).charge, st'.m.getD k 0⟩ with hsol'
    have hss : ∀ k, k < species.length → sol' k = sol (place order k) := fun k hk => by
      simp only [hsol, hsol']
      rw [spAt_reorder species ho hk, hst.m, reorder_getD st.m hom k (by omega)]
    have hlist : ∀ (sp : List (Species ℝ)) (idx : List Nat), sp = idx.map (spAt species) → solutes sp idx st.m = idx.map sol := by
      intro sp idx h
      unfold solutes
      rw [h, zip_own, List.map_map]
      rfl
    have hlist' : ∀ (sp : List (Species ℝ)) (idx : List Nat), sp = idx.map (spAt (reorder order species)) → solutes sp idx st'.m = idx.map sol' := by
      intro sp idx h
      unfold solutes
      rw [h, zip_own, List.map_map]
      rfl
    have hperm : ∀ (idx idx' : List Nat), (idx'.map (place order)).Perm idx → (∀ k ∈ idx', k < species.length) → (idx.map sol).Perm (idx'.map sol') := by
      intro idx idx' h hlt
      refine ((h.map sol).symm).trans (List.Perm.of_eq ?_)
      rw [List.map_map]
      apply List.map_congr_left
      intro k hk
      exact (hss k (hlt k hk)).symm
    have c1 : (solutionOf mix st A).cations = mix.ix.idxCations.map sol := hlist _ _ (by rw [hs.cations_sp, hsp])
    have c2 : (solutionOf mix st A).anions = mix.ix.idxAnions.map sol := hlist _ _ (by rw [hs.anions_sp, hsp])
    have c3 : (solutionOf mix st A).neutrals = mix.ix.idxNeutral.map sol := hlist _ _ (by rw [hs.neutral_sp, hsp])
    have c1' : (solutionOf mix' st' A).cations = mix'.ix.idxCations.map sol' := hlist' _ _ (by rw [hs.cations_sp', hs.species, hsp])
    have c2' : (solutionOf mix' st' A).anions = mix'.ix.idxAnions.map sol' := hlist' _ _ (by rw [hs.anions_sp', hs.species, hsp])
    have c3' : (solutionOf mix' st' A).neutrals = mix'.ix.idxNeutral.map sol' := hlist' _ _ (by rw [hs.neutral_sp', hs.species, hsp])
    have p1 : (solutionOf mix st A).cations.Perm (mix'.ix.idxCations.map sol') := by rw [c1]; exact hperm _ _ hs.cations fun k hk => (hCa k hk).1
    have p2 : (solutionOf mix st A).anions.Perm (mix'.ix.idxAnions.map sol') := by rw [c2]; exact hperm _ _ hs.anions fun k hk => (hAn k hk).1
    have p3 : (solutionOf mix st A).neutrals.Perm (mix'.ix.idxNeutral.map sol') := by rw [c3]; exact hperm _ _ hs.neutral fun k hk => (hN k hk).1
    have hsolution : solutionOf mix' st' A = { solutionOf mix st A with
        cations := mix'.ix.idxCations.map sol', anions := mix'.ix.idxAnions.map sol', neutrals := mix'.ix.idxNeutral.map sol' } := by
      have hZ : (solutionOf mix' st' A).Z = (solutionOf mix st A).Z := by
        show Pitzer.total (solutes mix'.ix.charged mix'.ix.idxCharged st'.m) _ = Pitzer.total (solutes mix.ix.charged mix.ix.idxCharged st.m) _
        rw [hlist _ _ (show mix.ix.charged = mix.ix.idxCharged.map (spAt species) by rw [hs.charged_sp, hsp]),
          hlist' _ _ (show mix'.ix.charged = mix'.ix.idxCharged.map (spAt (reorder order species)) by rw [hs.charged_sp', hs.species, hsp])]
        exact (total_perm (hperm _ _ hs.charged fun k hk => (hC k hk).1) _).symm
      have hsum : (solutionOf mix' st' A).sum = (solutionOf mix st A).sum := by
        show st'.m.sum - st'.m.getD mix'.idxWater 0 = st.m.sum - st.m.getD mix.idxWater 0
        rw [hst.m, (reorder_perm st.m hom).sum_eq, reorder_getD st.m hom _ (by omega), hs.waters]
      rw [← c1', ← c2', ← c3']
      show (⟨st'.T, st'.Ie, A, (solutionOf mix' st' A).Z, (solutionOf mix' st' A).sum, _, _, _⟩ : Solution) = ⟨st.T, st.Ie, A, (solutionOf mix st A).Z, (solutionOf mix st A).sum, _, _, _⟩
      rw [hst.T, hst.Ie, hZ, hsum]
      rfl
    unfold evaluate at hp ⊢
    simp only at hp ⊢
    rw [hsolution]
    simp only
    rw [c1, c2, c3, zip_own, zip_own, zip_own] at hp
    rw [zip_own, zip_own, zip_own]
    obtain ⟨v1, g1, hp⟩ := bind_ok hp
    obtain ⟨v2, g2, hp⟩ := bind_ok hp
    obtain ⟨v3, g3, hp⟩ := bind_ok hp
    obtain ⟨aw, g4, hp⟩ := bind_ok hp
    cases hp
    have hpg : m'.props.ln_g = reorder order m.props.ln_g := by rw [hr.props]; rfl
    obtain ⟨k1, l1⟩ := setAll_reorder ho _ _ (lnGammaCation_perm tabulated (solutionOf mix st A) _ _ _ p1 p2 p3) _ _ sol sol' hs.cations (fun k hk => (hCa k hk).1)
      (fun k hk => hss k (hCa k hk).1) _ _ hg g1
    obtain ⟨k2, l2⟩ := setAll_reorder ho _ _ (lnGammaAnion_perm tabulated (solutionOf mix st A) _ _ _ p1 p2 p3) _ _ sol sol' hs.anions (fun k hk => (hAn k hk).1)
      (fun k hk => hss k (hAn k hk).1) _ _ l1 g2
    obtain ⟨k3, l3⟩ := setAll_reorder ho _ (fun s => .ok (lnGammaNeutral { solutionOf mix st A with
        cations := mix'.ix.idxCations.map sol', anions := mix'.ix.idxAnions.map sol', neutrals := mix'.ix.idxNeutral.map sol' } s))
      (fun s v h => by rw [lnGammaNeutral_perm (solutionOf mix st A) _ _ _ p1 p2]; exact h) _ _ sol sol' hs.neutral (fun k hk => (hN k hk).1)
      (fun k hk => hss k (hN k hk).1) _ _ l2 g3
    rw [hpg, k1, Res.bind_ok', k2, Res.bind_ok', k3, Res.bind_ok', lnActivityWater_perm tabulated (solutionOf mix st A) _ _ _ p1 p2 p3 aw g4, Res.bind_ok', Res.bind_ok']
    refine ⟨_, rfl, ?_⟩
    rw [hxw, hst.m]
    have hz : (List.zipWith (fun g m => g + Real.log m) v3 st.m).length = species.length := by simp [l3, hl]
    rw [← reorder_zipWith _ v3 st.m (by rw [l3]; exact ho) (by rw [hl, l3]),
      reorder_set (List.zipWith (fun g m => g + Real.log m) v3 st.m) (by rw [hz]; exact ho) _ (by rw [hz]; exact hw'), hs.waters,
      reorder_set v3 (by rw [l3]; exact ho) _ (by rw [l3]; exact hw'), hs.waters]
    refine ⟨⟨?_, ?_⟩, ?_, ⟨hsp, hs, hst⟩, hr.rumpf, hr.duan⟩
    · exact List.length_set.trans l3
    · exact List.length_set.trans hz
    · rw [hr.props]
      rfl

end Pitzer

end Verif.SpeciesOrder
