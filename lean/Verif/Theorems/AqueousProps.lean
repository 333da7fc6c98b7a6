import Verif.Spec.AqueousProps
import Verif.Theorems.AqueousMixture
import Mathlib.Tactic.IntervalCases

/-!
# C50: aqueous properties
-/

namespace Verif.Aqueous

theorem updates_fields (a : Impl) (history : List PhaseProps) :
    (a.updates history).species = a.species ∧ (a.updates history).elements = a.elements ∧
    (a.updates history).mix = a.mix ∧ (a.updates history).iH2O = a.iH2O ∧ (a.updates history).iH = a.iH ∧
    (a.updates history).Aaq = a.Aaq ∧ (a.updates history).ib = a.ib ∧ (a.updates history).R = a.R ∧
    (a.updates history).aqstate = a.aqstate := by
  unfold Impl.updates
  induction history generalizing a with
  | nil => simp
  | cons p rest ih => exact ih (a.update p)

theorem updates_last (a : Impl) (history : List PhaseProps) (p : PhaseProps) :
    (a.updates (history ++ [p])).props = p := by
  unfold Impl.updates
  rw [List.foldl_append]
  rfl

theorem construct'_eq (reactions : List Registries.Reaction) (rho0 eps0 : ℝ) (species : List (Species ℝ))
    (elements : List Str) (Aaq : List (List ℝ)) (echelon : List Nat × (Nat → Nat → ℝ)) (start : PhaseProps) (a : Impl)
    (h : construct' reactions rho0 eps0 species elements Aaq echelon start = .ok a) :
    a.species = species ∧ a.elements = elements ∧ a.Aaq = Aaq ∧ a.ib = echelon.1 ∧ a.R = echelon.2 ∧
    a.aqstate = emptyState ∧ a.iH2O = findWithFormula species waterFormula ∧ a.iH2O < species.length ∧
    a.iH = findWithFormula species protonFormula ∧ a.iH < species.length ∧
    construct reactions rho0 eps0 species = .ok a.mix := by
  unfold construct' at h
  cases hc : construct reactions rho0 eps0 species with
  | throw => rw [hc] at h; cases h
  | ub => rw [hc] at h; cases h
  | ok mix =>
    rw [hc] at h
    simp only [Res.bind_ok'] at h
    split at h
    · cases h
    · split at h
      · cases h
      · rename_i h1 h2
        cases h
        exact ⟨rfl, rfl, rfl, rfl, rfl, rfl, rfl, not_le.mp h1, rfl, not_le.mp h2, rfl⟩

/-- **C50.** The object is made exactly when the phase has both water and the hydrogen ion; otherwise the constructor throws. -/
theorem C50_construct (reactions : List Registries.Reaction) (rho0 eps0 : ℝ) (species : List (Species ℝ))
    (elements : List Str) (Aaq : List (List ℝ)) (echelon : List Nat × (Nat → Nat → ℝ)) (start : PhaseProps) :
    ((∃ s ∈ species, IsWater s) ∧ (∃ s ∈ species, protonFormula.equivalent s.formula = true) →
      ∃ a, construct' reactions rho0 eps0 species elements Aaq echelon start = .ok a) ∧
    (¬ ((∃ s ∈ species, IsWater s) ∧ ∃ s ∈ species, protonFormula.equivalent s.formula = true) →
      construct' reactions rho0 eps0 species elements Aaq echelon start = .throw) := by
  have hw : findWithFormula species waterFormula < species.length ↔ ∃ s ∈ species, IsWater s := findIdx_lt species _
  have hH : findWithFormula species protonFormula < species.length ↔
      ∃ s ∈ species, protonFormula.equivalent s.formula = true := findIdx_lt species _
  have hn := C49_no_water reactions rho0 eps0 species
  unfold construct'
  constructor
  · rintro ⟨h1, h2⟩
    cases hc : construct reactions rho0 eps0 species with
    | throw => obtain ⟨s, hs, hsw⟩ := h1; exact absurd hsw (hn.1.mp hc s hs)
    | ub => exact absurd hc hn.2
    | ok mix =>
      simp only [Res.bind_ok']
      rw [if_neg (not_le.mpr (hw.mpr h1)), if_neg (not_le.mpr (hH.mpr h2))]
      exact ⟨_, rfl⟩
  · intro hno
    cases hc : construct reactions rho0 eps0 species with
    | throw => rfl
    | ub => exact absurd hc hn.2
    | ok mix =>
      simp only [Res.bind_ok']
      by_cases h1 : findWithFormula species waterFormula ≥ species.length
      · rw [if_pos h1]
      · rw [if_neg h1]
        by_cases h2 : findWithFormula species protonFormula ≥ species.length
        · rw [if_pos h2]
        · exact absurd ⟨hw.mp (not_le.mp h1), hH.mp (not_le.mp h2)⟩ hno

/-- **C50.** After every history of updates the molality of a species, looked up by the name of a species of the phase, is its amount
in the last update divided by the mass of water in that update; an unknown name makes the call throw. -/
theorem C50_species_molality (reactions : List Registries.Reaction) (rho0 eps0 : ℝ) (species : List (Species ℝ))
    (elements : List Str) (Aaq : List (List ℝ)) (echelon : List Nat × (Nat → Nat → ℝ)) (start : PhaseProps) (a : Impl)
    (h : construct' reactions rho0 eps0 species elements Aaq echelon start = .ok a)
    (history : List PhaseProps) (p : PhaseProps) (hp : p.n.length = species.length) (name : Str) :
    ((∀ s ∈ species, s.name ≠ name) → (a.updates (history ++ [p])).speciesMolality name = .throw) ∧
    (∀ i s, species[i]? = some s → s.name = name → (∀ j t, j < i → species[j]? = some t → t.name ≠ name) →
      ∃ w sw, species[w]? = some sw ∧ IsWater sw ∧
        (a.updates (history ++ [p])).speciesMolality name =
          .ok (p.n.getD i 0 / (18015268 / 1000000000 * p.n.getD w 0))) := by
  obtain ⟨e1, -, -, -, -, -, e7, e8, -, -, e11⟩ := construct'_eq reactions rho0 eps0 species elements Aaq echelon start a h
  obtain ⟨u1, -, -, u4, -⟩ := updates_fields a (history ++ [p])
  unfold Impl.speciesMolality indexWithName
  rw [u1, u4, updates_last, e1]
  constructor
  · intro hn
    have : ¬ Chem.indexfn species (fun s => decide (s.name = name)) < species.length := by
      intro hlt
      obtain ⟨s, hs, hsn⟩ := (findIdx_lt species _).mp hlt
      exact hn s hs (by simpa using hsn)
    simp only
    rw [if_pos (not_lt.mp this)]
    rfl
  · intro i s hs hsn hfirst
    have hi : Chem.indexfn species (fun s => decide (s.name = name)) = i := by
      obtain ⟨hl, rfl⟩ := List.getElem?_eq_some_iff.mp hs
      unfold Chem.indexfn
      rw [List.findIdx_eq hl]
      refine ⟨by simpa using hsn, fun j hj => ?_⟩
      simpa using hfirst j _ hj (List.getElem?_eq_getElem (by omega))
    have hil : i < species.length := (List.getElem?_eq_some_iff.mp hs).1
    refine ⟨a.iH2O, species[a.iH2O], List.getElem?_eq_getElem e8, ?_, ?_⟩
    · simp only [e7]
      rw [e7] at e8
      exact List.findIdx_getElem (p := fun s : Species ℝ => waterFormula.equivalent s.formula) (w := e8)
    · simp only [hi]
      rw [if_neg (not_le.mpr hil)]
      simp only [Res.bind_ok']
      rw [at!_getD p.n i 0 (by omega), at!_getD p.n a.iH2O 0 (by omega)]
      rfl

/-- **C50.** After every history of updates the molality of an element is its amount in the aqueous phase at the last update divided
by the mass of water. -/
theorem C50_element_molality (reactions : List Registries.Reaction) (rho0 eps0 : ℝ) (species : List (Species ℝ))
    (elements : List Str) (Aaq : List (List ℝ)) (echelon : List Nat × (Nat → Nat → ℝ)) (start : PhaseProps) (a : Impl)
    (h : construct' reactions rho0 eps0 species elements Aaq echelon start = .ok a)
    (hA : elements.length < Aaq.length) (hrow : ∀ row ∈ Aaq, row.length = species.length)
    (history : List PhaseProps) (p : PhaseProps) (hp : p.n.length = species.length) (k : Nat) (symbol : Str)
    (hk : elements[k]? = some symbol) (hfirst : ∀ j t, j < k → elements[j]? = some t → t ≠ symbol) :
    (a.updates (history ++ [p])).elementMolality symbol =
      .ok ((∑ i : Fin species.length, (Aaq.getD k []).getD i 0 * p.n.getD i 0) / (18015268 / 1000000000 * p.n.getD a.iH2O 0)) := by
  obtain ⟨-, e2, e3, -, -, -, e7, e8, -, -, e11⟩ := construct'_eq reactions rho0 eps0 species elements Aaq echelon start a h
  obtain ⟨-, u2, -, u4, -, u6, -⟩ := updates_fields a (history ++ [p])
  unfold Impl.elementMolality
  rw [u2, u4, u6, updates_last, e2, e3]
  obtain ⟨hl, hke⟩ := List.getElem?_eq_some_iff.mp hk
  have hi : Chem.indexfn elements (fun s => decide (s = symbol)) = k := by
    unfold Chem.indexfn
    rw [List.findIdx_eq hl]
    refine ⟨by simpa using hke, fun j hj => ?_⟩
    simpa using hfirst j _ hj (List.getElem?_eq_getElem (by omega))
  simp only [hi]
  rw [if_neg (not_le.mpr hl), at!_of_lt Aaq k (by omega), at!_getD p.n a.iH2O 0 (by omega)]
  simp only [Res.bind_ok']
  have hr := hrow Aaq[k] (List.getElem_mem (by omega))
  rw [if_neg (by omega)]
  congr 2
  have hg : Aaq.getD k [] = Aaq[k] := by simp [show k < Aaq.length by omega]
  rw [hg]
  generalize Aaq[k] = row at hr
  have : ∀ (N : Nat) (x y : List ℝ), x.length = N → y.length = N →
      (List.zipWith (fun c n => c * n) x y).sum = ∑ i : Fin N, x.getD i 0 * y.getD i 0 := by
    intro N
    induction N with
    | zero => intro x y hx hy; rw [List.length_eq_zero_iff.mp hx]; simp
    | succ N ih =>
      intro x y hx hy
      cases x with
      | nil => simp at hx
      | cons b x => cases y with
        | nil => simp at hy
        | cons d y =>
          rw [List.zipWith_cons_cons, List.sum_cons, ih x y (by simpa using hx) (by simpa using hy), Fin.sum_univ_succ]
          rfl
  exact this species.length row p.n hr hp

/-- **C50 is false of the code**: the number returned as pH is the natural logarithm of the activity of the hydrogen ion, that is,
`-ln 10` times the pH. -/
theorem C50_pH (reactions : List Registries.Reaction) (rho0 eps0 : ℝ) (species : List (Species ℝ))
    (elements : List Str) (Aaq : List (List ℝ)) (echelon : List Nat × (Nat → Nat → ℝ)) (start : PhaseProps) (a : Impl)
    (h : construct' reactions rho0 eps0 species elements Aaq echelon start = .ok a)
    (history : List PhaseProps) (p : PhaseProps) (hp : p.lnA.length = species.length) :
    ∃ v, (a.updates (history ++ [p])).pH = .ok v ∧ v = - Real.log 10 * pHOf (p.lnA.getD a.iH 0) ∧
      (v = pHOf (p.lnA.getD a.iH 0) ↔ p.lnA.getD a.iH 0 = 0) := by
  obtain ⟨-, -, -, -, -, -, -, -, -, e10, -⟩ := construct'_eq reactions rho0 eps0 species elements Aaq echelon start a h
  obtain ⟨-, -, -, -, u5, -⟩ := updates_fields a (history ++ [p])
  have hl : Real.log 10 ≠ 0 := Real.log_ne_zero_of_pos_of_ne_one (by norm_num) (by norm_num)
  have hl0 : 0 < Real.log 10 := Real.log_pos (by norm_num)
  refine ⟨p.lnA.getD a.iH 0, ?_, ?_, ?_⟩
  · unfold Impl.pH
    rw [u5, updates_last, at!_getD p.lnA a.iH 0 (by omega)]
  · unfold pHOf Real.logb
    rw [Real.log_exp]
    field_simp
  · unfold pHOf Real.logb
    rw [Real.log_exp]
    generalize p.lnA.getD a.iH 0 = t
    constructor
    · intro ht
      have : t * (Real.log 10 + 1) = 0 := by
        have h2 : t * Real.log 10 = -t := by
          calc t * Real.log 10 = (-(t / Real.log 10)) * Real.log 10 := by rw [← ht]
            _ = -t := by field_simp
        rw [mul_add, h2]; ring
      rcases mul_eq_zero.mp this with h | h
      · exact h
      · linarith
    · rintro rfl; simp

/-- **C50 is false of the code**: after every history of updates both ionic strengths are zero. -/
theorem C50_ionic_strength_zero (reactions : List Registries.Reaction) (rho0 eps0 : ℝ) (species : List (Species ℝ))
    (elements : List Str) (Aaq : List (List ℝ)) (echelon : List Nat × (Nat → Nat → ℝ)) (start : PhaseProps) (a : Impl)
    (h : construct' reactions rho0 eps0 species elements Aaq echelon start = .ok a) (history : List PhaseProps) :
    (a.updates history).ionicStrength = 0 ∧ (a.updates history).ionicStrengthStoichiometric = 0 := by
  obtain ⟨-, -, -, -, -, e6, -⟩ := construct'_eq reactions rho0 eps0 species elements Aaq echelon start a h
  obtain ⟨-, -, -, -, -, -, -, -, u9⟩ := updates_fields a history
  unfold Impl.ionicStrength Impl.ionicStrengthStoichiometric
  rw [u9, e6]
  exact ⟨rfl, rfl⟩

/-- The species of a salt solution. -/
def brine : List (Species ℝ) :=
  [⟨c!"H2O(aq)", waterFormula, 0⟩, ⟨c!"H+", protonFormula, 1⟩, ⟨c!"Cl-", ⟨c!"Cl-", [(c!"Cl", 1)], -1⟩, -1⟩]

/-- **C50 is false of the code**: one mole of hydrochloric acid in one kilogram of water has ionic strength 1, and the object reports 0;
in pure water, where the activity of the hydrogen ion is `10⁻⁷`, the object reports a negative pH. -/
theorem C50_wrong (reactions : List Registries.Reaction) (start : PhaseProps) :
    ∃ a, construct' reactions 1000 78 brine [c!"H", c!"O", c!"Cl"] [[2, 1, 0], [1, 0, 0], [0, 0, 1], [0, 1, -1]] ([], fun _ _ => 0) start = .ok a ∧
    (∃ st, a.mix.state 298 100000 (moleFractionsOf [1000000000 / 18015268, 1, 1]) = .ok st ∧ st.Ie = 1 ∧
      ∀ p : PhaseProps, p.n = [1000000000 / 18015268, 1, 1] → (a.update p).ionicStrength = 0) ∧
    (∀ p : PhaseProps, p.lnA = [0, -7 * Real.log 10, 0] →
      pHOf (p.lnA.getD a.iH 0) = 7 ∧ (a.update p).pH = .ok (-7 * Real.log 10) ∧ -7 * Real.log 10 < 0) := by
  have hw : waterFormula.equivalent waterFormula = true := by decide +kernel
  have hpw : protonFormula.equivalent waterFormula = false := by decide +kernel
  have hpp : protonFormula.equivalent protonFormula = true := by decide +kernel
  obtain ⟨a, ha⟩ := (C50_construct reactions 1000 78 brine [c!"H", c!"O", c!"Cl"]
    [[2, 1, 0], [1, 0, 0], [0, 0, 1], [0, 1, -1]] ([], fun _ _ => 0) start).1
    ⟨⟨_, List.mem_cons_self, hw⟩, ⟨_, List.mem_cons_of_mem _ List.mem_cons_self, hpp⟩⟩
  refine ⟨a, ha, ?_, ?_⟩
  · obtain ⟨e1, -, -, -, -, e6, e7, -, -, -, e11⟩ := construct'_eq _ _ _ _ _ _ _ _ a ha
    obtain ⟨st, h1, h2, h3, -⟩ := C49_molalities reactions 1000 78 brine a.mix e11 298 100000
      [1000000000 / 18015268, 1, 1] rfl (by norm_num [List.sum_cons])
    have hiw : a.mix.idxWater = 0 := by
      rw [construct_eq] at e11
      have hf : findWithFormula brine waterFormula = 0 := by
        simp [findWithFormula, Chem.indexfn, brine, hw, List.findIdx_cons]
      rw [hf] at e11
      rw [if_neg (by rw [show brine.length = 3 from rfl]; omega)] at e11
      have := congrArg (fun r : Res (Mixture ℝ) => match r with | .ok m => m.idxWater | _ => 0) e11
      exact this.symm
    rw [hiw] at h3
    have hm := h3 (by norm_num)
    have m1 : st.m.getD 1 0 = 1 := by
      have := hm 1
      simp only [waterMolarMass, List.getD_cons_zero, List.getD_cons_succ] at this
      norm_num at this
      exact this
    have m2 : st.m.getD 2 0 = 1 := by
      have := hm 2
      simp only [waterMolarMass, List.getD_cons_zero, List.getD_cons_succ] at this
      norm_num at this
      exact this
    refine ⟨st, h1, ?_, ?_⟩
    · obtain ⟨st', h1', -, -, h5, -⟩ := C49_ionic_strength reactions 1000 78 brine a.mix e11 298 100000
        (moleFractionsOf [1000000000 / 18015268, 1, 1]) rfl
      rw [h1] at h1'
      cases h1'
      rw [h5, ionicStrength]
      show (∑ i : Fin 3, brine[i].charge ^ 2 * st.m.getD i 0) / 2 = 1
      rw [Fin.sum_univ_three]
      have e1 : st.m.getD ((1 : Fin 3) : Nat) 0 = 1 := m1
      have e2 : st.m.getD ((2 : Fin 3) : Nat) 0 = 1 := m2
      rw [e1, e2]
      simp [brine]
    · intro p _
      exact (C50_ionic_strength_zero _ _ _ _ _ _ _ _ a ha [p]).1
  · intro p hlp
    obtain ⟨e1, -, -, -, -, e6, e7, -, e9, -, e11⟩ := construct'_eq _ _ _ _ _ _ _ _ a ha
    have hiH : a.iH = 1 := by
      rw [e9]
      simp [findWithFormula, Chem.indexfn, brine, hpw, hpp, List.findIdx_cons]
    have hl0 : 0 < Real.log 10 := Real.log_pos (by norm_num)
    rw [hiH, hlp]
    refine ⟨?_, ?_, by linarith⟩
    · simp only [pHOf, Real.logb, List.getD_cons_succ, List.getD_cons_zero, Real.log_exp]
      field_simp
    · unfold Impl.pH Impl.update
      simp only [hiH, hlp]
      rfl

/-! ## pE -/

/-- The echelonizer's matrix. -/
def square (m : Nat) (R : Nat → Nat → ℝ) : Matrix (Fin m) (Fin m) ℝ := fun r k => R r k

/-- The basic columns of the formula matrix. -/
noncomputable def basic (m : Nat) (A : List (List ℝ)) (ib : List Nat) : Matrix (Fin m) (Fin m) ℝ :=
  fun k c => (A.getD k []).getD (ib.getD c 0) 0

theorem basic_inverse (m : Nat) (A : List (List ℝ)) (ib : List Nat) (R : Nat → Nat → ℝ) (he : Echelon m A ib R)
    (hf : ib.length = m) : basic m A ib * square m R = 1 := by
  rw [mul_eq_one_comm]
  ext r c
  rw [Matrix.mul_apply, Matrix.one_apply]
  have := he.identity r c (by omega) (by omega)
  simp only [Fin.ext_iff]
  rw [← this]
  rfl

/-- **C50 is false of the code**: in a phase whose species are in equilibrium with respect to the exchange of elements and charge (the
chemical potentials are sums of potentials `y` of the elements and of the charge), the number returned as pE is minus the pE: the
electron, which has charge -1 and no elements, has the chemical potential `-y_Z`. The same holds of Eh. -/
theorem C50_pE (reactions : List Registries.Reaction) (rho0 eps0 : ℝ) (species : List (Species ℝ))
    (elements : List Str) (Aaq : List (List ℝ)) (ib : List Nat) (R : Nat → Nat → ℝ) (start : PhaseProps) (a : Impl)
    (h : construct' reactions rho0 eps0 species elements Aaq (ib, R) start = .ok a)
    (he : Echelon (elements.length + 1) Aaq ib R) (hfull : ib.length = elements.length + 1)
    (hib : ∀ j ∈ ib, j < species.length)
    (history : List PhaseProps) (p : PhaseProps) (hp : p.u.length = species.length) (y : Fin (elements.length + 1) → ℝ)
    (hu : ∀ j, j < species.length → p.u.getD j 0 = ∑ k : Fin (elements.length + 1), (Aaq.getD k []).getD j 0 * y k) :
    (a.updates (history ++ [p])).pE = .ok (- pEOf p.T (-(y (Fin.last _)))) ∧
    (a.updates (history ++ [p])).Eh =
      .ok (- (Real.log 10 * (gasConstant * p.T) / faradayConstant * pEOf p.T (-(y (Fin.last _))))) := by
  obtain ⟨-, e2, e3, e4, e5, -⟩ := construct'_eq reactions rho0 eps0 species elements Aaq (ib, R) start a h
  obtain ⟨-, u2, -, -, -, u6, u7, u8, -⟩ := updates_fields a (history ++ [p])
  have hpE : (a.updates (history ++ [p])).pE = .ok (- pEOf p.T (-(y (Fin.last _)))) := by
    unfold Impl.pE
    rw [u2, u6, u7, u8, updates_last, e2, e3, e4, e5]
    simp only
    rw [gather_eq p.u ib (fun i hi => by rw [hp]; exact hib i hi)]
    simp only [Res.bind_ok']
    rw [if_neg (by rw [List.length_map, hfull, he.rows]; simp), if_neg (by rw [he.rows]; omega)]
    congr 1
    have hsum : ((ib.map fun i => p.u.getD i 0).mapIdx fun k uk => -(R k elements.length) * uk).sum
        = - y (Fin.last _) := by
      have e : ((ib.map fun i => p.u.getD i 0).mapIdx fun k uk => -(R k elements.length) * uk)
          = List.ofFn fun k : Fin (elements.length + 1) => -(R k elements.length) * p.u.getD (ib.getD k 0) 0 := by
        apply List.ext_getElem
        · simp [hfull]
        · intro k h1 h2
          have hk : k < ib.length := by simpa using h1
          rw [List.getElem_ofFn, List.getElem_mapIdx, List.getElem_map]
          simp [hk]
      rw [e, List.sum_ofFn]
      have hb := basic_inverse _ _ _ _ he hfull
      have : ∀ l, ∑ k : Fin (elements.length + 1), basic _ Aaq ib l k * R k elements.length
          = if l = Fin.last _ then 1 else 0 := by
        intro l
        have := congrFun (congrFun hb l) (Fin.last _)
        rw [Matrix.mul_apply, Matrix.one_apply] at this
        simpa [square] using this
      calc ∑ k : Fin (elements.length + 1), -(R k elements.length) * p.u.getD (ib.getD k 0) 0
          = - ∑ k : Fin (elements.length + 1), ∑ l, basic _ Aaq ib l k * R k elements.length * y l := by
            rw [← Finset.sum_neg_distrib]
            apply Finset.sum_congr rfl
            intro k _
            have hk : (k : Nat) < ib.length := by omega
            have hm : ib.getD k 0 ∈ ib := by simp [hk]
            rw [hu _ (hib _ hm), Finset.mul_sum, ← Finset.sum_neg_distrib]
            apply Finset.sum_congr rfl
            intro l _
            unfold basic
            ring
        _ = - ∑ l, (∑ k : Fin (elements.length + 1), basic _ Aaq ib l k * R k elements.length) * y l := by
            rw [Finset.sum_comm]
            congr 1
            apply Finset.sum_congr rfl
            intro l _
            rw [Finset.sum_mul]
        _ = - y (Fin.last _) := by
            congr 1
            simp only [this]
            simp
    rw [hsum]
    unfold pEOf Real.logb
    rw [Real.log_exp, neg_neg, div_div]
  refine ⟨hpE, ?_⟩
  unfold Impl.Eh
  rw [hpE, updates_last]
  simp only [Res.bind_ok']
  congr 1
  ring

/-- **C50 is false of the code**: if the rows of the formula matrix of the aqueous phase are linearly dependent, pE is undefined
behaviour. -/
theorem C50_pE_undefined (reactions : List Registries.Reaction) (rho0 eps0 : ℝ) (species : List (Species ℝ))
    (elements : List Str) (Aaq : List (List ℝ)) (ib : List Nat) (R : Nat → Nat → ℝ) (start : PhaseProps) (a : Impl)
    (h : construct' reactions rho0 eps0 species elements Aaq (ib, R) start = .ok a)
    (he : Echelon (elements.length + 1) Aaq ib R) (hib : ∀ j ∈ ib, j < species.length)
    (w : Fin (elements.length + 1) → ℝ) (hw : w ≠ 0)
    (hdep : ∀ j, j < species.length → ∑ k : Fin (elements.length + 1), w k * (Aaq.getD k []).getD j 0 = 0)
    (history : List PhaseProps) (p : PhaseProps) (hp : p.u.length = species.length) :
    (a.updates (history ++ [p])).pE = .ub ∧ (a.updates (history ++ [p])).Eh = .ub := by
  obtain ⟨-, e2, e3, e4, e5, -⟩ := construct'_eq reactions rho0 eps0 species elements Aaq (ib, R) start a h
  obtain ⟨-, u2, -, -, -, u6, u7, u8, -⟩ := updates_fields a (history ++ [p])
  have hlt : ib.length ≠ elements.length + 1 := by
    intro hf
    have hb := basic_inverse _ _ _ _ he hf
    apply hw
    have hz : Matrix.vecMul w (basic _ Aaq ib) = 0 := by
      ext c
      have hc : (c : Nat) < ib.length := by omega
      have hm : ib.getD c 0 ∈ ib := by simp [hc]
      exact hdep _ (hib _ hm)
    calc w = Matrix.vecMul w (basic _ Aaq ib * square _ R) := by
            rw [hb, Matrix.vecMul_one]
      _ = 0 := by rw [← Matrix.vecMul_vecMul, hz, Matrix.zero_vecMul]
  have hpE : (a.updates (history ++ [p])).pE = .ub := by
    unfold Impl.pE
    rw [u2, u6, u7, u8, updates_last, e2, e3, e4, e5]
    simp only
    rw [gather_eq p.u ib (fun i hi => by rw [hp]; exact hib i hi)]
    simp only [Res.bind_ok']
    rw [if_pos (by rw [List.length_map, he.rows]; exact hlt)]
  refine ⟨hpE, ?_⟩
  unfold Impl.Eh
  rw [hpE]
  rfl

/-- The rows of the formula matrix of water, its ions and hydrochloric acid are dependent: without a redox couple the charge is the
amount of hydrogen minus twice that of oxygen minus that of chlorine. -/
example : ∀ j, j < 3 → ∑ k : Fin 4, (![1, -2, -1, -1] : Fin 4 → ℝ) k *
    (([[2, 1, 0], [1, 0, 0], [0, 0, 1], [0, 1, -1]] : List (List ℝ)).getD k []).getD j 0 = 0 := by
  intro j hj
  rw [Fin.sum_univ_four]
  show 1 * _ + -2 * _ + -1 * _ + -1 * _ = (0 : ℝ)
  interval_cases j <;> norm_num

/-- The hypotheses of `C50_pE` are met by one element, two species and the identity. -/
example : Echelon 2 [[1, 0], [0, 1]] [0, 1] (fun r c => if r = c then 1 else 0) :=
  ⟨rfl, le_refl _, by
    intro r c hr hc
    simp only [List.length_cons, List.length_nil] at hr hc
    rw [Fin.sum_univ_two]
    interval_cases r <;> interval_cases c <;> norm_num⟩

/-- **C50.** The alkalinity is not implemented: the call always throws. -/
theorem C50_alkalinity (a : Impl) (history : List PhaseProps) : (a.updates history).alkalinity = .throw := rfl

end Verif.Aqueous
