import Verif.Theorems.ChemicalState
import Verif.Theorems.ChemicalProps
import Verif.Theorems.Lists
import Verif.Theorems.ValueObjects
import Verif.Theorems.AqueousMixture
import Verif.Theorems.Registries
import Verif.Theorems.WaterDensity
import Verif.Model.Supcrt
import Verif.Model.ChemicalSystem

/-!
# What the remaining functions that read or set one thing give (C31, C33, C49, C54, C68, C81, C96, C98)
-/

namespace Verif.ChemicalState

open Chem

/-- **C31 (reading by name).** The amount and the mass of a species that is given by its name are those of the first species with the name, the mass being the amount times
the molar mass; a name that no species has is an error. -/
theorem C31_read (debug : Bool) (me : Rat) (species : List Species) (st : St) (hn : st.n.length = species.length) (name : Str) :
    ((∃ s ∈ species, s.name = name) → ∃ i s x, (Ref.name name).Means species i ∧ species[i]? = some s ∧ st.n[i]? = some x ∧
      amountName debug species st name = .ok x ∧ massName debug me species st name = .ok (x * s.molarMass me)) ∧
    ((∀ s ∈ species, s.name ≠ name) → amountName debug species st name = .throw ∧ massName debug me species st name = .throw) := by
  unfold amountName massName
  rcases index_cases species name with ⟨i, h1, h2, h3⟩ | ⟨h1, h2⟩
  · have h2' : i < st.n.length := by omega
    refine ⟨fun _ => ⟨i, species[i], st.n[i], h3, List.getElem?_eq_getElem h2, List.getElem?_eq_getElem h2', ?_, ?_⟩, fun h => ?_⟩
    · rw [h1, Res.bind_ok', amount, if_neg (by simp [h2]), at!_of_lt _ _ h2']
    · rw [h1, Res.bind_ok', mass, if_neg (by simp [h2]), at!_of_lt _ _ h2', Res.bind_ok', at!_of_lt _ _ h2, Res.bind_ok']
    · obtain ⟨h4, -⟩ := h3
      rw [List.getElem?_eq_getElem h2] at h4
      injection h4 with h4
      exact absurd h4 (h _ (List.getElem_mem h2))
  · refine ⟨fun ⟨s, hs, he⟩ => absurd he (h2 s hs), fun _ => ?_⟩
    rw [h1]
    exact ⟨rfl, rfl⟩

/-- Two species, the second asked for. -/
example : let a : Species := { rawName := c!"A", formula := c!"A", elements := [(⟨c!"A", 2, c!"A", []⟩, 3)], charge := 1, rawState := .Aqueous }
    let b : Species := { a with rawName := c!"B" }
    let st : St := ⟨300, 1, [5, 7]⟩
    amountName true [a, b] st c!"B" = .ok 7 ∧ massName true (1/10) [a, b] st c!"B" = .ok (7 * (59/10)) ∧ amountName true [a, b] st c!"C" = .throw := by
  decide +kernel

end Verif.ChemicalState

namespace Verif.ChemicalProps

variable {K : Type} [Field K]

/-- **C33 (standard properties of a phase).** For every species of a phase whose temperature is not zero, the standard properties that the phase reports satisfy
`G° = H° - T S°`, `U° = H° - P V°` and `A° = U° - T S°`. -/
theorem C33_phase_standard (d : PhaseData K) (hT : d.T ≠ 0) (i : Nat) (g h v : K) (hg : d.G0[i]? = some g) (hh : d.H0[i]? = some h) (hv : d.V0[i]? = some v) :
    ∃ s u a, d.S0[i]? = some s ∧ d.U0[i]? = some u ∧ d.A0[i]? = some a ∧ g = h - d.T * s ∧ u = h - d.P * v ∧ a = u - d.T * s := by
  refine ⟨(h - g) / d.T, h - d.P * v, g - d.P * v, ?_, ?_, ?_, ?_, rfl, ?_⟩
  · unfold PhaseData.S0; rw [List.getElem?_zipWith, hg, hh]
  · unfold PhaseData.U0; rw [List.getElem?_zipWith, hh, hv]
  · unfold PhaseData.A0; rw [List.getElem?_zipWith, hg, hv]
  · rw [mul_div_cancel₀ _ hT]; ring
  · rw [mul_div_cancel₀ _ hT]; ring

/-- A phase with one species. -/
example : ∃ d : PhaseData ℚ, d.T ≠ 0 ∧ d.G0[0]? = some (-3 : ℚ) ∧ d.H0[0]? = some 2 ∧ d.V0[0]? = some 4 :=
  ⟨⟨300, 2, [1], 1, [1], [-3], [2], [4], [0], [0], 0, 0, 0, 0, 0, 0, 0, [0], [0], [0]⟩, by norm_num, rfl, rfl, rfl⟩

end Verif.ChemicalProps

namespace Verif.Chem

/-- **C98 (species with tags, in phase definitions).** The species that have all the given tags, in their order; none if no tag is given. -/
theorem C98_with_tags (l : List Species) (tags : List Str) :
    (withTags l tags).Sublist l ∧ ∀ s, s ∈ withTags l tags ↔ tags ≠ [] ∧ s ∈ l ∧ ∀ t ∈ tags, t ∈ s.tags := by
  unfold withTags
  split_ifs with h
  · simp [h]
  · refine ⟨List.filter_sublist, fun s => ?_⟩
    rw [List.mem_filter, Lists.contained_iff]
    simp [h]

example : let a : Species := { rawName := c!"A", formula := c!"A", elements := [], charge := 0, rawState := .Aqueous, tags := [c!"x", c!"y"] }
    withTags [a, { a with tags := [c!"x"] }] [c!"y", c!"x"] = [a] := by
  decide +kernel

end Verif.Chem

namespace Verif.ChemicalSystem

open Chem Phases

/-- The number of phases before the first with a property, or the number of phases. -/
theorem first {α : Type} (l : List α) (p : α → Bool) (P : α → Prop) (h : ∀ x, p x = true ↔ P x) : Lists.Finds P l (.ok (indexfn l p)) := by
  unfold indexfn
  by_cases hx : ∃ x ∈ l, p x = true
  · left
    have hlt := List.findIdx_lt_length_of_exists hx
    refine ⟨_, rfl, ?_⟩
    have h1 := List.findIdx_getElem (w := hlt)
    refine ⟨⟨l[l.findIdx p], List.getElem?_eq_getElem hlt, (h _).1 h1⟩, fun j y hj hy hP => ?_⟩
    have h2 := List.not_of_lt_findIdx hj
    obtain ⟨hj', rfl⟩ := List.getElem?_eq_some_iff.1 hy
    rw [(h _).2 hP] at h2
    simp at h2
  · right
    have hn : ∀ x ∈ l, ¬ P x := fun x hm hP => hx ⟨x, hm, (h x).2 hP⟩
    refine ⟨?_, hn⟩
    rw [List.findIdx_eq_length_of_false]
    intro x hm
    simpa using fun hp => hn x hm ((h x).1 hp)

/-- **C98 (phases found by name).** The phase with a name, or with a species of a name, is the first one; the number of phases if there is none. -/
theorem C98_find_phases (phases : List Phase) (name : Str) :
    Lists.Finds (fun p => p.name = name) phases (.ok (findPhaseWithName phases name)) ∧
    Lists.Finds (fun p => ∃ s ∈ p.species, s.name = name) phases (.ok (findWithSpeciesName phases name)) := by
  constructor
  · exact first phases _ _ (fun x => by simp)
  · exact first phases _ _ (fun x => by simp)

/-- The second of two phases has the species and the name. -/
example : let s (n : Str) : Species := { rawName := n, formula := n, elements := [], charge := 0, rawState := .Aqueous }
    let p (n : Str) (l : List Species) : Phase := { name := n, species := l }
    findPhaseWithName [p c!"P" [s c!"A"], p c!"Q" [s c!"B", s c!"C"]] c!"Q" = 1 ∧ findWithSpeciesName [p c!"P" [s c!"A"], p c!"Q" [s c!"B", s c!"C"]] c!"C" = 1 ∧
      findPhaseWithName [p c!"P" [s c!"A"]] c!"Q" = 1 := by
  decide +kernel

end Verif.ChemicalSystem

namespace Verif.Lists

open ValueObjects Chem

variable {M D : Type}

/-- **C98 (lists made from formulas).** A list of species that is made from formulas has one species for each formula, in the order of the formulas, made from it as a single
species is (C96); if one of them cannot be made there is no list. -/
theorem C98_species_of_formulas (registry : Str → Option Element) (formulas : List Str) :
    (∀ l : List (Impl M D), speciesListOf registry formulas = .ok l ↔ List.Forall₂ (fun f s => ofFormula registry f = .ok s) formulas l) ∧
    ((∀ f ∈ formulas, (ofFormula registry f : Res (Impl M D)) ≠ .ub) → (∃ f ∈ formulas, (ofFormula registry f : Res (Impl M D)) = .throw) →
      (speciesListOf registry formulas : Res (List (Impl M D))) = .throw) := by
  unfold speciesListOf
  constructor
  · induction formulas with
    | nil => intro l; cases l <;> simp [vectorize]
    | cons f fs ih =>
      intro l
      constructor
      · intro h
        simp only [vectorize] at h
        obtain ⟨s, h1, h⟩ := Res.bind_eq_ok.1 h
        obtain ⟨l', h2, h⟩ := Res.bind_eq_ok.1 h
        injection h with h
        subst h
        exact .cons h1 ((ih l').1 h2)
      · intro h
        cases h with
        | cons h1 h2 => simp only [vectorize, h1, Res.bind_ok', (ih _).2 h2]
  · induction formulas with
    | nil => rintro - ⟨f, hf, -⟩; simp at hf
    | cons f fs ih =>
      intro hub hth
      simp only [vectorize]
      cases h : (ofFormula registry f : Res (Impl M D)) with
      | throw => rfl
      | ub => exact absurd h (hub f (by simp))
      | ok s =>
        have : ∃ g ∈ fs, (ofFormula registry g : Res (Impl M D)) = .throw := by
          obtain ⟨g, hg, hg'⟩ := hth
          rcases List.mem_cons.1 hg with rfl | hg
          · rw [h] at hg'; cases hg'
          · exact ⟨g, hg, hg'⟩
        rw [Res.bind_ok', ih (fun g hg => hub g (List.mem_cons_of_mem _ hg)) this]
        rfl

/-- Two ions of known elements; a third of an unknown one. -/
example : let registry : Str → Option Element := fun s => if s = c!"Na" then some ⟨c!"Na", 1, c!"Sodium", []⟩ else none
    (∃ l : List (Impl Nat Nat), speciesListOf registry [c!"Na+", c!"Na"] = .ok l ∧ l.map Impl.getName = [c!"Na+", c!"Na"]) ∧
      (speciesListOf registry [c!"Na+", c!"Cl-"] : Res (List (Impl Nat Nat))) = .throw := by
  intro registry
  have h : ((speciesListOf registry [c!"Na+", c!"Na"] : Res (List (Impl Nat Nat))).bind fun l => .ok (l.map Impl.getName)) = .ok [c!"Na+", c!"Na"] := by decide +kernel
  have h' : ((speciesListOf registry [c!"Na+", c!"Cl-"] : Res (List (Impl Nat Nat))).bind fun l => .ok (l.map Impl.getName)) = .throw := by decide +kernel
  constructor
  · obtain ⟨l, h1, h2⟩ := Res.bind_eq_ok.1 h
    injection h2 with h2
    exact ⟨l, h1, h2⟩
  · cases hl : (speciesListOf registry [c!"Na+", c!"Cl-"] : Res (List (Impl Nat Nat))) with
    | throw => rfl
    | ok l => rw [hl] at h'; cases h'
    | ub => rw [hl] at h'; cases h'

end Verif.Lists

namespace Verif.ValueObjects

open Chem

variable {M D : Type}

/-- **C96 (molar masses).** The molar mass of a species is that of its elements less that of the electrons it has lost. -/
theorem C96_molar_mass (me : Rat) (o : Impl M D) : o.getMolarMass me = (o.getElements.map fun p => p.2 * p.1.molarMass).sum - o.getCharge * me := by
  have h : ∀ (l : List (Element × Rat)) (a : Rat), l.foldl (fun m p => m + p.1.molarMass * p.2) a = a + (l.map fun p => p.2 * p.1.molarMass).sum := by
    intro l
    induction l with
    | nil => intro a; simp
    | cons p l ih =>
      intro a
      rw [List.foldl_cons, ih, List.map_cons, List.sum_cons]
      ring
  unfold Impl.getMolarMass Impl.getElements Impl.getCharge Chem.computeMolarMass
  rw [h, zero_add]

end Verif.ValueObjects

namespace Verif.Aqueous

variable {K : Type} [Field K] [LinearOrder K]

/-- **C49 (functions for water).** A mixture that is given another function for the density or the dielectric constant of water has the same state as before at every temperature,
pressure and composition, except for that property, which is the value of the function. -/
theorem C49_water_functions (m : Mixture K) (f : K → K → K) (T P : K) (x : List K) (st : State K) (h : m.state T P x = .ok st) :
    (m.withWaterDensityFn f).state T P x = .ok { st with rho := f T P } ∧
    (m.withWaterDielectricConstantFn f).state T P x = .ok { st with epsilon := f T P } := by
  unfold Mixture.state at h
  obtain ⟨a, h1, h⟩ := Res.bind_eq_ok.1 h
  obtain ⟨b, h2, h⟩ := Res.bind_eq_ok.1 h
  obtain ⟨c, h3, h⟩ := Res.bind_eq_ok.1 h
  injection h with h
  subst h
  constructor
  · unfold Mixture.state
    rw [show (m.withWaterDensityFn f).molalities x = .ok a from h1, Res.bind_ok',
      show (m.withWaterDensityFn f).stoichiometricMolalities a = .ok b from h2, Res.bind_ok',
      show (m.withWaterDensityFn f).stoichiometricIonicStrength b = .ok c from h3, Res.bind_ok']
    rfl
  · unfold Mixture.state
    rw [show (m.withWaterDielectricConstantFn f).molalities x = .ok a from h1, Res.bind_ok',
      show (m.withWaterDielectricConstantFn f).stoichiometricMolalities a = .ok b from h2, Res.bind_ok',
      show (m.withWaterDielectricConstantFn f).stoichiometricIonicStrength b = .ok c from h3, Res.bind_ok']
    rfl

/-- Salt water (its mixture is shown beside C49) has a state at every temperature, pressure and composition. -/
example (mix : Mixture ℚ) (h : construct (K := ℚ) Registries.defaults 997 78 saltWater = .ok mix) (T P a b c d e f : ℚ) :
    ∃ st, mix.state T P [a, b, c, d, e, f] = .ok st := by
  obtain ⟨st, hst, -⟩ := C49_ionic_strength Registries.defaults 997 78 saltWater mix h T P [a, b, c, d, e, f] rfl
  exact ⟨st, hst⟩

end Verif.Aqueous

namespace Verif.Registries

/-- **C54 (elements with tags).** The registered elements that have all the given tags, in the order of registration. -/
theorem C54_with_tags (elements : List Chem.Element) (tags : List Str) :
    (withTags elements tags).Sublist elements ∧ ∀ e, e ∈ withTags elements tags ↔ e ∈ elements ∧ ∀ t ∈ tags, t ∈ e.tags := by
  unfold withTags
  refine ⟨List.filter_sublist, fun e => ?_⟩
  rw [List.mem_filter, Lists.contained_iff]

example : withTags [⟨c!"Na", 1, c!"Sodium", [c!"a", c!"b"]⟩, ⟨c!"K", 1, c!"Potassium", [c!"b"]⟩] [c!"b", c!"a"] = [⟨c!"Na", 1, c!"Sodium", [c!"a", c!"b"]⟩] := by
  decide +kernel

end Verif.Registries

namespace Verif.Water

open Real

/-- What the state of water at a temperature and pressure is for an equation of state: that of a density at which the equation gives the pressure to the tolerance, after one
more step, and the reported density is the one at which it is exactly the pressure if the slope of the free energy is kept. -/
def StateOf (model : ℝ → ℝ → HState) (T P : ℝ) (w : ThermoState) : Prop :=
  ∃ D D', |waterPressure T D model - P| < 1e-8 * 22.064e6 ∧
    (D' = D - (waterPressure T D model - P) / (2 * D * (model T D).hD + D ^ 2 * (model T D).hDD) ∨ D' = P / (D * (model T D).hD)) ∧
    w.temperature = T ∧ w.helmholtz = (model T D').h ∧ (0 < P → 0 < (model T D').hD → 0 < w.density ∧ w.density ^ 2 * (model T D').hD = P ∧ w.pressure = P)

theorem stateOf {model : ℝ → ℝ → HState} {T P D' : ℝ} {som : StateOfMatter} (h : waterDensity T P model som = .ok D') :
    StateOf model T P (thermoState T P (model T D')) := by
  obtain ⟨D, h1, h2⟩ := C68_iterate_partial h
  refine ⟨D, D', h1, h2, rfl, rfl, fun hP hd => ?_⟩
  have hq : 0 < P / (model T D').hD := div_pos hP hd
  have hs : sqrt (P / (model T D').hD) * sqrt (P / (model T D').hD) = P / (model T D').hD := mul_self_sqrt hq.le
  refine ⟨sqrt_pos.2 hq, ?_, ?_⟩
  · unfold thermoState
    dsimp only
    rw [pow_two, hs]
    field_simp
  · unfold thermoState
    dsimp only
    rw [hs]
    field_simp

/-- An equation of state for which the density is found. -/
example : ∃ w, StateOf gasModel 300 100000 w := ⟨_, stateOf (gasModel_density 300 100000 (by norm_num) (by norm_num))⟩

/-- **C68 (states of water).** The state of water by the equation of Haar, Gallagher and Kell and by that of Wagner and Pruss is the state for that equation. -/
theorem C68_states_partial (T P : ℝ) (som : StateOfMatter) (w : ThermoState) :
    (thermoStateHGK T P som = .ok w → StateOf hgk T P w) ∧ (thermoStateWagnerPruss T P som = .ok w → StateOf wagnerPruss T P w) := by
  constructor
  · intro h
    obtain ⟨D', h1, h⟩ := Res.bind_eq_ok.1 h
    injection h with h
    subst h
    exact stateOf h1
  · intro h
    obtain ⟨D', h1, h⟩ := Res.bind_eq_ok.1 h
    injection h with h
    subst h
    exact stateOf h1

end Verif.Water

namespace Verif.Supcrt

/-- **C81 (water of the engine).** The engine takes water as a liquid, by the equation of Wagner and Pruss. -/
theorem C81_water_partial (T P : ℝ) (w : Water.ThermoState) (h : wagnerPrussLiquid (T, P) = .ok w) : Water.StateOf Water.wagnerPruss T P w :=
  (Water.C68_states_partial T P .liquid w).2 h

end Verif.Supcrt
