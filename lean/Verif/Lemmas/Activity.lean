import Verif.Spec.ActivityModels
import Verif.Theorems.AqueousMixture
import Mathlib.Tactic.FieldSimp
import Mathlib.Tactic.LinearCombination

/-!
# Lemmas on activity models of aqueous phases
-/

namespace Verif.Activity

open Verif.Aqueous Verif.ChemicalProps

theorem fits_iff' (m : Mem) (N : Nat) : m.fits N = true ↔ Fits m N := by simp [Mem.fits, Fits]

/-! ## Loops that write entries of an array -/

variable {β : Type}

theorem foldl_set_length (ix : β → Nat) (v : β → ℝ) (L : List β) (g : List ℝ) :
    (L.foldl (fun g b => g.set (ix b) (v b)) g).length = g.length := by
  induction L generalizing g with
  | nil => rfl
  | cons b L ih => rw [List.foldl_cons, ih]; simp

theorem foldl_set_other (ix : β → Nat) (v : β → ℝ) (L : List β) (g : List ℝ) (i : Nat) (hi : ∀ b ∈ L, ix b ≠ i) :
    (L.foldl (fun g b => g.set (ix b) (v b)) g).getD i 0 = g.getD i 0 := by
  induction L generalizing g with
  | nil => rfl
  | cons b L ih =>
    rw [List.foldl_cons, ih _ fun c hc => hi c (List.mem_cons_of_mem _ hc)]
    simp [hi b List.mem_cons_self]

theorem foldl_set_mem (ix : β → Nat) (v : β → ℝ) (L : List β) (g : List ℝ) (hnd : (L.map ix).Nodup) (b : β) (hb : b ∈ L)
    (hl : ix b < g.length) : (L.foldl (fun g b => g.set (ix b) (v b)) g).getD (ix b) 0 = v b := by
  induction L generalizing g with
  | nil => cases hb
  | cons c L ih =>
    rw [List.map_cons, List.nodup_cons] at hnd
    rw [List.foldl_cons]
    rcases List.mem_cons.mp hb with rfl | hb
    · rw [foldl_set_other]
      · simp [hl]
      · intro d hd e
        exact hnd.1 (List.mem_map.mpr ⟨d, hd, e⟩)
    · exact ih _ hnd.2 hb (by simpa using hl)

theorem getD_set (l : List ℝ) (i j : Nat) (v : ℝ) (hi : i < l.length) :
    (l.set i v).getD j 0 = if j = i then v else l.getD j 0 := by
  by_cases h : j = i
  · subst h; simp [hi]
  · rw [if_neg h]; simp [Ne.symm h]

/-! ## The species of the mixture -/

/-- The species at an index. -/
def spAt (species : List (Species ℝ)) (j : Nat) : Species ℝ := (species[j]?).getD ⟨[], waterFormula, 0⟩

theorem spAt_eq (species : List (Species ℝ)) (j : Fin species.length) : spAt species j = species[j] := by simp [spAt]

theorem species_of_indices (species : List (Species ℝ)) (idx : List Nat) (sel : List (Species ℝ))
    (h : sel.map some = idx.map (species[·]?)) : sel = idx.map (spAt species) := by
  have : (sel.map some).map (fun o => o.getD ⟨[], waterFormula, 0⟩) = (idx.map (species[·]?)).map (fun o => o.getD ⟨[], waterFormula, 0⟩) := by
    rw [h]
  rw [List.map_map, List.map_map] at this
  have e : (fun o : Option (Species ℝ) => o.getD ⟨[], waterFormula, 0⟩) ∘ some = id := rfl
  rw [e, List.map_id] at this
  exact this

theorem ions_map (F : Nat → ℝ → Species ℝ → Ion) (idx : List Nat) (sp : Nat → Species ℝ) (msf : Nat → ℝ) :
    ((idx.zip (idx.map sp)).mapIdx fun k q => F q.1 ((idx.map msf).getD k 0) q.2) = idx.map fun j => F j (msf j) (sp j) := by
  apply List.ext_getElem
  · simp
  · intro k h1 h2
    have hk : k < idx.length := by simpa using h2
    simp [hk]

/-! ## Solutions in which all solutes are ions -/

/-- Water is the first species with the formula of water and sits at `w`; all other species are charged. -/
structure IonicSolution (species : List (Species ℝ)) (w : Fin species.length) : Prop where
  water : IsWater species[w]
  first : ∀ i : Fin species.length, i < w → ¬ IsWater species[i]
  ions : ∀ i : Fin species.length, i ≠ w → species[i].charge ≠ 0

theorem water_index (reactions : List Registries.Reaction) (rho0 eps0 : ℝ) (species : List (Species ℝ)) (mix : Mixture ℝ)
    (h : construct reactions rho0 eps0 species = .ok mix) (w : Fin species.length) (hw : IsWater species[w])
    (hf : ∀ i : Fin species.length, i < w → ¬ IsWater species[i]) : mix.idxWater = w := by
  obtain ⟨⟨s, hs, hsw⟩, h2, -⟩ := C49_partition reactions rho0 eps0 species mix h
  obtain ⟨hl, rfl⟩ := List.getElem?_eq_some_iff.mp hs
  rcases lt_trichotomy mix.idxWater (w : Nat) with hlt | he | hgt
  · exact absurd hsw (hf ⟨mix.idxWater, hl⟩ hlt)
  · exact he
  · exact absurd hw (h2 w _ hgt (by simp))

theorem construct_ok (reactions : List Registries.Reaction) (rho0 eps0 : ℝ) (species : List (Species ℝ)) (w : Fin species.length)
    (hw : IsWater species[w]) : ∃ mix, construct reactions rho0 eps0 species = .ok mix := by
  have hn := C49_no_water reactions rho0 eps0 species
  cases hc : construct reactions rho0 eps0 species with
  | throw => exact absurd hw (hn.1.mp hc _ (List.getElem_mem _))
  | ub => exact absurd hc hn.2
  | ok mix => exact ⟨mix, rfl⟩

theorem ionic_indices (reactions : List Registries.Reaction) (rho0 eps0 : ℝ) (species : List (Species ℝ)) (mix : Mixture ℝ)
    (h : construct reactions rho0 eps0 species = .ok mix) (w : Fin species.length) (hs : IonicSolution species w) :
    mix.idxWater = w ∧ mix.ix.idxNeutral = [] ∧ mix.ix.neutral = [] ∧ mix.ix.idxCharged.Nodup ∧
    (∀ i, i ∈ mix.ix.idxCharged ↔ i ≠ w ∧ i < species.length) ∧ mix.ix.charged = mix.ix.idxCharged.map (spAt species) ∧
    ∀ g : Nat → ℝ, (mix.ix.idxCharged.map g).sum = ∑ i ∈ Finset.univ.erase w, g i := by
  have hw := water_index reactions rho0 eps0 species mix h w hs.water hs.first
  obtain ⟨-, -, -, -, hN, hC, -, -, -, hCs, -, -, hNsp, hCsp, -, -, -, -⟩ := C49_partition reactions rho0 eps0 species mix h
  have hnd : mix.ix.idxCharged.Nodup := hCs.imp fun h => Nat.ne_of_lt h
  have hN0 : mix.ix.idxNeutral = [] := by
    apply List.eq_nil_iff_forall_not_mem.mpr
    intro i hi
    obtain ⟨hiw, s, hs', h0⟩ := (hN i).mp hi
    obtain ⟨hl, rfl⟩ := List.getElem?_eq_some_iff.mp hs'
    exact hs.ions ⟨i, hl⟩ (fun e => hiw (by rw [hw, ← e])) h0
  have hmem : ∀ i, i ∈ mix.ix.idxCharged ↔ i ≠ w ∧ i < species.length := by
    intro i
    rw [hC i, hw]
    constructor
    · rintro ⟨hiw, s, hs', -⟩
      exact ⟨hiw, (List.getElem?_eq_some_iff.mp hs').1⟩
    · rintro ⟨hiw, hl⟩
      exact ⟨hiw, _, List.getElem?_eq_getElem hl, hs.ions ⟨i, hl⟩ fun e => hiw (by rw [← e])⟩
  refine ⟨hw, hN0, ?_, hnd, hmem, species_of_indices species _ _ hCsp, ?_⟩
  · rw [hN0] at hNsp
    exact List.map_eq_nil_iff.mp hNsp
  · intro g
    rw [← List.sum_toFinset g hnd]
    have : mix.ix.idxCharged.toFinset = (Finset.univ.erase w).map Fin.valEmbedding := by
      ext i
      rw [List.mem_toFinset, hmem]
      simp only [Finset.mem_map, Finset.mem_erase, Finset.mem_univ, and_true, Fin.valEmbedding_apply]
      constructor
      · rintro ⟨hiw, hl⟩; exact ⟨⟨i, hl⟩, fun e => hiw (by rw [← e]), rfl⟩
      · rintro ⟨j, hj, rfl⟩; exact ⟨fun e => hj (Fin.ext e), j.2⟩
    rw [this, Finset.sum_map]
    rfl

/-- The state of an ionic solution. -/
theorem ionic_state (reactions : List Registries.Reaction) (rho0 eps0 : ℝ) (species : List (Species ℝ)) (mix : Mixture ℝ)
    (h : construct reactions rho0 eps0 species = .ok mix) (w : Fin species.length) (hs : IonicSolution species w) (T P : ℝ)
    (x : List ℝ) (hx : x.length = species.length) (hxw : x.getD w 0 ≠ 0) :
    ∃ st, mix.state T P x = .ok st ∧ st.m = x.map (fun xi => xi / (waterMolarMass * x.getD w 0)) ∧
      st.ms = mix.ix.idxCharged.map (fun j => st.m.getD j 0) ∧
      st.Is = 1 / 2 * ∑ i ∈ Finset.univ.erase w, species[i].charge * species[i].charge * st.m.getD i 0 ∧
      st.T = T ∧ st.P = P ∧ st.rho = rho0 ∧ st.epsilon = eps0 := by
  obtain ⟨hw, hN, -, hnd, hmem, hch, hsum⟩ := ionic_indices reactions rho0 eps0 species mix h w hs
  obtain ⟨st, h1, h2, h3, h4, h5, h6, h7⟩ := state_eq reactions rho0 eps0 species mix h T P x hx
  rw [hw, if_neg hxw] at h4
  rw [hN] at h5
  simp only [List.map_nil, List.sum_nil, add_zero] at h5
  refine ⟨st, h1, h4, h5, ?_, ?_⟩
  · rw [h7, h5, List.zipWith_map, List.zipWith_self, hsum]
    congr 1
    apply Finset.sum_congr rfl
    intro i _
    simp
  · have hrho : mix.rho = (fun _ _ => rho0) ∧ mix.epsilon = fun _ _ => eps0 := by
      have hc := h
      rw [construct_eq] at hc
      split at hc
      · cases hc
      · cases hc; exact ⟨rfl, rfl⟩
    unfold Mixture.state at h1
    rw [h2] at h1
    simp only [Res.bind_ok'] at h1
    cases hms : mix.stoichiometricMolalities st.m with
    | throw => rw [hms] at h1; cases h1
    | ub => rw [hms] at h1; cases h1
    | ok ms =>
      rw [hms] at h1
      simp only [Res.bind_ok'] at h1
      cases hI : mix.stoichiometricIonicStrength ms with
      | throw => rw [hI] at h1; cases h1
      | ub => rw [hI] at h1; cases h1
      | ok Is =>
        rw [hI] at h1
        simp only [Res.bind_ok', Res.ok.injEq] at h1
        rw [← h1, hrho.1, hrho.2]
        exact ⟨rfl, rfl, rfl, rfl⟩

end Verif.Activity
