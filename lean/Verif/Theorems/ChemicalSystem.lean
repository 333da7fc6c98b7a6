import Verif.Lemmas.ChemicalSystem

/-!
# Theorems C27–C29: chemical systems

`Constructs phases sys` says that the constructor given `phases` may produce `sys`; it always produces something
(`C27_system_exists`).
-/

namespace Verif.ChemicalSystem

open Chem Phases

/-- A system is constructed from any list of phases. -/
theorem C27_system_exists (phases : List Phase) : ∃ sys, Constructs phases sys := exists_system phases

/-- **C27 (indices of the species of a phase).** The number of species until phase `i` is the number of species in the phases
before it; the species at position `j` of phase `i` has the global index `numSpeciesUntilPhase(i) + j`, and the phase found
with this index is `i`. -/
theorem C27_species_index (phases : List Phase) (sys : System) (h : Constructs phases sys) :
    sys.phases.length = phases.length ∧ sys.phases.map (·.species) = phases.map (·.species) ∧
    (∀ i ≤ sys.phases.length, numSpeciesUntilPhase sys.phases i = .ok (before sys.phases i)) ∧
    (∀ i j s, speciesAt sys.phases i j = some s →
      (∃ t, sys.species[before sys.phases i + j]? = some t ∧ SameButName s t) ∧
      findWithSpecies sys.phases (before sys.phases i + j) = i ∧
      indexWithSpecies sys.phases (before sys.phases i + j) = .ok i) := by
  obtain ⟨elements, -, rfl⟩ := h
  refine ⟨fixPhaseNames_length phases, fixPhaseNames_species phases, fun i hi => numSpeciesUntilPhase_eq _ i hi, ?_⟩
  intro i j s hs
  have hg := species_get _ i j s hs
  rw [collectSpecies_fix] at hg
  obtain ⟨hi, hp⟩ := speciesAt_lt _ i j s hs
  have hf : findWithSpecies (fixPhaseNames phases) (before (fixPhaseNames phases) i + j) = i := by
    have := findGo_eq (fixPhaseNames phases) 0 0 j i hp
    simpa [findWithSpecies] using this
  refine ⟨?_, hf, ?_⟩
  · obtain ⟨hlt, hgs⟩ := List.getElem?_eq_some_iff.1 hg
    obtain ⟨n, t, -, h2, -, h4, -⟩ := fixSpeciesNames_get (collectSpecies phases) _ hlt
    rw [hgs] at h4
    exact ⟨t, h2, h4⟩
  · unfold indexWithSpecies
    dsimp only at hi ⊢
    rw [hf, if_neg (by omega)]

/-- **C27 (every index belongs to exactly one phase).** -/
theorem C27_index_partition (phases : List Phase) (sys : System) (h : Constructs phases sys) (k : Nat) (hk : k < sys.species.length) :
    ∃ i j, (speciesAt sys.phases i j).isSome ∧ k = before sys.phases i + j ∧
      ∀ i' j', (speciesAt sys.phases i' j').isSome → k = before sys.phases i' + j' → i' = i ∧ j' = j := by
  have hidx := (C27_species_index phases sys h).2.2.2
  obtain ⟨elements, -, rfl⟩ := h
  rw [fixSpeciesNames_length, ← collectSpecies_fix] at hk
  obtain ⟨i, j, s, h1, h2⟩ := exists_pos _ k hk
  refine ⟨i, j, by dsimp only; rw [h1]; rfl, h2, ?_⟩
  intro i' j' hs hk'
  obtain ⟨s', hs'⟩ := Option.isSome_iff_exists.1 hs
  have e1 := (hidx i j s h1).2.1
  have e2 := (hidx i' j' s' hs').2.1
  dsimp only at e1 e2 hk'
  rw [← h2] at e1
  rw [← hk', e1] at e2
  subst e2
  exact ⟨rfl, by omega⟩

/-- **C27 (out of range).** Indices that are not those of species are reported as the number of phases, or as an error. -/
theorem C27_out_of_range (phases : List Phase) (sys : System) (h : Constructs phases sys) (k : Nat) (hk : sys.species.length ≤ k) :
    findWithSpecies sys.phases k = sys.phases.length ∧ indexWithSpecies sys.phases k = .throw := by
  obtain ⟨elements, -, rfl⟩ := h
  rw [fixSpeciesNames_length, ← collectSpecies_fix, ← before_all] at hk
  have hf : findWithSpecies (fixPhaseNames phases) k = (fixPhaseNames phases).length := by
    have := findGo_out (fixPhaseNames phases) 0 0 k (by omega)
    simpa [findWithSpecies] using this
  refine ⟨hf, ?_⟩
  unfold indexWithSpecies
  dsimp only
  rw [hf, if_pos (le_refl _)]

/-- **C28 (partial: distinct names).** Full statement: phase names and species names are pairwise distinct in every system;
it is false (`C28_collision`). What holds: if no given name is another one followed by exclamation marks, the names are distinct.
Missing: names that already end with exclamation marks. -/
theorem C28_distinct_names_partial (phases : List Phase) (sys : System) (h : Constructs phases sys) :
    (NoSuffixClash (phases.map (·.name)) → (sys.phases.map (·.name)).Nodup) ∧
    (NoSuffixClash ((phases.flatMap (·.species)).map Species.name) → (sys.species.map Species.name).Nodup) := by
  obtain ⟨elements, -, rfl⟩ := h
  constructor
  · intro hc
    dsimp only
    rw [fixPhaseNames_names]
    exact Strings.makeunique_nodup _ _ (clean_of_noClash _ hc)
  · intro hc
    dsimp only
    rw [fixSpeciesNames_names, collectSpecies_eq]
    exact Strings.makeunique_nodup _ _ (clean_of_noClash _ hc)

/-- **C28 (when the species of a phase and of the system agree).** The last part of C28 is false: species reached through
their phase and through the global index are the same exactly if the given species names are distinct, that is, exactly if the
system renames nothing. -/
theorem C28_agree_iff (phases : List Phase) (sys : System) (h : Constructs phases sys) :
    (∀ i j s, speciesAt sys.phases i j = some s → ∃ t, sys.species[before sys.phases i + j]? = some t ∧ t.name = s.name) ↔
      ((phases.flatMap (·.species)).map Species.name).Nodup := by
  obtain ⟨elements, -, rfl⟩ := h
  dsimp only
  rw [← collectSpecies_eq]
  constructor
  · intro hall
    apply nodup_of_makeunique ['!'] (by simp)
    rw [← fixSpeciesNames_names]
    apply List.ext_getElem?
    intro k
    by_cases hk : k < (collectSpecies phases).length
    · have hk' := hk
      rw [← collectSpecies_fix] at hk'
      obtain ⟨i, j, s, h1, h2⟩ := exists_pos _ k hk'
      obtain ⟨t, h3, h4⟩ := hall i j s h1
      have h5 := species_get _ i j s h1
      rw [collectSpecies_fix] at h5
      rw [← h2] at h3 h5
      rw [List.getElem?_map, h3, List.getElem?_map, h5, Option.map_some, Option.map_some, h4]
    · rw [List.getElem?_eq_none (by rw [List.length_map, fixSpeciesNames_length]; omega),
        List.getElem?_eq_none (by rw [List.length_map]; omega)]
  · intro hnd i j s hs
    have h5 := species_get _ i j s hs
    rw [collectSpecies_fix] at h5
    exact ⟨s, by rw [fixSpeciesNames_of_nodup _ hnd]; exact h5, rfl⟩

/-- **C28 is false of the code: names may still collide.** With phases `P!`, `P`, `P` the last one is renamed to `P!`. -/
theorem C28_collision (A B C : List Species) (sys : System)
    (h : Constructs [⟨c!"P!", A⟩, ⟨c!"P", B⟩, ⟨c!"P", C⟩] sys) : ¬ (sys.phases.map (·.name)).Nodup := by
  obtain ⟨elements, -, rfl⟩ := h
  dsimp only
  rw [fixPhaseNames_names]
  simp only [List.map_cons, List.map_nil]
  decide

/-- **C29 (elements).** The elements of a system are pairwise distinct, they are exactly those present in some species, and they are
sorted by molar mass. -/
theorem C29_elements (phases : List Phase) (sys : System) (h : Constructs phases sys) :
    (sys.elements.map (·.symbol)).Nodup ∧
    (∀ x, x ∈ sys.elements.map (·.symbol) ↔ ∃ s ∈ sys.species, ∃ p ∈ s.elements, p.1.symbol = x) ∧
    (∀ e ∈ sys.elements, ∃ s ∈ sys.species, ∃ p ∈ s.elements, p.1 = e) ∧
    sys.elements.Pairwise (fun a b => a.molarMass ≤ b.molarMass) := by
  obtain ⟨elements, hc, rfl⟩ := h
  obtain ⟨c1, c2, c3⟩ := collectedElements_symbols (collectSpecies phases)
  have hmem : ∀ (P : List (Element × Rat) → Prop), (∃ s ∈ collectSpecies phases, P s.elements) ↔
      ∃ s ∈ fixSpeciesNames (collectSpecies phases), P s.elements := by
    intro P
    have h1 := map_fix Species.elements (fun s t h => h.2.1.symm) (collectSpecies phases)
    constructor
    · rintro ⟨s, hs, hP⟩
      have : s.elements ∈ (fixSpeciesNames (collectSpecies phases)).map Species.elements := by
        rw [h1]; exact List.mem_map.2 ⟨s, hs, rfl⟩
      obtain ⟨t, ht, hte⟩ := List.mem_map.1 this
      exact ⟨t, ht, hte ▸ hP⟩
    · rintro ⟨s, hs, hP⟩
      have : s.elements ∈ (collectSpecies phases).map Species.elements := by
        rw [← h1]; exact List.mem_map.2 ⟨s, hs, rfl⟩
      obtain ⟨t, ht, hte⟩ := List.mem_map.1 this
      exact ⟨t, ht, hte ▸ hP⟩
  dsimp only
  refine ⟨(hc.perm.map _).nodup_iff.2 c1, ?_, ?_, hc.sorted⟩
  · intro x
    rw [(hc.perm.map _).mem_iff, c2, hmem (fun l => ∃ p ∈ l, p.1.symbol = x)]
  · intro e he
    exact (hmem (fun l => ∃ p ∈ l, p.1 = e)).1 (c3 e (hc.perm.mem_iff.1 he))

/-- **C29 (totals, partial).** Full statement: the formula matrix times the amounts gives, for each element, its total amount, followed by
the total charge. It holds if no species lists an element twice; missing: species that do, for which it is false
(`C29_repeated_element`). -/
theorem C29_totals_partial (phases : List Phase) (sys : System) (h : Constructs phases sys) (n : List Rat)
    (hn : n.length = sys.species.length) (hel : ∀ s ∈ sys.species, s.symbols.Nodup) :
    (∀ row ∈ sys.formulaMatrix, row.length = n.length) ∧
    mulVec sys.formulaMatrix n =
      sys.elements.map (fun e => total (elementContent · e.symbol) sys.species n) ++ [total (·.charge) sys.species n] := by
  obtain ⟨elements, hc, rfl⟩ := h
  dsimp only at hn hel ⊢
  rw [fixSpeciesNames_length] at hn
  constructor
  · intro row hrow
    simp only [formulaMatrix, List.mem_append, List.mem_map, List.mem_singleton] at hrow
    rcases hrow with ⟨e, -, rfl⟩ | rfl <;> simp [hn]
  · simp only [mulVec, formulaMatrix, List.map_append, List.map_map, List.map_cons, List.map_nil]
    congr 1
    · apply List.map_congr_left
      intro e _
      simp only [Function.comp]
      rw [zipWith_total]
      apply total_congr
      rw [← map_fix (fun s => coefficient s.elements e.symbol) (fun s t h => by rw [h.2.1])]
      apply List.map_congr_left
      intro s hs
      exact coefficient_eq_content _ _ (hel s hs)
    · rw [zipWith_total]
      congr 1
      apply total_congr
      rw [map_fix (fun s => s.charge) (fun s t h => h.2.2.1.symm)]

/-! ### Examples -/

/-- Hydrogen and oxygen. -/
def H : Element := ⟨c!"H", 1, [], []⟩
def O : Element := ⟨c!"O", 16, [], []⟩
def H2O (name : Str) (st : State) : Species := ⟨name, c!"H2O", [(H, 2), (O, 1)], 0, st, [], [], []⟩
def OH : Species := ⟨c!"OH-", c!"OH-", [(O, 1), (H, 1)], -1, .Aqueous, [], [], []⟩

/-- An aqueous phase, an empty phase and a gas. -/
def examplePhases : List Phase :=
  [⟨c!"Aq", [H2O c!"H2O" .Aqueous, OH]⟩, ⟨c!"Empty", []⟩, ⟨c!"Aq", [H2O c!"H2O" .Gas]⟩]

/-- The system constructed from the example. -/
def exampleSystem : System :=
  ⟨fixPhaseNames examplePhases, fixSpeciesNames (collectSpecies examplePhases), [H, O],
    formulaMatrix (collectSpecies examplePhases) [H, O]⟩

theorem exampleSystem_constructed : Constructs examplePhases exampleSystem := by
  refine ⟨[H, O], ⟨?_, ?_⟩, rfl⟩
  · rw [show collectedElements (collectSpecies examplePhases) = [H, O] by decide +kernel]
  · simp [H, O]

example : exampleSystem.phases.map (·.name) = [c!"Aq", c!"Empty", c!"Aq!"] ∧
    exampleSystem.species.map Species.name = [c!"H2O", c!"OH-", c!"H2O!"] ∧
    (List.range 4).map (findWithSpecies exampleSystem.phases) = [0, 0, 2, 3] ∧
    mulVec exampleSystem.formulaMatrix [1, 2, 3] = [10, 6, -2] := by decide +kernel

example : (∀ s ∈ exampleSystem.species, s.symbols.Nodup) ∧ [1, 2, 3].length = exampleSystem.species.length := by
  decide +kernel

example : NoSuffixClash (examplePhases.map (·.name)) := by
  intro x hx y hy k hk
  simp only [examplePhases, List.map_cons, List.map_nil, List.mem_cons, List.not_mem_nil, or_false] at hx hy
  cases k with
  | zero => rfl
  | succ k =>
    exfalso
    have : x.getLast? = some '!' := by
      rw [hk, List.replicate_succ', ← List.append_assoc, List.getLast?_append]; rfl
    rcases hx with rfl | rfl | rfl <;> simp at this

/-- **C28 is false of the code: a renamed species is not renamed in its phase.** -/
theorem C28_phase_keeps_old_name :
    (speciesAt exampleSystem.phases 2 0).map Species.name = some c!"H2O" ∧
    (exampleSystem.species[before exampleSystem.phases 2 + 0]?).map Species.name = some c!"H2O!" := by decide +kernel

/-- **C28 is false of the code: species names may still collide.** -/
theorem C28_species_collision (sys : System)
    (h : Constructs [⟨c!"Aq", [H2O c!"H2O!" .Aqueous, H2O c!"H2O" .Aqueous]⟩, ⟨c!"Gas", [H2O c!"H2O" .Gas]⟩] sys) :
    ¬ (sys.species.map Species.name).Nodup := by
  obtain ⟨elements, -, rfl⟩ := h
  dsimp only
  decide +kernel

/-- A species that lists oxygen twice. -/
def HOOH : Species := ⟨c!"HOOH", c!"HOOH", [(H, 2), (O, 1), (O, 1)], 0, .Aqueous, [], [], []⟩

/-- **C29 is false of the code for species that list an element twice.** Only the first entry is used in the formula matrix (the
molar mass uses both). -/
theorem C29_repeated_element (sys : System) (h : Constructs [⟨c!"Aq", [HOOH]⟩] sys) :
    ∃ n : List Rat, n.length = sys.species.length ∧
      mulVec sys.formulaMatrix n ≠
        sys.elements.map (fun e => total (elementContent · e.symbol) sys.species n) ++ [total (·.charge) sys.species n] := by
  obtain ⟨elements, hc, rfl⟩ := h
  refine ⟨[1], by dsimp only; decide +kernel, ?_⟩
  dsimp only
  intro heq
  have hp : elements.Perm [H, O] := by
    have := hc.perm
    rwa [show collectedElements (collectSpecies [⟨c!"Aq", [HOOH]⟩]) = [H, O] by decide +kernel] at this
  have hs := hc.sorted
  have hl : elements = [H, O] ∨ elements = [O, H] := by
    have h2 := hp.length_eq
    match elements, h2 with
    | [a, b], _ =>
      have ha : a = H ∨ a = O := by simpa using hp.subset (a := a) (by simp)
      have hb : b = H ∨ b = O := by simpa using hp.subset (a := b) (by simp)
      have hH : H = a ∨ H = b := by simpa using hp.symm.subset (a := H) (by simp)
      have hO : O = a ∨ O = b := by simpa using hp.symm.subset (a := O) (by simp)
      have hHO : H ≠ O := by decide
      rcases ha with rfl | rfl <;> rcases hb with rfl | rfl
      · rcases hO with h | h <;> exact absurd h.symm hHO
      · exact .inl rfl
      · exact .inr rfl
      · rcases hH with h | h <;> exact absurd h hHO
  rcases hl with rfl | rfl
  · revert heq; decide +kernel
  · revert heq; decide +kernel

end Verif.ChemicalSystem
