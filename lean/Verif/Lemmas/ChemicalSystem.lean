import Verif.Spec.ChemicalSystem
import Verif.Lemmas.Strings
import Mathlib.Data.List.Basic
import Mathlib.Data.List.Nodup
import Mathlib.Algebra.BigOperators.Group.List.Basic
import Mathlib.Algebra.Ring.Rat
import Mathlib.Tactic.Ring

/-!
# Lemmas for C27–C29
-/

namespace Verif.ChemicalSystem

open Chem Phases

theorem collectSpecies_eq (phases : List Phase) : collectSpecies phases = phases.flatMap (·.species) := by
  unfold collectSpecies
  suffices ∀ acc, phases.foldl (fun l p => l ++ p.species) acc = acc ++ phases.flatMap (·.species) by simpa using this []
  induction phases with
  | nil => simp
  | cons p ps ih => intro acc; simp [ih]

theorem before_zero (phases : List Phase) : before phases 0 = 0 := by simp [before]

theorem before_cons (p : Phase) (ps : List Phase) (i : Nat) : before (p :: ps) (i + 1) = p.species.length + before ps i := by
  simp [before]

theorem before_all (phases : List Phase) : before phases phases.length = (collectSpecies phases).length := by
  rw [collectSpecies_eq]
  simp [before, List.length_flatMap]

theorem numSpeciesGo_eq (phases : List Phase) (k i sum : Nat) (h : i + k ≤ phases.length) :
    numSpeciesGo phases k i sum = .ok (sum + (before phases (i + k) - before phases i)) ∧ before phases i ≤ before phases (i + k) := by
  induction k generalizing i sum with
  | zero => simp [numSpeciesGo]
  | succ k ih =>
    have hi : i < phases.length := by omega
    have hstep : before phases (i + 1) = before phases i + (phases[i]).species.length := by
      simp only [before]
      rw [List.take_succ_eq_append_getElem hi, List.map_append, List.sum_append]
      simp
    obtain ⟨h1, h2⟩ := ih (i + 1) (sum + (phases[i]).species.length) (by omega)
    rw [show i + 1 + k = i + (k + 1) by omega] at h1 h2
    refine ⟨?_, by omega⟩
    simp only [numSpeciesGo, at!_of_lt phases i hi, Res.bind_ok']
    rw [h1]
    congr 1
    omega

theorem numSpeciesUntilPhase_eq (phases : List Phase) (i : Nat) (h : i ≤ phases.length) :
    numSpeciesUntilPhase phases i = .ok (before phases i) := by
  have := (numSpeciesGo_eq phases i 0 0 (by omega)).1
  rw [numSpeciesUntilPhase, this, before_zero]
  simp

theorem findGo_eq (phases : List Phase) (c i j : Nat) : ∀ (m : Nat), (hj : ∃ p, phases[m]? = some p ∧ j < p.species.length) →
    findWithSpeciesGo phases c i (c + before phases m + j) = i + m := by
  induction phases generalizing c i with
  | nil => rintro m ⟨p, h, -⟩; simp at h
  | cons p ps ih =>
    intro m hm
    cases m with
    | zero =>
      obtain ⟨q, hq, hj⟩ := hm
      simp only [List.getElem?_cons_zero, Option.some.injEq] at hq
      subst hq
      simp only [findWithSpeciesGo, before_zero]
      rw [if_pos (by omega)]; rfl
    | succ m =>
      simp only [List.getElem?_cons_succ] at hm
      simp only [findWithSpeciesGo, before_cons]
      rw [if_neg (by omega)]
      have := ih (c + p.species.length) (i + 1) m hm
      rw [show c + (p.species.length + before ps m) + j = c + p.species.length + before ps m + j by omega, this]
      omega

theorem findGo_out (phases : List Phase) (c i k : Nat) (h : c + before phases phases.length ≤ k) :
    findWithSpeciesGo phases c i k = i + phases.length := by
  induction phases generalizing c i with
  | nil => rfl
  | cons p ps ih =>
    rw [List.length_cons, before_cons] at h
    simp only [findWithSpeciesGo]
    rw [if_neg (by omega), ih (c + p.species.length) (i + 1) (by omega), List.length_cons]
    omega

theorem species_get (phases : List Phase) (i j : Nat) (s : Species) (h : speciesAt phases i j = some s) :
    (collectSpecies phases)[before phases i + j]? = some s := by
  rw [collectSpecies_eq]
  induction phases generalizing i with
  | nil => simp [speciesAt] at h
  | cons p ps ih =>
    cases i with
    | zero =>
      simp only [speciesAt, List.getElem?_cons_zero, Option.bind_some] at h
      have hj := (List.getElem?_eq_some_iff.1 h).1
      rw [before_zero, Nat.zero_add, List.flatMap_cons, List.getElem?_append_left hj]
      exact h
    | succ i =>
      have h' : speciesAt ps i j = some s := h
      rw [before_cons, List.flatMap_cons, List.getElem?_append_right (by omega)]
      rw [show p.species.length + before ps i + j - p.species.length = before ps i + j by omega]
      exact ih i h'

theorem speciesAt_lt (phases : List Phase) (i j : Nat) (s : Species) (h : speciesAt phases i j = some s) :
    i < phases.length ∧ ∃ p, phases[i]? = some p ∧ j < p.species.length := by
  unfold speciesAt at h
  cases hp : phases[i]? with
  | none => rw [hp] at h; cases h
  | some p =>
    rw [hp] at h
    exact ⟨(List.getElem?_eq_some_iff.1 hp).1, p, rfl, (List.getElem?_eq_some_iff.1 h).1⟩

theorem exists_pos (phases : List Phase) (k : Nat) (h : k < (collectSpecies phases).length) :
    ∃ i j s, speciesAt phases i j = some s ∧ k = before phases i + j := by
  rw [← before_all] at h
  induction phases generalizing k with
  | nil => simp [before] at h
  | cons p ps ih =>
    by_cases hk : k < p.species.length
    · exact ⟨0, k, p.species[k], by simp [speciesAt, hk], by rw [before_zero]; omega⟩
    · rw [List.length_cons, before_cons] at h
      obtain ⟨i, j, s, h1, h2⟩ := ih (k - p.species.length) (by omega)
      exact ⟨i + 1, j, s, h1, by rw [before_cons]; omega⟩

/-! ### Names -/

theorem repeated_bang (k : Nat) : Strings.repeated ['!'] k = List.replicate k '!' := by
  induction k with
  | zero => rfl
  | succ k ih =>
    rw [Strings.repeated, ih]
    exact (List.replicate_succ' (n := k) (a := '!')).symm

theorem fixPhaseNames_length (phases : List Phase) : (fixPhaseNames phases).length = phases.length := by
  simp [fixPhaseNames, Strings.makeunique_length]

theorem fixSpeciesNames_length (l : List Species) : (fixSpeciesNames l).length = l.length := by
  simp [fixSpeciesNames, Strings.makeunique_length]

theorem fixPhaseNames_get (phases : List Phase) (i : Nat) (h : i < phases.length) :
    ∃ n, (Strings.makeunique (phases.map (·.name)) ['!'])[i]? = some n ∧ (fixPhaseNames phases)[i]? = some { phases[i] with name := n } := by
  have hl : i < (Strings.makeunique (phases.map (·.name)) ['!']).length := by simpa [Strings.makeunique_length] using h
  refine ⟨_, List.getElem?_eq_getElem hl, ?_⟩
  simp only [fixPhaseNames, List.getElem?_zipWith, List.getElem?_eq_getElem hl, List.getElem?_eq_getElem h]
  simp only [Option.some.injEq]
  split
  · rfl
  · rename_i hc
    simp only [ne_eq, not_not] at hc
    rw [← hc]

theorem fixSpeciesNames_get (l : List Species) (i : Nat) (h : i < l.length) :
    ∃ n t, (Strings.makeunique (l.map Species.name) ['!'])[i]? = some n ∧ (fixSpeciesNames l)[i]? = some t ∧ t.name = n ∧
      SameButName l[i] t ∧ (n = (l[i]).name → t = l[i]) := by
  have hl : i < (Strings.makeunique (l.map Species.name) ['!']).length := by simpa [Strings.makeunique_length] using h
  have hg : (fixSpeciesNames l)[i]? = some (if (l[i]).name ≠ (Strings.makeunique (l.map Species.name) ['!'])[i] then
      (l[i]).withName (Strings.makeunique (l.map Species.name) ['!'])[i] else l[i]) := by
    simp only [fixSpeciesNames, List.getElem?_zipWith, List.getElem?_eq_getElem h, List.getElem?_eq_getElem hl]
  obtain ⟨k, hk⟩ := Strings.makeunique_extends ['!'] (l.map Species.name) i (by simpa using h)
  rw [repeated_bang] at hk
  simp only [List.getElem_map] at hk
  refine ⟨_, _, List.getElem?_eq_getElem hl, hg, ?_⟩
  by_cases hc : (l[i]).name ≠ (Strings.makeunique (l.map Species.name) ['!'])[i]
  · rw [if_pos hc]
    refine ⟨?_, ⟨rfl, rfl, rfl, rfl, rfl, rfl⟩, fun h => absurd h.symm hc⟩
    have hne : (Strings.makeunique (l.map Species.name) ['!'])[i] ≠ [] := by
      intro h0
      rw [h0] at hk hc
      exact hc (List.append_eq_nil_iff.1 hk.symm).1
    simp [Species.name, Species.withName, hne]
  · rw [if_neg hc]
    simp only [ne_eq, not_not] at hc
    exact ⟨hc, ⟨rfl, rfl, rfl, rfl, rfl, rfl⟩, fun _ => rfl⟩

theorem fixSpeciesNames_names (l : List Species) :
    (fixSpeciesNames l).map Species.name = Strings.makeunique (l.map Species.name) ['!'] := by
  apply List.ext_getElem?
  intro i
  by_cases h : i < l.length
  · obtain ⟨n, t, h1, h2, h3, -⟩ := fixSpeciesNames_get l i h
    rw [h1, List.getElem?_map, h2, Option.map_some, h3]
  · rw [List.getElem?_eq_none (by rw [List.length_map, fixSpeciesNames_length]; omega),
      List.getElem?_eq_none (by rw [Strings.makeunique_length, List.length_map]; omega)]

theorem fixPhaseNames_names (phases : List Phase) :
    (fixPhaseNames phases).map (·.name) = Strings.makeunique (phases.map (·.name)) ['!'] := by
  apply List.ext_getElem?
  intro i
  by_cases h : i < phases.length
  · obtain ⟨n, h1, h2⟩ := fixPhaseNames_get phases i h
    rw [h1, List.getElem?_map, h2, Option.map_some]
  · rw [List.getElem?_eq_none (by rw [List.length_map, fixPhaseNames_length]; omega),
      List.getElem?_eq_none (by rw [Strings.makeunique_length, List.length_map]; omega)]

theorem fixPhaseNames_species (phases : List Phase) :
    (fixPhaseNames phases).map (·.species) = phases.map (·.species) := by
  apply List.ext_getElem?
  intro i
  by_cases h : i < phases.length
  · obtain ⟨n, h1, h2⟩ := fixPhaseNames_get phases i h
    rw [List.getElem?_map, h2, Option.map_some, List.getElem?_map, List.getElem?_eq_getElem h, Option.map_some]
  · rw [List.getElem?_eq_none (by rw [List.length_map, fixPhaseNames_length]; omega),
      List.getElem?_eq_none (by rw [List.length_map]; omega)]

theorem collectSpecies_fix (phases : List Phase) : collectSpecies (fixPhaseNames phases) = collectSpecies phases := by
  rw [collectSpecies_eq, collectSpecies_eq, List.flatMap_def, List.flatMap_def, fixPhaseNames_species]

theorem clean_of_noClash (names : List Str) (h : NoSuffixClash names) : Strings.Clean names ['!'] := by
  refine ⟨by simp, ?_⟩
  intro x hx y hy k hk
  rw [repeated_bang] at hk
  have := h x hx y hy k hk
  subst this
  simpa using hk

theorem fixSpeciesNames_of_nodup (l : List Species) (h : (l.map Species.name).Nodup) : fixSpeciesNames l = l := by
  apply List.ext_getElem?
  intro i
  by_cases hi : i < l.length
  · obtain ⟨n, t, h1, h2, h3, -, h5⟩ := fixSpeciesNames_get l i hi
    rw [Strings.makeunique_of_nodup _ _ h, List.getElem?_map, List.getElem?_eq_getElem hi, Option.map_some, Option.some.injEq] at h1
    rw [h2, h5 h1.symm, List.getElem?_eq_getElem hi]
  · rw [List.getElem?_eq_none (by rw [fixSpeciesNames_length]; omega), List.getElem?_eq_none (by omega)]

theorem uniqueWord_grows (suffix : Str) (hs : suffix ≠ []) (prev : List Str) (w : Str) :
    w.length ≤ (Strings.uniqueWord suffix prev w).length ∧ (w ∈ prev → w.length < (Strings.uniqueWord suffix prev w).length) := by
  have hpos : 0 < suffix.length := List.length_pos_iff.2 hs
  induction prev generalizing w with
  | nil => simp [Strings.uniqueWord]
  | cons a prev ih =>
    have hstep : Strings.uniqueWord suffix (a :: prev) w = Strings.uniqueWord suffix prev (if w == a then w ++ suffix else w) := rfl
    rw [hstep]
    by_cases h : w = a
    · have := (ih (w ++ suffix)).1
      rw [List.length_append] at this
      rw [if_pos (by simpa using h)]
      exact ⟨by omega, fun _ => by omega⟩
    · rw [if_neg (by simpa using h)]
      refine ⟨(ih w).1, fun hm => (ih w).2 ?_⟩
      rcases List.mem_cons.1 hm with h' | h'
      · exact absurd h' h
      · exact h'

theorem nodup_of_makeunique (suffix : Str) (hs : suffix ≠ []) (ws : List Str) (h : Strings.makeunique ws suffix = ws) : ws.Nodup := by
  induction ws using List.reverseRecOn with
  | nil => simp
  | append_singleton ws w ih =>
    rw [Strings.makeunique_snoc] at h
    obtain ⟨h1, h2⟩ := List.append_inj' h rfl
    simp only [List.cons.injEq, and_true] at h2
    rw [h1] at h2
    refine List.nodup_append.2 ⟨ih h1, by simp, ?_⟩
    intro a ha b hb
    rw [List.mem_singleton] at hb
    subst hb
    rintro rfl
    have := (uniqueWord_grows suffix hs ws a).2 ha
    rw [h2] at this
    omega

/-! ### Elements -/

theorem emplace_symbols (l : List Element) (e : Element) (h : (l.map (·.symbol)).Nodup) :
    ((emplace l e).map (·.symbol)).Nodup ∧
    (∀ x, x ∈ (emplace l e).map (·.symbol) ↔ x ∈ l.map (·.symbol) ∨ x = e.symbol) ∧
    (∀ y ∈ emplace l e, y ∈ l ∨ y = e) := by
  unfold emplace
  by_cases hc : l.any (fun x => x.symbol = e.symbol) = true
  · rw [if_pos hc]
    refine ⟨h, ?_, fun y hy => .inl hy⟩
    intro x
    constructor
    · exact .inl
    · rintro (hx | rfl)
      · exact hx
      · obtain ⟨y, hy, hye⟩ := List.any_eq_true.1 hc
        exact List.mem_map.2 ⟨y, hy, by simpa using hye⟩
  · rw [if_neg hc]
    have hnot : e.symbol ∉ l.map (·.symbol) := by
      intro hm
      obtain ⟨y, hy, hye⟩ := List.mem_map.1 hm
      exact hc (List.any_eq_true.2 ⟨y, hy, by simpa using hye⟩)
    refine ⟨?_, fun x => by simp, fun y hy => by simpa using hy⟩
    rw [List.map_append]
    exact List.nodup_append.2 ⟨h, by simp, by
      intro a ha b hb
      simp only [List.map_cons, List.map_nil, List.mem_singleton] at hb
      rw [hb]; rintro rfl; exact hnot ha⟩

theorem emplaceAll_symbols (ps : List (Element × Rat)) (l : List Element) (h : (l.map (·.symbol)).Nodup) :
    ((ps.foldl (fun l p => emplace l p.1) l).map (·.symbol)).Nodup ∧
    (∀ x, x ∈ (ps.foldl (fun l p => emplace l p.1) l).map (·.symbol) ↔ x ∈ l.map (·.symbol) ∨ ∃ p ∈ ps, p.1.symbol = x) ∧
    (∀ y ∈ ps.foldl (fun l p => emplace l p.1) l, y ∈ l ∨ ∃ p ∈ ps, p.1 = y) := by
  induction ps generalizing l with
  | nil => exact ⟨h, by simp, fun y hy => .inl hy⟩
  | cons p ps ih =>
    obtain ⟨a1, a2, a3⟩ := emplace_symbols l p.1 h
    obtain ⟨b1, b2, b3⟩ := ih (emplace l p.1) a1
    refine ⟨b1, ?_, ?_⟩
    · intro x
      rw [List.foldl_cons, b2, a2]
      constructor
      · rintro ((hx | rfl) | ⟨q, hq, hqx⟩)
        · exact .inl hx
        · exact .inr ⟨p, List.mem_cons_self, rfl⟩
        · exact .inr ⟨q, List.mem_cons_of_mem _ hq, hqx⟩
      · rintro (hx | ⟨q, hq, hqx⟩)
        · exact .inl (.inl hx)
        · rcases List.mem_cons.1 hq with rfl | hq
          · exact .inl (.inr hqx.symm)
          · exact .inr ⟨q, hq, hqx⟩
    · intro y hy
      rcases b3 y hy with h1 | ⟨q, hq, hqy⟩
      · rcases a3 y h1 with h2 | rfl
        · exact .inl h2
        · exact .inr ⟨p, List.mem_cons_self, rfl⟩
      · exact .inr ⟨q, List.mem_cons_of_mem _ hq, hqy⟩

theorem collectedElements_symbols (species : List Species) :
    ((collectedElements species).map (·.symbol)).Nodup ∧
    (∀ x, x ∈ (collectedElements species).map (·.symbol) ↔ ∃ s ∈ species, ∃ p ∈ s.elements, p.1.symbol = x) ∧
    (∀ y ∈ collectedElements species, ∃ s ∈ species, ∃ p ∈ s.elements, p.1 = y) := by
  suffices ∀ l : List Element, (l.map (·.symbol)).Nodup →
      let r := species.foldl (fun l s => s.elements.foldl (fun l p => emplace l p.1) l) l
      (r.map (·.symbol)).Nodup ∧
      (∀ x, x ∈ r.map (·.symbol) ↔ x ∈ l.map (·.symbol) ∨ ∃ s ∈ species, ∃ p ∈ s.elements, p.1.symbol = x) ∧
      (∀ y ∈ r, y ∈ l ∨ ∃ s ∈ species, ∃ p ∈ s.elements, p.1 = y) by
    obtain ⟨h1, h2, h3⟩ := this [] (by simp)
    refine ⟨h1, fun x => ?_, fun y hy => ?_⟩
    · have := h2 x
      simpa [collectedElements] using this
    · have := h3 y hy
      simpa using this
  induction species with
  | nil => intro l hl; exact ⟨hl, by simp, fun y hy => .inl hy⟩
  | cons s species ih =>
    intro l hl
    obtain ⟨a1, a2, a3⟩ := emplaceAll_symbols s.elements l hl
    obtain ⟨b1, b2, b3⟩ := ih _ a1
    refine ⟨b1, ?_, ?_⟩
    · intro x
      rw [List.foldl_cons, b2, a2]
      constructor
      · rintro ((hx | ⟨p, hp, hpx⟩) | ⟨t, ht, h⟩)
        · exact .inl hx
        · exact .inr ⟨s, List.mem_cons_self, p, hp, hpx⟩
        · exact .inr ⟨t, List.mem_cons_of_mem _ ht, h⟩
      · rintro (hx | ⟨t, ht, p, hp, hpx⟩)
        · exact .inl (.inl hx)
        · rcases List.mem_cons.1 ht with rfl | ht
          · exact .inl (.inr ⟨p, hp, hpx⟩)
          · exact .inr ⟨t, ht, p, hp, hpx⟩
    · intro y hy
      rcases b3 y hy with h1 | ⟨t, ht, h⟩
      · rcases a3 y h1 with h2 | ⟨p, hp, hpy⟩
        · exact .inl h2
        · exact .inr ⟨s, List.mem_cons_self, p, hp, hpy⟩
      · exact .inr ⟨t, List.mem_cons_of_mem _ ht, h⟩

theorem coefficient_eq_content (l : List (Element × Rat)) (x : Str) (h : (l.map (·.1.symbol)).Nodup) :
    coefficient l x = ((l.filter (fun p => p.1.symbol = x)).map Prod.snd).sum := by
  induction l with
  | nil => rfl
  | cons p l ih =>
    obtain ⟨e, c⟩ := p
    rw [List.map_cons, List.nodup_cons] at h
    simp only [coefficient]
    by_cases hx : e.symbol = x
    · rw [if_pos hx, List.filter_cons, if_pos (by simpa using hx)]
      have : l.filter (fun p => p.1.symbol = x) = [] := by
        rw [List.filter_eq_nil_iff]
        intro q hq hc
        refine h.1 (List.mem_map.2 ⟨q, hq, ?_⟩)
        simp only [decide_eq_true_eq] at hc
        rw [hc, hx]
      rw [this]; simp
    · rw [if_neg hx, List.filter_cons, if_neg (by simpa using hx)]
      exact ih h.2

theorem zipWith_total (f : Species → Rat) (species : List Species) (n : List Rat) :
    (List.zipWith (· * ·) (species.map f) n).sum = total f species n := by
  unfold total
  induction species generalizing n with
  | nil => simp
  | cons s species ih =>
    cases n with
    | nil => simp
    | cons a n => simp [ih]

theorem total_congr (f g : Species → Rat) (l l' : List Species) (n : List Rat)
    (h : l.map f = l'.map g) : total f l n = total g l' n := by
  rw [← zipWith_total, ← zipWith_total, h]

theorem map_fix {β : Type} (f : Species → β) (hf : ∀ s t, SameButName s t → f t = f s) (l : List Species) :
    (fixSpeciesNames l).map f = l.map f := by
  apply List.ext_getElem?
  intro i
  by_cases h : i < l.length
  · obtain ⟨n, t, -, h2, -, h4, -⟩ := fixSpeciesNames_get l i h
    rw [List.getElem?_map, h2, List.getElem?_map, List.getElem?_eq_getElem h, Option.map_some, Option.map_some, hf _ _ h4]
  · rw [List.getElem?_eq_none (by rw [List.length_map, fixSpeciesNames_length]; omega),
      List.getElem?_eq_none (by rw [List.length_map]; omega)]

theorem exists_system (phases : List Phase) : ∃ sys, Constructs phases sys := by
  refine ⟨_, sortedElements (collectSpecies phases), ⟨List.mergeSort_perm _ _, ?_⟩, rfl⟩
  have := List.pairwise_mergeSort (le := fun (a b : Element) => decide (a.molarMass ≤ b.molarMass))
    (fun a b c h1 h2 => by simp only [decide_eq_true_eq] at *; exact Rat.le_trans h1 h2)
    (fun a b => by simp only [Bool.or_eq_true, decide_eq_true_eq]; exact Rat.le_total) (collectedElements (collectSpecies phases))
  refine List.Pairwise.imp ?_ this
  intro a b h
  simpa using h

end Verif.ChemicalSystem
