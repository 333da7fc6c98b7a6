import Verif.Lemmas.PhreeqcEngine
import Mathlib.Tactic.NormNum

/-!
# C93: the chemical system that `Phreeqc` extracts from PHREEQC
-/

namespace Verif.PhreeqcEngine

/-! ## Lists of species and phases -/

theorem hasElectron_iff (d : SpeciesData) : stoichiometry (speciesReaction d) c!"e-" ≠ 0 ↔ HasElectron d.rxn := by
  unfold speciesReaction HasElectron
  cases hr : d.rxn with
  | none => simp [stoichiometry]
  | some tokens =>
    have hfind : ∀ l : List (Str × Rat), stoichiometry (l.map fun t => (t.1, -t.2)) c!"e-" ≠ 0 ↔
        ∃ pre c post, l = pre ++ (c!"e-", c) :: post ∧ c ≠ 0 ∧ ∀ t ∈ pre, t.1 ≠ c!"e-" := by
      intro l
      induction l with
      | nil => simp [stoichiometry]
      | cons t l ih =>
        by_cases ht : t.1 = c!"e-"
        · have h1 : stoichiometry ((t :: l).map fun t => (t.1, -t.2)) c!"e-" = -t.2 := by simp [stoichiometry, ht]
          rw [h1, neg_ne_zero]
          constructor
          · intro h
            exact ⟨[], t.2, l, by rw [← ht]; rfl, h, by simp⟩
          · rintro ⟨pre, c, post, he, hc, hp⟩
            cases pre with
            | nil => rw [List.nil_append] at he; injection he with h1 h2; rw [h1]; exact hc
            | cons u pre => rw [List.cons_append] at he; injection he with h1 h2; exact absurd (h1 ▸ ht) (hp u (by simp))
        · have h1 : stoichiometry ((t :: l).map fun t => (t.1, -t.2)) c!"e-" = stoichiometry (l.map fun t => (t.1, -t.2)) c!"e-" := by
            unfold stoichiometry
            rw [List.map_cons, List.find?_cons_of_neg (by simpa using ht)]
          rw [h1, ih]
          constructor
          · rintro ⟨pre, c, post, he, hc, hp⟩
            exact ⟨t :: pre, c, post, by rw [he]; rfl, hc, fun u hu => by rcases List.mem_cons.1 hu with rfl | hu; exacts [ht, hp u hu]⟩
          · rintro ⟨pre, c, post, he, hc, hp⟩
            cases pre with
            | nil => rw [List.nil_append] at he; injection he with h1 h2; exact absurd (by rw [h1]) ht
            | cons u pre => rw [List.cons_append] at he; injection he with h1 h2; exact ⟨pre, c, post, h2, hc, fun v hv => hp v (by simp [hv])⟩
    dsimp only
    split_ifs with hl
    · constructor
      · intro h; simp [stoichiometry] at h
      · rintro ⟨pre, c, post, he, hne, -⟩
        injection he with he
        rw [he] at hl
        have : 0 < (pre ++ post).length := List.length_pos_iff.2 hne
        simp at hl this
        omega
    · rw [hfind]
      constructor
      · rintro ⟨pre, c, post, he, hc, hp⟩
        refine ⟨pre, c, post, by rw [he], ?_, hc, hp⟩
        rintro h
        rw [he] at hl
        have : (pre ++ post).length = 0 := by rw [h]; rfl
        simp at hl this
        simp [this] at hl
      · rintro ⟨pre, c, post, he, -, hc, hp⟩
        injection he with he
        exact ⟨pre, c, post, he, hc, hp⟩

/-- The species are the aqueous ones, the gases and the minerals, each sorted by name.  The aqueous species are those of the list of PHREEQC that
are neither exchange nor surface species, and the electron if the reaction of one of them has it.  The gases are those of the gas phases, and
the minerals are those of the unknowns of type `PP` that take part in the calculation. -/
theorem C93_species {g : Engine} {s : System} (h : initSystem g = .ok s) :
    s.speciesNames = s.lists.aqueous ++ s.lists.gaseous.map (·.name) ++ s.lists.minerals.map (·.name) ∧
    s.lists.aqueous.Pairwise (· < ·) ∧ (s.lists.gaseous.map (·.name)).Pairwise (· < ·) ∧ (s.lists.minerals.map (·.name)).Pairwise (· ≤ ·) ∧
    (∀ x, x ∈ s.lists.aqueous ↔ (∃ m, (x, m) ∈ g.speciesList ∧ (g.species x).dissolved = true) ∨
      (x = g.eminus ∧ ∃ y m, (y, m) ∈ g.speciesList ∧ (g.species y).dissolved = true ∧ HasElectron (g.species y).rxn)) ∧
    (∀ x, x ∈ s.lists.gaseous.map (·.name) ↔ x ∈ g.gases) ∧ (∀ p ∈ s.lists.gaseous, p ∈ g.phases) ∧
    (∀ p, p ∈ s.lists.minerals ↔ ∃ u ∈ g.unknowns, u.isPP = true ∧ (∃ x, u.phase = some x ∧ findPhase g x = some p) ∧
      p.rxn.isSome = true ∧ p.active = true) := by
  obtain ⟨hl, a, b, c, _, _, _, _, hn, _⟩ := initSystem_ok h
  obtain ⟨gs, ms, hgs, hms, e1, _, e3, e4, _⟩ := initializeSpecies_ok hl
  obtain ⟨g1, g2⟩ := findAll_ok hgs
  have hmem : ∀ x, x ∈ ((g.speciesList.map (·.1)).filter fun s => (g.species s).dissolved).dedup ↔
      ∃ m, (x, m) ∈ g.speciesList ∧ (g.species x).dissolved = true := by
    intro x
    rw [List.mem_dedup, List.mem_filter, List.mem_map]
    constructor
    · rintro ⟨⟨y, hy, rfl⟩, hd⟩
      exact ⟨y.2, hy, hd⟩
    · rintro ⟨m, hm, hd⟩
      exact ⟨⟨_, hm, rfl⟩, hd⟩
  have hstrict : ∀ l : List Str, l.Nodup → (sortNames l).Pairwise (· < ·) := by
    intro l hl
    have h1 : (sortNames l).Pairwise (· ≤ ·) := List.pairwise_insertionSort _ l
    have h2 := nodup_sortNames hl
    exact (h1.and h2).imp fun hh => lt_of_le_of_ne hh.1 hh.2
  have hmap : ∀ l : List PhaseData, ((sortPhases l).map (·.name)).Pairwise (· ≤ ·) := by
    intro l
    rw [List.pairwise_map]
    have : Std.Total (fun a b : PhaseData => a.name ≤ b.name) := ⟨fun a b => le_total _ _⟩
    have : IsTrans PhaseData (fun a b : PhaseData => a.name ≤ b.name) := ⟨fun a b c => le_trans⟩
    exact List.pairwise_insertionSort (fun a b : PhaseData => a.name ≤ b.name) l
  have hnd : (activeAqueous g).Nodup := by
    unfold activeAqueous
    dsimp only
    split
    · exact (List.nodup_dedup _).insert
    · exact List.nodup_dedup _
  refine ⟨hn, ?_, ?_, ?_, ?_, ?_, ?_, ?_⟩
  · rw [e1]; exact hstrict _ hnd
  · rw [e3]
    have h1 := hmap gs
    have h2 : ((sortPhases gs).map (·.name)).Nodup := by
      have hp := ((List.perm_insertionSort (fun a b : PhaseData => a.name ≤ b.name) gs).map (·.name)).nodup_iff
      exact hp.2 (g1 ▸ List.nodup_dedup _)
    exact (h1.and h2).imp fun hh => lt_of_le_of_ne hh.1 hh.2
  · rw [e4]; exact hmap ms
  · intro x
    rw [e1, mem_sortNames]
    unfold activeAqueous
    dsimp only
    split
    · rename_i hany
      simp only [List.any_eq_true, decide_eq_true_eq] at hany
      rw [List.mem_insert_iff, hmem]
      obtain ⟨y, hy, hyc⟩ := hany
      obtain ⟨m, hm, hd⟩ := (hmem y).1 hy
      constructor
      · rintro (rfl | hx)
        · exact .inr ⟨rfl, y, m, hm, hd, (hasElectron_iff _).1 hyc⟩
        · exact .inl hx
      · rintro (hx | ⟨rfl, _⟩)
        · exact .inr hx
        · exact .inl rfl
    · rename_i hany
      simp only [List.any_eq_true, decide_eq_true_eq] at hany
      rw [hmem]
      constructor
      · exact .inl
      · rintro (hx | ⟨_, y, m, hm, hd, hyc⟩)
        · exact hx
        · exact absurd ⟨y, (hmem y).2 ⟨m, hm, hd⟩, (hasElectron_iff _).2 hyc⟩ hany
  · intro x
    have : x ∈ s.lists.gaseous.map (·.name) ↔ x ∈ gs.map (·.name) := by
      rw [e3]
      exact ((List.perm_insertionSort (fun a b : PhaseData => a.name ≤ b.name) gs).map (·.name)).mem_iff
    rw [this, g1, List.mem_dedup]
  · intro p hp
    rw [e3, mem_sortPhases] at hp
    exact g2 p hp
  · intro p
    rw [e4, mem_sortPhases]
    exact activeMinerals_ok hms p

/-- The phases are the aqueous phase, the gaseous phase if there are gases, and one phase for each mineral with its name.  The numbers of species in
the phases are those of the lists, in this order, and together they are the number of species.  An index out of range is an error. -/
theorem C93_phases {g : Engine} {s : System} (h : initSystem g = .ok s) :
    s.phaseNames = [c!"Aqueous"] ++ (if s.lists.gaseous = [] then [] else [c!"Gaseous"]) ++ s.lists.minerals.map (·.name) ∧
    (∃ sizes : List Nat, sizes.length = s.numPhases ∧ (∀ i k, sizes[i]? = some k → s.numSpeciesInPhase i = .ok k) ∧ sizes.sum = s.numSpecies ∧
      sizes = [s.lists.aqueous.length] ++ (if s.lists.gaseous = [] then [] else [s.lists.gaseous.length]) ++
        List.replicate s.lists.minerals.length 1) ∧
    (∀ i, s.numPhases ≤ i → s.numSpeciesInPhase i = .throw) := by
  obtain ⟨hl, a, b, c, _, _, _, _, hn, hp, _⟩ := initSystem_ok h
  have hp' : s.phaseNames = [c!"Aqueous"] ++ (if s.lists.gaseous = [] then [] else [c!"Gaseous"]) ++ s.lists.minerals.map (·.name) := by
    rw [hp]
    cases s.lists.gaseous <;> rfl
  have hlen : s.numPhases = 1 + (if s.lists.gaseous = [] then 0 else 1) + s.lists.minerals.length := by
    unfold System.numPhases
    rw [hp']
    split <;> simp <;> omega
  refine ⟨hp', ⟨_, ?_, ?_, ?_, rfl⟩, ?_⟩
  · rw [hlen]
    split <;> simp <;> omega
  · intro i k hk
    have hi : i < s.numPhases := by
      have := (List.getElem?_eq_some_iff.1 hk).1
      rw [hlen]
      revert this
      split <;> simp <;> omega
    unfold System.numSpeciesInPhase
    rw [if_pos hi]
    cases i with
    | zero =>
      simp at hk
      simp [hk]
    | succ i =>
      rw [if_neg (by omega)]
      by_cases hg : s.lists.gaseous = []
      · rw [if_neg (by simp [hg])]
        rw [if_pos hg] at hk
        simp only [List.append_nil, List.singleton_append, List.getElem?_cons_succ] at hk
        have := List.eq_of_mem_replicate (List.mem_of_getElem? hk)
        rw [this]
      · rw [if_neg hg] at hk
        simp only [List.cons_append, List.getElem?_cons_succ] at hk
        cases i with
        | zero =>
          simp at hk
          rw [if_pos ⟨rfl, by simpa using hg⟩, hk]
        | succ i =>
          rw [if_neg (by omega)]
          simp only [List.nil_append] at hk
          have := List.eq_of_mem_replicate (List.mem_of_getElem? hk)
          rw [this]
  · unfold System.numSpecies
    rw [hn]
    split
    · rename_i hg
      simp [hg]
    · simp
  · intro i hi
    unfold System.numSpeciesInPhase
    rw [if_neg (by omega)]

/-! ## Formula matrix -/

/-- The collected elements of a species come from its formula. -/
def Good (g : Engine) (l comp : List (Str × Rat)) : Prop :=
  (comp.map (·.1)).Nodup ∧ List.Forall₂ (fun x y => (y.1 = x.1 ∨ (IsRedox g x.1 ∧ (g.element y.1).primary = x.1)) ∧ x.2 = y.2) l comp

theorem good_collect {g : Engine} {choose : Str → Res Str} (hc : ∀ e k, choose e = .ok k → k = e ∨ (IsRedox g e ∧ (g.element k).primary = e))
    {l comp : List (Str × Rat)} (hn : (l.map (·.1)).Nodup) (hp : ∀ e ∈ l.map (·.1), (g.element e).primary = e ∨ ¬ IsRedox g (g.element e).primary)
    (h : collect choose [] l = .ok comp) : Good g l comp := by
  refine ⟨collect_distinct h (by simp), ?_⟩
  obtain ⟨t, ht, hf⟩ := collect_ok l [] comp h (by simp) (by
    rw [List.Nodup, List.pairwise_map] at hn
    refine hn.imp_of_mem ?_
    intro x y hx hy hxy k hkx hky
    apply hxy
    have px := hp x.1 (List.mem_map_of_mem hx)
    have py := hp y.1 (List.mem_map_of_mem hy)
    rcases hc _ _ hkx with h1 | ⟨r1, h1⟩ <;> rcases hc _ _ hky with h2 | ⟨r2, h2⟩
    · rw [← h1, ← h2]
    · subst h1
      rcases px with px | px
      · rw [← px, h2]
      · rw [h2] at px; exact absurd r2 px
    · subst h2
      rcases py with py | py
      · rw [← py, h1]
      · rw [h1] at py; exact absurd r1 py
    · rw [← h1, ← h2])
  rw [List.nil_append] at ht
  subst ht
  exact hf.imp fun x y hxy => ⟨hc _ _ hxy.1, hxy.2⟩

theorem good_aqueous {g : Engine} (w : WellFormed g) : ∀ {l : List Str} {a}, aqueousElements g (redoxElements g g.unknowns) l = .ok a →
    List.Forall₂ (Good g) (l.map fun x => (g.species x).elts) a
  | [], a, h => by
    simp only [aqueousElements, Res.ok.injEq] at h
    subst h
    exact List.Forall₂.nil
  | s :: ss, a, h => by
    unfold aqueousElements at h
    obtain ⟨m, hm, h⟩ := bind_ok h
    obtain ⟨x, hx, h⟩ := bind_ok h
    obtain ⟨xs, hxs, h⟩ := bind_ok h
    injection h with h
    subst h
    exact List.Forall₂.cons (good_collect (fun e k => chooseInSpecies_ok w) (w.nodupS s) (w.primaryS s) hx) (good_aqueous w hxs)

theorem good_phases {g : Engine} (w : WellFormed g) : ∀ {l : List PhaseData} {a}, (∀ p ∈ l, p ∈ g.phases) →
    phaseElements g (redoxElements g g.unknowns) l = .ok a → List.Forall₂ (Good g) (l.map fun x => x.elts) a
  | [], a, _, h => by
    simp only [phaseElements, Res.ok.injEq] at h
    subst h
    exact List.Forall₂.nil
  | p :: ps, a, hp, h => by
    unfold phaseElements at h
    obtain ⟨x, hx, h⟩ := bind_ok h
    obtain ⟨xs, hxs, h⟩ := bind_ok h
    injection h with h
    subst h
    exact List.Forall₂.cons (good_collect (fun e k => chooseInPhase_ok w) (w.nodupP p (hp p (by simp))) (w.primaryP p (hp p (by simp))) hx)
      (good_phases w (fun q hq => hp q (by simp [hq])) hxs)

theorem forall₂_append {α β : Type} {R : α → β → Prop} {a b : List α} {c d : List β} (h1 : List.Forall₂ R a c) (h2 : List.Forall₂ R b d) :
    List.Forall₂ R (a ++ b) (c ++ d) := by
  induction h1 with
  | nil => exact h2
  | cons h _ ih => exact List.Forall₂.cons h ih

theorem forall₂_get {α β : Type} {R : α → β → Prop} {a : List α} {b : List β} (h : List.Forall₂ R a b) : ∀ {i : Nat} {x : α}, a[i]? = some x →
    ∃ y, b[i]? = some y ∧ R x y := by
  induction h with
  | nil => intro i x hx; simp at hx
  | cons h _ ih =>
    intro i x hx
    cases i with
    | zero => simp at hx; subst hx; exact ⟨_, by simp, h⟩
    | succ i => simp at hx; simpa using ih hx

/-- Everything about one column of the formula matrix. -/
theorem column {g : Engine} (w : WellFormed g) {s : System} (h : initSystem g = .ok s) {i : Nat} {f : List (Str × Rat)} (hf : (formulas g s)[i]? = some f) :
    ∃ comp z, s.charges[i]? = some z ∧ Good g f comp ∧ s.formula[i]? = some (s.elementNames.dropLast.map (coefIn comp) ++ [z]) ∧
      s.elementNames.dropLast.Nodup ∧ (∀ x ∈ comp, x.1 ∈ s.elementNames.dropLast) := by
  have hsp := C93_species h
  obtain ⟨hl, a, b, c, ha, hb, hc, he, hn, hp, hz, hm, hr, hfm, hnu⟩ := initSystem_ok h
  have hmin : ∀ p ∈ s.lists.minerals, p ∈ g.phases := by
    intro p hp
    obtain ⟨u, _, _, ⟨x, _, hx⟩, _⟩ := (hsp.2.2.2.2.2.2.2 p).1 hp
    exact List.mem_of_find?_eq_some hx
  have hall : List.Forall₂ (Good g) (formulas g s) (a ++ b ++ c) :=
    forall₂_append (forall₂_append (good_aqueous w ha) (good_phases w hsp.2.2.2.2.2.2.1 hb)) (good_phases w hmin hc)
  obtain ⟨comp, hcomp, hgood⟩ := forall₂_get hall hf
  have hi : i < (formulas g s).length := (List.getElem?_eq_some_iff.1 hf).1
  have hzl : s.charges.length = (formulas g s).length := by
    rw [hz]
    simp [formulas]
  have hzi : ∃ z, s.charges[i]? = some z := ⟨s.charges[i]'(by omega), List.getElem?_eq_getElem (by omega)⟩
  obtain ⟨z, hzi⟩ := hzi
  have hd : s.elementNames.dropLast = sortNames (((a ++ b ++ c).flatMap fun x => x.map (·.1)).dedup) := by
    rw [he, List.dropLast_concat]
  refine ⟨comp, z, hzi, hgood, ?_, ?_, ?_⟩
  · rw [hfm, hd, List.getElem?_map, (List.getElem?_zip_eq_some (z := (comp, z))).2 ⟨hcomp, hzi⟩]
    rfl
  · rw [hd]
    exact nodup_sortNames (List.nodup_dedup _)
  · intro x hx
    rw [hd, mem_sortNames, List.mem_dedup, List.mem_flatMap]
    exact ⟨comp, List.mem_of_getElem? hcomp, List.mem_map_of_mem hx⟩

theorem zip_map_sum (f : Str → Rat) (col : Str → Rat) (z : Rat) : ∀ names : List Str,
    ((names.zip (names.map col ++ [z])).map fun x => f x.1 * x.2).sum = (names.map fun e => f e * col e).sum
  | [] => by simp
  | e :: names => by simp [zip_map_sum f col z names]

theorem ite_mul_form (g : Engine) (p : Str) (l : List (Str × Rat)) :
    atomsOf g p l = (l.map fun x => (if (g.element x.1).primary = p then 1 else 0) * x.2).sum := by
  unfold atomsOf
  congr 1
  apply List.map_congr_left
  intro x _
  split <;> simp

theorem good_weight {g : Engine} {f : Str → Rat} (hf : ∀ e k, IsRedox g e → (g.element k).primary = e → f k = f e) {l comp : List (Str × Rat)}
    (h : Good g l comp) : (comp.map fun x => f x.1 * x.2).sum = (l.map fun x => f x.1 * x.2).sum := by
  replace h := h.2
  induction h with
  | nil => rfl
  | cons h _ ih =>
    simp only [List.map_cons, List.sum_cons, ih]
    congr 1
    rcases h.1 with h1 | ⟨h1, h2⟩
    · rw [h1, h.2]
    · rw [hf _ _ h1 h2, h.2]

/-- Over the redox states of an element, the entries of the column of a species add up to the atoms in its formula.  The last entry is the charge,
which is zero for gases and minerals. -/
theorem C93_formula {g : Engine} (w : WellFormed g) {s : System} (h : initSystem g = .ok s) {i : Nat} {f : List (Str × Rat)}
    (hf : (formulas g s)[i]? = some f) :
    ∃ col, s.formula[i]? = some col ∧ col.length = s.elementNames.length ∧
      (∀ p, columnTotal g p s.elementNames.dropLast col = atomsOf g p f) ∧
      (∀ x, s.lists.aqueous[i]? = some x → col.getLast? = some (g.species x).z) ∧
      (s.lists.aqueous.length ≤ i → col.getLast? = some 0) := by
  obtain ⟨comp, z, hz, hg, hcol, hnd, hm⟩ := column w h hf
  obtain ⟨_, _, _, _, _, _, _, he, hn, hp, hzc, _⟩ := initSystem_ok h
  refine ⟨_, hcol, ?_, ?_, ?_, ?_⟩
  · rw [he]; simp
  · intro p
    unfold columnTotal
    rw [ite_mul_form, ite_mul_form, zip_map_sum (fun e => if (g.element e).primary = p then 1 else 0), sum_coefIn _ _ _ hnd hg.1 hm]
    refine good_weight (f := fun e => if (g.element e).primary = p then (1 : Rat) else 0) ?_ hg
    intro e k hr hk
    simp only [hk, w.self e hr]
  · intro x hx
    rw [List.getLast?_append]
    simp only [List.getLast?_singleton, Option.some_or, Option.some.injEq]
    rw [hzc, List.getElem?_append_left (by simpa using (List.getElem?_eq_some_iff.1 hx).1), List.getElem?_map, hx] at hz
    simpa using hz.symm
  · intro hi
    rw [List.getLast?_append]
    simp only [List.getLast?_singleton, Option.some_or, Option.some.injEq]
    rw [hzc, List.getElem?_append_right (by simpa using hi)] at hz
    exact List.eq_of_mem_replicate (List.mem_of_getElem? hz)

theorem find_unique {l : List (Str × Rat)} (hn : (l.map (·.1)).Nodup) (e : Str) : coefIn l e = atoms l e := by
  induction l with
  | nil => rfl
  | cons x l ih =>
    rw [List.map_cons, List.nodup_cons] at hn
    by_cases he : x.1 = e
    · have hz : (l.map fun y => if y.1 = e then y.2 else 0).sum = 0 := by
        apply List.sum_eq_zero
        intro y hy
        obtain ⟨q, hq, rfl⟩ := List.mem_map.1 hy
        rw [if_neg]
        intro h
        exact hn.1 (he ▸ h ▸ List.mem_map_of_mem hq)
      simp [coefIn, atoms, he, hz]
    · have : coefIn (x :: l) e = coefIn l e := by
        unfold coefIn
        rw [List.find?_cons_of_neg (by simpa using he)]
      rw [this, ih hn.2]
      simp [atoms, he]

/-- The entry of an element that is not in two redox states is the number of its atoms in the formula of the species. -/
theorem C93_entry {g : Engine} (w : WellFormed g) {s : System} (h : initSystem g = .ok s) {i j : Nat} {f : List (Str × Rat)} {e : Str}
    (hf : (formulas g s)[i]? = some f) (he : s.elementNames.dropLast[j]? = some e) (h1 : ¬ IsRedox g e) (h2 : ¬ IsRedox g (g.element e).primary) :
    s.elementStoichiometry i j = .ok (atoms f e) := by
  obtain ⟨comp, z, hz, hg, hcol, hnd, hm⟩ := column w h hf
  have hj := (List.getElem?_eq_some_iff.1 he).1
  have : coefIn comp e = atoms f e := by
    rw [find_unique hg.1]
    unfold atoms
    replace hg := hg.2
    clear hf hcol hm
    induction hg with
    | nil => rfl
    | @cons x y _ _ hxy _ ih =>
      simp only [List.map_cons, List.sum_cons, ih]
      congr 1
      rcases hxy.1 with h3 | ⟨h3, h4⟩
      · rw [h3, hxy.2]
      · rw [if_neg, if_neg]
        · intro h; rw [h] at h3; exact h1 h3
        · intro h; rw [h] at h4; rw [h4] at h2; exact h2 h3
  unfold System.elementStoichiometry at!
  rw [hcol]
  simp only [Res.bind_ok']
  rw [List.getElem?_append_left (by simpa using hj), List.getElem?_map, he]
  simp [this]

/-- The molar mass of a species from its column is the one from its formula, whatever the redox states. -/
theorem C93_mass {g : Engine} (w : WellFormed g) (hE : ∀ v, IsRedox g (g.element v).primary → v ≠ c!"E" ∧ v ≠ c!"e") {s : System}
    (h : initSystem g = .ok s) {i : Nat} {f : List (Str × Rat)} (hf : (formulas g s)[i]? = some f) :
    ∃ col, s.formula[i]? = some col ∧ dot s.elementMolarMasses col = (f.map fun x => elementMolarMass g x.1 * x.2).sum := by
  obtain ⟨comp, z, hz, hg, hcol, hnd, hm⟩ := column w h hf
  obtain ⟨_, a, b, c, _, _, _, he, hn, hp, hzc, hmm, _⟩ := initSystem_ok h
  refine ⟨_, hcol, ?_⟩
  have hd : s.elementMolarMasses = s.elementNames.dropLast.map (elementMolarMass g) ++ [0] := by rw [hmm, he, List.dropLast_concat]
  rw [hd]
  have : ∀ names : List Str, dot (names.map (elementMolarMass g) ++ [0]) (names.map (coefIn comp) ++ [z]) =
      (names.map fun e => elementMolarMass g e * coefIn comp e).sum := by
    intro names
    unfold dot
    induction names with
    | nil => simp
    | cons e names ih => simpa using ih
  rw [this, sum_coefIn _ _ _ hnd hg.1 hm]
  refine good_weight ?_ hg
  intro e k hr hk
  unfold elementMolarMass
  have h1 := hE k (by rw [hk]; exact hr)
  have h2 := hE e (by rw [w.self e hr]; exact hr)
  rw [if_neg (by tauto), if_neg (by tauto), hk, w.self e hr]

/-! ## Reactions -/

theorem setRow_ok {names : List Str} : ∀ {r : List (Str × Rat)} {row out : List Rat}, setRow names row r = .ok out →
    out.length = row.length ∧ ∀ u : List Rat, u.length = row.length → (r.map (·.1)).Nodup →
      (∀ x ∈ r.map (·.1), row.getD (names.idxOf x) 0 = 0 ∧ x ∈ names) → dot out u = dot row u + change names u r
  | [], row, out, h => by
    simp only [setRow, Res.ok.injEq] at h
    subst h
    exact ⟨rfl, fun u _ _ _ => by simp [change]⟩
  | (x, c) :: rest, row, out, h => by
    unfold setRow at h
    split at h
    · rename_i hlt
      obtain ⟨h1, h2⟩ := setRow_ok h
      rw [List.length_set] at h1 h2
      refine ⟨h1, ?_⟩
      intro u hu hn hz
      rw [List.map_cons, List.nodup_cons] at hn
      have hx := hz x (by simp)
      rw [h2 u hu hn.2 (by
        intro y hy
        have hy' := hz y (by simp only [List.map_cons, List.mem_cons]; exact .inr hy)
        refine ⟨?_, hy'.2⟩
        have hne : names.idxOf x ≠ names.idxOf y := by
          intro h
          have : x = y := (List.idxOf_inj hx.2).1 h
          exact hn.1 (this ▸ hy)
        rw [List.getD_eq_getElem?_getD, List.getElem?_set_ne hne, ← List.getD_eq_getElem?_getD]
        exact hy'.1)]
      have key : ∀ (k : Nat) (row u : List Rat), k < row.length → u.length = row.length → row.getD k 0 = 0 →
          dot (row.set k c) u = dot row u + c * u.getD k 0 := by
        intro k
        induction k with
        | zero =>
          intro row u h1 h2 h3
          cases row with
          | nil => simp at h1
          | cons a row =>
            cases u with
            | nil => simp at h2
            | cons b u =>
              simp at h3
              subst h3
              simp [dot]
              ring
        | succ k ih =>
          intro row u h1 h2 h3
          cases row with
          | nil => simp at h1
          | cons a row =>
            cases u with
            | nil => simp at h2
            | cons b u =>
              have := ih row u (by simpa using h1) (by simpa using h2) (by simpa using h3)
              unfold dot at this ⊢
              simp only [List.set_cons_succ, List.zip_cons_cons, List.map_cons, List.sum_cons, this, List.getD_cons_succ]
              ring
      rw [key _ row u hlt hu hx.1]
      unfold change
      rw [List.map_cons, List.sum_cons]
      ring
    · exact absurd h (by simp)

theorem setRow_mem {names : List Str} : ∀ {r : List (Str × Rat)} {row out : List Rat}, row.length = names.length → setRow names row r = .ok out →
    ∀ x ∈ r.map (·.1), x ∈ names
  | [], row, out, _, _ => by simp
  | (x, c) :: rest, row, out, hl, h => by
    unfold setRow at h
    split at h
    · rename_i hlt
      intro y hy
      rw [List.map_cons, List.mem_cons] at hy
      rcases hy with rfl | hy
      · rw [hl] at hlt
        exact List.idxOf_lt_length_iff.1 hlt
      · exact setRow_mem (by simpa using hl) h y hy
    · exact absurd h (by simp)

theorem setRows_get {names : List Str} : ∀ {rs : List (List (Str × Rat))} {out : List (List Rat)}, setRows names rs = .ok out →
    List.Forall₂ (fun r row => setRow names (List.replicate names.length 0) r = .ok row) rs out
  | [], out, h => by
    simp only [setRows, Res.ok.injEq] at h
    subst h
    exact List.Forall₂.nil
  | r :: rs, out, h => by
    unfold setRows at h
    obtain ⟨x, hx, h⟩ := bind_ok h
    obtain ⟨xs, hxs, h⟩ := bind_ok h
    injection h with h
    subst h
    exact List.Forall₂.cons hx (setRows_get hxs)

theorem dot_zero (n : Nat) : ∀ u : List Rat, dot (List.replicate n 0) u = 0 := by
  induction n with
  | zero => intro u; simp [dot]
  | succ n ih =>
    intro u
    cases u with
    | nil => simp [dot]
    | cons b u =>
      have := ih u
      unfold dot at this ⊢
      simp [List.replicate_succ, this]

/-- The reactions are those of the dissolved species among the species of PHREEQC, in its order, reversed, followed by those of the gases and of the minerals.
Species that only react to themselves have none. -/
theorem C93_reactions {g : Engine} {s : System} (h : initSystem g = .ok s) :
    ∃ products ds gs ms, s.reactions = ds ++ gs ++ ms ∧ products.Sublist g.sx ∧
      (∀ x, x ∈ products ↔ x ∈ g.sx ∧ (g.species x).dissolved = true ∧ ∃ r, DissolvedReaction (g.species x).rxn r) ∧
      List.Forall₂ (fun x r => DissolvedReaction (g.species x).rxn r) products ds ∧
      List.Forall₂ (fun p r => PhaseReaction p.rxn r) s.lists.gaseous gs ∧ List.Forall₂ (fun p r => PhaseReaction p.rxn r) s.lists.minerals ms := by
  obtain ⟨hl, a, b, c, _, _, _, _, _, _, _, _, hr, _⟩ := initSystem_ok h
  obtain ⟨_, _, _, _, _, e2, _⟩ := initializeSpecies_ok hl
  have hd : ∀ x, (speciesReaction (g.species x)).isEmpty = false → DissolvedReaction (g.species x).rxn (speciesReaction (g.species x)) := by
    intro x hx
    unfold speciesReaction at hx ⊢
    cases hr : (g.species x).rxn with
    | none => rw [hr] at hx; cases hx
    | some tokens =>
      rw [hr] at hx
      match tokens, hx with
      | [], hx => cases hx
      | [_], hx => cases hx
      | a :: b :: rest, _ => exact ⟨a, b, rest, rfl, if_neg (by simp)⟩
  have hd' : ∀ x r, DissolvedReaction (g.species x).rxn r → (speciesReaction (g.species x)).isEmpty = false := by
    rintro x r ⟨a, b, rest, hx, -⟩
    unfold speciesReaction
    rw [hx]
    simp
  have hp : ∀ p : PhaseData, PhaseReaction p.rxn (phaseReaction p) := by
    intro p
    unfold phaseReaction
    cases hr : p.rxn with
    | none => exact .inr ⟨fun _ _ _ h => (by cases h), rfl⟩
    | some t =>
      obtain ⟨t, ts⟩ := t
      cases ts with
      | nil => exact .inr ⟨fun _ _ _ h => (by injection h with h; injection h with _ h; cases h), rfl⟩
      | cons u ts => exact .inl ⟨t, u, ts, rfl, if_neg (by simp)⟩
  have hmapP : ∀ l : List PhaseData, List.Forall₂ (fun p r => PhaseReaction p.rxn r) l (l.map phaseReaction) := by
    intro l
    induction l with
    | nil => exact .nil
    | cons p l ih => exact .cons (hp p) ih
  refine ⟨s.lists.products, _, _, _, hr, ?_, ?_, ?_, hmapP _, hmapP _⟩
  · rw [e2]; exact List.filter_sublist
  · intro x
    rw [e2]
    unfold activeProducts
    rw [List.mem_filter, Bool.and_eq_true, Bool.not_eq_true']
    exact ⟨fun ⟨h1, h2, h3⟩ => ⟨h1, h2, _, hd x h3⟩, fun ⟨h1, h2, r, h3⟩ => ⟨h1, h2, hd' x r h3⟩⟩
  · have : ∀ x ∈ s.lists.products, (speciesReaction (g.species x)).isEmpty = false := by
      intro x hx
      rw [e2] at hx
      unfold activeProducts at hx
      rw [List.mem_filter, Bool.and_eq_true, Bool.not_eq_true'] at hx
      exact hx.2.2
    revert this
    induction s.lists.products with
    | nil => intro _; exact .nil
    | cons x l ih => intro hx; exact .cons (hd x (hx x (by simp))) (ih fun y hy => hx y (by simp [hy]))

/-- The rows of the stoichiometric matrix are the reactions: for every quantity of the species, the product of the row and the quantities is the change
by the reaction.  All species of the reactions are in the system, if the initialisation succeeds. -/
theorem C93_stoichiometric {g : Engine} {s : System} (h : initSystem g = .ok s) {k : Nat} {r : List (Str × Rat)} (hr : s.reactions[k]? = some r) :
    (∀ x ∈ r.map (·.1), x ∈ s.speciesNames) ∧
    ∃ row, s.stoichiometric[k]? = some row ∧ row.length = s.numSpecies ∧
      ((r.map (·.1)).Nodup → ∀ u : List Rat, u.length = s.numSpecies → dot row u = change s.speciesNames u r) := by
  obtain ⟨_, a, b, c, _, _, _, _, _, _, _, _, _, _, hnu⟩ := initSystem_ok h
  obtain ⟨row, hrow, hset⟩ := forall₂_get (setRows_get hnu) hr
  have hmem := setRow_mem (by simp) hset
  obtain ⟨h1, h2⟩ := setRow_ok hset
  refine ⟨hmem, row, hrow, by simpa [System.numSpecies] using h1, ?_⟩
  intro hnd u hu
  rw [h2 u (by simpa [System.numSpecies] using hu) hnd (by
    intro x hx
    refine ⟨?_, hmem x hx⟩
    rw [List.getD_eq_getElem?_getD, List.getElem?_replicate]
    split <;> rfl), dot_zero, zero_add]

theorem change_congr (names : List Str) (u v : List Rat) (h : ∀ i : Nat, u[i]? = v[i]?) (r : List (Str × Rat)) : change names u r = change names v r := by
  rw [List.ext_getElem? h]

theorem formula_length {g : Engine} {s : System} (h : initSystem g = .ok s) (w : WellFormed g) :
    s.formula.length = s.numSpecies ∧ (formulas g s).length = s.numSpecies ∧ s.charges.length = s.numSpecies := by
  have hsp := C93_species h
  obtain ⟨hl, a, b, c, ha, hb, hc, he, hn, hp, hz, hm, hr, hfm, hnu⟩ := initSystem_ok h
  have hmin : ∀ p ∈ s.lists.minerals, p ∈ g.phases := by
    intro p hp
    obtain ⟨u, _, _, ⟨x, _, hx⟩, _⟩ := (hsp.2.2.2.2.2.2.2 p).1 hp
    exact List.mem_of_find?_eq_some hx
  have h1 := (good_aqueous w ha).length_eq
  have h2 := (good_phases w hsp.2.2.2.2.2.2.1 hb).length_eq
  have h3 := (good_phases w hmin hc).length_eq
  rw [List.length_map] at h1 h2 h3
  have h4 : s.numSpecies = s.lists.aqueous.length + s.lists.gaseous.length + s.lists.minerals.length := by
    unfold System.numSpecies
    rw [hn]
    simp
    omega
  have h5 : s.charges.length = s.numSpecies := by
    rw [hz, h4]
    simp
    omega
  refine ⟨?_, ?_, h5⟩
  · rw [hfm, List.length_map, List.length_zip, h5, h4]
    simp [← h1, ← h2, ← h3]
    omega
  · rw [h4]
    simp [formulas]
    omega

/-- A reaction that conserves an element in the formulas of PHREEQC conserves it in the formula matrix, summed over its redox states.  A reaction that
conserves the charge conserves the last row. -/
theorem C93_conserved {g : Engine} (w : WellFormed g) {s : System} (h : initSystem g = .ok s) {k : Nat} {r : List (Str × Rat)}
    (hr : s.reactions[k]? = some r) (hn : (r.map (·.1)).Nodup) :
    ∃ row, s.stoichiometric[k]? = some row ∧
      (∀ p, dot row (s.formula.map (columnTotal g p s.elementNames.dropLast)) =
        change s.speciesNames ((formulas g s).map (atomsOf g p)) r) ∧
      dot row (s.formula.map fun col => col.getLast?.getD 0) = change s.speciesNames s.charges r := by
  obtain ⟨_, row, hrow, _, hdot⟩ := C93_stoichiometric h hr
  obtain ⟨l1, l2, l3⟩ := formula_length h w
  have hcol : ∀ i < s.numSpecies, ∃ f, (formulas g s)[i]? = some f := fun i hi => ⟨_, List.getElem?_eq_getElem (by omega)⟩
  refine ⟨row, hrow, ?_, ?_⟩
  · intro p
    rw [hdot hn _ (by simp [l1])]
    apply change_congr
    intro i
    by_cases hi : i < s.numSpecies
    · obtain ⟨f, hf⟩ := hcol i hi
      obtain ⟨col, hc, _, ht, _⟩ := C93_formula w h hf
      rw [List.getElem?_map, List.getElem?_map, hc, hf]
      simp [ht p]
    · rw [List.getElem?_eq_none (by simp; omega), List.getElem?_eq_none (by simp; omega)]
  · rw [hdot hn _ (by simp [l1])]
    apply change_congr
    intro i
    by_cases hi : i < s.numSpecies
    · obtain ⟨f, hf⟩ := hcol i hi
      obtain ⟨comp, z, hz, _, hc, _⟩ := column w h hf
      rw [List.getElem?_map, hc, hz]
      simp
    · rw [List.getElem?_eq_none (by simp; omega), List.getElem?_eq_none (by omega)]

/-! ## A system with nitrogen in two redox states -/

def demoElement (e : Str) : ElementData :=
  if e = c!"N" then ⟨c!"N", 14, some c!"N(5)"⟩
  else if e = c!"N(5)" ∨ e = c!"N(0)" then ⟨c!"N", 0, none⟩
  else if e = c!"O" then ⟨e, 16, none⟩
  else ⟨e, 1, none⟩

def demoSpecies (x : Str) : SpeciesData :=
  if x = c!"H2O" then ⟨true, 0, [(c!"H", 2), (c!"O", 1)], none, some [(c!"H2O", 1)]⟩
  else if x = c!"H+" then ⟨true, 1, [(c!"H", 1)], none, some [(c!"H+", 1)]⟩
  else if x = c!"OH-" then ⟨true, -1, [(c!"H", 1), (c!"O", 1)], none, some [(c!"OH-", 1), (c!"H2O", -1), (c!"H+", 1)]⟩
  else if x = c!"NO3-" then ⟨true, -1, [(c!"N", 1), (c!"O", 3)], some c!"N(5)", some [(c!"NO3-", 1)]⟩
  else if x = c!"N2" then ⟨true, 0, [(c!"N", 2)], some c!"N(0)", some [(c!"N2", 1)]⟩
  else ⟨true, 0, [], none, none⟩

/-- Water with nitrate, dissolved nitrogen and gaseous nitrogen. -/
def demo : Engine where
  element := demoElement
  species := demoSpecies
  phases := [⟨c!"N2(g)", [(c!"N", 2)], some ((c!"N2(g)", -1), [(c!"N2", 1)]), true⟩]
  speciesList := [(c!"OH-", c!"H+"), (c!"H+", c!"H+"), (c!"H2O", c!"H2O"), (c!"NO3-", c!"NO3-"), (c!"N2", c!"N2")]
  sx := [c!"OH-", c!"H+", c!"H2O", c!"NO3-", c!"N2"]
  gases := [c!"N2(g)"]
  unknowns := [⟨some c!"N(5)", false, none⟩, ⟨none, false, none⟩, ⟨some c!"N(0)", false, none⟩]
  eminus := c!"e-"

theorem demo_redox (p : Str) : IsRedox demo p ↔ p = c!"N" := by
  rw [← isRedox_iff, show redoxElements demo demo.unknowns = [c!"N"] by decide +kernel]
  simp

theorem demo_wellFormed : WellFormed demo where
  nodupS x := by
    show ((demoSpecies x).elts.map (·.1)).Nodup
    unfold demoSpecies
    repeat' split
    all_goals decide +kernel
  nodupP := by decide +kernel
  primaryS x e he := by
    left
    have : ∀ e ∈ (demoSpecies x).elts.map (·.1), (demoElement e).primary = e := by
      unfold demoSpecies
      repeat' split
      all_goals decide +kernel
    exact this e he
  primaryP p hp e he := by
    left
    have : ∀ p ∈ demo.phases, ∀ e ∈ p.elts.map (·.1), (demoElement e).primary = e := by decide +kernel
    exact this p hp e he
  dflt r d h := by
    change (demoElement r).dflt = some d at h
    show (demoElement d).primary = r
    unfold demoElement at h
    split at h
    · rename_i hr
      injection h with h
      subst h hr
      decide +kernel
    · repeat' split at h
      all_goals exact absurd h (by simp)
  self r h := by
    rw [demo_redox] at h
    subst h
    decide +kernel

/-- The observable parts of the system. -/
structure View where
  elements : List Str
  species : List Str
  phases : List Str
  formula : List (List Rat)
  stoichiometric : List (List Rat)
  reactions : List (List (Str × Rat))
  charges : List Rat
  formulas : List (List (Str × Rat))
  deriving DecidableEq

def view (g : Engine) (s : System) : View :=
  ⟨s.elementNames, s.speciesNames, s.phaseNames, s.formula, s.stoichiometric, s.reactions, s.charges, formulas g s⟩

/-- The dissolution of gaseous nitrogen. -/
def dissolution : List (Str × Rat) := [(c!"N2(g)", -1), (c!"N2", 1)]

theorem demo_ok : (initSystem demo).bind (fun s => .ok (view demo s)) = .ok
    { elements := [c!"H", c!"N(0)", c!"N(5)", c!"O", c!"Z"]
      species := [c!"H+", c!"H2O", c!"N2", c!"NO3-", c!"OH-", c!"N2(g)"]
      phases := [c!"Aqueous", c!"Gaseous"]
      formula := [[1, 0, 0, 0, 1], [2, 0, 0, 1, 0], [0, 2, 0, 0, 0], [0, 0, 1, 3, -1], [1, 0, 0, 1, -1], [0, 0, 2, 0, 0]]
      stoichiometric := [[-1, 1, 0, 0, -1, 0], [0, 0, 1, 0, 0, -1]]
      reactions := [[(c!"OH-", -1), (c!"H2O", 1), (c!"H+", -1)], [(c!"N2(g)", -1), (c!"N2", 1)]]
      charges := [1, 0, 0, -1, -1, 0]
      formulas := [[(c!"H", 1)], [(c!"H", 2), (c!"O", 1)], [(c!"N", 2)], [(c!"N", 1), (c!"O", 3)], [(c!"H", 1), (c!"O", 1)], [(c!"N", 2)]] } := by decide +kernel

/-- The hypotheses of the theorems above are met by this system, which has a gas, a product species and an element in two redox states. -/
example : ∃ s, initSystem demo = .ok s ∧ WellFormed demo ∧ s.reactions[1]? = some dissolution ∧ (dissolution.map (·.1)).Nodup ∧
    (formulas demo s)[5]? = some [(c!"N", 2)] := by
  have h := demo_ok
  cases hs : initSystem demo with
  | ok s =>
    rw [hs] at h
    injection h with h
    have h1 := congrArg (fun v => v.reactions[1]?) h
    have h2 := congrArg (fun v => v.formulas[5]?) h
    exact ⟨s, rfl, demo_wellFormed, h1, by decide +kernel, h2⟩
  | throw => rw [hs] at h; exact absurd h (by simp)
  | ub => rw [hs] at h; exact absurd h (by simp)

/-- The rows of single redox states are not conserved by the reactions, even if these conserve all elements and the charge: dissolved nitrogen is `N(0)`, but
gaseous nitrogen is counted as `N(5)`, the default state of nitrogen, and its dissolution turns one into the other. -/
theorem C93_redox_wrong : ∃ (g : Engine) (s : System) (row : List Rat) (j : Nat), WellFormed g ∧ initSystem g = .ok s ∧
    s.reactions[1]? = some dissolution ∧ s.stoichiometric[1]? = some row ∧ s.elementNames[j]? = some c!"N(5)" ∧
    (∀ p, change s.speciesNames ((formulas g s).map (atomsOf g p)) dissolution = 0) ∧
    change s.speciesNames s.charges dissolution = 0 ∧
    dot row (s.formula.map fun col => col.getD j 0) = -2 := by
  have h := demo_ok
  cases hs : initSystem demo with
  | ok s =>
    rw [hs] at h
    injection h with h
    have h1 := congrArg (fun v => v.reactions[1]?) h
    have h2 := congrArg (fun v => v.stoichiometric[1]?) h
    have h3 := congrArg (fun v => v.elements[2]?) h
    have h4 := congrArg (fun v : View => change v.species v.charges dissolution) h
    have h5 := congrArg (fun v : View => dot [0, 0, 1, 0, 0, -1] (v.formula.map fun col => col.getD 2 0)) h
    refine ⟨demo, s, [0, 0, 1, 0, 0, -1], 2, demo_wellFormed, hs, h1, h2, h3, ?_, ?_, ?_⟩
    · intro p
      have h6 := congrArg (fun v : View => change v.species (v.formulas.map (atomsOf demo p)) dissolution) h
      refine h6.trans ?_
      have e1 : [c!"H+", c!"H2O", c!"N2", c!"NO3-", c!"OH-", c!"N2(g)"].idxOf c!"N2(g)" = 5 := by decide +kernel
      have e2 : [c!"H+", c!"H2O", c!"N2", c!"NO3-", c!"OH-", c!"N2(g)"].idxOf c!"N2" = 2 := by decide +kernel
      simp only [change, dissolution, List.map_cons, List.map_nil, List.sum_cons, List.sum_nil]
      erw [e1, e2]
      simp
    · refine h4.trans ?_
      decide +kernel
    · refine h5.trans ?_
      decide +kernel
  | throw => rw [hs] at h; exact absurd h (by simp)
  | ub => rw [hs] at h; exact absurd h (by simp)

/-! ## Reactions with species that are not in the system -/

/-- Water with a mineral whose reaction has the electron, while no reaction of an aqueous species has it. -/
def noElectron : Engine :=
  { demo with
    phases := [⟨c!"M", [(c!"H", 1)], some ((c!"M", -1), [(c!"H+", 1), (c!"e-", 1)]), true⟩]
    speciesList := [(c!"OH-", c!"H+"), (c!"H+", c!"H+"), (c!"H2O", c!"H2O")]
    sx := [c!"OH-", c!"H+", c!"H2O"]
    gases := []
    unknowns := [⟨none, true, some c!"M"⟩] }

/-- The electron is a species of the system only if the reaction of an aqueous species has it.  If only the reaction of a mineral or gas has it, an entry
outside of the stoichiometric matrix is written. -/
theorem C93_electron_wrong : initSystem noElectron = .ub := by
  have : ((initSystem noElectron).bind fun s => .ok (view noElectron s)) = .ub := by decide +kernel
  cases hs : initSystem noElectron with
  | ok s => rw [hs] at this; exact absurd this (by simp)
  | throw => rw [hs] at this; exact absurd this (by simp)
  | ub => rfl

/-- A gas phase with a gas that is not among the phases of the database uses a null pointer. -/
theorem C93_gas_wrong (g : Engine) (x : Str) (h1 : x ∈ g.gases) (h2 : ∀ p ∈ g.phases, p.name ≠ x) : initSystem g = .ub := by
  have hf : findPhase g x = none := by
    unfold findPhase
    rw [List.find?_eq_none]
    intro p hp
    simpa using h2 p hp
  have : ∀ l : List Str, x ∈ l → findAll g l = .ub := by
    intro l
    induction l with
    | nil => simp
    | cons y l ih =>
      intro hx
      unfold findAll
      cases hy : findPhase g y with
      | none => rfl
      | some p =>
        rcases List.mem_cons.1 hx with rfl | hx
        · rw [hf] at hy; exact absurd hy (by simp)
        · simp [ih hx]
  unfold initSystem initializeSpecies activeGases
  rw [this _ (List.mem_dedup.2 h1)]
  rfl

example : initSystem { demo with gases := [c!"X(g)"] } = .ub := C93_gas_wrong _ c!"X(g)" (by decide +kernel) (by decide +kernel)

end Verif.PhreeqcEngine
