import Verif.Spec.PhreeqcEngine
import Mathlib.Data.List.Sort
import Mathlib.Data.List.GetD
import Mathlib.Algebra.BigOperators.Group.List.Basic
import Mathlib.Tactic.Ring
import Mathlib.Tactic.Linarith

namespace Verif.PhreeqcEngine

theorem bind_ok {α β : Type} {x : Res α} {f : α → Res β} {b : β} (h : x.bind f = .ok b) : ∃ a, x = .ok a ∧ f a = .ok b := by
  cases x with
  | ok a => exact ⟨a, rfl, h⟩
  | throw => exact absurd h (by simp)
  | ub => exact absurd h (by simp)

/-- The parts of a successful initialisation. -/
theorem initSystem_ok {g : Engine} {s : System} (h : initSystem g = .ok s) :
    initializeSpecies g = .ok s.lists ∧
    ∃ a b c, aqueousElements g (redoxElements g g.unknowns) s.lists.aqueous = .ok a ∧
      phaseElements g (redoxElements g g.unknowns) s.lists.gaseous = .ok b ∧
      phaseElements g (redoxElements g g.unknowns) s.lists.minerals = .ok c ∧
      s.elementNames = sortNames (((a ++ b ++ c).flatMap fun x => x.map (·.1)).dedup) ++ [c!"Z"] ∧
      s.speciesNames = s.lists.aqueous ++ s.lists.gaseous.map (·.name) ++ s.lists.minerals.map (·.name) ∧
      s.phaseNames = [c!"Aqueous"] ++ (if s.lists.gaseous.length ≠ 0 then [c!"Gaseous"] else []) ++ s.lists.minerals.map (·.name) ∧
      s.charges = s.lists.aqueous.map (fun s => (g.species s).z) ++ List.replicate (s.lists.gaseous.length + s.lists.minerals.length) 0 ∧
      s.elementMolarMasses = (sortNames (((a ++ b ++ c).flatMap fun x => x.map (·.1)).dedup)).map (elementMolarMass g) ++ [0] ∧
      s.reactions = s.lists.products.map (fun s => speciesReaction (g.species s)) ++ s.lists.gaseous.map phaseReaction ++
        s.lists.minerals.map phaseReaction ∧
      s.formula = ((a ++ b ++ c).zip s.charges).map (fun x =>
        (sortNames (((a ++ b ++ c).flatMap fun x => x.map (·.1)).dedup)).map (coefIn x.1) ++ [x.2]) ∧
      setRows s.speciesNames s.reactions = .ok s.stoichiometric := by
  unfold initSystem at h
  obtain ⟨l, hl, h⟩ := bind_ok h
  obtain ⟨a, ha, h⟩ := bind_ok h
  obtain ⟨b, hb, h⟩ := bind_ok h
  obtain ⟨c, hc, h⟩ := bind_ok h
  dsimp only at h
  obtain ⟨nu, hnu, h⟩ := bind_ok h
  injection h with h
  subst h
  exact ⟨hl, a, b, c, ha, hb, hc, rfl, rfl, rfl, rfl, rfl, rfl, rfl, hnu⟩

theorem initializeSpecies_ok {g : Engine} {l : SpeciesLists} (h : initializeSpecies g = .ok l) :
    ∃ gs ms, findAll g g.gases.dedup = .ok gs ∧ activeMinerals g g.unknowns = .ok ms ∧ l.aqueous = sortNames (activeAqueous g) ∧
      l.products = activeProducts g ∧ l.gaseous = sortPhases gs ∧ l.minerals = sortPhases ms ∧ l.iH2O = l.aqueous.idxOf c!"H2O" := by
  unfold initializeSpecies at h
  obtain ⟨gs, hg, h⟩ := bind_ok h
  obtain ⟨ms, hm, h⟩ := bind_ok h
  injection h with h
  subst h
  exact ⟨gs, ms, hg, hm, rfl, rfl, rfl, rfl, rfl⟩

theorem findAll_ok {g : Engine} : ∀ {xs : List Str} {ps : List PhaseData}, findAll g xs = .ok ps →
    ps.map (·.name) = xs ∧ ∀ p ∈ ps, p ∈ g.phases
  | [], ps, h => by
    simp [findAll] at h
    subst h
    simp
  | x :: xs, ps, h => by
    unfold findAll at h
    cases hf : findPhase g x with
    | none => rw [hf] at h; exact absurd h (by simp)
    | some p =>
      rw [hf] at h
      obtain ⟨qs, hq, h⟩ := bind_ok h
      injection h with h
      subst h
      obtain ⟨h1, h2⟩ := findAll_ok hq
      have hn : p.name = x := by simpa using List.find?_some hf
      have hm : p ∈ g.phases := List.mem_of_find?_eq_some hf
      refine ⟨by simp [h1, hn], ?_⟩
      intro q hq'
      rcases List.mem_cons.1 hq' with rfl | hq'
      · exact hm
      · exact h2 q hq'

theorem activeMinerals_ok {g : Engine} : ∀ {us : List Unknown} {ps : List PhaseData}, activeMinerals g us = .ok ps →
    ∀ p, p ∈ ps ↔ ∃ u ∈ us, u.isPP = true ∧ (∃ x, u.phase = some x ∧ findPhase g x = some p) ∧ p.rxn.isSome = true ∧ p.active = true
  | [], ps, h => by
    simp [activeMinerals] at h
    subst h
    simp
  | u :: us, ps, h => by
    intro p
    unfold activeMinerals at h
    by_cases hu : u.isPP = true
    · rw [if_pos hu] at h
      cases hf : u.phase.bind (findPhase g) with
      | none => rw [hf] at h; exact absurd h (by simp)
      | some q =>
        rw [hf] at h
        obtain ⟨qs, hq, h⟩ := bind_ok h
        injection h with h
        subst h
        have ih := activeMinerals_ok hq p
        obtain ⟨x, hx, hxq⟩ := Option.bind_eq_some_iff.1 hf
        by_cases hc : (q.rxn.isSome && q.active) = true
        · rw [if_pos hc, List.mem_cons, ih]
          simp only [Bool.and_eq_true] at hc
          constructor
          · rintro (rfl | ⟨v, hv, h⟩)
            · exact ⟨u, by simp, hu, ⟨x, hx, hxq⟩, hc⟩
            · exact ⟨v, by simp [hv], h⟩
          · rintro ⟨v, hv, h1, ⟨y, hy, hyp⟩, h2⟩
            rcases List.mem_cons.1 hv with rfl | hv
            · left
              rw [hx] at hy
              injection hy with hy
              subst hy
              rw [hxq] at hyp
              injection hyp with hyp
              exact hyp.symm
            · right
              exact ⟨v, hv, h1, ⟨y, hy, hyp⟩, h2⟩
        · rw [if_neg hc, ih]
          constructor
          · rintro ⟨v, hv, h⟩
            exact ⟨v, by simp [hv], h⟩
          · rintro ⟨v, hv, h1, ⟨y, hy, hyp⟩, h2⟩
            rcases List.mem_cons.1 hv with rfl | hv
            · exfalso
              rw [hx] at hy
              injection hy with hy
              subst hy
              rw [hxq] at hyp
              injection hyp with hyp
              subst hyp
              exact hc (by simp [h2.1, h2.2])
            · exact ⟨v, hv, h1, ⟨y, hy, hyp⟩, h2⟩
    · rw [if_neg hu] at h
      rw [activeMinerals_ok h p]
      constructor
      · rintro ⟨v, hv, h⟩
        exact ⟨v, by simp [hv], h⟩
      · rintro ⟨v, hv, h1, h2⟩
        rcases List.mem_cons.1 hv with rfl | hv
        · exact absurd h1 hu
        · exact ⟨v, hv, h1, h2⟩

theorem mem_redox {g : Engine} (p : Str) : ∀ us : List Unknown, p ∈ redoxElements g us ↔
    ∃ (a b : List Unknown) (u v : Unknown) (e f : Str), us = a ++ u :: b ∧ v ∈ b ∧ u.master = some e ∧ v.master = some f ∧
      (g.element e).primary = p ∧ (g.element f).primary = p
  | [] => by simp [redoxElements]
  | u :: us => by
    have ih := mem_redox (g := g) p us
    have key : p ∈ redoxElements g (u :: us) ↔ (u.primary g = some p ∧ ∃ v ∈ us, v.primary g = some p) ∨ p ∈ redoxElements g us := by
      rw [show redoxElements g (u :: us) = (match u.primary g with
        | none => redoxElements g us
        | some p => if us.any (fun v => v.primary g = some p) then p :: redoxElements g us else redoxElements g us) from rfl]
      cases hu : u.primary g with
      | none => simp
      | some q =>
        dsimp only
        split
        · rename_i hany
          simp only [List.any_eq_true, decide_eq_true_eq] at hany
          rw [List.mem_cons]
          constructor
          · rintro (rfl | h)
            · exact .inl ⟨rfl, hany⟩
            · exact .inr h
          · rintro (⟨h, _⟩ | h)
            · injection h with h
              exact .inl h.symm
            · exact .inr h
        · rename_i hany
          simp only [List.any_eq_true, decide_eq_true_eq] at hany
          constructor
          · exact .inr
          · rintro (⟨h, h'⟩ | h)
            · injection h with h
              subst h
              exact absurd h' hany
            · exact h
    rw [key, ih]
    constructor
    · rintro (⟨hu, v, hv, hvp⟩ | ⟨a, b, w, v, e, f, h, rest⟩)
      · obtain ⟨e, he, hep⟩ := Option.map_eq_some_iff.1 hu
        obtain ⟨f, hf, hfp⟩ := Option.map_eq_some_iff.1 hvp
        exact ⟨[], us, u, v, e, f, rfl, hv, he, hf, hep, hfp⟩
      · exact ⟨u :: a, b, w, v, e, f, by rw [h]; rfl, rest⟩
    · rintro ⟨a, b, w, v, e, f, h, hv, he, hf, hep, hfp⟩
      cases a with
      | nil =>
        simp only [List.nil_append, List.cons.injEq] at h
        obtain ⟨rfl, rfl⟩ := h
        exact .inl ⟨by simp [Unknown.primary, he, hep], v, hv, by simp [Unknown.primary, hf, hfp]⟩
      | cons x a =>
        simp only [List.cons_append, List.cons.injEq] at h
        exact .inr ⟨a, b, w, v, e, f, h.2, hv, he, hf, hep, hfp⟩

theorem isRedox_iff {g : Engine} {p : Str} : p ∈ redoxElements g g.unknowns ↔ IsRedox g p := mem_redox p g.unknowns

theorem mem_sortNames {l : List Str} {x : Str} : x ∈ sortNames l ↔ x ∈ l := List.mem_insertionSort _

theorem nodup_sortNames {l : List Str} (h : l.Nodup) : (sortNames l).Nodup := (List.perm_insertionSort _ l).nodup_iff.2 h

theorem mem_sortPhases {l : List PhaseData} {x : PhaseData} : x ∈ sortPhases l ↔ x ∈ l := List.mem_insertionSort _

/-- The element that is chosen for `e` has the primary element of `e`, and is `e` if that is not a redox element. -/
theorem chooseInSpecies_ok {g : Engine} (w : WellFormed g) {m e k : Str} (h : chooseInSpecies g (redoxElements g g.unknowns) m e = .ok k) :
    k = e ∨ (IsRedox g e ∧ (g.element k).primary = e) := by
  unfold chooseInSpecies at h
  split at h
  · injection h with h; exact .inl h.symm
  · split at h
    · rename_i _ hr
      have hr := isRedox_iff.1 hr
      have hd : ∀ k', (match (g.element e).dflt with | some d => Res.ok d | none => Res.ub) = Res.ok k' → (g.element k').primary = e := by
        intro k' hk
        cases hd : (g.element e).dflt with
        | none => rw [hd] at hk; exact absurd hk (by simp)
        | some d =>
          rw [hd] at hk
          injection hk with hk
          subst hk
          exact w.dflt e d hd
      split at h
      · split at h
        · rename_i hp
          injection h with h
          subst h
          exact .inr ⟨hr, hp⟩
        · exact .inr ⟨hr, hd k h⟩
      · exact .inr ⟨hr, hd k h⟩
    · injection h with h; exact .inl h.symm

theorem chooseInPhase_ok {g : Engine} (w : WellFormed g) {e k : Str} (h : chooseInPhase g (redoxElements g g.unknowns) e = .ok k) :
    k = e ∨ (IsRedox g e ∧ (g.element k).primary = e) := by
  unfold chooseInPhase at h
  split at h
  · rename_i hr
    cases hd : (g.element e).dflt with
    | none => rw [hd] at h; exact absurd h (by simp)
    | some d =>
      rw [hd] at h
      injection h with h
      subst h
      exact .inr ⟨isRedox_iff.1 hr, w.dflt e d hd⟩
  · injection h with h; exact .inl h.symm

/-- The choices for the elements of a formula, without those that were there before. -/
theorem collect_ok {choose : Str → Res Str} : ∀ (l acc : List (Str × Rat)) (r : List (Str × Rat)), collect choose acc l = .ok r →
    (∀ e ∈ l.map (·.1), ∀ k, choose e = .ok k → k ∉ acc.map (·.1)) →
    (l.Pairwise fun x y => ∀ k, choose x.1 = .ok k → choose y.1 ≠ .ok k) →
    ∃ t : List (Str × Rat), r = acc ++ t ∧ List.Forall₂ (fun x y => choose x.1 = .ok y.1 ∧ x.2 = y.2) l t
  | [], acc, r, h, _, _ => by
    simp only [collect, Res.ok.injEq] at h
    subst h
    exact ⟨[], by simp, List.Forall₂.nil⟩
  | (e, c) :: l, acc, r, h, h1, h2 => by
    unfold collect at h
    obtain ⟨k, hk, h⟩ := bind_ok h
    have hn : k ∉ acc.map (·.1) := h1 e (by simp) k hk
    rw [if_neg hn] at h
    rw [List.pairwise_cons] at h2
    obtain ⟨t, ht, hf⟩ := collect_ok l (acc ++ [(k, c)]) r h (by
      intro e' he' k' hk'
      simp only [List.map_append, List.map_cons, List.map_nil, List.mem_append, List.mem_singleton, not_or]
      refine ⟨h1 e' (by simp [he']) k' hk', ?_⟩
      rintro rfl
      obtain ⟨x, hx, hxe⟩ := List.mem_map.1 he'
      exact h2.1 x hx k' hk (by rw [hxe]; exact hk')) h2.2
    exact ⟨(k, c) :: t, by rw [ht]; simp, List.Forall₂.cons ⟨hk, rfl⟩ hf⟩

theorem collect_distinct {choose : Str → Res Str} : ∀ {l acc r : List (Str × Rat)}, collect choose acc l = .ok r → (acc.map (·.1)).Nodup →
    (r.map (·.1)).Nodup
  | [], acc, r, h, hn => by
    simp only [collect, Res.ok.injEq] at h
    subst h
    exact hn
  | (e, c) :: l, acc, r, h, hn => by
    unfold collect at h
    obtain ⟨k, hk, h⟩ := bind_ok h
    refine collect_distinct h ?_
    split
    · exact hn
    · rename_i hk
      rw [List.map_append, List.nodup_append]
      refine ⟨hn, by simp, ?_⟩
      intro a ha b hb
      simp only [List.map_cons, List.map_nil, List.mem_singleton] at hb
      subst hb
      rintro rfl
      exact hk ha

/-- A weighted sum over all elements sees only the elements of the formula. -/
theorem sum_coefIn (f : Str → Rat) : ∀ (elements : List Str) (comp : List (Str × Rat)), elements.Nodup → (comp.map (·.1)).Nodup →
    (∀ x ∈ comp, x.1 ∈ elements) → (elements.map fun e => f e * coefIn comp e).sum = (comp.map fun x => f x.1 * x.2).sum := by
  intro elements comp hn
  induction comp with
  | nil => intro _ _; simp [coefIn]
  | cons x comp ih =>
    intro hc hm
    rw [List.map_cons, List.nodup_cons] at hc
    have key : ∀ e, coefIn (x :: comp) e = (if e = x.1 then x.2 else 0) + coefIn comp e := by
      intro e
      unfold coefIn
      by_cases he : x.1 = e
      · subst he
        have : comp.find? (fun y => decide (y.1 = x.1)) = none := by
          rw [List.find?_eq_none]
          intro y hy
          simp only [decide_eq_true_eq]
          intro h
          exact hc.1 (h ▸ List.mem_map_of_mem hy)
        simp [this]
      · rw [List.find?_cons_of_neg (by simpa using he), if_neg (fun h => he h.symm), zero_add]
    have h1 : (elements.map fun e => f e * coefIn (x :: comp) e) =
        (elements.map fun e => (if e = x.1 then f x.1 * x.2 else 0) + f e * coefIn comp e) := by
      apply List.map_congr_left
      intro e _
      rw [key]
      by_cases he : e = x.1
      · subst he; simp; ring
      · simp [he]
    rw [h1, List.sum_map_add, ih hc.2 (fun y hy => hm y (by simp [hy])), List.map_cons, List.sum_cons]
    congr 1
    have hx := hm x (by simp)
    have : ∀ (l : List Str), l.Nodup → x.1 ∈ l → (l.map fun e => if e = x.1 then f x.1 * x.2 else 0).sum = f x.1 * x.2 := by
      intro l
      induction l with
      | nil => simp
      | cons a l ih2 =>
        intro hn hx
        rw [List.nodup_cons] at hn
        rw [List.map_cons, List.sum_cons]
        by_cases ha : a = x.1
        · subst ha
          have hz : (l.map fun e => if e = x.1 then f x.1 * x.2 else 0).sum = 0 := by
            apply List.sum_eq_zero
            intro y hy
            obtain ⟨e, he, rfl⟩ := List.mem_map.1 hy
            rw [if_neg]
            rintro rfl
            exact hn.1 he
          rw [hz]; simp
        · rw [if_neg ha, zero_add]
          rcases List.mem_cons.1 hx with h | h
          · exact absurd h.symm ha
          · exact ih2 hn.2 h
    exact this elements hn hx

end Verif.PhreeqcEngine
