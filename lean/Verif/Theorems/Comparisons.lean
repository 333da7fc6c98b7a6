import Verif.Spec.Comparisons
import Verif.Lemmas.ReactionEquation
import Mathlib.Tactic.Linarith
import Mathlib.Tactic.NormNum

/-!
# C120: comparisons
-/

namespace Verif.Comparisons

/-! ## Strings -/

theorem lessStr_irrefl (s : Str) : lessStr s s = false := by
  induction s with
  | nil => rfl
  | cons a s ih => simp [lessStr, ih]

theorem lessStr_trans (s : Str) : ∀ t u, lessStr s t = true → lessStr t u = true → lessStr s u = true := by
  induction s with
  | nil =>
    intro t u h1 h2
    cases u with
    | nil => cases t <;> simp [lessStr] at h2
    | cons c u => rfl
  | cons a s ih =>
    intro t u h1 h2
    cases t with
    | nil => simp [lessStr] at h1
    | cons b t =>
      cases u with
      | nil => simp [lessStr] at h2
      | cons c u =>
        simp only [lessStr] at h1 h2 ⊢
        split at h1
        · split at h2
          · rw [if_pos (by omega)]
          · split at h2
            · cases h2
            · rw [if_pos (by omega)]
        · split at h1
          · cases h1
          · split at h2
            · rw [if_pos (by omega)]
            · split at h2
              · cases h2
              · rw [if_neg (by omega), if_neg (by omega)]
                exact ih t u h1 h2

theorem toNat_inj {a b : Char} (h : a.toNat = b.toNat) : a = b := Char.ext (UInt32.toNat_inj.1 h)

theorem lessStr_one (s : Str) : ∀ t, (lessStr s t = true ∧ s ≠ t ∧ lessStr t s = false) ∨ (lessStr s t = false ∧ s = t ∧ lessStr t s = false) ∨
    (lessStr s t = false ∧ s ≠ t ∧ lessStr t s = true) := by
  induction s with
  | nil =>
    intro t
    cases t <;> simp [lessStr]
  | cons a s ih =>
    intro t
    cases t with
    | nil => simp [lessStr]
    | cons b t =>
      simp only [lessStr]
      rcases Nat.lt_trichotomy a.toNat b.toNat with h | h | h
      · left
        rw [if_pos h, if_neg (by omega), if_pos h]
        refine ⟨rfl, ?_, rfl⟩
        intro e
        rw [(List.cons.inj e).1] at h
        omega
      · rw [if_neg (by omega), if_neg (by omega), if_neg (by omega), if_neg (by omega), toNat_inj h]
        simpa using ih t
      · right; right
        rw [if_neg (by omega), if_pos h, if_pos h]
        refine ⟨rfl, ?_, rfl⟩
        intro e
        rw [(List.cons.inj e).1] at h
        omega

theorem equivalence_by {α : Type} (key : α → Str) : Equivalence' (fun a b : α => key a == key b) where
  refl a := by simp
  symm a b h := by simp only [beq_iff_eq] at h ⊢; exact h.symm
  trans a b c h1 h2 := by simp only [beq_iff_eq] at h1 h2 ⊢; exact h1.trans h2

theorem ordered_by {α : Type} (key : α → Str) : Ordered (fun a b => lessStr (key a) (key b)) (fun a b => key a == key b) where
  equal := equivalence_by key
  trans a b c := lessStr_trans _ _ _
  one a b := by
    rcases lessStr_one (key a) (key b) with ⟨h1, h2, h3⟩ | ⟨h1, h2, h3⟩ | ⟨h1, h2, h3⟩
    · left; exact ⟨h1, by simpa using h2, h3⟩
    · right; left; exact ⟨h1, by simpa using h2, h3⟩
    · right; right; exact ⟨h1, by simpa using h2, h3⟩

/-! ## Claims -/

/-- **C120 (species, phases, reactions, formulas, catalysts).** Of two such objects exactly one is less than the other or they are equal, `<` is transitive and `==`
is an equivalence; equal species have the same hash. -/
theorem C120_ordered (S F E K R : Type) (solid : S) (h : Str → Nat) :
    Ordered speciesLess speciesEqual ∧ Ordered (phaseLess (F := F) (solid := solid)) phaseEqual ∧ Ordered (reactionLess (E := E) (K := K) (R := R)) reactionEqual ∧
    Ordered formulaLess formulaEqual ∧ Ordered catalystLess Mineral.Catalyst.eq ∧
    (∀ a b, speciesEqual a b = true → speciesHash h a = speciesHash h b) :=
  ⟨ordered_by _, ordered_by (fun p : ValueObjects.PhaseImpl S F solid => p.name), ordered_by (fun p : ValueObjects.ReactionImpl E K R => p.name),
   ordered_by (fun f : Formula => f.str), ordered_by (fun c : Mineral.Catalyst => c.species),
   fun a b hab => by
     simp only [speciesEqual, beq_iff_eq] at hab
     simp only [speciesHash, hab]⟩

theorem elementEqual_iff (a b : Chem.Element) : elementEqual a b = true ↔ a = b := by
  cases a; cases b
  simp [elementEqual, and_assoc]

/-- **C120 (elements).** Elements are equal exactly if all their attributes are, equal ones have the same hash, and `<` is transitive and irreflexive; among elements
in which a symbol has one meaning, exactly one of two is less or they are equal. -/
theorem C120_elements_partial (h : Str → Nat) :
    (∀ a b, elementEqual a b = true ↔ a = b) ∧ (∀ a b, elementEqual a b = true → elementHash h a = elementHash h b) ∧
    (∀ a, elementLess a a = false) ∧ (∀ a b c, elementLess a b = true → elementLess b c = true → elementLess a c = true) ∧
    (∀ a b : Chem.Element, (a.symbol = b.symbol → a = b) →
      (elementLess a b = true ∧ elementEqual a b = false ∧ elementLess b a = false) ∨ (elementLess a b = false ∧ elementEqual a b = true ∧ elementLess b a = false) ∨
      (elementLess a b = false ∧ elementEqual a b = false ∧ elementLess b a = true)) := by
  refine ⟨elementEqual_iff, ?_, fun a => lessStr_irrefl _, fun a b c => lessStr_trans _ _ _, ?_⟩
  · intro a b hab
    rw [(elementEqual_iff a b).1 hab]
  · intro a b hs
    have hne : a.symbol ≠ b.symbol → elementEqual a b = false := by
      intro hn
      rw [Bool.eq_false_iff, Ne, elementEqual_iff]
      exact fun e => hn (by rw [e])
    rcases lessStr_one a.symbol b.symbol with ⟨h1, h2, h3⟩ | ⟨h1, h2, h3⟩ | ⟨h1, h2, h3⟩
    · exact .inl ⟨h1, hne h2, h3⟩
    · exact .inr (.inl ⟨h1, (elementEqual_iff a b).2 (hs h2), h3⟩)
    · exact .inr (.inr ⟨h1, hne h2, h3⟩)

/-- **C120 (false of the code, elements).** Elements with the same symbol and other attributes are not equal, and none is less than the other. -/
theorem C120_elements_wrong (a b : Chem.Element) (hs : a.symbol = b.symbol) (hm : a.molarMass ≠ b.molarMass) :
    elementLess a b = false ∧ elementLess b a = false ∧ elementEqual a b = false := by
  refine ⟨?_, ?_, ?_⟩
  · simp only [elementLess, hs, lessStr_irrefl]
  · simp only [elementLess, hs, lessStr_irrefl]
  · rw [Bool.eq_false_iff, Ne, elementEqual_iff]
    exact fun e => hm (by rw [e])

/-! ### Removing duplicates -/

theorem sublist_dropAdjacent {α : Type} (eq : α → α → Bool) (l : List α) : (dropAdjacent eq l).Sublist l := by
  fun_induction dropAdjacent eq l with
  | case1 => simp
  | case2 a => simp
  | case3 a b l h ih => exact ih.trans ((List.sublist_cons_self b l).cons_cons a)
  | case4 a b l h ih => exact ih.cons_cons a

theorem all_dropAdjacent {α : Type} (eq : α → α → Bool) (he : Equivalence' eq) (l : List α) : ∀ x ∈ l, ∃ y ∈ dropAdjacent eq l, eq x y = true := by
  fun_induction dropAdjacent eq l with
  | case1 => simp
  | case2 a =>
    intro x hx
    exact ⟨a, by simp, by rw [List.mem_singleton.1 hx]; exact he.refl a⟩
  | case3 a b l h ih =>
    intro x hx
    rcases List.mem_cons.1 hx with rfl | hx
    · exact ih x List.mem_cons_self
    · rcases List.mem_cons.1 hx with rfl | hx
      · obtain ⟨y, h1, h2⟩ := ih a List.mem_cons_self
        exact ⟨y, h1, he.trans _ _ _ (he.symm _ _ h) h2⟩
      · exact ih x (List.mem_cons_of_mem _ hx)
  | case4 a b l h ih =>
    intro x hx
    rcases List.mem_cons.1 hx with rfl | hx
    · exact ⟨x, List.mem_cons_self, he.refl x⟩
    · obtain ⟨y, h1, h2⟩ := ih x hx
      exact ⟨y, List.mem_cons_of_mem _ h1, h2⟩

theorem less_le {α : Type} {less eq : α → α → Bool} (ho : Ordered less eq) {a b x : α} (hab : less a b = true) (hbx : less x b = false) :
    less a x = true := by
  rcases ho.one b x with ⟨c, -, -⟩ | ⟨c1, c2, c3⟩ | ⟨-, -, c⟩
  · exact ho.trans a b x hab c
  · rcases ho.one a x with ⟨d, -, -⟩ | ⟨-, d, -⟩ | ⟨-, -, d⟩
    · exact d
    · have hab' := ho.equal.trans _ _ _ d (ho.equal.symm _ _ c2)
      rcases ho.one a b with ⟨-, g, -⟩ | ⟨g, -, -⟩ | ⟨g, -, -⟩
      · rw [g] at hab'; cases hab'
      · rw [g] at hab; cases hab
      · rw [g] at hab; cases hab
    · rw [ho.trans x a b d hab] at hbx; cases hbx
  · rw [hbx] at c; cases c

theorem strict_dropAdjacent {α : Type} (less eq : α → α → Bool) (ho : Ordered less eq) (l : List α) (h : l.Pairwise fun a b => less b a = false) :
    (dropAdjacent eq l).Pairwise fun a b => less a b = true := by
  fun_induction dropAdjacent eq l with
  | case1 => exact List.Pairwise.nil
  | case2 a => simp
  | case3 a b l h' ih => exact ih (h.sublist ((List.sublist_cons_self b l).cons_cons a))
  | case4 a b l h' ih =>
    obtain ⟨h1, h2⟩ := List.pairwise_cons.1 h
    refine List.pairwise_cons.2 ⟨?_, ih h2⟩
    intro x hx
    have hab : less a b = true := by
      have e := h1 b List.mem_cons_self
      rcases ho.one a b with ⟨c, -, -⟩ | ⟨-, c, -⟩ | ⟨-, -, c⟩
      · exact c
      · exact absurd c (by simpa using h')
      · rw [e] at c; cases c
    rcases List.mem_cons.1 ((sublist_dropAdjacent eq _).mem hx) with rfl | hx'
    · exact hab
    · exact less_le ho hab ((List.pairwise_cons.1 h2).1 x hx')

theorem dropAdjacent_ok {α : Type} {less eq : α → α → Bool} (ho : Ordered less eq) (l sorted : List α) (hs : IsSort less l sorted) :
    WithoutDuplicates less eq l (dropAdjacent eq sorted) := by
  obtain ⟨hp, hw⟩ := hs
  have st := strict_dropAdjacent less eq ho sorted hw
  refine ⟨fun x hx => hp.mem_iff.1 ((sublist_dropAdjacent eq _).mem hx), fun x hx => all_dropAdjacent eq ho.equal sorted x (hp.mem_iff.2 hx), ?_, st⟩
  refine st.imp ?_
  intro a b hab
  rcases ho.one a b with ⟨-, c, -⟩ | ⟨c, -, -⟩ | ⟨c, -, -⟩
  · exact c
  · rw [c] at hab; cases hab
  · rw [c] at hab; cases hab

/-- **C120 (removing duplicates).** For every type whose `<` and `==` are consistent (those of `C120_ordered`, and strings), `unique` gives the items without duplicates,
sorted, and `merge` the items of both lists, whatever way the sort treats items that are not less than each other. -/
theorem C120_unique {α : Type} (less eq : α → α → Bool) (ho : Ordered less eq) :
    (∀ l res, IsUnique less eq l res → WithoutDuplicates less eq l res) ∧
    (∀ a b res, IsMerge less eq a b res → WithoutDuplicates less eq (a ++ b) res) := by
  refine ⟨?_, ?_⟩
  · rintro l res ⟨sorted, h1, rfl⟩
    exact dropAdjacent_ok ho l sorted h1
  · rintro a b res ⟨sorted, h1, rfl⟩
    exact dropAdjacent_ok ho _ sorted h1

/-- **C120 (false of the code, removing duplicates of elements).** If two elements have the same symbol and different masses, `unique` may keep one of them twice. -/
theorem C120_unique_elements_wrong (a b : Chem.Element) (hs : a.symbol = b.symbol) (hm : a.molarMass ≠ b.molarMass) :
    IsUnique elementLess elementEqual [a, a, b] [a, b, a] := by
  obtain ⟨h1, h2, h3⟩ := C120_elements_wrong a b hs hm
  obtain ⟨-, -, h4⟩ := C120_elements_wrong b a hs.symm (Ne.symm hm)
  have h0 : elementLess a a = false := lessStr_irrefl _
  refine ⟨[a, b, a], ⟨?_, ?_⟩, ?_⟩
  · exact (List.Perm.swap a b []).cons a
  · simp [h1, h2, h0]
  · simp [dropAdjacent, h3, h4]

/-! ### Equivalence of formulas -/

theorem equivalent_iff (f g : Formula) : f.equivalent g = true ↔ f.elements.length = g.elements.length ∧ (∀ x ∈ f.elements, x ∈ g.elements) ∧ f.charge = g.charge := by
  unfold EquilibriumSpecs.Formula.equivalent
  simp [and_assoc]

theorem nodup_of_distinct (f : Formula) (h : Distinct f) : f.elements.Nodup := List.Nodup.of_map _ h

/-- **C120 (equivalent formulas).** Formulas in which no element is listed twice are equivalent exactly if they have the same elements with the same coefficients, in any order,
and the same charge. -/
theorem C120_equivalent_partial (f g : Formula) (hf : Distinct f) (hg : Distinct g) : f.equivalent g = true ↔ SameComposition f g := by
  rw [equivalent_iff]
  constructor
  · rintro ⟨h1, h2, h3⟩
    refine ⟨fun e c => ⟨h2 (e, c), fun h => ?_⟩, h3⟩
    have hsub : f.elements ⊆ g.elements := fun x hx => h2 x hx
    have hperm : f.elements.Perm g.elements := List.Subperm.perm_of_length_le (List.subperm_of_subset (nodup_of_distinct f hf) hsub) (by omega)
    exact hperm.mem_iff.2 h
  · rintro ⟨h1, h3⟩
    have hperm : f.elements.Perm g.elements := (List.perm_ext_iff_of_nodup (nodup_of_distinct f hf) (nodup_of_distinct g hg)).2 fun x => h1 x.1 x.2
    exact ⟨hperm.length_eq, fun x hx => hperm.mem_iff.1 hx, h3⟩

theorem addTo_keys (element : Str) (x : Rat) (l : List (Str × Rat)) :
    (FormulaParser.addTo element x l).map Prod.fst = l.map Prod.fst ∨
      (element ∉ l.map Prod.fst ∧ (FormulaParser.addTo element x l).map Prod.fst = l.map Prod.fst ++ [element]) := by
  induction l with
  | nil => right; simp [FormulaParser.addTo]
  | cons p l ih =>
    obtain ⟨k, v⟩ := p
    simp only [FormulaParser.addTo]
    split
    · left; simp
    · rename_i hk
      rcases ih with h | ⟨h1, h2⟩
      · left; simp [h]
      · right
        refine ⟨?_, by simp [h2]⟩
        simp only [List.map_cons, List.mem_cons, not_or]
        exact ⟨fun e => hk e.symm, h1⟩

theorem addTo_nodup (element : Str) (x : Rat) (l : List (Str × Rat)) (h : (l.map Prod.fst).Nodup) : ((FormulaParser.addTo element x l).map Prod.fst).Nodup := by
  rcases addTo_keys element x l with e | ⟨h1, e⟩
  · rw [e]; exact h
  · rw [e]
    rw [List.nodup_append]
    exact ⟨h, by simp, fun a ha b hb => by simp only [List.mem_singleton] at hb; rw [hb]; rintro rfl; exact h1 ha⟩

theorem parseAux_nodup (s : Str) (result : List (Str × Rat)) (scalar : Rat) : ∀ r, (result.map Prod.fst).Nodup →
    FormulaParser.parseAux s result scalar = .ok r → (r.map Prod.fst).Nodup := by
  fun_induction FormulaParser.parseAux s result scalar with
  | case1 => intro r h e; cases e; exact h
  | case2 result scalar c rest hc ih => exact fun r h e => ih r h e
  | case3 => intro r h e; cases e
  | case4 =>
    rename_i ih2 ih1
    intro r h e
    obtain ⟨r1, h1, h2⟩ := Res.bind_eq_ok.1 e
    exact ih1 r1 r (ih2 r1 h h1) h2
  | case5 => rename_i ih; exact fun r h e => ih r h e
  | case6 => rename_i ih; exact fun r h e => ih r (addTo_nodup _ _ _ h) e

/-- **C120 (formulas read from texts).** A formula made from a text, any text, lists no element twice; hence for formulas made from texts, equivalence is having the same composition and charge. -/
theorem C120_equivalent_texts (s t : Str) (f g : Formula) (hs : Lists.Formula.ofString s = .ok f) (ht : Lists.Formula.ofString t = .ok g) :
    Distinct f ∧ Distinct g ∧ (f.equivalent g = true ↔ SameComposition f g) := by
  have key : ∀ s f, Lists.Formula.ofString s = .ok f → Distinct f := by
    intro s f h
    unfold Lists.Formula.ofString at h
    cases h1 : FormulaParser.parseChemicalFormula s with
    | ok els =>
      rw [h1, Res.bind_ok'] at h
      cases h2 : ChargeParser.parseElectricCharge s with
      | ok z =>
        rw [h2, Res.bind_ok'] at h
        cases h
        exact parseAux_nodup s [] 1 els List.nodup_nil h1
      | throw => rw [h2] at h; cases h
      | ub => rw [h2] at h; cases h
    | throw => rw [h1] at h; cases h
    | ub => rw [h1] at h; cases h
  exact ⟨key s f hs, key t g ht, C120_equivalent_partial f g (key s f hs) (key t g ht)⟩

/-- **C120 (false of the code, formulas with given elements).** With an element listed twice, the first formula is equivalent to the second but not the second to the first. -/
theorem C120_equivalent_wrong (x y : Str × Rat) (h : x ≠ y) (s t : Str) (z : Rat) :
    EquilibriumSpecs.Formula.equivalent ⟨s, [x, x], z⟩ ⟨t, [x, y], z⟩ = true ∧ EquilibriumSpecs.Formula.equivalent ⟨t, [x, y], z⟩ ⟨s, [x, x], z⟩ = false := by
  refine ⟨(equivalent_iff _ _).2 ⟨rfl, by simp, rfl⟩, ?_⟩
  rw [Bool.eq_false_iff, Ne, equivalent_iff]
  rintro ⟨-, h2, -⟩
  have := h2 y (by simp)
  simp only [List.mem_cons, List.not_mem_nil, or_false, or_self] at this
  exact h this.symm

/-! ### Reaction equations -/

open ReactionEquation (Equation equal coefficient equal_iff)

/-- **C120 (equations).** Equality of reaction equations is reflexive and symmetric, and transitive among equations whose coefficients differ by more than the machine epsilon or not at all;
`<` is irreflexive and transitive on equations with at least one species. -/
theorem C120_equations_partial (eps : Rat) (heps : 0 ≤ eps) :
    (∀ a, equal eps a a = true) ∧ (∀ a b, equal eps a b = true → equal eps b a = true) ∧
    (∀ a b c : Equation, (∀ n, |coefficient a n - coefficient b n| ≤ eps → coefficient a n = coefficient b n) → equal eps a b = true → equal eps b c = true → equal eps a c = true) ∧
    (∀ a : Equation, a ≠ [] → equationLess a a = .ok false) ∧
    (∀ a b c : Equation, equationLess a b = .ok true → equationLess b c = .ok true → equationLess a c = .ok true) := by
  refine ⟨?_, ?_, ?_, ?_, ?_⟩
  · intro a
    rw [equal_iff]
    exact ⟨fun _ => Iff.rfl, fun n _ => by simpa using heps⟩
  · intro a b h
    rw [equal_iff] at h ⊢
    exact ⟨fun n => (h.1 n).symm, fun n hn => by rw [abs_sub_comm]; exact h.2 n ((h.1 n).2 hn)⟩
  · intro a b c hab h1 h2
    rw [equal_iff] at h1 h2 ⊢
    exact ⟨fun n => (h1.1 n).trans (h2.1 n), fun n hn => by rw [hab n (h1.2 n hn)]; exact h2.2 n ((h1.1 n).1 hn)⟩
  · intro a ha
    cases a with
    | nil => exact absurd rfl ha
    | cons x l => simp [equationLess, at!, Res.bind, lessStr_irrefl]
  · intro a b c h1 h2
    cases a with
    | nil => simp [equationLess, at!, Res.bind] at h1
    | cons x l =>
      cases b with
      | nil => simp [equationLess, at!, Res.bind] at h1
      | cons y m =>
        cases c with
        | nil => simp [equationLess, at!, Res.bind] at h2
        | cons z n =>
          simp only [equationLess, at!, Res.bind, List.getElem?_cons_zero, Res.ok.injEq] at h1 h2 ⊢
          exact lessStr_trans _ _ _ h1 h2

/-- **C120 (false of the code, equations).** With a positive tolerance equality of equations is not transitive; equal equations written in another order are less than each other;
different equations with the same first species are neither less nor equal; and comparing with an equation without species is undefined. -/
theorem C120_equations_wrong (eps : Rat) (heps : 0 < eps) :
    (∃ a b c : Equation, equal eps a b = true ∧ equal eps b c = true ∧ equal eps a c = false) ∧
    (equal eps [(c!"A", -1), (c!"B", 1)] [(c!"B", 1), (c!"A", -1)] = true ∧ equationLess [(c!"A", -1), (c!"B", 1)] [(c!"B", 1), (c!"A", -1)] = .ok true) ∧
    (equal eps [(c!"A", -1), (c!"B", 1)] [(c!"A", -1), (c!"C", 1)] = false ∧
      equationLess [(c!"A", -1), (c!"B", 1)] [(c!"A", -1), (c!"C", 1)] = .ok false ∧ equationLess [(c!"A", -1), (c!"C", 1)] [(c!"A", -1), (c!"B", 1)] = .ok false) ∧
    (∀ a : Equation, equationLess [] a = .ub ∧ equationLess a [] = .ub) := by
  have one : ∀ (x y : Rat), equal eps [(c!"A", x)] [(c!"A", y)] = true ↔ |x - y| ≤ eps := by
    intro x y
    rw [equal_iff]
    simp [coefficient]
  refine ⟨⟨[(c!"A", 0)], [(c!"A", eps)], [(c!"A", 2 * eps)], ?_, ?_, ?_⟩, ⟨?_, by decide +kernel⟩, ⟨?_, by decide +kernel, by decide +kernel⟩, ?_⟩
  · rw [one, zero_sub, abs_neg, abs_of_pos heps]
  · rw [one, show eps - 2 * eps = -eps by ring, abs_neg, abs_of_pos heps]
  · rw [Bool.eq_false_iff, Ne, one, zero_sub, abs_neg, abs_of_pos (by linarith)]
    linarith
  · rw [equal_iff]
    refine ⟨fun n => by simp [or_comm], ?_⟩
    intro n hn
    have : n = c!"A" ∨ n = c!"B" := by simpa using hn
    rcases this with rfl | rfl
    · rw [show coefficient [(c!"A", -1), (c!"B", 1)] c!"A" - coefficient [(c!"B", 1), (c!"A", -1)] c!"A" = 0 by decide +kernel, abs_zero]; exact heps.le
    · rw [show coefficient [(c!"A", -1), (c!"B", 1)] c!"B" - coefficient [(c!"B", 1), (c!"A", -1)] c!"B" = 0 by decide +kernel, abs_zero]; exact heps.le
  · rw [Bool.eq_false_iff, Ne, equal_iff]
    rintro ⟨h, -⟩
    have := (h c!"B").1 (by simp)
    revert this
    decide +kernel
  · intro a
    refine ⟨by simp [equationLess, at!, Res.bind], ?_⟩
    cases a <;> simp [equationLess, at!, Res.bind]

/-! ### The hypotheses are met -/

example : Lists.Formula.ofString c!"CaCO3" = .ok ⟨c!"CaCO3", [(c!"Ca", 1), (c!"C", 1), (c!"O", 3)], 0⟩ := by decide +kernel

example : ∃ f g, Lists.Formula.ofString c!"Ca(OH)2" = .ok f ∧ Lists.Formula.ofString c!"CaO2H2" = .ok g ∧ f.equivalent g = true ∧ f ≠ g :=
  ⟨⟨c!"Ca(OH)2", [(c!"Ca", 1), (c!"O", 2), (c!"H", 2)], 0⟩, ⟨c!"CaO2H2", [(c!"Ca", 1), (c!"O", 2), (c!"H", 2)], 0⟩, by decide +kernel, by decide +kernel, by decide +kernel, by decide +kernel⟩

example : IsUnique lessStr (· == ·) [c!"O", c!"H", c!"O"] [c!"H", c!"O"] :=
  ⟨[c!"H", c!"O", c!"O"], ⟨by decide +kernel, by simp [lessStr]⟩, by simp [dropAdjacent]⟩

example : ∃ a b : Chem.Element, a.symbol = b.symbol ∧ a.molarMass ≠ b.molarMass :=
  ⟨⟨c!"H", 1, [], []⟩, ⟨c!"H", 2, [], []⟩, rfl, by decide +kernel⟩

end Verif.Comparisons
