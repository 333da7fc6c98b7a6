import Verif.Model.Lists
import Verif.Spec.Lists
import Verif.Lemmas.Phases
import Verif.Lemmas.FormulaParser
import Mathlib.Tactic.Linarith
import Mathlib.Tactic.Ring
import Mathlib.Data.Rat.Floor
import Mathlib.Algebra.BigOperators.Intervals

/-!
# C98: lists of elements, species and phases find and select what they are asked for
-/

namespace Verif.Lists

open Chem ValueObjects

/-! ### Searches in general -/

section general
variable {α : Type} {pred : α → Res Bool} {P : α → Prop}

/-- A predicate that decides a property for the items of a list. -/
def Decides (pred : α → Res Bool) (P : α → Prop) (l : List α) : Prop :=
  ∀ x ∈ l, (P x ∧ pred x = .ok true) ∨ (¬ P x ∧ pred x = .ok false)

theorem finds (l : List α) (h : Decides pred P l) : Finds P l (indexfn pred l) := by
  induction l with
  | nil => right; simp [indexfn]
  | cons x rest ih =>
    rcases h x (by simp) with ⟨hx, hp⟩ | ⟨hx, hp⟩
    · left
      exact ⟨0, by simp [indexfn, hp], ⟨⟨x, by simp, hx⟩, fun j y hj => absurd hj (by omega)⟩⟩
    · rcases ih (fun y hy => h y (List.mem_cons_of_mem _ hy)) with ⟨i, hi, ⟨y, hy, hPy⟩, hf⟩ | ⟨hi, hn⟩
      · left
        refine ⟨i + 1, by simp [indexfn, hp, hi], ⟨y, by simpa using hy, hPy⟩, ?_⟩
        intro j z hj hz
        cases j with
        | zero => simp only [List.getElem?_cons_zero, Option.some.injEq] at hz; exact hz ▸ hx
        | succ j => exact hf j z (by omega) (by simpa using hz)
      · right
        refine ⟨by simp [indexfn, hp, hi], ?_⟩
        intro y hy
        rcases List.mem_cons.1 hy with rfl | hy
        · exact hx
        · exact hn y hy

theorem firstAt_lt {l : List α} {i : Nat} (h : FirstAt P l i) : i < l.length := by
  obtain ⟨⟨x, hx, _⟩, _⟩ := h
  exact (List.getElem?_eq_some_iff.1 hx).1

theorem locates (l : List α) (h : Decides pred P l) : Locates P l (indexOr pred l) := by
  rcases finds l h with ⟨i, hi, hf⟩ | ⟨hi, hn⟩
  · left
    have := firstAt_lt hf
    exact ⟨i, by simp [indexOr, hi, this], hf⟩
  · right
    exact ⟨by simp [indexOr, hi], hn⟩

theorem gets (l : List α) (h : Decides pred P l) : Gets P l (getOr pred l) := by
  rcases locates l h with ⟨i, hi, hf⟩ | ⟨hi, hn⟩
  · left
    obtain ⟨⟨x, hx, hPx⟩, hf'⟩ := hf
    exact ⟨i, x, ⟨⟨x, hx, hPx⟩, hf'⟩, hx, by simp [getOr, hi, at!, hx]⟩
  · right
    exact ⟨by simp [getOr, hi], hn⟩

theorem picks {κ : Type} {f : κ → Res α} {Q : κ → α → Prop} (l : List α) (keys : List κ) (h : ∀ k ∈ keys, Gets (Q k) l (f k)) :
    Picks Q l keys (vectorize f keys) := by
  induction keys with
  | nil => left; exact ⟨[], by simp [vectorize]⟩
  | cons k rest ih =>
    have hk := h k (by simp)
    rcases hk with ⟨i, x, hf, hx, hr⟩ | ⟨hr, hn⟩
    · rcases ih (fun y hy => h y (List.mem_cons_of_mem _ hy)) with ⟨out, ho, hlen, hout⟩ | ⟨ht, k', hk', hn⟩
      · left
        refine ⟨x :: out, by simp [vectorize, hr, ho], by simp [hlen], ?_⟩
        intro j k' hj
        cases j with
        | zero =>
          simp only [List.getElem?_cons_zero, Option.some.injEq] at hj
          subst hj
          exact ⟨x, by simp, Or.inl ⟨i, x, hf, hx, rfl⟩⟩
        | succ j =>
          obtain ⟨y, hy, hg⟩ := hout j k' (by simpa using hj)
          exact ⟨y, by simpa using hy, hg⟩
      · right
        exact ⟨by simp [vectorize, hr, ht], k', List.mem_cons_of_mem _ hk', hn⟩
    · right
      exact ⟨by simp [vectorize, hr], k, by simp, hn⟩

theorem keeps (l : List α) (h : Decides pred P l) : Keeps P l (filter pred l) := by
  classical
  unfold Keeps
  induction l with
  | nil => simp [filter]
  | cons x rest ih =>
    have ih := ih (fun y hy => h y (List.mem_cons_of_mem _ hy))
    rcases h x (by simp) with ⟨hx, hp⟩ | ⟨hx, hp⟩
    · simp [filter, hp, ih, hx]
    · simp [filter, hp, ih, hx]

theorem decides_of (l : List α) (f : α → Bool) (h : ∀ x ∈ l, f x = true ↔ P x) : Decides (fun x => .ok (f x)) P l := by
  intro x hx
  by_cases hP : P x
  · exact Or.inl ⟨hP, by simp [(h x hx).2 hP]⟩
  · refine Or.inr ⟨hP, ?_⟩
    have : f x = false := by
      cases hf : f x
      · rfl
      · exact absurd ((h x hx).1 hf) hP
    simp [this]

theorem decides_bind {β : Type} [DecidableEq β] (l : List α) (f : α → Res β) (b : β) (h : ∀ x ∈ l, ∃ t, f x = .ok t) :
    Decides (fun x => (f x).bind fun t => .ok (decide (t = b))) (fun x => f x = .ok b) l := by
  intro x hx
  obtain ⟨t, ht⟩ := h x hx
  by_cases hb : t = b
  · left; simp [ht, hb]
  · right; simp [ht, hb]

end general

theorem contains_iff (c : List Str) (x : Str) : contains c x = true ↔ x ∈ c := by
  cases c with
  | nil => simp [contains]
  | cons y c => simp [contains, @eq_comm _ x y]

theorem contained_iff (a b : List Str) : contained a b = true ↔ ∀ x ∈ a, x ∈ b := by
  simp [contained, contains_iff]

/-! ### Elements -/

/-- **C98**, searches in lists of elements: by symbol and by name, every function gives the first element that was asked for, its position, or the
failure it announces. -/
theorem C98_elements (l : List Element) :
    (∀ s, Finds (fun e => e.symbol = s) l (elementIndex l (.find s)) ∧ Finds (fun e => e.symbol = s) l (elementIndex l (.findWithSymbol s)) ∧
      Locates (fun e => e.symbol = s) l (elementIndex l (.index s)) ∧ Locates (fun e => e.symbol = s) l (elementIndex l (.indexWithSymbol s)) ∧
      Gets (fun e => e.symbol = s) l (elementGet l (.get s)) ∧ Gets (fun e => e.symbol = s) l (elementGet l (.getWithSymbol s))) ∧
    (∀ n, Finds (fun e => e.name = n) l (elementIndex l (.findWithName n)) ∧ Locates (fun e => e.name = n) l (elementIndex l (.indexWithName n)) ∧
      Gets (fun e => e.name = n) l (elementGet l (.getWithName n))) ∧
    (∀ ss, Picks (fun s e => e.symbol = s) l ss (elementSelect l (.withSymbols ss))) ∧
    (∀ ns, Picks (fun n e => e.name = n) l ns (elementSelect l (.withNames ns))) ∧
    (∀ t, Keeps (fun e => t ∈ e.tags) l (elementSelect l (.withTag t)) ∧ Keeps (fun e => t ∉ e.tags) l (elementSelect l (.withoutTag t))) ∧
    (∀ ts, Keeps (fun e => ∀ t ∈ ts, t ∈ e.tags) l (elementSelect l (.withTags ts)) ∧
      Keeps (fun e => ∃ t ∈ ts, t ∉ e.tags) l (elementSelect l (.withoutTags ts))) := by
  have hs : ∀ s, Decides (elementWithSymbol s) (fun e => e.symbol = s) l := fun s => decides_of l _ (by simp)
  have hn : ∀ s, Decides (elementWithName s) (fun e => e.name = s) l := fun s => decides_of l _ (by simp)
  refine ⟨fun s => ⟨finds _ (hs s), finds _ (hs s), locates _ (hs s), locates _ (hs s), gets _ (hs s), gets _ (hs s)⟩,
    fun n => ⟨finds _ (hn n), locates _ (hn n), gets _ (hn n)⟩,
    fun ss => picks l ss fun s _ => gets _ (hs s), fun ns => picks l ns fun n _ => gets _ (hn n), fun t => ⟨?_, ?_⟩, fun ts => ⟨?_, ?_⟩⟩
  · exact keeps l (decides_of l _ (by simp [contains_iff]))
  · exact keeps l (decides_of l _ (fun e _ => by rw [Bool.not_eq_true', ← Bool.not_eq_true, contains_iff]))
  · exact keeps l (decides_of l _ (fun e _ => contained_iff _ _))
  · exact keeps l (decides_of l _ (fun e _ => by rw [Bool.not_eq_true', ← Bool.not_eq_true, contained_iff]; push Not; rfl))

/-- A list with two elements, one of them twice. -/
example : elementIndex [⟨c!"H", 1, c!"Hydrogen", []⟩, ⟨c!"O", 16, c!"Oxygen", [c!"a"]⟩, ⟨c!"O", 18, c!"Oxygen", []⟩] (.find c!"O") = .ok 1 ∧
    elementIndex [⟨c!"H", 1, c!"Hydrogen", []⟩] (.find c!"O") = .ok 1 ∧ elementIndex [⟨c!"H", 1, c!"Hydrogen", []⟩] (.index c!"O") = .throw ∧
    elementSelect [⟨c!"H", 1, c!"Hydrogen", []⟩, ⟨c!"O", 16, c!"Oxygen", [c!"a"]⟩] (.withNames [c!"Oxygen", c!"Hydrogen", c!"Oxygen"]) =
      .ok [⟨c!"O", 16, c!"Oxygen", [c!"a"]⟩, ⟨c!"H", 1, c!"Hydrogen", []⟩, ⟨c!"O", 16, c!"Oxygen", [c!"a"]⟩] := by decide +kernel

/-! ### Species -/

variable {M D : Type}

/-- A species that was given a name, a formula or a substance has a substance. -/
theorem substance_ok (s : Impl M D) (h : s.name ≠ [] ∨ s.formula ≠ [] ∨ s.substance ≠ []) : ∃ t, s.getSubstance = .ok t := by
  unfold Impl.getSubstance
  split
  · rename_i h0
    have hn : s.getName ≠ [] := by
      unfold Impl.getName
      split
      · rename_i h1; simpa [h0, h1] using h
      · assumption
    unfold removeSuffix ChargeParser.splitSpeciesNameSuffix
    obtain ⟨c, hc⟩ : ∃ c, s.getName.getLast? = some c := by
      cases hl : s.getName.getLast? with
      | none => exact absurd (List.getLast?_eq_none_iff.1 hl) hn
      | some c => exact ⟨c, rfl⟩
    simp only [hc]
    split
    · exact ⟨_, rfl⟩
    · split <;> (dsimp only; split <;> exact ⟨_, rfl⟩)
  · exact ⟨_, rfl⟩

/-- **C98**, searches by name in lists of species. -/
theorem C98_species_names (l : List (Impl M D)) :
    (∀ n, Finds (fun s => s.getName = n) l (speciesIndex l (.find n)) ∧ Finds (fun s => s.getName = n) l (speciesIndex l (.findWithName n)) ∧
      Locates (fun s => s.getName = n) l (speciesIndex l (.index n)) ∧ Locates (fun s => s.getName = n) l (speciesIndex l (.indexWithName n)) ∧
      Gets (fun s => s.getName = n) l (speciesGet l (.get n)) ∧ Gets (fun s => s.getName = n) l (speciesGet l (.getWithName n))) ∧
    ∀ ns, Picks (fun n s => s.getName = n) l ns (speciesSelect l (.withNames ns)) := by
  have hs : ∀ n, Decides (speciesWithName n) (fun s : Impl M D => s.getName = n) l := fun n => decides_of l _ (by simp)
  exact ⟨fun n => ⟨finds _ (hs n), finds _ (hs n), locates _ (hs n), locates _ (hs n), gets _ (hs n), gets _ (hs n)⟩,
    fun ns => picks l ns fun n _ => gets _ (hs n)⟩

/-- **C98**, searches by substance, in lists whose species were given a name, a formula or a substance. -/
theorem C98_species_substances (l : List (Impl M D)) (hl : ∀ s ∈ l, s.name ≠ [] ∨ s.formula ≠ [] ∨ s.substance ≠ []) :
    (∀ t, Finds (fun s => s.getSubstance = .ok t) l (speciesIndex l (.findWithSubstance t)) ∧
      Locates (fun s => s.getSubstance = .ok t) l (speciesIndex l (.indexWithSubstance t)) ∧
      Gets (fun s => s.getSubstance = .ok t) l (speciesGet l (.getWithSubstance t))) ∧
    ∀ ts, Picks (fun t s => s.getSubstance = .ok t) l ts (speciesSelect l (.withSubstances ts)) := by
  have hs : ∀ t, Decides (speciesWithSubstance t) (fun s : Impl M D => s.getSubstance = .ok t) l := fun t =>
    decides_bind l _ t fun s hm => substance_ok s (hl s hm)
  exact ⟨fun n => ⟨finds _ (hs n), locates _ (hs n), gets _ (hs n)⟩, fun ns => picks l ns fun n _ => gets _ (hs n)⟩

/-- **C98**, selections by tags and by aggregate state. An empty tag, and an empty list of tags, select nothing, and exclude nothing. -/
theorem C98_species_tags (l : List (Impl M D)) :
    (∀ t, Keeps (fun s => t ≠ [] ∧ t ∈ s.getTags) l (speciesSelect l (.withTag t)) ∧
      Keeps (fun s => ¬ (t ≠ [] ∧ t ∈ s.getTags)) l (speciesSelect l (.withoutTag t))) ∧
    (∀ ts, Keeps (fun s => ts ≠ [] ∧ ∀ t ∈ ts, t ∈ s.getTags) l (speciesSelect l (.withTags ts)) ∧
      Keeps (fun s => ¬ (ts ≠ [] ∧ ∀ t ∈ ts, t ∈ s.getTags)) l (speciesSelect l (.withoutTags ts))) ∧
    ∀ st, (∀ s ∈ l, ∃ st', s.getAggregateState = .ok st') →
      Keeps (fun s => s.getAggregateState = .ok st) l (speciesSelect l (.withAggregateState st)) := by
  refine ⟨fun t => ⟨?_, ?_⟩, fun ts => ⟨?_, ?_⟩, fun st h => ?_⟩
  · by_cases ht : t = []
    · simp [Keeps, speciesSelect, ht]
    · simp only [speciesSelect, if_neg ht]
      exact keeps l (decides_of l _ (fun e _ => by simp [contains_iff, ht]))
  · by_cases ht : t = []
    · simp [Keeps, speciesSelect, ht]
    · simp only [speciesSelect, if_neg ht]
      exact keeps l (decides_of l _ (fun e _ => by rw [Bool.not_eq_true', ← Bool.not_eq_true, contains_iff]; simp [ht]))
  · by_cases ht : ts = []
    · simp [Keeps, speciesSelect, ht]
    · simp only [speciesSelect, if_neg ht]
      exact keeps l (decides_of l _ (fun e _ => by rw [contained_iff]; simp [ht]))
  · by_cases ht : ts = []
    · simp [Keeps, speciesSelect, ht]
    · simp only [speciesSelect, if_neg ht]
      exact keeps l (decides_of l _ (fun e _ => by rw [Bool.not_eq_true', ← Bool.not_eq_true, contained_iff]; simp [ht]))
  · exact keeps l (decides_bind l _ st h)

/-- **C98**, selection by elements: exactly the species all of whose elements are among the given symbols. -/
theorem C98_species_elements (l : List (Impl M D)) (symbols : List Str) :
    Keeps (fun s => ∀ e c, (e, c) ∈ s.getElements → e.symbol ∈ symbols) l (speciesSelect l (.withElements symbols)) := by
  refine keeps l (decides_of l _ fun s _ => ?_)
  rw [contained_iff, symbolsOf]
  constructor
  · intro h e c hec; exact h _ (List.mem_map.2 ⟨_, hec, rfl⟩)
  · intro h x hx
    obtain ⟨⟨e, c⟩, hec, rfl⟩ := List.mem_map.1 hx
    exact h e c hec

theorem mergeFormulas_ok (formulas : List Str) : ∀ (symbols : List Str) (fs : List Formula),
    List.Forall₂ (fun x f => Formula.ofString x = .ok f) formulas fs →
    ∃ out, mergeFormulas symbols formulas = .ok out ∧ ∀ e, e ∈ out ↔ e ∈ symbols ∨ ∃ f ∈ fs, e ∈ f.symbols := by
  induction formulas with
  | nil => intro symbols fs h; cases h; exact ⟨symbols, rfl, by simp⟩
  | cons x rest ih =>
    intro symbols fs h
    cases h with
    | cons hx hrest =>
      rename_i f fs'
      obtain ⟨out, ho, hm⟩ := ih (merge symbols f.symbols) _ hrest
      refine ⟨out, by simp [mergeFormulas, hx, ho], fun e => ?_⟩
      rw [hm, Phases.mem_merge]
      simp [or_assoc]

/-- **C98**, selection by the elements of formulas: for formulas that can be read, exactly the species all of whose elements occur in some of the
formulas. -/
theorem C98_species_elements_of (l : List (Impl M D)) (formulas : List Str) (fs : List Formula)
    (h : List.Forall₂ (fun x f => Formula.ofString x = .ok f) formulas fs) :
    Keeps (fun s => ∀ e c, (e, c) ∈ s.getElements → ∃ f ∈ fs, e.symbol ∈ f.symbols) l (speciesSelect l (.withElementsOf formulas)) := by
  obtain ⟨out, ho, hm⟩ := mergeFormulas_ok formulas [] fs h
  have := C98_species_elements l out
  simp only [speciesSelect, ho, Res.bind_ok']
  simp only [speciesSelect] at this
  unfold Keeps at this ⊢
  rw [this]
  have he : ∀ e, e ∈ out ↔ ∃ f ∈ fs, e ∈ f.symbols := fun e => by rw [hm]; simp
  congr 1
  refine List.filter_congr fun x _ => decide_eq_decide.2 ?_
  exact forall_congr' fun e => forall_congr' fun c => forall_congr' fun _ => he _

/-- Water and sodium; the elements of `H2O`, and of `NaCl` and `H2O`. -/
example :
    let l : List (Impl Unit Unit) := [{ name := c!"H2O", elements := [(⟨c!"H", 1, [], []⟩, 2), (⟨c!"O", 16, [], []⟩, 1)], tags := [c!"a"] },
      { name := c!"Na+", elements := [(⟨c!"Na", 23, [], []⟩, 1)], charge := 1, state := some .Aqueous }]
    (∃ fs, List.Forall₂ (fun x f => Formula.ofString x = .ok f) [c!"NaCl", c!"H2O"] fs) ∧
      (∀ s ∈ l, s.name ≠ [] ∨ s.formula ≠ [] ∨ s.substance ≠ []) ∧
      (speciesSelect l (.withElementsOf [c!"H2O"])).bind (fun r => .ok (r.map Impl.getName)) = .ok [c!"H2O"] ∧
      (speciesSelect l (.withElementsOf [c!"NaCl", c!"H2O"])).bind (fun r => .ok (r.map Impl.getName)) = .ok [c!"H2O", c!"Na+"] ∧
      (speciesSelect l (.withoutTag c!"a")).bind (fun r => .ok (r.map Impl.getName)) = .ok [c!"Na+"] := by
  intro l
  refine ⟨⟨[⟨c!"NaCl", [(c!"Na", 1), (c!"Cl", 1)], 0⟩, ⟨c!"H2O", [(c!"H", 2), (c!"O", 1)], 0⟩],
    .cons (by decide +kernel) (.cons (by decide +kernel) .nil)⟩, by simp [l], by decide +kernel, by decide +kernel, by decide +kernel⟩

/-- The electron of the documentation's list would be selected by every list of elements, although it is composed of none of them
(SpeciesList.hpp:228-229 promises the species "composed of one or more given elements"). -/
theorem C98_electron_wrong :
    let e : Impl Unit Unit := { name := c!"e-", formula := c!"e-", charge := -1, state := some .Aqueous }
    speciesSelect [e] (.withElements [c!"Na"]) = .ok [e] ∧ ¬ ∃ x c, (x, c) ∈ e.getElements ∧ x.symbol ∈ [c!"Na"] := by
  intro e
  refine ⟨rfl, ?_⟩
  rintro ⟨x, c, h, _⟩
  simp [e, Impl.getElements] at h

/-! ### Formulas -/

theorem parse_nodup (s : Str) (result out : List (Str × Rat)) (scalar : Rat) (hn : (result.map Prod.fst).Nodup)
    (h : FormulaParser.parseAux s result scalar = .ok out) : (out.map Prod.fst).Nodup := by
  fun_induction FormulaParser.parseAux s result scalar generalizing out with
  | case1 result scalar => simp only [Res.ok.injEq] at h; exact h ▸ hn
  | case2 result scalar c rest h1 ih => exact ih _ hn h
  | case3 => cases h
  | case4 result scalar rest x after hm _ ih2 ih1 =>
    cases hr : FormulaParser.parseAux (Strings.findMatchingBracket 0 rest).1 result (scalar * (FormulaParser.parseNumAtoms after).1) with
    | ok r => rw [hr] at h; exact ih1 r out (ih2 r hn hr) h
    | throw => rw [hr] at h; cases h
    | ub => rw [hr] at h; cases h
  | case5 result scalar rest h1 h2 ih => exact ih _ hn h
  | case6 result scalar c rest h1 h2 h3 ih => exact ih _ (FormulaParser.nodup_addTo _ _ _ hn) h

/-- Formulas read from text have no element twice. -/
theorem ofString_nodup (s : Str) (f : Formula) (h : Formula.ofString s = .ok f) : f.symbols.Nodup := by
  unfold Formula.ofString at h
  obtain ⟨els, he, h⟩ := Res.bind_eq_ok.1 h
  obtain ⟨z, _, h⟩ := Res.bind_eq_ok.1 h
  simp only [Res.ok.injEq] at h
  subst h
  exact parse_nodup s [] els 1 (by simp) he

theorem nodup_elements {f : Formula} (h : f.symbols.Nodup) : f.elements.Nodup := List.Nodup.of_map _ h

/-- **C98**, comparison of formulas: without repeated elements, formulas are equivalent exactly if they have the same elements with the same
coefficients, in any order, and the same charge. -/
theorem C98_formulas_partial (f g : Formula) (hf : f.symbols.Nodup) (hg : g.symbols.Nodup) :
    f.equivalent g = true ↔ SameComposition f.elements g.elements ∧ f.charge = g.charge := by
  unfold EquilibriumSpecs.Formula.equivalent SameComposition
  simp only [Bool.and_eq_true, beq_iff_eq, List.all_eq_true, List.contains_iff_mem]
  constructor
  · rintro ⟨⟨hlen, hsub⟩, hz⟩
    refine ⟨fun e c => ?_, hz⟩
    have hp : f.elements.Perm g.elements :=
      (List.subperm_of_subset (nodup_elements hf) hsub).perm_of_length_le (by omega)
    exact hp.mem_iff
  · rintro ⟨h, hz⟩
    refine ⟨⟨?_, fun p hp => (h p.1 p.2).1 hp⟩, hz⟩
    have hp : f.elements.Perm g.elements :=
      (List.perm_ext_iff_of_nodup (nodup_elements hf) (nodup_elements hg)).2 fun p => h p.1 p.2
    exact hp.length_eq

/-- **C98**, formulas read from text: `equivalent` is reflexive, symmetric and transitive, and means the same composition and charge. -/
theorem C98_formulas_read (x y z : Str) (f g h : Formula) (hf : Formula.ofString x = .ok f) (hg : Formula.ofString y = .ok g)
    (hh : Formula.ofString z = .ok h) :
    (f.equivalent g = true ↔ SameComposition f.elements g.elements ∧ f.charge = g.charge) ∧ f.equivalent f = true ∧
      (f.equivalent g = true → g.equivalent f = true) ∧ (f.equivalent g = true → g.equivalent h = true → f.equivalent h = true) := by
  have nf := ofString_nodup x f hf
  have ng := ofString_nodup y g hg
  have nh := ofString_nodup z h hh
  refine ⟨C98_formulas_partial f g nf ng, (C98_formulas_partial f f nf nf).2 ⟨fun _ _ => Iff.rfl, rfl⟩, fun e => ?_, fun e1 e2 => ?_⟩
  · obtain ⟨a, b⟩ := (C98_formulas_partial f g nf ng).1 e
    exact (C98_formulas_partial g f ng nf).2 ⟨fun e c => (a e c).symm, b.symm⟩
  · obtain ⟨a, b⟩ := (C98_formulas_partial f g nf ng).1 e1
    obtain ⟨a', b'⟩ := (C98_formulas_partial g h ng nh).1 e2
    exact (C98_formulas_partial f h nf nh).2 ⟨fun e c => (a e c).trans (a' e c), b.trans b'⟩

/-- `HCO3-` and `CO3H-`. -/
example : Formula.ofString c!"HCO3-" = .ok ⟨c!"HCO3-", [(c!"H", 1), (c!"C", 1), (c!"O", 3)], -1⟩ ∧
    Formula.ofString c!"CO3H-" = .ok ⟨c!"CO3H-", [(c!"C", 1), (c!"O", 3), (c!"H", 1)], -1⟩ ∧
    EquilibriumSpecs.Formula.equivalent ⟨c!"HCO3-", [(c!"H", 1), (c!"C", 1), (c!"O", 3)], -1⟩ ⟨c!"CO3H-", [(c!"C", 1), (c!"O", 3), (c!"H", 1)], -1⟩ =
      true := by decide +kernel

/-- **C98**, comparison of formulas is wrong for compositions with an element listed twice (`ChemicalFormula(formula, symbols, charge)` and
`Species::withElements` accept them): `Na Na` is equivalent to `Na Cl`, and not the other way round. -/
theorem C98_formulas_wrong :
    ∃ f g : Formula, f.equivalent g = true ∧ g.equivalent f = false ∧ coefficientOf c!"Cl" f.elements ≠ coefficientOf c!"Cl" g.elements :=
  ⟨⟨c!"NaNa", [(c!"Na", 1), (c!"Na", 1)], 0⟩, ⟨c!"NaCl", [(c!"Na", 1), (c!"Cl", 1)], 0⟩, by decide +kernel⟩

/-- What it means that a species has a formula: the same composition and charge. -/
def HasFormula (f : Formula) (s : Impl M D) : Prop :=
  (∀ e c, (e, c) ∈ f.elements ↔ ∃ el, (el, c) ∈ s.getElements ∧ el.symbol = e) ∧ f.charge = s.getCharge

theorem hasFormula_iff (f : Formula) (s : Impl M D) (hf : f.symbols.Nodup) (hs : (s.getElements.map (·.1.symbol)).Nodup) :
    f.equivalent (formulaOf s) = true ↔ HasFormula f s := by
  have hg : (formulaOf s).symbols.Nodup := by
    have : (formulaOf s).symbols = s.getElements.map (·.1.symbol) := by
      simp [formulaOf, Formula.symbols, Impl.getFormula, Impl.getElements, Function.comp_def]
    rw [this]; exact hs
  rw [C98_formulas_partial f _ hf hg]
  unfold HasFormula SameComposition
  have : ∀ e c, (e, c) ∈ (formulaOf s).elements ↔ ∃ el, (el, c) ∈ s.getElements ∧ el.symbol = e := by
    intro e c
    simp only [formulaOf, Impl.getFormula, Impl.getElements, List.mem_map, Prod.mk.injEq, Prod.exists]
    constructor
    · rintro ⟨a, b, hm, rfl, rfl⟩; exact ⟨a, hm, rfl⟩
    · rintro ⟨a, hm, rfl⟩; exact ⟨a, c, hm, rfl, rfl⟩
  simp only [this]
  rfl

/-- **C98**, searches by formula, in lists of species that have no element twice: a species is found by every formula with its composition and
charge, whatever the order in which the elements are written. -/
theorem C98_species_formulas (l : List (Impl M D)) (hl : ∀ s ∈ l, (s.getElements.map (·.1.symbol)).Nodup) :
    (∀ x f, Formula.ofString x = .ok f →
      Finds (HasFormula f) l (speciesIndex l (.findWithFormula f)) ∧ Locates (HasFormula f) l (speciesIndex l (.indexWithFormula f)) ∧
      Gets (HasFormula f) l (speciesGet l (.getWithFormula f))) ∧
    ∀ xs, (∀ x ∈ xs, ∃ f, Formula.ofString x = .ok f) →
      Picks (fun x s => ∃ f, Formula.ofString x = .ok f ∧ HasFormula f s) l xs (speciesSelect l (.withFormulas xs)) := by
  have hd : ∀ x f, Formula.ofString x = .ok f → Decides (speciesWithFormula f) (HasFormula f) l := fun x f h =>
    decides_of l _ fun s hs => hasFormula_iff f s (ofString_nodup x f h) (hl s hs)
  refine ⟨fun x f h => ⟨finds _ (hd x f h), locates _ (hd x f h), gets _ (hd x f h)⟩, fun xs hx => picks l xs fun x hm => ?_⟩
  obtain ⟨f, hf⟩ := hx x hm
  have : (fun s : Impl M D => ∃ f, Formula.ofString x = .ok f ∧ HasFormula f s) = HasFormula f := by
    funext s
    simp [hf]
  rw [this, hf]
  exact gets _ (hd x f hf)

/-- Two species; the formula of the second is written in another order. -/
example :
    let l : List (Impl Unit Unit) := [{ name := c!"H2O", elements := [(⟨c!"H", 1, [], []⟩, 2), (⟨c!"O", 16, [], []⟩, 1)] },
      { name := c!"HCO3-", elements := [(⟨c!"H", 1, [], []⟩, 1), (⟨c!"C", 12, [], []⟩, 1), (⟨c!"O", 16, [], []⟩, 3)], charge := -1 }]
    (∀ s ∈ l, (s.getElements.map (·.1.symbol)).Nodup) ∧
      ∃ f, Formula.ofString c!"CO3H-" = .ok f ∧ speciesIndex l (.findWithFormula f) = .ok 1 := by
  refine ⟨by decide +kernel, ⟨c!"CO3H-", [(c!"C", 1), (c!"O", 3), (c!"H", 1)], -1⟩, by decide +kernel, by decide +kernel⟩

/-! ### Phases -/

variable {S F : Type} {solid : S} [DecidableEq S]

/-- The position of a phase in which the species with a global position lies. -/
def HoldsSpecies (l : List (PhaseImpl S F solid)) (index i : Nat) : Prop :=
  ((l.take i).map fun p => p.species.length).sum ≤ index ∧ index < ((l.take (i + 1)).map fun p => p.species.length).sum

omit [DecidableEq S] in
theorem findSpecies_spec (index : Nat) : ∀ (l : List (PhaseImpl S F solid)) (counter i : Nat), counter ≤ index →
    (∃ k, k < l.length ∧ findSpeciesLoop index counter i l = i + k ∧ counter + ((l.take k).map fun p => p.species.length).sum ≤ index ∧
      index < counter + ((l.take (k + 1)).map fun p => p.species.length).sum) ∨
    (findSpeciesLoop index counter i l = i + l.length ∧ counter + (l.map fun p => p.species.length).sum ≤ index) := by
  intro l
  induction l with
  | nil => intro counter i h; right; simp [findSpeciesLoop, h]
  | cons p rest ih =>
    intro counter i h
    by_cases hc : counter + p.species.length > index
    · left
      exact ⟨0, by simp, by simp [findSpeciesLoop, hc], by simpa using h, by simpa using hc⟩
    · rcases ih (counter + p.species.length) (i + 1) (by omega) with ⟨k, hk, he, h1, h2⟩ | ⟨he, h1⟩
      · left
        refine ⟨k + 1, by simpa using hk, by simp only [findSpeciesLoop, if_neg hc, he]; omega, ?_, ?_⟩
        · simp only [List.take_succ_cons, List.map_cons, List.sum_cons]; omega
        · simp only [List.take_succ_cons, List.map_cons, List.sum_cons]
          omega
      · right
        refine ⟨by simp only [findSpeciesLoop, if_neg hc, he, List.length_cons]; omega, ?_⟩
        simp only [List.map_cons, List.sum_cons]; omega

/-- **C98**, searches in lists of phases by name, by the name of a species, by state of matter and, where the aggregate states can be read, by
aggregate state. -/
theorem C98_phases (l : List (PhaseImpl S F solid)) :
    (∀ n, Finds (fun p => p.name = n) l (phaseIndex l (.find n)) ∧ Finds (fun p => p.name = n) l (phaseIndex l (.findWithName n)) ∧
      Locates (fun p => p.name = n) l (phaseIndex l (.index n)) ∧ Locates (fun p => p.name = n) l (phaseIndex l (.indexWithName n))) ∧
    (∀ n, Finds (fun p => ∃ s ∈ p.species, s.name = n) l (phaseIndex l (.findWithSpecies n)) ∧
      Locates (fun p => ∃ s ∈ p.species, s.name = n) l (phaseIndex l (.indexWithSpecies n))) ∧
    (∀ st, Finds (fun p => p.state = st) l (phaseIndex l (.findWithStateOfMatter st)) ∧
      Locates (fun p => p.state = st) l (phaseIndex l (.indexWithStateOfMatter st)) ∧
      Keeps (fun p => p.state = st) l (phaseSelect l (.withStateOfMatter st))) ∧
    (∀ ns, Picks (fun n p => p.name = n) l ns (phaseSelect l (.withNames ns))) ∧
    ((∀ p ∈ l, ∃ st, p.getAggregateState = .ok st) → ∀ st,
      Finds (fun p => p.getAggregateState = .ok st) l (phaseIndex l (.findWithAggregateState st)) ∧
      Locates (fun p => p.getAggregateState = .ok st) l (phaseIndex l (.indexWithAggregateState st)) ∧
      Keeps (fun p => p.getAggregateState = .ok st) l (phaseSelect l (.withAggregateState st))) := by
  have hn : ∀ n, Decides (phaseWithName n) (fun p : PhaseImpl S F solid => p.name = n) l := fun n => decides_of l _ (by simp)
  have hs : ∀ n, Decides (phaseWithSpecies n) (fun p : PhaseImpl S F solid => ∃ s ∈ p.species, s.name = n) l := fun n =>
    decides_of l _ fun p _ => by
      cases p.species <;> simp
  have hm : ∀ n, Decides (phaseWithStateOfMatter n) (fun p : PhaseImpl S F solid => p.state = n) l := fun n => decides_of l _ (by simp)
  refine ⟨fun n => ⟨finds _ (hn n), finds _ (hn n), locates _ (hn n), locates _ (hn n)⟩, fun n => ⟨finds _ (hs n), locates _ (hs n)⟩,
    fun st => ⟨finds _ (hm st), locates _ (hm st), keeps _ (hm st)⟩, fun ns => picks l ns fun n _ => gets _ (hn n), fun h st => ?_⟩
  have ha : Decides (phaseWithAggregateState st) (fun p : PhaseImpl S F solid => p.getAggregateState = .ok st) l := decides_bind l _ st h
  exact ⟨finds _ ha, locates _ ha, keeps _ ha⟩

/-- **C98**, the phase of a species given by its position among all species: the phase whose block of positions contains it; beyond the last
species, the number of phases or an exception. -/
theorem C98_phases_species (l : List (PhaseImpl S F solid)) (index : Nat) :
    (index < (l.map fun p => p.species.length).sum → ∃ i, i < l.length ∧ HoldsSpecies l index i ∧
      phaseIndex l (.findWithSpeciesIndex index) = .ok i ∧ phaseIndex l (.indexWithSpeciesIndex index) = .ok i) ∧
    ((l.map fun p => p.species.length).sum ≤ index →
      phaseIndex l (.findWithSpeciesIndex index) = .ok l.length ∧ phaseIndex l (.indexWithSpeciesIndex index) = .throw) := by
  have hle : ∀ k, ((l.take k).map fun p => p.species.length).sum ≤ (l.map fun p => p.species.length).sum := by
    intro k
    conv_rhs => rw [← List.take_append_drop k l, List.map_append, List.sum_append]
    exact Nat.le_add_right _ _
  rcases findSpecies_spec index l 0 0 (Nat.zero_le _) with ⟨k, hk, he, h1, h2⟩ | ⟨he, h1⟩
  · simp only [Nat.zero_add] at he h1 h2
    refine ⟨fun _ => ⟨k, hk, ⟨h1, h2⟩, by simp [phaseIndex, he], by simp [phaseIndex, he, hk]⟩, fun h => ?_⟩
    have := hle (k + 1)
    omega
  · simp only [Nat.zero_add] at he h1
    exact ⟨fun h => by omega, fun _ => ⟨by simp [phaseIndex, he], by simp [phaseIndex, he]⟩⟩

/-- Two phases, with one and two species. -/
example :
    let s (n : Str) : Species := ⟨n, n, [], 0, .Aqueous, [], [], []⟩
    let l : List (PhaseImpl Bool Unit false) := [{ name := c!"a", species := [s c!"x"] }, { name := c!"b", state := true, species := [s c!"y", s c!"z"] }]
    phaseIndex l (.findWithSpeciesIndex 2) = .ok 1 ∧ phaseIndex l (.findWithSpecies c!"z") = .ok 1 ∧
      phaseIndex l (.findWithStateOfMatter true) = .ok 1 ∧ phaseIndex l (.indexWithSpeciesIndex 3) = .throw ∧
      ∀ p ∈ l, ∃ st, p.getAggregateState = .ok st := by
  intro s l
  refine ⟨rfl, by decide +kernel, by decide +kernel, rfl, ?_⟩
  intro p hp
  simp only [l, List.mem_cons, List.not_mem_nil, or_false] at hp
  rcases hp with rfl | rfl <;> exact ⟨_, rfl⟩

/-! ### Algorithms -/

theorem rangeLoop_getElem (first step : Int) : ∀ (n i k : Nat), (rangeLoop first step i n)[k]? = if k < n then some (first + (i + k : Nat) * step) else none := by
  intro n
  induction n with
  | zero => intro i k; simp [rangeLoop]
  | succ n ih =>
    intro i k
    cases k with
    | zero => simp [rangeLoop]
    | succ k =>
      simp only [rangeLoop, List.getElem?_cons_succ, ih]
      by_cases h : k < n
      · simp only [h, if_true, Nat.add_lt_add_iff_right]
        congr 2
        push_cast
        ring
      · simp [h]

/-- **C98**, ranges of integers with a positive step: the numbers `first + k step` below `last`, in order, and no others. -/
theorem C98_range (first last step : Int) (hs : 0 < step) :
    ∃ l, range first last step = .ok l ∧ ∀ k : Nat, l[k]? = if first + k * step < last then some (first + k * step) else none := by
  unfold range
  by_cases h : last ≤ first
  · refine ⟨[], by simp [h], fun k => ?_⟩
    have : 0 ≤ (k : Int) * step := mul_nonneg (by positivity) hs.le
    rw [if_neg (by omega)]
    simp
  · rw [if_neg h, if_neg (by omega)]
    have hq0 : 0 ≤ Int.tdiv (last - first - 1) step := Int.tdiv_nonneg (by omega) hs.le
    dsimp only
    rw [if_neg (by omega)]
    refine ⟨_, rfl, fun k => ?_⟩
    rw [rangeLoop_getElem]
    have hq : Int.tdiv (last - first - 1) step = (last - first - 1) / step := Int.tdiv_eq_ediv_of_nonneg (by omega)
    have hiff : k < (Int.tdiv (last - first - 1) step).toNat + 1 ↔ first + k * step < last := by
      have h1 : k < (Int.tdiv (last - first - 1) step).toNat + 1 ↔ (k : Int) ≤ (last - first - 1) / step := by
        rw [← hq]; omega
      rw [h1, Int.le_ediv_iff_mul_le hs]
      omega
    by_cases hk : first + k * step < last
    · simp [hk, hiff.2 hk]
    · simp [hk, mt hiff.1 hk]

example : range 1 10 4 = .ok [1, 5, 9] ∧ range 3 3 1 = .ok [] := by decide +kernel

/-- **C98**, ranges of floating-point numbers are wrong: `range(0.0, 1.0, 0.5)` has one number, where the numbers `0.0` and `0.5` lie below
`1.0`; and `range(0.0, 2.0, 0.25)` has five of eight. -/
theorem C98_range_wrong : rangeRat 0 1 (1 / 2) = .ok [0] ∧ rangeRat 0 2 (1 / 4) = .ok [0, 1 / 4, 1 / 2, 3 / 4, 1] := by decide +kernel

/-- **C98**, sums: `sum(a, b, f)` is the sum of `f` over the numbers from `a` up to `b`, without `b`. -/
theorem C98_sum (a b : Nat) (f : Nat → Rat) : sum a b f = ∑ i ∈ Finset.Ico a b, f i := by
  have h : ∀ n i r, sumLoop f i n r = r + ∑ j ∈ Finset.Ico i (i + n), f j := by
    intro n
    induction n with
    | zero => intro i r; simp [sumLoop]
    | succ n ih =>
      intro i r
      rw [sumLoop, ih, Finset.sum_eq_sum_Ico_succ_bot (by omega : i < i + (n + 1))]
      rw [show i + 1 + n = i + (n + 1) by omega]
      ring
  unfold sum
  rw [h, zero_add]
  by_cases hab : a ≤ b
  · rw [Nat.add_sub_cancel' hab]
  · have : b - a = 0 := by omega
    rw [this, Finset.Ico_eq_empty (by omega), Finset.Ico_eq_empty (by omega)]

/-- **C98**, operations on lists as sets. -/
theorem C98_sets (a b : List Str) :
    (∀ x, x ∈ intersect a b ↔ x ∈ a ∧ x ∈ b) ∧ (∀ x, x ∈ difference a b ↔ x ∈ a ∧ x ∉ b) ∧ (∀ x, x ∈ merge a b ↔ x ∈ a ∨ x ∈ b) ∧
      (disjoint a b = true ↔ ∀ x ∈ a, x ∉ b) ∧ (identical a b = true ↔ ∀ x, x ∈ a ↔ x ∈ b) ∧ (contained a b = true ↔ ∀ x ∈ a, x ∈ b) ∧
      (∀ x, x ∈ unique a ↔ x ∈ a) := by
  refine ⟨fun x => by simp [intersect, contains_iff], fun x => ?_, fun x => Phases.mem_merge a b x, ?_, ?_, contained_iff a b, fun x => ?_⟩
  · rw [difference, List.mem_filter, Bool.not_eq_true', ← Bool.not_eq_true, contains_iff]
  · induction a with
    | nil => simp [disjoint]
    | cons y rest ih =>
      rw [disjoint]
      by_cases h : contains b y = true
      · simp only [h, if_true]
        have := (contains_iff b y).1 h
        simp [this]
      · rw [if_neg h, ih]
        have := mt (contains_iff b y).2 h
        simp [this]
  · rw [identical, Bool.and_eq_true, contained_iff, contained_iff]
    exact ⟨fun h x => ⟨h.1 x, h.2 x⟩, fun h => ⟨fun x => (h x).1, fun x => (h x).2⟩⟩
  · have := Phases.mem_merge a [] x
    simpa [merge, unique] using this

end Verif.Lists
