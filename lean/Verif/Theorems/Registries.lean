import Verif.Spec.Registries
import Mathlib.Data.List.Nodup
import Mathlib.Data.List.Perm.Subperm
import Mathlib.Data.List.Induction
import Mathlib.Algebra.Order.Ring.Rat
import Mathlib.Tactic.Linarith

/-!
# C54: the registries of dissociation reactions, critical properties and elements
-/

namespace Verif.Registries

/-! ## Auxiliary facts -/

theorem index_get {α : Type} (l : List α) (p : α → Bool) :
    (if Chem.indexfn l p < l.length then l[Chem.indexfn l p]? else none) = l.find? p := by
  unfold Chem.indexfn
  induction l with
  | nil => simp
  | cons a l ih =>
    by_cases h : p a
    · simp [List.findIdx_cons, h]
    · simp only [List.findIdx_cons, h, cond_false, List.length_cons, Nat.add_lt_add_iff_right, List.getElem?_cons_succ]
      rw [List.find?_cons_of_neg h]
      exact ih

theorem getReaction_eq (l : List Reaction) (f : Formula) :
    getReaction l f = l.find? (fun r => r.complex.equivalent f) := index_get l _

theorem lookup_eq (l : List Substance) (n : Str) : lookup l n = l.find? (fun s => Chem.contains s.names n) :=
  index_get l _

theorem contains_iff (c : List Str) (x : Str) : Chem.contains c x = true ↔ x ∈ c := by
  unfold Chem.contains
  cases c with
  | nil => simp
  | cons a c => simp only [List.length_cons, bne_iff_ne, ne_eq, Nat.add_eq_zero_iff, one_ne_zero, and_false, not_false_eq_true,
      Bool.and_eq_true, List.any_eq_true, beq_iff_eq, true_and, exists_eq_right]

theorem equivalent_iff {f g : Formula} (hf : ElementsOnce f) (hg : ElementsOnce g) :
    f.equivalent g = true ↔ SameFormula f g := by
  have hf' : f.elements.Nodup := List.Nodup.of_map _ hf
  have hg' : g.elements.Nodup := List.Nodup.of_map _ hg
  unfold EquilibriumSpecs.Formula.equivalent SameFormula
  simp only [Bool.and_eq_true, beq_iff_eq, List.all_eq_true, List.contains_iff_mem]
  constructor
  · rintro ⟨⟨hl, hs⟩, hc⟩
    refine ⟨hc, fun x => ⟨hs x, fun hx => ?_⟩⟩
    have hp : f.elements.Perm g.elements := (hf'.subperm hs).perm_of_length_le (by omega)
    exact hp.mem_iff.mpr hx
  · rintro ⟨hc, hs⟩
    refine ⟨⟨?_, fun x hx => (hs x).mp hx⟩, hc⟩
    exact ((List.perm_ext_iff_of_nodup hf' hg').mpr hs).length_eq

theorem SameFormula.symm {f g : Formula} (h : SameFormula f g) : SameFormula g f := ⟨h.1.symm, fun x => (h.2 x).symm⟩
theorem SameFormula.trans {f g k : Formula} (h : SameFormula f g) (h' : SameFormula g k) : SameFormula f k :=
  ⟨h.1.trans h'.1, fun x => (h.2 x).trans (h'.2 x)⟩

theorem defaultIons_of_get (f : Formula) (hf : ElementsOnce f) (l : List Reaction)
    (hl : ∀ r ∈ l, ElementsOnce r.complex) : DefaultIons f l ((getReaction l f).map (·.ions)) := by
  induction l with
  | nil => exact .none
  | cons r rest ih =>
    rw [getReaction_eq]
    have hr := hl r (by simp)
    by_cases h : r.complex.equivalent f
    · rw [List.find?_cons_of_pos (by simpa using h)]
      exact .here r rest ((equivalent_iff hr hf).mp h)
    · rw [List.find?_cons_of_neg (by simpa using h), ← getReaction_eq]
      exact .there r rest _ (fun hs => h ((equivalent_iff hr hf).mpr hs)) (ih fun x hx => hl x (by simp [hx]))

theorem append_wf (r : Reaction) (hr : ElementsOnce r.complex) (l : List Reaction)
    (hl : ∀ x ∈ l, ElementsOnce x.complex) : ∀ x ∈ appendReaction r l, ElementsOnce x.complex := by
  induction l with
  | nil => intro x hx; simp only [appendReaction, List.mem_singleton] at hx; rw [hx]; exact hr
  | cons c rest ih =>
    intro x hx
    unfold appendReaction at hx
    by_cases h : r.complex.equivalent c.complex
    · rw [if_pos h] at hx
      rcases List.mem_cons.mp hx with rfl | hx
      · exact hl c (by simp)
      · exact hl x (by simp [hx])
    · rw [if_neg h] at hx
      rcases List.mem_cons.mp hx with rfl | hx
      · exact hl x (by simp)
      · exact ih (fun y hy => hl y (by simp [hy])) x hx

theorem get_append_same (r : Reaction) (f : Formula) (hf : ElementsOnce f) (hr : ElementsOnce r.complex)
    (l : List Reaction) (hl : ∀ x ∈ l, ElementsOnce x.complex) (h : SameFormula r.complex f) :
    (getReaction (appendReaction r l) f).map (·.ions) = some r.ions := by
  simp only [getReaction_eq]
  induction l with
  | nil => simp [appendReaction, (equivalent_iff hr hf).mpr h]
  | cons c rest ih =>
    have hc := hl c (by simp)
    unfold appendReaction
    by_cases h1 : r.complex.equivalent c.complex
    · rw [if_pos h1]
      have : SameFormula c.complex f := ((equivalent_iff hr hc).mp h1).symm.trans h
      rw [List.find?_cons_of_pos (by simpa using (equivalent_iff hc hf).mpr this)]
      rfl
    · rw [if_neg h1]
      have : ¬ c.complex.equivalent f = true := fun h2 =>
        h1 ((equivalent_iff hr hc).mpr (h.trans ((equivalent_iff hc hf).mp h2).symm))
      rw [List.find?_cons_of_neg (by simpa using this)]
      exact ih fun x hx => hl x (by simp [hx])

theorem get_append_other (r : Reaction) (f : Formula) (hf : ElementsOnce f) (hr : ElementsOnce r.complex)
    (l : List Reaction) (hl : ∀ x ∈ l, ElementsOnce x.complex) (h : ¬ SameFormula r.complex f) :
    (getReaction (appendReaction r l) f).map (·.ions) = (getReaction l f).map (·.ions) := by
  simp only [getReaction_eq]
  have hr' : ¬ r.complex.equivalent f = true := fun h' => h ((equivalent_iff hr hf).mp h')
  induction l with
  | nil => simp [appendReaction, hr']
  | cons c rest ih =>
    have hc := hl c (by simp)
    unfold appendReaction
    by_cases h1 : r.complex.equivalent c.complex
    · rw [if_pos h1]
      have : ¬ c.complex.equivalent f = true := fun h2 =>
        h (((equivalent_iff hr hc).mp h1).trans ((equivalent_iff hc hf).mp h2))
      rw [List.find?_cons_of_neg (by simpa using this), List.find?_cons_of_neg (by simpa using this)]
    · rw [if_neg h1]
      by_cases h2 : c.complex.equivalent f = true
      · rw [List.find?_cons_of_pos (by simpa using h2), List.find?_cons_of_pos (by simpa using h2)]
      · rw [List.find?_cons_of_neg (by simpa using h2), List.find?_cons_of_neg (by simpa using h2)]
        exact ih fun x hx => hl x (by simp [hx])

theorem runD_wf (d0 : List Reaction) (h0 : ∀ r ∈ d0, ElementsOnce r.complex) (ops : List DOp)
    (hops : ∀ r, .append r ∈ ops → ElementsOnce r.complex) : ∀ r ∈ runD d0 ops, ElementsOnce r.complex := by
  induction ops using List.reverseRecOn with
  | nil => exact h0
  | append_singleton ops op ih =>
    have hr : runD d0 (ops ++ [op]) = stepD d0 (runD d0 ops) op := by simp [runD]
    rw [hr]
    have ih' := ih fun r hr => hops r (by simp [hr])
    cases op with
    | reset => exact h0
    | append r => exact append_wf r (hops r (by simp)) _ ih'

/-! ## Dissociation reactions -/

/-- **C54.** After every history of calls, the ions found for a complex are the ones registered last for it, since the last
reset, or else the default ones. -/
theorem C54_dissociation_last (d0 : List Reaction) (h0 : ∀ r ∈ d0, ElementsOnce r.complex) (ops : List DOp)
    (hops : ∀ r, .append r ∈ ops → ElementsOnce r.complex) (f : Formula) (hf : ElementsOnce f) :
    LastIons d0 f ops.reverse ((getReaction (runD d0 ops) f).map (·.ions)) := by
  induction ops using List.reverseRecOn with
  | nil => exact .start _ (defaultIons_of_get f hf d0 h0)
  | append_singleton ops op ih =>
    have hr : runD d0 (ops ++ [op]) = stepD d0 (runD d0 ops) op := by simp [runD]
    have hwf := runD_wf d0 h0 ops fun r hr => hops r (by simp [hr])
    rw [hr, List.reverse_append]
    cases op with
    | reset => exact .reset _ _ (defaultIons_of_get f hf d0 h0)
    | append r =>
      have hrc := hops r (by simp)
      by_cases h : SameFormula r.complex f
      · have := get_append_same r f hf hrc _ hwf h
        simp only [stepD] at *
        rw [this]
        exact .this r _ h
      · have := get_append_other r f hf hrc _ hwf h
        simp only [stepD] at *
        rw [this]
        exact .other r _ _ h (ih fun r hr => hops r (by simp [hr]))

/-- What the specification relates to a history is unique. -/
theorem C54_last_unique (d0 : List Reaction) (f : Formula) (ops : List DOp) (o o' : Option (List (Rat × Formula)))
    (h : LastIons d0 f ops o) (h' : LastIons d0 f ops o') : o = o' := by
  have hd : ∀ l o o', DefaultIons f l o → DefaultIons f l o' → o = o' := by
    intro l o o' h h'
    induction h with
    | none => cases h'; rfl
    | here r rest hs => cases h' with
      | here => rfl
      | there _ _ _ hn => exact absurd hs hn
    | there r rest o hn _ ih => cases h' with
      | here _ _ hs => exact absurd hs hn
      | there _ _ _ _ h2 => exact ih h2
  induction h with
  | start o h => cases h' with | start _ h2 => exact hd _ _ _ h h2
  | reset older o h => cases h' with | reset _ _ h2 => exact hd _ _ _ h h2
  | this r older hs => cases h' with
    | this => rfl
    | other _ _ _ hn => exact absurd hs hn
  | other r older o hn _ ih => cases h' with
    | this _ _ hs => exact absurd hs hn
    | other _ _ _ _ h2 => exact ih h2

/-- **C54.** The coefficient of an ion in a complex is the one listed in the reaction registered last, and zero if the ion is
not in that reaction or there is no reaction. -/
theorem C54_coefficient (l : List Reaction) (complex ion : Formula) :
    (getReaction l complex = none → coefficient l complex ion = 0) ∧
    (∀ r, getReaction l complex = some r →
      ((∀ p ∈ r.ions, p.2.equivalent ion = false) → coefficient l complex ion = 0) ∧
      (∀ c q, (c, q) ∈ r.ions → q.equivalent ion = true →
        (r.ions.Pairwise fun a b => ¬ (a.2.equivalent ion = true ∧ b.2.equivalent ion = true)) →
        coefficient l complex ion = c)) := by
  refine ⟨fun h => by simp [coefficient, h], fun r h => ?_⟩
  simp only [coefficient, h]
  generalize r.ions = ions
  constructor
  · intro hn
    induction ions with
    | nil => rfl
    | cons p rest ih =>
      have := hn p (by simp)
      simp only [ionCoefficient, this]
      exact ih fun q hq => hn q (by simp [hq])
  · intro c q hm hq hp
    induction ions with
    | nil => cases hm
    | cons p rest ih =>
      rw [List.pairwise_cons] at hp
      unfold ionCoefficient
      by_cases he : p.2.equivalent ion = true
      · rw [if_pos he]
        rcases List.mem_cons.mp hm with rfl | hm
        · rfl
        · exact absurd ⟨he, hq⟩ (hp.1 _ hm)
      · rw [if_neg he]
        rcases List.mem_cons.mp hm with rfl | hm
        · exact absurd hq he
        · exact ih hm hp.2

/-- The default reactions as a list (the parser accepts every formula of the table, `C54_default_parses`). -/
def defaults : List Reaction := match defaultReactions with
  | .ok l => l
  | _ => []

/-- **C54.** The start of the program builds the default table without exception or undefined behaviour. -/
theorem C54_default_parses : defaultReactions = .ok defaults ∧ defaults.length = 170 := by decide +kernel

/-- Decidable form of `Balanced`. -/
def balancedB (r : Reaction) : Bool :=
  r.complex.charge == (r.ions.map fun p => p.1 * p.2.charge).sum &&
  ((r.complex.elements ++ r.ions.flatMap fun p => p.2.elements).map (·.1)).all fun s =>
    coefficientIn r.complex.elements s == (r.ions.map fun p => p.1 * coefficientIn p.2.elements s).sum

theorem coefficientIn_zero (l : List (Str × Rat)) (s : Str) (h : s ∉ l.map (·.1)) : coefficientIn l s = 0 := by
  induction l with
  | nil => rfl
  | cons p rest ih =>
    obtain ⟨k, v⟩ := p
    simp only [List.map_cons, List.mem_cons, not_or] at h
    simp only [coefficientIn, if_neg (Ne.symm h.1), ih h.2]

theorem balanced_of_B (r : Reaction) (h : balancedB r = true) : Balanced r := by
  simp only [balancedB, Bool.and_eq_true, beq_iff_eq, List.all_eq_true] at h
  refine ⟨h.1, fun s => ?_⟩
  by_cases hs : s ∈ (r.complex.elements ++ r.ions.flatMap fun p => p.2.elements).map (·.1)
  · exact h.2 s hs
  · simp only [List.map_append, List.mem_append, not_or] at hs
    rw [coefficientIn_zero _ _ hs.1]
    have hz : ∀ p ∈ r.ions, coefficientIn p.2.elements s = 0 := by
      intro p hp
      apply coefficientIn_zero
      intro hm
      apply hs.2
      obtain ⟨e, he, rfl⟩ := List.mem_map.mp hm
      exact List.mem_map.mpr ⟨e, List.mem_flatMap.mpr ⟨p, hp, he⟩, rfl⟩
    revert hz
    generalize r.ions = ions
    intro hz
    induction ions with
    | nil => rfl
    | cons p rest ih =>
      rw [List.map_cons, List.sum_cons, hz p (by simp), ← ih fun q hq => hz q (by simp [hq])]
      simp

/-- **C54.** Every default dissociation reaction conserves every element and the charge. -/
theorem C54_default_balanced : ∀ r ∈ defaults, Balanced r := by
  have h : defaults.all balancedB = true := by decide +kernel
  intro r hr
  exact balanced_of_B r (List.all_eq_true.mp h r hr)

/-- **C54.** The formulas of the default table list no element twice and no complex twice, every complex is neutral and every
product is charged. -/
theorem C54_default_wellformed :
    (∀ r ∈ defaults, ElementsOnce r.complex ∧ r.complex.charge = 0 ∧ ∀ p ∈ r.ions, ElementsOnce p.2 ∧ p.2.charge ≠ 0) ∧
    defaults.Pairwise (fun r r' => r.complex.equivalent r'.complex = false) := by
  unfold ElementsOnce
  decide +kernel

theorem addTo_mem (e : Str) (x : Rat) (l : List (Str × Rat)) (k : Str)
    (hk : k ∈ (FormulaParser.addTo e x l).map (·.1)) : k = e ∨ k ∈ l.map (·.1) := by
  induction l with
  | nil => simp only [FormulaParser.addTo, List.map_cons, List.map_nil, List.mem_singleton] at hk; exact .inl hk
  | cons p rest ih =>
    obtain ⟨a, v⟩ := p
    unfold FormulaParser.addTo at hk
    by_cases ha : a = e
    · rw [if_pos ha] at hk; exact .inr hk
    · rw [if_neg ha] at hk
      simp only [List.map_cons, List.mem_cons] at hk ⊢
      rcases hk with rfl | hk
      · exact .inr (.inl rfl)
      · rcases ih hk with h | h
        · exact .inl h
        · exact .inr (.inr h)

theorem addTo_nodup (e : Str) (x : Rat) (l : List (Str × Rat)) (hn : (l.map (·.1)).Nodup) :
    ((FormulaParser.addTo e x l).map (·.1)).Nodup := by
  induction l with
  | nil => simp [FormulaParser.addTo]
  | cons p rest ih =>
    obtain ⟨a, v⟩ := p
    simp only [List.map_cons, List.nodup_cons] at hn
    unfold FormulaParser.addTo
    by_cases ha : a = e
    · rw [if_pos ha]; simp only [List.map_cons, List.nodup_cons]; exact hn
    · rw [if_neg ha]
      simp only [List.map_cons, List.nodup_cons]
      refine ⟨fun hk => ?_, ih hn.2⟩
      rcases addTo_mem e x rest a hk with h | h
      · exact ha h
      · exact hn.1 h

theorem parseAux_nodup (n : Nat) : ∀ (s : Str), s.length < n → ∀ (l : List (Str × Rat)) (k : Rat) (r : List (Str × Rat)),
    (l.map (·.1)).Nodup → FormulaParser.parseAux s l k = .ok r → (r.map (·.1)).Nodup := by
  induction n with
  | zero => intro s hs; omega
  | succ n ih =>
    intro s hs l k r hn h
    cases s with
    | nil => rw [FormulaParser.parseAux] at h; cases h; exact hn
    | cons c rest =>
      rw [FormulaParser.parseAux] at h
      simp only [List.length_cons] at hs
      split at h
      · exact ih rest (by omega) l k r hn h
      · split at h
        · split at h
          · cases h
          · rename_i x after hm
            have h1 := Strings.findMatchingBracket_length 0 rest
            have h3 : ∀ (l : Int) (t : Str), (Strings.findMatchingBracket l t).1.length ≤ t.length := by
              intro l t
              induction t generalizing l with
              | nil => simp [Strings.findMatchingBracket]
              | cons x t ih =>
                simp only [Strings.findMatchingBracket]
                split
                · simp
                · simp only [List.length_cons]; have := ih (Strings.nextLevel l x); omega
            have h4 := h3 0 rest
            have h2 := FormulaParser.parseNumAtoms_length after
            rw [hm] at h1
            simp only [List.length_cons] at h1
            cases hp : FormulaParser.parseAux (Strings.findMatchingBracket 0 rest).1 l
                (k * (FormulaParser.parseNumAtoms after).1) with
            | throw => rw [hp] at h; cases h
            | ub => rw [hp] at h; cases h
            | ok r1 =>
              rw [hp] at h
              exact ih _ (by omega) r1 k r (ih _ (by omega) l _ r1 hn hp) h
        · split at h
          · have h2 := FormulaParser.parseNumAtoms_length rest
            exact ih _ (by omega) l _ r hn h
          · have h1 := FormulaParser.parseElementAtom_length c rest
            have h2 := FormulaParser.parseNumAtoms_length (FormulaParser.parseElementAtom (c :: rest)).2
            exact ih _ (by omega) _ k r (addTo_nodup _ _ _ hn) h

/-- **C54.** The texts accepted by the parser give formulas that list no element twice, so the theorems on histories apply to
every formula made from a text. -/
theorem C54_parsed_once (s : Str) (f : Formula) (h : formula s = .ok f) : ElementsOnce f := by
  unfold formula at h
  cases hp : FormulaParser.parseChemicalFormula s with
  | throw => rw [hp] at h; cases h
  | ub => rw [hp] at h; cases h
  | ok e =>
    rw [hp] at h
    simp only [Res.bind_ok'] at h
    cases hz : ChargeParser.parseElectricCharge s with
    | throw => rw [hz] at h; cases h
    | ub => rw [hz] at h; cases h
    | ok z =>
      rw [hz] at h
      cases h
      exact parseAux_nodup (s.length + 1) s (by omega) [] 1 e (by simp) hp

/-- The hypotheses of the theorems above are met by the default table and a history that replaces, adds and resets. -/
example : ∃ na cl foo : Formula, formula c!"Na+" = .ok na ∧ formula c!"Cl-" = .ok cl ∧ formula c!"ClNa" = .ok foo ∧
    ElementsOnce foo ∧
    (getReaction (runD defaults [.append ⟨foo, [(2, na)]⟩]) foo).map (·.ions) = some [(2, na)] ∧
    (getReaction (runD defaults [.append ⟨foo, [(2, na)]⟩, .reset]) foo).map (·.ions) = some [(1, na), (1, cl)] ∧
    (runD defaults [.append ⟨foo, [(2, na)]⟩]).length = 170 :=
  ⟨⟨c!"Na+", [(c!"Na", 1)], 1⟩, ⟨c!"Cl-", [(c!"Cl", 1)], -1⟩, ⟨c!"ClNa", [(c!"Cl", 1), (c!"Na", 1)], 0⟩, by
    unfold ElementsOnce; decide +kernel⟩

end Verif.Registries
