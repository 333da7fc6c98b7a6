import Verif.Spec.EquilibriumSpecs
import Mathlib.Data.List.Forall2
import Mathlib.Data.List.Nodup
import Mathlib.Tactic.Common

/-!
# Lemmas for C35, C36 and C37
-/

namespace Verif.EquilibriumSpecs

variable {K Pr : Type}

theorem getElem?_append_some {l l' : List Str} {i : Nat} {x : Str} (h : l[i]? = some x) : (l ++ l')[i]? = some x := by
  rw [List.getElem?_append_left (by rw [List.getElem?_eq_some_iff] at h; exact h.1)]
  exact h

theorem wiredE_append {l l' : List Str} {fn : EFn K Pr} (h : WiredE l fn) : WiredE (l ++ l') fn := by
  cases fn <;> first | exact getElem?_append_some h | trivial

theorem wiredU_append {l l' : List Str} {name : Str} {f : Formula} {fn : UFn K Pr} (h : WiredU l name f fn) :
    WiredU (l ++ l') name f fn := by
  cases fn with
  | value idx => exact getElem?_append_some h
  | activity sp c idx => exact ⟨getElem?_append_some h.1, h.2⟩
  | pE idx => exact ⟨getElem?_append_some h.1, h.2⟩
  | Eh idx => exact ⟨getElem?_append_some h.1, h.2⟩
  | custom f => trivial

theorem consistent_append {s : Specs K Pr} (hs : Consistent s) {v : Str} (hv : v ∉ s.inputs) :
    Consistent { s with inputs := s.inputs ++ [v] } where
  inputs := by
    rw [List.nodup_append]
    exact ⟨hs.inputs, List.nodup_singleton _, by intro a ha b hb; rw [List.mem_singleton] at hb; subst hb; rintro rfl; exact hv ha⟩
  titrantsExplicit := hs.titrantsExplicit
  titrantsImplicit := hs.titrantsImplicit
  titrants := hs.titrants
  potentials := hs.potentials
  econstraints := hs.econstraints
  uconstraints := hs.uconstraints
  efunctions := fun c hc => by
    obtain ⟨fn, h1, h2⟩ := hs.efunctions c hc
    exact ⟨fn, h1, wiredE_append h2⟩
  ufunctions := fun c hc => by
    obtain ⟨fn, h1, h2⟩ := hs.ufunctions c hc
    exact ⟨fn, h1, wiredU_append h2⟩
  params := hs.params.imp fun _ _ h => getElem?_append_some h
  paramsIdxs := hs.paramsIdxs
  temperature := fun h => List.mem_append_left _ (hs.temperature h)
  pressure := fun h => List.mem_append_left _ (hs.pressure h)

theorem addInput_eq (s : Specs K Pr) (v : Str) :
    (v ∈ s.inputs ∧ addInput s v = (s, none)) ∨
    (v ∉ s.inputs ∧ addInput s v = ({ s with inputs := s.inputs ++ [v] }, some s.inputs.length)) := by
  unfold addInput
  by_cases h : v ∈ s.inputs
  · left; exact ⟨h, if_pos (by simpa using h)⟩
  · right; exact ⟨h, if_neg (by simpa using h)⟩

theorem addE_eq (s : Specs K Pr) (c : EConstraint K Pr) :
    addEConstraint s c = (s, false) ∨
    ((∀ x ∈ s.econstraints, x.name ≠ c.name) ∧ c.name ≠ [] ∧ (∃ fn, c.fn = some fn) ∧
      addEConstraint s c = ({ s with econstraints := s.econstraints ++ [c] }, true)) := by
  unfold addEConstraint
  split_ifs with h1 h2 h3
  · exact .inl rfl
  · exact .inl rfl
  · exact .inl rfl
  · right
    refine ⟨?_, ?_, ?_, rfl⟩
    · intro x hx hn
      exact h1 (List.any_eq_true.2 ⟨x, hx, by simp [hn]⟩)
    · intro h; exact h2 (by rw [h]; rfl)
    · cases h : c.fn with
      | none => rw [h] at h3; exact absurd rfl h3
      | some fn => exact ⟨fn, rfl⟩

theorem registered_false {s : Specs K Pr} {f : Formula} (h : ¬ titrantRegistered s f = true) :
    (∀ x ∈ s.titrantsExplicit, x.equivalent f = false) ∧ (∀ x ∈ s.titrantsImplicit, x.equivalent f = false) := by
  unfold titrantRegistered at h
  rw [Bool.not_eq_true, Bool.or_eq_false_iff, List.any_eq_false, List.any_eq_false] at h
  exact ⟨fun x hx => by simpa using h.1 x hx, fun x hx => by simpa using h.2 x hx⟩

theorem addU_eq (s : Specs K Pr) (c : UConstraint K Pr) :
    addUConstraint s c = (s, false) ∨
    ((∀ x ∈ s.uconstraints, x.name ≠ c.name) ∧ c.name ≠ [] ∧ (∃ fn, c.fn = some fn) ∧
      (∀ x ∈ s.titrantsExplicit, x.equivalent c.substance = false) ∧ (∀ x ∈ s.titrantsImplicit, x.equivalent c.substance = false) ∧
      addUConstraint s c =
        ({ s with uconstraints := s.uconstraints ++ [c], titrantsImplicit := s.titrantsImplicit ++ [c.substance] }, true)) := by
  unfold addUConstraint
  split_ifs with h1 h2 h3 h4
  · exact .inl rfl
  · exact .inl rfl
  · exact .inl rfl
  · exact .inl rfl
  · right
    refine ⟨?_, ?_, ?_, (registered_false h4).1, (registered_false h4).2, rfl⟩
    · intro x hx hn
      exact h1 (List.any_eq_true.2 ⟨x, hx, by simp [hn]⟩)
    · intro h; exact h2 (by rw [h]; rfl)
    · cases h : c.fn with
      | none => rw [h] at h3; exact absurd rfl h3
      | some fn => exact ⟨fn, rfl⟩

theorem openTo_eq (s : Specs K Pr) (f : Formula) :
    openTo s f = (s, false) ∨
    ((∀ x ∈ s.titrantsExplicit, x.equivalent f = false) ∧ (∀ x ∈ s.titrantsImplicit, x.equivalent f = false) ∧
      openTo s f = ({ s with titrantsExplicit := s.titrantsExplicit ++ [f] }, true)) := by
  unfold openTo
  split_ifs with h
  · exact .inl rfl
  · exact .inr ⟨(registered_false h).1, (registered_false h).2, rfl⟩

theorem addE_consistent {s : Specs K Pr} (hs : Consistent s) (c : EConstraint K Pr) (hc : ∀ fn, c.fn = some fn → WiredE s.inputs fn) :
    Consistent (addEConstraint s c).1 := by
  rcases addE_eq s c with h | ⟨h1, -, ⟨fn, h3⟩, h4⟩
  · rw [h]; exact hs
  · rw [h4]
    refine { hs with econstraints := ?_, efunctions := ?_ }
    · dsimp only
      rw [List.map_append, List.nodup_append]
      refine ⟨hs.econstraints, List.nodup_singleton _, ?_⟩
      intro a ha b hb hab
      rw [List.map_singleton, List.mem_singleton] at hb
      obtain ⟨x, hx, rfl⟩ := List.mem_map.1 ha
      exact h1 x hx (hab.trans hb)
    · intro x hx
      rcases List.mem_append.1 hx with hx | hx
      · exact hs.efunctions x hx
      · rw [List.mem_singleton] at hx; subst hx
        exact ⟨fn, h3, hc fn h3⟩

theorem addU_consistent {s : Specs K Pr} (hs : Consistent s) (c : UConstraint K Pr)
    (hc : ∀ fn, c.fn = some fn → WiredU s.inputs c.name c.substance fn) : Consistent (addUConstraint s c).1 := by
  rcases addU_eq s c with h | ⟨h1, -, ⟨fn, h3⟩, h4, h5, h6⟩
  · rw [h]; exact hs
  · rw [h6]
    refine { hs with uconstraints := ?_, ufunctions := ?_, titrantsImplicit := ?_, titrants := ?_, potentials := ?_ }
    · dsimp only
      rw [List.pairwise_append]
      exact ⟨hs.titrantsImplicit, List.pairwise_singleton _ _, by
        intro a ha b hb; rw [List.mem_singleton] at hb; subst hb; exact h5 a ha⟩
    · intro f hf g hg hfg
      rcases List.mem_append.1 hg with hg | hg
      · exact hs.titrants f hf g hg hfg
      · rw [List.mem_singleton] at hg; subst hg
        rw [h4 f hf] at hfg
        exact Bool.noConfusion hfg.1
    · dsimp only
      rw [List.map_append, hs.potentials]; rfl
    · dsimp only
      rw [List.map_append, List.nodup_append]
      refine ⟨hs.uconstraints, List.nodup_singleton _, ?_⟩
      intro a ha b hb hab
      rw [List.map_singleton, List.mem_singleton] at hb
      obtain ⟨x, hx, rfl⟩ := List.mem_map.1 ha
      exact h1 x hx (hab.trans hb)
    · intro x hx
      rcases List.mem_append.1 hx with hx | hx
      · exact hs.ufunctions x hx
      · rw [List.mem_singleton] at hx; subst hx
        exact ⟨fn, h3, hc fn h3⟩

theorem openTo_consistent {s : Specs K Pr} (hs : Consistent s) (f : Formula) : Consistent (openTo s f).1 := by
  rcases openTo_eq s f with h | ⟨h1, h2, h3⟩
  · rw [h]; exact hs
  · rw [h3]
    refine { hs with titrantsExplicit := ?_, titrants := ?_ }
    · dsimp only
      rw [List.pairwise_append]
      exact ⟨hs.titrantsExplicit, List.pairwise_singleton _ _, by
        intro a ha b hb; rw [List.mem_singleton] at hb; subst hb; exact h1 a ha⟩
    · intro g hg i hi hgi
      rcases List.mem_append.1 hg with hg | hg
      · exact hs.titrants g hg i hi hgi
      · rw [List.mem_singleton] at hg; subst hg
        rw [h2 i hi] at hgi
        exact Bool.noConfusion hgi.2

theorem getElem?_last (l : List Str) (v : Str) : (l ++ [v])[l.length]? = some v := by simp

theorem property_consistent {s : Specs K Pr} (hs : Consistent s) (name input : Str) (fn : Nat → EFn K Pr)
    (hfn : ∀ l idx, l[idx]? = some input → WiredE l (fn idx)) : Consistent (constrainProperty s name input fn).1 := by
  unfold constrainProperty
  rcases addInput_eq s input with ⟨-, h⟩ | ⟨h1, h⟩
  · rw [h]; exact hs
  · rw [h]
    refine addE_consistent (consistent_append hs h1) _ ?_
    intro f hf
    simp only [Option.some.injEq] at hf
    subst hf
    exact hfn _ _ (getElem?_last _ _)

theorem potential_consistent {s : Specs K Pr} (hs : Consistent s) (name : Str) (f : Formula) (fn : Nat → UFn K Pr)
    (hfn : ∀ l idx, l[idx]? = some name → WiredU l name f (fn idx)) : Consistent (constrainPotential s name f fn).1 := by
  unfold constrainPotential
  rcases addInput_eq s name with ⟨-, h⟩ | ⟨h1, h⟩
  · rw [h]; exact hs
  · rw [h]
    refine addU_consistent (consistent_append hs h1) _ ?_
    intro g hg
    simp only [Option.some.injEq] at hg
    subst hg
    exact hfn _ _ (getElem?_last _ _)

theorem _root_.List.Forall₂.exists_left_of_mem {α β : Type} {R : α → β → Prop} {l : List α} {l' : List β} (h : List.Forall₂ R l l') {b : β}
    (hb : b ∈ l') : ∃ a ∈ l, R a b := by
  induction h with
  | nil => cases hb
  | cons hr _ ih =>
    rcases List.mem_cons.1 hb with rfl | hb
    · exact ⟨_, List.mem_cons_self, hr⟩
    · obtain ⟨a, ha, hab⟩ := ih hb
      exact ⟨a, List.mem_cons_of_mem _ ha, hab⟩

theorem step_consistent (parse : Str → Option Formula) {s : Specs K Pr} (hs : Consistent s) (c : Call K Pr) :
    Consistent (step parse s c).1 := by
  have hact : ∀ sp conv name, ∀ (l : List Str) idx, l[idx]? = some name →
      WiredU (K := K) (Pr := Pr) l name (Species.formula sp) (.activity sp conv idx) := fun _ _ _ _ _ h => ⟨h, rfl⟩
  cases c with
  | temperature =>
    simp only [step, temperature]
    rcases addInput_eq { s with unknownT := false } c!"T" with ⟨h1, h⟩ | ⟨h1, h⟩
    · rw [h]
      exact { hs with temperature := fun _ => h1 }
    · rw [h]
      have := consistent_append hs h1
      exact { this with temperature := fun _ => List.mem_append_right _ List.mem_cons_self }
  | pressure =>
    simp only [step, pressure]
    rcases addInput_eq { s with unknownP := false } c!"P" with ⟨h1, h⟩ | ⟨h1, h⟩
    · rw [h]
      exact { hs with pressure := fun _ => h1 }
    · rw [h]
      have := consistent_append hs h1
      exact { this with pressure := fun _ => List.mem_append_right _ List.mem_cons_self }
  | volume => exact property_consistent hs _ _ _ fun _ _ h => h
  | internalEnergy => exact property_consistent hs _ _ _ fun _ _ h => h
  | enthalpy => exact property_consistent hs _ _ _ fun _ _ h => h
  | gibbsEnergy => exact property_consistent hs _ _ _ fun _ _ h => h
  | helmholtzEnergy => exact property_consistent hs _ _ _ fun _ _ h => h
  | entropy => exact property_consistent hs _ _ _ fun _ _ h => h
  | chemicalPotential x =>
    simp only [step, chemicalPotential]
    split
    · exact hs
    · exact potential_consistent hs _ _ _ fun _ _ h => h
  | lnActivitySpecies x => exact potential_consistent hs _ _ _ (hact _ _ _)
  | lnActivity x =>
    simp only [step, lnActivity]
    split
    · exact hs
    · exact potential_consistent hs _ _ _ (hact _ _ _)
  | fugacity x =>
    simp only [step, fugacity]
    split
    · exact hs
    · split
      · exact hs
      · split_ifs
        · exact hs
        · exact potential_consistent hs _ _ _ (hact _ _ _)
  | pH =>
    simp only [step, minusLgActivity]
    split
    · exact hs
    · split
      · exact hs
      · split_ifs
        · exact hs
        · exact potential_consistent hs _ _ _ (hact _ _ _)
  | pMg =>
    simp only [step, minusLgActivity]
    split
    · exact hs
    · split
      · exact hs
      · split_ifs
        · exact hs
        · exact potential_consistent hs _ _ _ (hact _ _ _)
  | pE =>
    simp only [step, pE]
    split
    · exact hs
    · exact potential_consistent hs _ _ _ fun _ _ h => ⟨h, rfl⟩
  | Eh =>
    simp only [step, Eh]
    split
    · exact hs
    · exact potential_consistent hs _ _ _ fun _ _ h => ⟨h, rfl⟩
  | openTo f => exact openTo_consistent hs f
  | addEConstraint name fn =>
    refine addE_consistent hs _ ?_
    intro f hf
    obtain ⟨g, -, rfl⟩ := Option.map_eq_some_iff.1 hf
    trivial
  | addUConstraint name f fn =>
    refine addU_consistent hs _ ?_
    intro f hf
    obtain ⟨g, -, rfl⟩ := Option.map_eq_some_iff.1 hf
    trivial
  | addInput v =>
    simp only [step]
    rcases addInput_eq s v with ⟨-, h⟩ | ⟨h1, h⟩
    · rw [h]; exact hs
    · rw [h]; exact consistent_append hs h1
  | addInputParam p =>
    simp only [step, addInputParam]
    rcases addInput_eq s p.id with ⟨-, h⟩ | ⟨h1, h⟩
    · rw [h]; exact hs
    · rw [h]
      have := consistent_append hs h1
      refine { this with params := List.rel_append this.params (.cons (getElem?_last _ _) .nil), paramsIdxs := ?_ }
      have hlt : ∀ i ∈ s.paramsIdxs, i < s.inputs.length := by
        intro i hi
        obtain ⟨q, -, hq⟩ := hs.params.exists_left_of_mem hi
        exact (List.getElem?_eq_some_iff.1 hq).1
      dsimp only
      rw [List.nodup_append]
      refine ⟨hs.paramsIdxs, List.nodup_singleton _, ?_⟩
      intro a ha b hb hab
      rw [List.mem_singleton] at hb
      have := hlt a ha
      omega

theorem valueOf_of_getElem? (inputs : List Str) (hnd : inputs.Nodup) (w : List K) (hw : w.length = inputs.length) (idx : Nat) (name : Str)
    (h : inputs[idx]? = some name) : ∃ v, w[idx]? = some v ∧ valueOf inputs w name = some v := by
  unfold valueOf
  induction inputs generalizing w idx with
  | nil => simp at h
  | cons a l ih =>
    cases w with
    | nil => simp at hw
    | cons x w =>
      cases idx with
      | zero =>
        simp at h; subst h
        exact ⟨x, rfl, by simp⟩
      | succ i =>
        rw [List.nodup_cons] at hnd
        have h' : l[i]? = some name := by simpa using h
        have hne : name ≠ a := by
          rintro rfl
          exact hnd.1 (List.mem_of_getElem? h')
        obtain ⟨v, h1, h2⟩ := ih hnd.2 w (by simpa using hw) i h'
        refine ⟨v, by simpa using h1, ?_⟩
        rw [List.zip_cons_cons, List.lookup_cons]
        rw [show (name == a) = false from by simpa using hne]
        exact h2

theorem at!_some {α : Type} {l : List α} {i : Nat} {x : α} (h : l[i]? = some x) : at! l i = .ok x := by
  unfold at!; rw [h]

theorem mapM_ok {α β : Type} (f : α → Res β) (l : List α) (h : ∀ x ∈ l, ∃ y, f x = .ok y) :
    ∃ ys, l.mapM f = .ok ys ∧ List.Forall₂ (fun x y => f x = .ok y) l ys := by
  induction l with
  | nil => exact ⟨[], rfl, .nil⟩
  | cons a l ih =>
    obtain ⟨y, hy⟩ := h a List.mem_cons_self
    obtain ⟨ys, h1, h2⟩ := ih fun x hx => h x (List.mem_cons_of_mem _ hx)
    refine ⟨y :: ys, ?_, .cons hy h2⟩
    rw [List.mapM_cons, hy, h1]
    rfl

theorem mapM_ne_ub {α β : Type} (f : α → Res β) (l : List α) (h : ∀ x ∈ l, f x ≠ .ub) : l.mapM f ≠ .ub := by
  induction l with
  | nil => exact fun h => nomatch h
  | cons a l ih =>
    rw [List.mapM_cons]
    have h1 := h a List.mem_cons_self
    have h2 := ih fun x hx => h x (List.mem_cons_of_mem _ hx)
    cases h3 : f a with
    | ub => exact absurd h3 h1
    | throw => exact fun h => nomatch h
    | ok y =>
      cases h4 : l.mapM f with
      | ub => exact absurd h4 h2
      | throw => exact fun h => nomatch h
      | ok ys => exact fun h => nomatch h

theorem mapM_ub {α β : Type} (f : α → Res β) (l : List α) (a : α) (ha : a ∈ l) (h : f a = .ub) (h' : ∀ x ∈ l, f x ≠ .throw) :
    l.mapM f = .ub := by
  induction l with
  | nil => cases ha
  | cons b l ih =>
    rw [List.mapM_cons]
    rcases List.mem_cons.1 ha with rfl | ha
    · rw [h]; rfl
    · cases h3 : f b with
      | ub => rfl
      | throw => exact absurd h3 (h' b List.mem_cons_self)
      | ok y =>
        rw [ih ha fun x hx => h' x (List.mem_cons_of_mem _ hx)]
        rfl

end Verif.EquilibriumSpecs
