import Verif.Lemmas.EquilibriumSpecs
import Mathlib.Data.List.Induction
import Mathlib.Algebra.Field.Rat
import Mathlib.Algebra.Group.Basic
import Mathlib.Data.List.Perm.Subperm

/-!
# Theorems C35, C36 and C37: equilibrium specifications
-/

namespace Verif.EquilibriumSpecs

variable {K Pr : Type}

/-! ## C35 -/

/-- **C35.** After every sequence of calls, also when some of them throw, the specification is consistent. -/
theorem C35_invariant (parse : Str → Option Formula) (db : List Species) (calls : List (Call K Pr)) : Consistent (run parse db calls) := by
  unfold run
  have : ∀ s : Specs K Pr, Consistent s → Consistent (calls.foldl (fun s c => (step parse s c).1) s) := by
    induction calls with
    | nil => intro s hs; exact hs
    | cons c calls ih => intro s hs; exact ih _ (step_consistent parse hs c)
  apply this
  constructor <;> simp

theorem equivalent_symm {f g : Formula} (hf : (f.elements.map (·.1)).Nodup) (h : f.equivalent g = true) : g.equivalent f = true := by
  unfold Formula.equivalent at h ⊢
  simp only [Bool.and_eq_true, beq_iff_eq, List.all_eq_true, List.contains_iff_mem] at h ⊢
  obtain ⟨⟨h1, h2⟩, h3⟩ := h
  refine ⟨⟨h1.symm, ?_⟩, h3.symm⟩
  have hnd : f.elements.Nodup := List.Nodup.of_map _ hf
  have hsub : List.Subperm f.elements g.elements := List.subperm_of_subset hnd h2
  have hperm : f.elements.Perm g.elements := hsub.perm_of_length_le (by omega)
  intro x hx
  exact hperm.mem_iff.2 hx

/-- **C35 (titrants).** If no titrant lists an element twice, any two titrants in the list of all titrants are not equivalent, in
either order. -/
theorem C35_titrants (parse : Str → Option Formula) (db : List Species) (calls : List (Call K Pr))
    (h : ∀ f ∈ (run parse db calls).titrantsExplicit ++ (run parse db calls).titrantsImplicit, (f.elements.map (·.1)).Nodup) :
    ((run parse db calls).titrantsExplicit ++ (run parse db calls).titrantsImplicit).Pairwise
      fun f g => f.equivalent g = false ∧ g.equivalent f = false := by
  have hc := C35_invariant parse db calls
  generalize run parse db calls = s at h hc
  have hsymm : ∀ f ∈ s.titrantsExplicit ++ s.titrantsImplicit, ∀ g ∈ s.titrantsExplicit ++ s.titrantsImplicit,
      f.equivalent g = false → g.equivalent f = false := by
    intro f hf g hg hfg
    cases e : g.equivalent f with
    | false => rfl
    | true => rw [equivalent_symm (h g hg) e] at hfg; cases hfg
  rw [List.pairwise_append]
  refine ⟨?_, ?_, ?_⟩
  · refine hc.titrantsExplicit.imp_of_mem ?_
    intro f g hf hg hfg
    exact ⟨hfg, hsymm f (List.mem_append_left _ hf) g (List.mem_append_left _ hg) hfg⟩
  · refine hc.titrantsImplicit.imp_of_mem ?_
    intro f g hf hg hfg
    exact ⟨hfg, hsymm f (List.mem_append_right _ hf) g (List.mem_append_right _ hg) hfg⟩
  · intro f hf g hg
    have := hc.titrants f hf g hg
    have hfg : f.equivalent g = false := by
      cases e : f.equivalent g with
      | false => rfl
      | true => exact absurd ⟨e, equivalent_symm (h f (List.mem_append_left _ hf)) e⟩ this
    exact ⟨hfg, hsymm f (List.mem_append_left _ hf) g (List.mem_append_right _ hg) hfg⟩

/-- **C35 (numbers and names).** The numbers reported agree with the lists of names, and control variables are those of type p
followed by those of type q. -/
theorem C35_numbers (parse : Str → Option Formula) (db : List Species) (calls : List (Call K Pr)) :
    let s := run parse db calls
    numControlVariables s = numControlVariablesP s + numControlVariablesQ s ∧
    (namesControlVariables s).length = numControlVariables s ∧
    (namesControlVariablesP s).length = numControlVariablesP s ∧
    (namesControlVariablesQ s).length = numControlVariablesQ s ∧
    (namesConstraints s).length = numConstraints s ∧
    numControlVariablesQ s = s.uconstraints.length ∧
    (namesParams s).length = s.paramsIdxs.length := by
  intro s
  have hc : Consistent s := C35_invariant parse db calls
  have hp : (namesControlVariablesP s).length = numControlVariablesP s := by
    unfold namesControlVariablesP numControlVariablesP
    cases s.unknownT <;> cases s.unknownP <;> simp <;> omega
  have hq : (namesControlVariablesQ s).length = numControlVariablesQ s := by
    unfold namesControlVariablesQ numControlVariablesQ; simp
  have h1 : numControlVariables s = numControlVariablesP s + numControlVariablesQ s := by
    unfold numControlVariables numControlVariablesP numControlVariablesQ numTitrants; omega
  refine ⟨h1, ?_, hp, hq, ?_, ?_, ?_⟩
  · unfold namesControlVariables; rw [List.length_append, hp, hq, h1]
  · unfold namesConstraints numConstraints; simp
  · unfold numControlVariablesQ; rw [← hc.potentials, List.length_map]
  · unfold namesParams; rw [List.length_map, hc.params.length_eq]

/-- **C35, limit.** An input with the name of the temperature may be added while temperature stays unknown. -/
theorem C35_temperature_input_and_unknown : ∃ s : Specs Rat Unit, s = run (fun _ => none) [] [.addInput c!"T"] ∧
    c!"T" ∈ s.inputs ∧ s.unknownT = true ∧ c!"T" ∈ namesControlVariablesP s :=
  ⟨_, rfl, by decide +kernel, by decide +kernel, by decide +kernel⟩

/-! ## C36 -/

theorem property_throw (s : Specs K Pr) (name input : Str) (fn : Nat → EFn K Pr) (h : (constrainProperty s name input fn).2 = false) :
    (constrainProperty s name input fn).1 = s ∨
    (constrainProperty s name input fn).1 = { s with inputs := s.inputs ++ [input] } := by
  unfold constrainProperty at h ⊢
  rcases addInput_eq s input with ⟨-, e⟩ | ⟨-, e⟩
  · rw [e]; exact .inl rfl
  · rw [e] at h ⊢
    dsimp only at h ⊢
    rcases addE_eq { s with inputs := s.inputs ++ [input] } ⟨name, some (fn s.inputs.length)⟩ with h' | ⟨-, -, -, h'⟩
    · rw [h']; exact .inr rfl
    · rw [h'] at h; cases h

theorem potential_throw (s : Specs K Pr) (name : Str) (f : Formula) (fn : Nat → UFn K Pr) (h : (constrainPotential s name f fn).2 = false) :
    (constrainPotential s name f fn).1 = s ∨
    (constrainPotential s name f fn).1 = { s with inputs := s.inputs ++ [name] } := by
  unfold constrainPotential at h ⊢
  rcases addInput_eq s name with ⟨-, e⟩ | ⟨-, e⟩
  · rw [e]; exact .inl rfl
  · rw [e] at h ⊢
    dsimp only at h ⊢
    rcases addU_eq { s with inputs := s.inputs ++ [name] } ⟨name, f, some (fn s.inputs.length)⟩ with h' | ⟨-, -, -, -, -, h'⟩
    · rw [h']; exact .inr rfl
    · rw [h'] at h; cases h

/-- **C36, partial.** The calls `openTo`, `addConstraint` and `addInput` leave the specification unchanged if they throw. Missing: all
other calls, for which the claim is false (`C36_rejected_call_leaves_input`, `C36_rejected_temperature`). -/
theorem C36_unchanged_partial (parse : Str → Option Formula) (s : Specs K Pr) (c : Call K Pr) (h : (step parse s c).2 = false)
    (hc : match c with
      | .openTo _ => True
      | .addEConstraint _ _ => True
      | .addUConstraint _ _ _ => True
      | .addInput _ => True
      | .addInputParam _ => True
      | _ => False) : (step parse s c).1 = s := by
  cases c with
  | openTo f =>
    simp only [step] at h ⊢
    rcases openTo_eq s f with e | ⟨-, -, e⟩
    · rw [e]
    · rw [e] at h; cases h
  | addEConstraint name fn =>
    simp only [step] at h ⊢
    rcases addE_eq s ⟨name, fn.map .custom⟩ with e | ⟨-, -, -, e⟩
    · rw [e]
    · rw [e] at h; cases h
  | addUConstraint name f fn =>
    simp only [step] at h ⊢
    rcases addU_eq s ⟨name, f, fn.map .custom⟩ with e | ⟨-, -, -, -, -, e⟩
    · rw [e]
    · rw [e] at h; cases h
  | addInput v =>
    simp only [step] at h ⊢
    rcases addInput_eq s v with ⟨-, e⟩ | ⟨-, e⟩
    · rw [e]
    · rw [e] at h; cases h
  | addInputParam p =>
    simp only [step, addInputParam] at h ⊢
    rcases addInput_eq s p.id with ⟨-, e⟩ | ⟨-, e⟩
    · rw [e]
    · rw [e] at h; cases h
  | _ => exact hc.elim

/-- **C36 (what remains of a rejected call).** A call that throws never changes titrants, constraints or parameters; at most it adds
one input or declares temperature or pressure as known. -/
theorem C36_effect_of_throw (parse : Str → Option Formula) (s : Specs K Pr) (c : Call K Pr) (h : (step parse s c).2 = false) :
    ∃ l t p, (step parse s c).1 = { s with inputs := s.inputs ++ l, unknownT := t, unknownP := p } ∧ l.length ≤ 1 ∧
      (t = true → s.unknownT = true) ∧ (p = true → s.unknownP = true) := by
  have key : ∀ s' : Specs K Pr, ((∃ v, s' = { s with inputs := s.inputs ++ [v] }) ∨ s' = s) →
      ∃ l t p, s' = { s with inputs := s.inputs ++ l, unknownT := t, unknownP := p } ∧ l.length ≤ 1 ∧
      (t = true → s.unknownT = true) ∧ (p = true → s.unknownP = true) := by
    rintro s' (⟨v, rfl⟩ | rfl)
    · exact ⟨[v], s.unknownT, s.unknownP, rfl, Nat.le_refl _, id, id⟩
    · exact ⟨[], s'.unknownT, s'.unknownP, by rw [List.append_nil], Nat.zero_le _, id, id⟩
  have hprop : ∀ name input fn, (constrainProperty s name input fn).2 = false →
      (∃ v, (constrainProperty s name input fn).1 = { s with inputs := s.inputs ++ [v] }) ∨ (constrainProperty s name input fn).1 = s :=
    fun name input fn h => (property_throw s name input fn h).elim .inr (fun e => .inl ⟨_, e⟩)
  have hpot : ∀ name f fn, (constrainPotential s name f fn).2 = false →
      (∃ v, (constrainPotential s name f fn).1 = { s with inputs := s.inputs ++ [v] }) ∨ (constrainPotential s name f fn).1 = s :=
    fun name f fn h => (potential_throw s name f fn h).elim .inr (fun e => .inl ⟨_, e⟩)
  cases c with
  | temperature =>
    simp only [step, temperature] at h ⊢
    rcases addInput_eq { s with unknownT := false } c!"T" with ⟨-, e⟩ | ⟨-, e⟩
    · rw [e]
      exact ⟨[], false, s.unknownP, by rw [List.append_nil], Nat.zero_le _, fun h => Bool.noConfusion h, id⟩
    · rw [e] at h; cases h
  | pressure =>
    simp only [step, pressure] at h ⊢
    rcases addInput_eq { s with unknownP := false } c!"P" with ⟨-, e⟩ | ⟨-, e⟩
    · rw [e]
      exact ⟨[], s.unknownT, false, by rw [List.append_nil], Nat.zero_le _, id, fun h => Bool.noConfusion h⟩
    · rw [e] at h; cases h
  | volume => exact key _ (hprop _ _ _ h)
  | internalEnergy => exact key _ (hprop _ _ _ h)
  | enthalpy => exact key _ (hprop _ _ _ h)
  | gibbsEnergy => exact key _ (hprop _ _ _ h)
  | helmholtzEnergy => exact key _ (hprop _ _ _ h)
  | entropy => exact key _ (hprop _ _ _ h)
  | chemicalPotential x =>
    simp only [step, chemicalPotential] at h ⊢
    split at h
    · exact key _ (.inr rfl)
    · exact key _ (hpot _ _ _ h)
  | lnActivitySpecies x => exact key _ (hpot _ _ _ h)
  | lnActivity x =>
    simp only [step, lnActivity] at h ⊢
    split at h
    · exact key _ (.inr rfl)
    · exact key _ (hpot _ _ _ h)
  | fugacity x =>
    simp only [step, fugacity] at h ⊢
    split at h
    · exact key _ (.inr rfl)
    · split at h
      · exact key _ (.inr rfl)
      · split at h
        · rename_i h'; rw [if_pos h']; exact key _ (.inr rfl)
        · rename_i h'; rw [if_neg h']; exact key _ (hpot _ _ _ h)
  | pH =>
    simp only [step, minusLgActivity] at h ⊢
    split at h
    · exact key _ (.inr rfl)
    · split at h
      · exact key _ (.inr rfl)
      · split at h
        · rename_i h'; rw [if_pos h']; exact key _ (.inr rfl)
        · rename_i h'; rw [if_neg h']; exact key _ (hpot _ _ _ h)
  | pMg =>
    simp only [step, minusLgActivity] at h ⊢
    split at h
    · exact key _ (.inr rfl)
    · split at h
      · exact key _ (.inr rfl)
      · split at h
        · rename_i h'; rw [if_pos h']; exact key _ (.inr rfl)
        · rename_i h'; rw [if_neg h']; exact key _ (hpot _ _ _ h)
  | pE =>
    simp only [step, pE] at h ⊢
    split at h
    · exact key _ (.inr rfl)
    · exact key _ (hpot _ _ _ h)
  | Eh =>
    simp only [step, Eh] at h ⊢
    split at h
    · exact key _ (.inr rfl)
    · exact key _ (hpot _ _ _ h)
  | openTo f => exact key _ (.inr (C36_unchanged_partial parse s _ h trivial))
  | addEConstraint name fn => exact key _ (.inr (C36_unchanged_partial parse s _ h trivial))
  | addUConstraint name f fn => exact key _ (.inr (C36_unchanged_partial parse s _ h trivial))
  | addInput v => exact key _ (.inr (C36_unchanged_partial parse s _ h trivial))
  | addInputParam p => exact key _ (.inr (C36_unchanged_partial parse s _ h trivial))

/-- The formula of the electron, as parsed from `e-`. -/
def electron : Formula := ⟨c!"e-", [], -1⟩

/-- A parser that knows the electron. -/
def parseElectron : Str → Option Formula := fun s => if s = c!"e-" then some electron else none

/-- **C36, counterexample.** After `pE`, the call `Eh` throws, because both constrain the electron, and leaves an input `Eh` behind
which no constraint reads. -/
theorem C36_rejected_call_leaves_input : ∃ s : Specs Rat Unit, s = run parseElectron [] [.pE] ∧
    (step parseElectron s .Eh).2 = false ∧ s.inputs = [c!"pE"] ∧ (step parseElectron s .Eh).1.inputs = [c!"pE", c!"Eh"] ∧
    namesConstraints (step parseElectron s .Eh).1 = [c!"pE"] :=
  ⟨_, rfl, by decide +kernel, by decide +kernel, by decide +kernel, by decide +kernel⟩

/-- **C36, counterexample.** If an input named `T` exists, `temperature` throws, but the temperature is not unknown any more. -/
theorem C36_rejected_temperature : ∃ s : Specs Rat Unit, s = run (fun _ => none) [] [.addInput c!"T"] ∧
    (step (fun _ => none) s .temperature).2 = false ∧ s.unknownT = true ∧ (step (fun _ => none) s .temperature).1.unknownT = false :=
  ⟨_, rfl, by decide +kernel, by decide +kernel, by decide +kernel⟩

/-! ## C37 -/

/-- **C37 (acceptance).** A specification is accepted exactly when there is one equation constraint for each control variable of type
p; the chemical potential constraints always are as many as the control variables of type q. -/
theorem C37_accepted_iff (parse : Str → Option Formula) (db : List Species) (calls : List (Call K Pr)) :
    let s := run parse db calls
    (dimsAccept s = true ↔ s.econstraints.length = numControlVariablesP s) ∧ s.uconstraints.length = numControlVariablesQ s := by
  intro s
  have hq : numControlVariablesQ s = s.uconstraints.length := (C35_numbers parse db calls).2.2.2.2.2.1
  refine ⟨?_, hq.symm⟩
  unfold dimsAccept numConstraints
  rw [beq_iff_eq, hq]
  omega

variable [Ring K]

theorem evalE_wired (env : Env K Pr) (props : Pr) (inputs : List Str) (hnd : inputs.Nodup) (w : List K) (hw : w.length = inputs.length)
    (fn : EFn K Pr) (hfn : WiredE inputs fn) :
    (∃ r, evalE env props w fn = .ok r ∧ ResidualE env props inputs w r fn) ∨ (∃ f, fn = .custom f) := by
  have key := fun idx name h => valueOf_of_getElem? inputs hnd w hw idx name h
  cases fn with
  | custom f => exact .inr ⟨f, rfl⟩
  | volume idx => obtain ⟨v, h1, h2⟩ := key idx _ hfn; exact .inl ⟨_, by simp only [evalE]; rw [at!_some h1]; rfl, v, h2, rfl⟩
  | internalEnergy idx => obtain ⟨v, h1, h2⟩ := key idx _ hfn; exact .inl ⟨_, by simp only [evalE]; rw [at!_some h1]; rfl, v, h2, rfl⟩
  | enthalpy idx => obtain ⟨v, h1, h2⟩ := key idx _ hfn; exact .inl ⟨_, by simp only [evalE]; rw [at!_some h1]; rfl, v, h2, rfl⟩
  | gibbsEnergy idx => obtain ⟨v, h1, h2⟩ := key idx _ hfn; exact .inl ⟨_, by simp only [evalE]; rw [at!_some h1]; rfl, v, h2, rfl⟩
  | helmholtzEnergy idx => obtain ⟨v, h1, h2⟩ := key idx _ hfn; exact .inl ⟨_, by simp only [evalE]; rw [at!_some h1]; rfl, v, h2, rfl⟩
  | entropy idx => obtain ⟨v, h1, h2⟩ := key idx _ hfn; exact .inl ⟨_, by simp only [evalE]; rw [at!_some h1]; rfl, v, h2, rfl⟩

theorem evalU_wired (env : Env K Pr) (props : Pr) (inputs : List Str) (hnd : inputs.Nodup) (w : List K) (hw : w.length = inputs.length)
    (name : Str) (f : Formula) (fn : UFn K Pr) (hfn : WiredU inputs name f fn) :
    (∃ r, evalU env props w fn = .ok r ∧ PotentialU env props inputs w name r fn) ∨
    (∃ sp c i, fn = .activity sp c i ∧ env.G0 sp (env.temperature props) (env.pressure props) = none ∧ evalU env props w fn = .throw) ∨
    (∃ f, fn = .custom f) := by
  have key := fun idx name h => valueOf_of_getElem? inputs hnd w hw idx name h
  cases fn with
  | custom f => exact .inr (.inr ⟨f, rfl⟩)
  | value idx => obtain ⟨v, h1, h2⟩ := key idx _ hfn; exact .inl ⟨_, by simp only [evalU]; rw [at!_some h1], h2⟩
  | activity sp c idx =>
    obtain ⟨v, h1, h2⟩ := key idx _ hfn.1
    cases hg : env.G0 sp (env.temperature props) (env.pressure props) with
    | none => exact .inr (.inl ⟨sp, c, idx, rfl, hg, by simp only [evalU, hg]⟩)
    | some u0 =>
      left
      refine ⟨_, by simp only [evalU, hg]; rw [at!_some h1]; rfl, v, u0, h2, hg, ?_⟩
      cases c <;> rfl
  | pE idx =>
    obtain ⟨v, h1, h2⟩ := key idx _ hfn.1
    rw [hfn.2] at h2
    exact .inl ⟨_, by simp only [evalU]; rw [at!_some h1]; rfl, v, h2, zero_add _⟩
  | Eh idx =>
    obtain ⟨v, h1, h2⟩ := key idx _ hfn.1
    rw [hfn.2] at h2
    exact .inl ⟨_, by simp only [evalU]; rw [at!_some h1]; rfl, v, h2, rfl⟩

theorem forall2_range {α β : Type} (l : List α) (ys : List β) (P : α → β → Prop) (Q : Nat → β → Prop)
    (h : List.Forall₂ Q (List.range l.length) ys) (hq : ∀ i (hi : i < l.length) y, Q i y → P l[i] y) : List.Forall₂ P l ys := by
  have hlen : ys.length = l.length := by rw [← h.length_eq, List.length_range]
  rw [List.forall₂_iff_get]
  refine ⟨hlen.symm, ?_⟩
  intro i h1 h2
  rw [List.forall₂_iff_get] at h
  have := h.2 i (by simpa using h1) h2
  simp only [List.get_eq_getElem, List.getElem_range] at this
  exact hq i h1 _ this

/-- **C37 (equation constraints).** In an accepted problem with one value for each input, evaluating the equation constraints gives
one residual for each p variable, and each is the documented one: the property minus the value of its input. -/
theorem C37_equation_constraints (parse : Str → Option Formula) (db : List Species) (calls : List (Call K Pr)) (env : Env K Pr)
    (props : Pr) (w : List K) :
    let s := run parse db calls
    dimsAccept s = true → w.length = s.inputs.length →
    (∀ c ∈ s.econstraints, ∀ f, c.fn = some (.custom f) → ∃ r, f props w = .ok r) →
    ∃ vp, evalEquationConstraints env s props w = .ok vp ∧ vp.length = numControlVariablesP s ∧
      List.Forall₂ (fun c r => ∃ fn, c.fn = some fn ∧ ResidualE env props s.inputs w r fn) s.econstraints vp := by
  intro s ha hw hcustom
  have hc : Consistent s := C35_invariant parse db calls
  have hn : s.econstraints.length = numControlVariablesP s := (C37_accepted_iff parse db calls).1.1 ha
  have hrange : numControlVariables s - s.titrantsImplicit.length = s.econstraints.length := by
    rw [hn]; unfold numControlVariables numControlVariablesP numTitrants; omega
  have hev : ∀ i (hi : i < s.econstraints.length), ∃ fn r, s.econstraints[i].fn = some fn ∧
      evalEAt env s props w i = .ok r ∧ ResidualE env props s.inputs w r fn := by
    intro i hi
    have hmem := List.getElem_mem hi
    obtain ⟨fn, h1, h2⟩ := hc.efunctions _ hmem
    have e : evalEAt env s props w i = evalE env props w fn := by
      unfold evalEAt
      rw [at!_of_lt _ _ hi, Res.bind_ok']
      simp only [h1]
    rcases evalE_wired env props s.inputs hc.inputs w hw fn h2 with ⟨r, h3, h4⟩ | ⟨f, rfl⟩
    · exact ⟨fn, r, h1, e.trans h3, h4⟩
    · obtain ⟨r, hr⟩ := hcustom _ hmem f h1
      exact ⟨_, r, h1, e.trans hr, hr⟩
  unfold evalEquationConstraints
  rw [hrange]
  obtain ⟨vp, h1, h2⟩ := mapM_ok (evalEAt env s props w) (List.range s.econstraints.length) (by
    intro i hi
    obtain ⟨fn, r, -, h, -⟩ := hev i (List.mem_range.1 hi)
    exact ⟨r, h⟩)
  refine ⟨vp, h1, by rw [← h2.length_eq, List.length_range, hn], ?_⟩
  apply forall2_range _ _ _ _ h2
  intro i hi y hy
  obtain ⟨fn, r, h3, h4, h5⟩ := hev i hi
  rw [h4] at hy
  cases hy
  exact ⟨fn, h3, h5⟩

/-- **C37 (chemical potentials).** In every problem with one value for each input, evaluating the imposed chemical potentials gives one
value for each q variable, and each is the documented one. -/
theorem C37_potentials (parse : Str → Option Formula) (db : List Species) (calls : List (Call K Pr)) (env : Env K Pr)
    (props : Pr) (w : List K) :
    let s := run parse db calls
    w.length = s.inputs.length →
    (∀ c ∈ s.uconstraints, ∀ f, c.fn = some (.custom f) → ∃ r, f props w = .ok r) →
    (∀ sp T P, (env.G0 sp T P).isSome) →
    ∃ gq, evalPotentials env s props w = .ok gq ∧ gq.length = numControlVariablesQ s ∧
      List.Forall₂ (fun c r => ∃ fn, c.fn = some fn ∧ PotentialU env props s.inputs w c.name r fn) s.uconstraints gq := by
  intro s hw hcustom hG
  have hc : Consistent s := C35_invariant parse db calls
  have hn := (C37_accepted_iff parse db calls).2
  have hev : ∀ i (hi : i < s.uconstraints.length), ∃ fn r, s.uconstraints[i].fn = some fn ∧
      evalUAt env s props w i = .ok r ∧ PotentialU env props s.inputs w s.uconstraints[i].name r fn := by
    intro i hi
    have hmem := List.getElem_mem hi
    obtain ⟨fn, h1, h2⟩ := hc.ufunctions _ hmem
    have e : evalUAt env s props w i = evalU env props w fn := by
      unfold evalUAt
      rw [at!_of_lt _ _ hi, Res.bind_ok']
      simp only [h1]
    rcases evalU_wired env props s.inputs hc.inputs w hw _ _ fn h2 with ⟨r, h3, h4⟩ | ⟨sp, c, j, -, h4, -⟩ | ⟨f, rfl⟩
    · exact ⟨fn, r, h1, e.trans h3, h4⟩
    · have := hG sp (env.temperature props) (env.pressure props)
      rw [h4] at this; cases this
    · obtain ⟨r, hr⟩ := hcustom _ hmem f h1
      exact ⟨_, r, h1, e.trans hr, hr⟩
  unfold evalPotentials
  rw [show s.titrantsImplicit.length = s.uconstraints.length from hn.symm]
  obtain ⟨gq, h1, h2⟩ := mapM_ok (evalUAt env s props w) (List.range s.uconstraints.length) (by
    intro i hi
    obtain ⟨fn, r, -, h, -⟩ := hev i (List.mem_range.1 hi)
    exact ⟨r, h⟩)
  refine ⟨gq, h1, by rw [← h2.length_eq, List.length_range, hn], ?_⟩
  apply forall2_range _ _ _ _ h2
  intro i hi y hy
  obtain ⟨fn, r, h3, h4, h5⟩ := hev i hi
  rw [h4] at hy
  cases hy
  exact ⟨fn, h3, h5⟩

/-- **C37 (out of range).** Evaluating the constraints of an accepted problem, with one value for each input, never reads out of range,
unless a function given by the user does. -/
theorem C37_no_out_of_range (parse : Str → Option Formula) (db : List Species) (calls : List (Call K Pr)) (env : Env K Pr)
    (props : Pr) (w : List K) :
    let s := run parse db calls
    dimsAccept s = true → w.length = s.inputs.length →
    (∀ c ∈ s.econstraints, ∀ f, c.fn = some (.custom f) → f props w ≠ .ub) →
    (∀ c ∈ s.uconstraints, ∀ f, c.fn = some (.custom f) → f props w ≠ .ub) →
    evalEquationConstraints env s props w ≠ .ub ∧ evalPotentials env s props w ≠ .ub := by
  intro s ha hw hce hcu
  have hc : Consistent s := C35_invariant parse db calls
  obtain ⟨hn, hq⟩ := C37_accepted_iff parse db calls
  have hn : s.econstraints.length = numControlVariablesP s := hn.1 ha
  have hrange : numControlVariables s - s.titrantsImplicit.length = s.econstraints.length := by
    rw [hn]; unfold numControlVariables numControlVariablesP numTitrants; omega
  constructor
  · unfold evalEquationConstraints
    rw [hrange]
    apply mapM_ne_ub
    intro i hi
    rw [List.mem_range] at hi
    have hmem := List.getElem_mem hi
    obtain ⟨fn, h1, h2⟩ := hc.efunctions _ hmem
    unfold evalEAt
    rw [at!_of_lt _ _ hi, Res.bind_ok']
    simp only [h1]
    rcases evalE_wired env props s.inputs hc.inputs w hw fn h2 with ⟨r, h3, h4⟩ | ⟨f, rfl⟩
    · rw [h3]; exact fun h => nomatch h
    · exact hce _ hmem f h1
  · unfold evalPotentials
    rw [show s.titrantsImplicit.length = s.uconstraints.length from hq.symm]
    apply mapM_ne_ub
    intro i hi
    rw [List.mem_range] at hi
    have hmem := List.getElem_mem hi
    obtain ⟨fn, h1, h2⟩ := hc.ufunctions _ hmem
    unfold evalUAt
    rw [at!_of_lt _ _ hi, Res.bind_ok']
    simp only [h1]
    rcases evalU_wired env props s.inputs hc.inputs w hw _ _ fn h2 with ⟨r, h3, h4⟩ | ⟨sp, c, j, -, -, h4⟩ | ⟨f, rfl⟩
    · rw [h3]; exact fun h => nomatch h
    · rw [h4]; exact fun h => nomatch h
    · exact hcu _ hmem f h1

/-- **C37 (the check is needed).** Without the check, a specification with fewer equation constraints than p variables would be read
out of range. -/
theorem C37_check_needed (parse : Str → Option Formula) (db : List Species) (calls : List (Call K Pr)) (env : Env K Pr)
    (props : Pr) (w : List K) :
    let s := run parse db calls
    s.econstraints.length < numControlVariablesP s → (∀ i, evalEAt env s props w i ≠ .throw) →
    dimsAccept s = false ∧ evalEquationConstraints env s props w = .ub := by
  intro s hlt hthrow
  constructor
  · cases h : dimsAccept s with
    | false => rfl
    | true => have : s.econstraints.length = numControlVariablesP s := (C37_accepted_iff parse db calls).1.1 h; omega
  · unfold evalEquationConstraints
    apply mapM_ub _ _ s.econstraints.length
    · rw [List.mem_range]; unfold numControlVariablesP at hlt; unfold numControlVariables numTitrants; omega
    · unfold evalEAt; rw [at!_of_ge _ _ (Nat.le_refl _)]; rfl
    · intro i _; exact hthrow i

/-! ### Examples -/

/-- Properties of a system as a list of numbers, for the examples. -/
def exampleEnv : Env Rat Unit :=
  { R := 8, F := 96485, ln10 := 2, log := fun x => x, temperature := fun _ => 300, pressure := fun _ => 100000, volume := fun _ => 5,
    internalEnergy := fun _ => 0, enthalpy := fun _ => 0, gibbsEnergy := fun _ => 0, helmholtzEnergy := fun _ => 0, entropy := fun _ => 0,
    G0 := fun _ _ _ => some 0 }

/-- A problem with given temperature, volume and pE, and unknown pressure, with a rejected call in between. -/
def exampleCalls : List (Call Rat Unit) := [.temperature, .volume, .pE, .volume]

example : dimsAccept (run parseElectron [] exampleCalls) = true ∧
    (run parseElectron [] exampleCalls).inputs = [c!"T", c!"V", c!"pE"] ∧
    namesControlVariables (run parseElectron [] exampleCalls) = [c!"P", c!"[e-]"] ∧
    evalEquationConstraints exampleEnv (run parseElectron [] exampleCalls) () [300, 2, 1] = .ok [3] ∧
    evalPotentials exampleEnv (run parseElectron [] exampleCalls) () [300, 2, 1] = .ok [-4800] := by
  refine ⟨by decide +kernel, by decide +kernel, by decide +kernel, by decide +kernel, by decide +kernel⟩

end Verif.EquilibriumSpecs
