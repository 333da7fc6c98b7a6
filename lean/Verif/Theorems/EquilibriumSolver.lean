import Verif.Spec.EquilibriumSolver
import Verif.Theorems.EquilibriumSetup
import Verif.Theorems.EquilibriumProps
import Verif.Theorems.Restrictions
import Verif.Theorems.Units
import Mathlib.Analysis.Calculus.FDeriv.Prod
import Mathlib.Analysis.Calculus.Deriv.Prod
import Mathlib.Analysis.Calculus.Deriv.Comp
import Mathlib.Analysis.Calculus.Deriv.Pi

/-!
# Theorems C45 and C56: `EquilibriumSolver` and `EquilibriumSensitivity`
-/

namespace Verif.EquilibriumSolver

open EquilibriumSpecs Conditions Restrictions EquilibriumSetup

/-! ## C56 -/

theorem andThen_returned {α : Type} {s e' : EqState} {r : Res α} {f : α → Out} (h : andThen s r f = (e', .returned)) :
    ∃ a, r = .ok a ∧ f a = (e', .returned) := by
  cases r with
  | ok a => exact ⟨a, rfl, h⟩
  | throw => simp [andThen] at h
  | ub => simp [andThen] at h

theorem onState_returned {s e' : EqState} {o : ChemicalState.Out} {f : EqState → Out} (h : onState s o f = (e', .returned)) :
    ∃ st, o = (st, .returned) ∧ f { s with st := st } = (e', .returned) := by
  obtain ⟨st, e⟩ := o
  cases e with
  | returned => exact ⟨st, rfl, h⟩
  | threw => simp [onState] at h
  | undefined => simp [onState] at h
  | aborted => simp [onState] at h

theorem setTemperature_returned {st st' : ChemicalState.St} {T : Rat} (h : ChemicalState.setTemperature st T = (st', .returned)) :
    0 < T ∧ st' = { st with T := T } := by
  unfold ChemicalState.setTemperature at h
  split_ifs at h with hT
  · simp at h
  · injection h with h _; exact ⟨not_le.1 hT, h.symm⟩

theorem setPressure_returned {st st' : ChemicalState.St} {P : Rat} (h : ChemicalState.setPressure st P = (st', .returned)) :
    0 < P ∧ st' = { st with P := P } := by
  unfold ChemicalState.setPressure at h
  split_ifs at h with hP
  · simp at h
  · injection h with h _; exact ⟨not_le.1 hP, h.symm⟩

theorem setAmounts_returned {debug : Bool} {st st' : ChemicalState.St} {n : List Rat} (h : ChemicalState.setAmounts debug st n = (st', .returned)) :
    st' = { st with n := n } := by
  unfold ChemicalState.setAmounts ChemicalState.asserted at h
  split_ifs at h
  · simp at h
  · simp at h
  · injection h with h _; exact h.symm

/-- What a calculation that returns has done. -/
theorem solve_returned {Pr : Type} (debug : Bool) (opt : Optimizer) (sys : ChemicalSystem.System) (me : Rat) (s : Specs Rat Pr) (eps : Rat)
    (e e' : EqState) (c : Cond) (r : Restr) (h : solve debug opt sys me s eps e c r = (e', .returned)) :
    ∃ e1 problem T P, (e1 = e ∧ ¬ (e.st.n.all (· ≤ 0) = true ∧ e.st.n.any (· = 0) = true) ∨
        e1 = { e with st := { e.st with n := c.amounts } } ∧ (e.st.n.all (· ≤ 0) = true ∧ e.st.n.any (· = 0) = true)) ∧
      updateOptProblem sys me s e1.st.n c r eps = .ok problem ∧
      EquilibriumProps.getter s c!"T" (opt problem (updateOptState sys s e1)).pEval c.values = .ok T ∧
      EquilibriumProps.getter s c!"P" (opt problem (updateOptState sys s e1)).pEval c.values = .ok P ∧ 0 < T ∧ 0 < P ∧
      e'.opt = (opt problem (updateOptState sys s e1)).state ∧
      e' = { st := ⟨T, P, e'.opt.x.take sys.species.length⟩, inputs := c.inputs, w := c.values, b := problem.be, opt := e'.opt, q := e'.opt.x.drop sys.species.length } := by
  unfold solve updateInitialState at h
  dsimp only at h
  have main : ∀ e1 : EqState, (andThen e1 (updateOptProblem sys me s e1.st.n c r eps) fun problem =>
      updateChemicalState debug sys s e1 c problem.be (opt problem (updateOptState sys s e1))) = (e', .returned) →
      ∃ problem T P, updateOptProblem sys me s e1.st.n c r eps = .ok problem ∧
      EquilibriumProps.getter s c!"T" (opt problem (updateOptState sys s e1)).pEval c.values = .ok T ∧
      EquilibriumProps.getter s c!"P" (opt problem (updateOptState sys s e1)).pEval c.values = .ok P ∧ 0 < T ∧ 0 < P ∧
      e'.opt = (opt problem (updateOptState sys s e1)).state ∧
      e' = { st := ⟨T, P, e'.opt.x.take sys.species.length⟩, inputs := c.inputs, w := c.values, b := problem.be, opt := e'.opt, q := e'.opt.x.drop sys.species.length } := by
    intro e1 h
    obtain ⟨problem, hp, h⟩ := andThen_returned h
    unfold updateChemicalState at h
    obtain ⟨T, hT, h⟩ := andThen_returned h
    obtain ⟨P, hP, h⟩ := andThen_returned h
    obtain ⟨st1, h1, h⟩ := onState_returned h
    obtain ⟨st2, h2, h⟩ := onState_returned h
    obtain ⟨st3, h3, h⟩ := onState_returned h
    obtain ⟨hT0, rfl⟩ := setTemperature_returned h1
    obtain ⟨hP0, rfl⟩ := setPressure_returned h2
    have := setAmounts_returned h3
    subst this
    injection h with h _
    subst h
    exact ⟨problem, T, P, hp, hT, hP, hT0, hP0, rfl, rfl⟩
  by_cases h0 : e.st.n = []
  · rw [if_pos h0] at h; simp at h
  · rw [if_neg h0] at h
    by_cases hu : e.st.n.all (· ≤ 0) = true ∧ e.st.n.any (· = 0) = true
    · have hu' : (e.st.n.all (· ≤ 0) && e.st.n.any (· = 0)) = true := by rw [hu.1, hu.2]; rfl
      rw [hu'] at h
      by_cases hc : c.amounts.length > 0
      · simp only [hc, decide_true, Bool.not_true, Bool.and_false, Bool.false_eq_true, if_false, Bool.and_true, if_true] at h
        obtain ⟨st, hs, h⟩ := onState_returned h
        have := setAmounts_returned hs
        subst this
        obtain ⟨problem, T, P, hh⟩ := main _ h
        exact ⟨_, problem, T, P, .inr ⟨rfl, hu⟩, hh⟩
      · simp [hc] at h
    · have hu' : (e.st.n.all (· ≤ 0) && e.st.n.any (· = 0)) = false := by
        rw [Bool.eq_false_iff]
        intro hh
        rw [Bool.and_eq_true] at hh
        exact hu hh
      rw [hu'] at h
      simp only [Bool.false_and, Bool.false_eq_true, if_false] at h
      obtain ⟨problem, T, P, hh⟩ := main e h
      exact ⟨e, problem, T, P, .inl ⟨rfl, hu⟩, hh⟩

theorem problem_parts {Pr : Type} {sys : ChemicalSystem.System} {me : Rat} {s : Specs Rat Pr} {n0 : List Rat} {c : Cond} {r : Restr} {eps : Rat} {problem : Problem}
    (h : updateOptProblem sys me s n0 c r eps = .ok problem) :
    matrixAex sys s = .ok problem.Aex ∧ matrixAep sys s = .ok problem.Aep ∧ initialComponentAmounts (condSys sys me) c = .ok problem.be ∧
    lowerBounds r.cannotDecreaseBelow r.cannotDecrease n0 sys.species.length s.titrantsImplicit.length eps = .ok problem.xlower ∧
    upperBounds r.cannotIncreaseAbove r.cannotIncrease n0 sys.species.length s.titrantsImplicit.length eps = .ok problem.xupper := by
  unfold updateOptProblem at h
  cases h1 : matrixAex sys s <;> rw [h1] at h <;> simp only [Res.bind_ok', Res.bind_throw', Res.bind_ub', reduceCtorEq] at h
  cases h2 : matrixAep sys s <;> rw [h2] at h <;> simp only [Res.bind_ok', Res.bind_throw', Res.bind_ub', reduceCtorEq] at h
  cases h3 : initialComponentAmounts (condSys sys me) c <;> rw [h3] at h <;> simp only [Res.bind_ok', Res.bind_throw', Res.bind_ub', reduceCtorEq] at h
  cases h4 : lowerBounds r.cannotDecreaseBelow r.cannotDecrease n0 sys.species.length s.titrantsImplicit.length eps <;> rw [h4] at h <;>
    simp only [Res.bind_ok', Res.bind_throw', Res.bind_ub', reduceCtorEq] at h
  cases h5 : upperBounds r.cannotIncreaseAbove r.cannotIncrease n0 sys.species.length s.titrantsImplicit.length eps <;> rw [h5] at h <;>
    simp only [Res.bind_ok', Res.bind_throw', Res.bind_ub', reduceCtorEq] at h
  injection h with h
  subst h
  exact ⟨rfl, rfl, rfl, rfl, rfl⟩

/-- **C56 (conservation).** Whatever the optimiser does: if the calculation returns and the point it ended with satisfies the linear
constraints, then species and titrants of the resulting state contain together the component amounts of the conditions, which are recorded
in the state. -/
theorem C56_conservation {Pr : Type} (debug : Bool) (opt : Optimizer) (phases : List Phases.Phase) (sys : ChemicalSystem.System)
    (hsys : ChemicalSystem.Constructs phases sys) (me : Rat) (s : Specs Rat Pr) (hel : ∀ x ∈ sys.species, x.symbols.Nodup)
    (hf : ∀ f ∈ s.titrantsImplicit ++ s.titrantsExplicit, (f.elements.map (·.1)).Nodup) (eps : Rat) (e e' : EqState) (c : Cond) (r : Restr)
    (h : solve debug opt sys me s eps e c r = (e', .returned)) (hx : sys.species.length ≤ e'.opt.x.length)
    (hp : s.unknownT.toNat + s.unknownP.toNat ≤ e'.opt.p.length) (hfeas : Feasible sys s e'.b e'.opt) :
    initialComponentAmounts (condSys sys me) c = .ok e'.b ∧
    e'.b = totals sys s.titrantsImplicit s.titrantsExplicit e'.st.n e'.q (e'.opt.p.drop (s.unknownT.toNat + s.unknownP.toNat)) := by
  obtain ⟨e1, problem, T, P, -, hpr, -, -, -, -, -, he⟩ := solve_returned debug opt sys me s eps e e' c r h
  have hb : e'.b = problem.be := by rw [he]
  refine ⟨by rw [hb]; exact (problem_parts hpr).2.2.1, ?_⟩
  obtain ⟨Aex, Aep, h1, h2, h3⟩ := hfeas
  have hn : e'.st.n = e'.opt.x.take sys.species.length := by rw [he]
  have hq : e'.q = e'.opt.x.drop sys.species.length := by rw [he]
  refine C41_conservation_partial phases sys hsys s hel hf Aex Aep h1 h2 e'.st.n e'.q
    (e'.opt.p.take (s.unknownT.toNat + s.unknownP.toNat)) _ _ ?_ ?_ ?_
  · rw [hn, List.length_take]; omega
  · rw [List.length_take]; omega
  · rw [hn, hq, List.take_append_drop, List.take_append_drop]; exact h3

/-- **C56 (restrictions).** If the point the optimiser ended with is within the bounds it was given, then every species has at least the
amount `eps`, and obeys the last restriction declared for it relative to the amounts the calculation started with. -/
theorem C56_restrictions {Pr : Type} (debug : Bool) (opt : Optimizer) (sys : ChemicalSystem.System) (me : Rat) (s : Specs Rat Pr) (eps : Rat) (e e' : EqState) (c : Cond)
    (calls : List Restrictions.Call) (r0 r : Restr) (hr : Restrictions.run (condSys sys me) {} calls = (r0, .returned))
    (h1 : r.cannotDecreaseBelow.Perm r0.cannotDecreaseBelow) (h2 : r.cannotDecrease.Perm r0.cannotDecrease)
    (h3 : r.cannotIncreaseAbove.Perm r0.cannotIncreaseAbove) (h4 : r.cannotIncrease.Perm r0.cannotIncrease)
    (hst : ∀ x ∈ e.st.n, 0 ≤ x) (hn0 : (startAmounts e.st c).length = sys.species.length)
    (h : solve debug opt sys me s eps e c r = (e', .returned))
    (hwithin : ∀ problem start, ∀ i (hi : i < (opt problem start).state.x.length),
      (∀ l, problem.xlower[i]? = some (some l) → l ≤ (opt problem start).state.x[i]) ∧
      (∀ u, problem.xupper[i]? = some (some u) → (opt problem start).state.x[i] ≤ u))
    (i : Nat) (hi : i < (startAmounts e.st c).length) (hi' : i < e'.st.n.length) :
    eps ≤ e'.st.n[i] ∧
    (last (effectDown (condSys sys me) i) calls).lower (startAmounts e.st c)[i] eps ≤ e'.st.n[i] ∧
    ∀ u, (last (effectUp (condSys sys me) i) calls).upper (startAmounts e.st c)[i] eps = some u → e'.st.n[i] ≤ u := by
  obtain ⟨e1, problem, T, P, hcase, hpr, -, -, -, -, hopt, he⟩ := solve_returned debug opt sys me s eps e e' c r h
  have hstart : e1.st.n = startAmounts e.st c := by
    unfold startAmounts
    have hall : e.st.n.all (· ≤ 0) = true ↔ e.st.n.all (· = 0) = true := by
      simp only [List.all_eq_true, decide_eq_true_eq]
      exact ⟨fun hh x hx => le_antisymm (hh x hx) (hst x hx), fun hh x hx => (hh x hx).le⟩
    rcases hcase with ⟨rfl, hc⟩ | ⟨rfl, hc⟩
    · rw [if_neg]
      intro hz
      apply hc
      refine ⟨hall.2 hz, ?_⟩
      cases hl : e1.st.n with
      | nil =>
        exfalso
        unfold solve updateInitialState at h
        rw [hl] at h
        simp at h
      | cons a l =>
        rw [hl] at hz
        simp only [List.all_cons, Bool.and_eq_true, decide_eq_true_eq] at hz
        simp [hz.1]
    · rw [if_pos (hall.1 hc.1)]
  rw [hstart] at hpr
  obtain ⟨-, -, -, hlo, hup⟩ := problem_parts hpr
  obtain ⟨xl, hxl, -, hl, -⟩ := C40_lower_bounds (condSys sys me) calls r0 hr _ _ h1 h2 (startAmounts e.st c) hn0 s.titrantsImplicit.length eps
  obtain ⟨xu, hxu, -, hu, -⟩ := C40_upper_bounds (condSys sys me) calls r0 hr _ _ h3 h4 (startAmounts e.st c) hn0 s.titrantsImplicit.length eps
  have e3 : xl = problem.xlower := by
    have := hxl.symm.trans hlo
    injection this
  have e4 : xu = problem.xupper := by
    have := hxu.symm.trans hup
    injection this
  subst e3 e4
  have hn : e'.st.n = (opt problem (updateOptState sys s e1)).state.x.take sys.species.length := by rw [← hopt, he]
  have hix : i < (opt problem (updateOptState sys s e1)).state.x.length := by
    rw [hn, List.length_take] at hi'
    omega
  have hget : e'.st.n[i] = (opt problem (updateOptState sys s e1)).state.x[i] := by
    simp only [hn, List.getElem_take]
  obtain ⟨w1, w2⟩ := hwithin problem (updateOptState sys s e1) i hix
  rw [hget]
  have hlow := w1 _ (hl i hi)
  refine ⟨le_trans ?_ hlow, hlow, fun u hu' => w2 u (by rw [hu i hi, hu'])⟩
  cases last (effectDown (condSys sys me) i) calls <;> simp [Lim.lower]

/-- **C56 (temperature and pressure).** If temperature (pressure) is an input, the resulting state has the value set in the conditions. -/
theorem C56_temperature_pressure {Pr : Type} (debug : Bool) (opt : Optimizer) (sys : ChemicalSystem.System) (me : Rat) (s : Specs Rat Pr) (eps : Rat) (e e' : EqState) (c : Cond) (r : Restr)
    (hc : c.inputs = s.inputs) (hw : c.values.length = c.inputs.length) (h : solve debug opt sys me s eps e c r = (e', .returned)) :
    (c!"T" ∈ s.inputs → Conditions.valueOf c c!"T" = some e'.st.T) ∧ (c!"P" ∈ s.inputs → Conditions.valueOf c c!"P" = some e'.st.P) ∧
    0 < e'.st.T ∧ 0 < e'.st.P ∧ e'.inputs = c.inputs ∧ e'.w = c.values := by
  obtain ⟨e1, problem, T, P, -, -, hT, hP, h1, h2, -, he⟩ := solve_returned debug opt sys me s eps e e' c r h
  have key : ∀ (name : Str) (v : Rat) (pe : List Rat), EquilibriumProps.getter s name pe c.values = .ok v → name ∈ s.inputs →
      Conditions.valueOf c name = some v := by
    intro name v pe hg hm
    unfold EquilibriumProps.getter at hg
    rcases EquilibriumProps.index_cases s.inputs name with ⟨-, hlt⟩ | ⟨hm', -⟩
    · rw [if_pos hlt, at!_of_lt _ _ (by rw [hw, hc]; exact hlt)] at hg
      injection hg with hg
      unfold Conditions.valueOf
      rw [hc]
      exact (EquilibriumProps.lookup_index s.inputs name c.values (by rw [hw, hc]) v hlt).1 (by
        rw [← hg]; exact List.getElem?_eq_getElem _)
    · exact absurd hm hm'
  rw [he]
  exact ⟨fun hm => key _ _ _ hT hm, fun hm => key _ _ _ hP hm, h1, h2, rfl, rfl⟩

/-- **C56 (initial guess).** The optimiser starts with the amounts of the given state, or with those of the conditions if the state has none, and
with the titrants and other unknowns of the last calculation if their number has not changed, otherwise with zeros; the resulting state
has the amounts the optimiser ended with. -/
theorem C56_initial_guess {Pr : Type} (debug : Bool) (opt : Optimizer) (sys : ChemicalSystem.System) (me : Rat) (s : Specs Rat Pr) (eps : Rat)
    (e e' : EqState) (c : Cond) (r : Restr) (h : solve debug opt sys me s eps e c r = (e', .returned)) :
    ∃ problem start n0 q0, e'.opt = (opt problem start).state ∧ e'.st.n = (opt problem start).state.x.take sys.species.length ∧
      e'.q = (opt problem start).state.x.drop sys.species.length ∧ start.x = n0 ++ q0 ∧
      ((∃ a ∈ e.st.n, 0 < a) → n0 = e.st.n) ∧ ((∀ a ∈ e.st.n, a = 0) → n0 = c.amounts) ∧
      (e.opt.x.length = sys.species.length + s.titrantsImplicit.length → q0 = e.opt.x.drop sys.species.length ∧ start.p = e.opt.p) ∧
      (e.opt.x.length ≠ sys.species.length + s.titrantsImplicit.length →
        (∀ a ∈ q0, a = 0) ∧ q0.length = s.titrantsImplicit.length ∧ (∀ a ∈ start.p, a = 0) ∧ start.p.length = numControlVariablesP s) := by
  have hne : e.st.n ≠ [] := by
    intro h0
    unfold solve updateInitialState at h
    rw [if_pos h0] at h
    simp at h
  obtain ⟨e1, problem, T, P, h1, -, -, -, -, -, h2, h3⟩ := solve_returned debug opt sys me s eps e e' c r h
  have ho : e1.opt = e.opt := by rcases h1 with ⟨rfl, -⟩ | ⟨rfl, -⟩ <;> rfl
  refine ⟨problem, updateOptState sys s e1, e1.st.n, _, h2, ?_, ?_, rfl, ?_, ?_, ?_, ?_⟩
  · rw [h3]; dsimp only; rw [h2]
  · rw [h3]; dsimp only; rw [h2]
  · rintro ⟨a, ha, hpos⟩
    rcases h1 with ⟨rfl, -⟩ | ⟨rfl, h4, -⟩
    · rfl
    · rw [List.all_eq_true] at h4
      have := of_decide_eq_true (h4 a ha)
      exact absurd hpos (not_lt.2 this)
  · intro hz
    rcases h1 with ⟨rfl, h4⟩ | ⟨rfl, -⟩
    · refine absurd ⟨?_, ?_⟩ h4
      · rw [List.all_eq_true]; intro a ha; exact decide_eq_true (le_of_eq (hz a ha))
      · obtain ⟨a, ha⟩ := List.exists_mem_of_ne_nil _ hne
        exact List.any_eq_true.2 ⟨a, ha, decide_eq_true (hz a ha)⟩
    · rfl
  · intro hl
    unfold updateOptState
    dsimp only
    rw [ho, if_neg (not_not.2 hl)]
    exact ⟨rfl, rfl⟩
  · intro hl
    unfold updateOptState
    dsimp only
    rw [ho, if_pos hl]
    refine ⟨?_, ?_, ?_, ?_⟩
    · intro a ha
      rw [List.drop_replicate] at ha
      exact List.eq_of_mem_replicate ha
    · simp
    · intro a ha; exact List.eq_of_mem_replicate ha
    · simp

/-- **C56 (no initial guess).** A state without any amounts and conditions without amounts of species are rejected, and nothing changes. -/
theorem C56_uninitialized {Pr : Type} (debug : Bool) (opt : Optimizer) (sys : ChemicalSystem.System) (me : Rat) (s : Specs Rat Pr) (eps : Rat) (e : EqState) (c : Cond) (r : Restr)
    (hne : e.st.n ≠ []) (hz : ∀ x ∈ e.st.n, x = 0) (hc : c.amounts = []) : solve debug opt sys me s eps e c r = (e, .threw) := by
  unfold solve updateInitialState
  rw [if_neg hne]
  dsimp only
  have h1 : e.st.n.all (· ≤ 0) = true := by simp only [List.all_eq_true, decide_eq_true_eq]; exact fun x hx => (hz x hx).le
  have h2 : e.st.n.any (· = 0) = true := by
    obtain ⟨a, l, hl⟩ := List.exists_cons_of_ne_nil hne
    rw [hl]; simp [hz a (by rw [hl]; simp)]
  rw [h1, h2, hc]
  simp

/-- The specification of a solver made from a chemical system (EquilibriumSolver.cpp:48-54). -/
def defaultSpecs (Pr : Type) : Specs Rat Pr := EquilibriumSpecs.run (fun _ => none) [] [.temperature, .pressure]

theorem defaultSpecs_eq (Pr : Type) : (defaultSpecs Pr).inputs = [c!"T", c!"P"] ∧ (defaultSpecs Pr).titrantsImplicit = [] ∧
    (defaultSpecs Pr).titrantsExplicit = [] ∧ (defaultSpecs Pr).unknownT = false ∧ (defaultSpecs Pr).unknownP = false ∧
    (defaultSpecs Pr).paramsIdxs = [] ∧ EquilibriumSpecs.dimsAccept (defaultSpecs Pr) = true := by
  refine ⟨rfl, rfl, rfl, rfl, rfl, rfl, rfl⟩

/-- **C56 (closed systems).** A calculation with a chemical state only: if it returns and the point the optimiser ended with satisfies
the linear constraints, then the state has the same temperature and pressure, the same amount of every element and the same charge as before. -/
theorem C56_closed {Pr : Type} (debug : Bool) (opt : Optimizer) (phases : List Phases.Phase) (sys : ChemicalSystem.System)
    (hsys : ChemicalSystem.Constructs phases sys) (me : Rat) (hel : ∀ x ∈ sys.species, x.symbols.Nodup) (ln10 : Rat) (log : Rat → Rat) (eps : Rat)
    (e e' : EqState) (r : Restr) (h : solveState debug opt sys me (defaultSpecs Pr) [] ln10 log eps e r = (e', .returned))
    (hx : sys.species.length ≤ e'.opt.x.length) (hfeas : Feasible sys (defaultSpecs Pr) e'.b e'.opt) :
    e'.st.T = e.st.T ∧ e'.st.P = e.st.P ∧
    (∀ el ∈ sys.elements, ChemicalSystem.total (ChemicalSystem.elementContent · el.symbol) sys.species e'.st.n =
      ChemicalSystem.total (ChemicalSystem.elementContent · el.symbol) sys.species e.st.n) ∧
    ChemicalSystem.total (·.charge) sys.species e'.st.n = ChemicalSystem.total (·.charge) sys.species e.st.n := by
  unfold solveState at h
  dsimp only at h
  have hTs : Conditions.step ln10 log (condSys sys me) (Conditions.initial (defaultSpecs Pr).inputs (defaultSpecs Pr).paramsIdxs [])
      (.temperature e.st.T c!"K") = (⟨[c!"T", c!"P"], [e.st.T, 0], [], []⟩, .returned) := by
    simp only [Conditions.step, Units.C15_identity]
    rfl
  have hPs : Conditions.step ln10 log (condSys sys me) ⟨[c!"T", c!"P"], [e.st.T, 0], [], []⟩ (.pressure e.st.P c!"Pa") =
      (⟨[c!"T", c!"P"], [e.st.T, e.st.P], [], []⟩, .returned) := by
    simp only [Conditions.step, Units.C15_identity]
    rfl
  rw [hTs] at h
  simp only [onCond] at h
  rw [hPs] at h
  simp only [Conditions.step, startWithState] at h
  by_cases hl : e.st.n.length ≠ (condSys sys me).species.length
  · rw [if_pos hl] at h; simp at h
  rw [if_neg hl] at h
  dsimp only at h
  have hlen : e.st.n.length = sys.species.length := not_not.1 hl
  have hTP := C56_temperature_pressure debug opt sys me (defaultSpecs Pr) eps e e' _ r rfl rfl h
  have hT : some e.st.T = some e'.st.T := hTP.1 (by rw [(defaultSpecs_eq Pr).1]; decide +kernel)
  have hP : some e.st.P = some e'.st.P := hTP.2.1 (by rw [(defaultSpecs_eq Pr).1]; decide +kernel)
  injection hT with hT
  injection hP with hP
  refine ⟨hT.symm, hP.symm, ?_⟩
  obtain ⟨hb, hcons⟩ := C56_conservation debug opt phases sys hsys me (defaultSpecs Pr) hel (by simp [(defaultSpecs_eq Pr).2.1, (defaultSpecs_eq Pr).2.2.1])
    eps e e' _ r h hx (by simp [(defaultSpecs_eq Pr).2.2.2.1, (defaultSpecs_eq Pr).2.2.2.2.1]) hfeas
  have hne : e.st.n.length ≠ 0 := by
    intro h0
    unfold initialComponentAmounts at hb
    simp [h0] at hb
  have hb' : e'.b = ChemicalSystem.mulVec sys.formulaMatrix e.st.n := by
    unfold initialComponentAmounts at hb
    rw [if_neg (by simp), if_neg hne] at hb
    injection hb with hb
    exact hb.symm
  rw [hb', (ChemicalSystem.C29_totals_partial phases sys hsys e.st.n hlen hel).2] at hcons
  unfold totals at hcons
  rw [(defaultSpecs_eq Pr).2.1, (defaultSpecs_eq Pr).2.2.1] at hcons
  simp only [titrants, List.zip_nil_left, List.map_nil, List.sum_nil, add_zero] at hcons
  have := List.append_inj hcons (by simp)
  constructor
  · intro el hem
    exact (List.map_inj_left.1 this.1 el hem).symm
  · simpa using this.2.symm

/-- **C56, counterexample.** With unknown temperature and pressure and one explicit titrant, the amounts of explicit titrants that the state
reports (`explicitTitrantAmounts`, ChemicalState.cpp:540-543, is the vector `p`) begin with temperature and pressure. -/
theorem C56_titrant_amounts_shifted : let s : Specs Rat Unit := EquilibriumSpecs.run (fun _ => none) [] [.openTo ⟨c!"CO2", [(c!"C", 1), (c!"O", 2)], 0⟩]
    s.titrantsExplicit.length = 1 ∧ EquilibriumSpecs.namesControlVariablesP s = [c!"T", c!"P", c!"[CO2]"] := by
  decide +kernel

/-- A calculation with the example system, an optimiser that returns its starting point. -/
def exampleState : EqState := { st := ⟨300, 100000, [1, 2, 3]⟩ }

example : ∃ e', solveState true (fun _ o => ⟨o, true, o.p⟩) ChemicalSystem.exampleSystem 0 (defaultSpecs Unit) [] 2 id (1 / 1000) exampleState {} = (e', .returned) ∧
    e'.st.n = [1, 2, 3] ∧ e'.b = ChemicalSystem.mulVec ChemicalSystem.exampleSystem.formulaMatrix [1, 2, 3] ∧ e'.opt = ⟨[1, 2, 3], []⟩ :=
  ⟨_, rfl, by decide +kernel, by decide +kernel, by decide +kernel⟩

/-! ## C45 -/

section C45
open Matrix
variable {Nn Nq Np Nw Nb Nu : Nat}

theorem mulVec_split {a b c : Nat} {K : Type} [Field K] (M : Matrix (Fin a) (Fin (b + c)) K) (v : Fin (b + c) → K) :
    M *ᵥ v = M.submatrix id (Fin.castAdd c) *ᵥ head v + M.submatrix id (Fin.natAdd b) *ᵥ tail v := by
  funext i
  simp only [mulVec, dotProduct, Pi.add_apply, Fin.sum_univ_add, submatrix_apply, id, head, tail]

theorem beside_mulVec {a b c : Nat} {K : Type} [Field K] (A : Matrix (Fin a) (Fin b) K) (B : Matrix (Fin a) (Fin c) K) (v : Fin (b + c) → K) :
    beside A B *ᵥ v = A *ᵥ head v + B *ᵥ tail v := by
  funext i
  simp only [mulVec, dotProduct, Pi.add_apply, Fin.sum_univ_add, beside, head, tail, Fin.addCases_left, Fin.addCases_right]

/-- `head` as a continuous linear map. -/
noncomputable def headL (a b : Nat) : (Fin (a + b) → ℝ) →L[ℝ] (Fin a → ℝ) :=
  LinearMap.toContinuousLinearMap ⟨⟨head, fun _ _ => rfl⟩, fun _ _ => rfl⟩

/-- **C45 (chain rule).** Let `x(c) = (n(c), q(c))` and `p(c)` be the solution as a function of `c = (w, b)`, with Jacobians `xc` and `pc`,
and let `U(n, p, w)` be the chemical properties, with Jacobians `dudn`, `dudp` and `dudw`. Then the sensitivities recorded by the solver
are the Jacobian of the properties at the solution as a function of `c`. -/
theorem C45_chain_rule (x : (Fin (Nw + Nb) → ℝ) → (Fin (Nn + Nq) → ℝ)) (p : (Fin (Nw + Nb) → ℝ) → (Fin Np → ℝ)) (c : Fin (Nw + Nb) → ℝ)
    (U : (Fin Nn → ℝ) × (Fin Np → ℝ) × (Fin Nw → ℝ) → (Fin Nu → ℝ)) (xc : Matrix (Fin (Nn + Nq)) (Fin (Nw + Nb)) ℝ)
    (pc : Matrix (Fin Np) (Fin (Nw + Nb)) ℝ) (dudn : Matrix (Fin Nu) (Fin Nn) ℝ) (dudp : Matrix (Fin Nu) (Fin Np) ℝ) (dudw : Matrix (Fin Nu) (Fin Nw) ℝ)
    (hx : HasJacobian x xc c) (hp : HasJacobian p pc c) (hU : HasJacobian3 U dudn dudp dudw (head (x c), p c, head c)) :
    let s : Sens Nn Nq Np Nw Nb Nu ℝ := sensitivity xc pc dudn dudp dudw
    HasJacobian (fun c => U (head (x c), p c, head c)) (beside s.dudw s.dudb) c ∧
    HasJacobian (fun c => head (x c)) (beside s.dndw s.dndb) c ∧ HasJacobian (fun c => tail (x c)) (beside s.dqdw s.dqdb) c ∧
    HasJacobian p (beside s.dpdw s.dpdb) c := by
  intro s
  have h1 : HasFDerivAt (fun c => head (x c)) ((headL Nn Nq).comp (lin xc)) c := (headL Nn Nq).hasFDerivAt.comp c hx
  have h2 : HasFDerivAt (fun c : Fin (Nw + Nb) → ℝ => (head c : Fin Nw → ℝ)) (headL Nw Nb) c := (headL Nw Nb).hasFDerivAt
  have hn : ∀ v, head (xc *ᵥ v) = beside s.dndw s.dndb *ᵥ v := by
    intro v
    rw [beside_mulVec]
    funext i
    simp only [head, mulVec_split xc, Pi.add_apply]
    rfl
  have hq : ∀ v, tail (xc *ᵥ v) = beside s.dqdw s.dqdb *ᵥ v := by
    intro v
    rw [beside_mulVec]
    funext i
    simp only [tail, mulVec_split xc, Pi.add_apply]
    rfl
  have hpp : ∀ v, pc *ᵥ v = beside s.dpdw s.dpdb *ᵥ v := by
    intro v
    rw [beside_mulVec, mulVec_split pc]
    rfl
  refine ⟨?_, ?_, ?_, ?_⟩
  · have hp' : HasFDerivAt p (lin pc) c := hp
    have hy : HasFDerivAt (fun c : Fin (Nw + Nb) → ℝ => (head (x c), p c, (head c : Fin Nw → ℝ))) _ c := h1.prodMk (hp'.prodMk h2)
    unfold HasJacobian3 at hU
    have := HasFDerivAt.comp c (f := fun c : Fin (Nw + Nb) → ℝ => (head (x c), p c, (head c : Fin Nw → ℝ))) hU hy
    refine this.congr_fderiv ?_
    apply ContinuousLinearMap.ext
    intro v
    show dudn *ᵥ head (xc *ᵥ v) + dudp *ᵥ (pc *ᵥ v) + dudw *ᵥ head v = beside s.dudw s.dudb *ᵥ v
    rw [hn, hpp, beside_mulVec, beside_mulVec, beside_mulVec]
    show _ = (dudw + dudn * s.dndw + dudp * s.dpdw) *ᵥ head v + (dudn * s.dndb + dudp * s.dpdb) *ᵥ tail v
    simp only [mulVec_add, add_mulVec, mulVec_mulVec]
    abel
  · refine h1.congr_fderiv ?_
    apply ContinuousLinearMap.ext
    intro v
    exact hn v
  · have h3 : HasFDerivAt (fun c => tail (x c))
        ((LinearMap.toContinuousLinearMap (⟨⟨tail, fun _ _ => rfl⟩, fun _ _ => rfl⟩ : (Fin (Nn + Nq) → ℝ) →ₗ[ℝ] (Fin Nq → ℝ))).comp (lin xc)) c :=
      (LinearMap.toContinuousLinearMap (⟨⟨tail, fun _ _ => rfl⟩, fun _ _ => rfl⟩ : (Fin (Nn + Nq) → ℝ) →ₗ[ℝ] (Fin Nq → ℝ))).hasFDerivAt.comp c hx
    refine h3.congr_fderiv ?_
    apply ContinuousLinearMap.ext
    intro v
    exact hq v
  · refine HasFDerivAt.congr_fderiv hp ?_
    apply ContinuousLinearMap.ext
    intro v
    exact hpp v

example : ∃ (x : (Fin (1 + 1) → ℝ) → (Fin (1 + 1) → ℝ)) (p : (Fin (1 + 1) → ℝ) → (Fin 1 → ℝ)) (U : (Fin 1 → ℝ) × (Fin 1 → ℝ) × (Fin 1 → ℝ) → (Fin 1 → ℝ)),
    HasJacobian x 1 0 ∧ HasJacobian p (fun _ _ => 1) 0 ∧ HasJacobian3 U 1 1 1 (head (x 0), p 0, 0) :=
  ⟨lin 1, lin (fun _ _ => 1), ((lin 1).comp (.fst ℝ _ _) + (lin 1).comp ((ContinuousLinearMap.fst ℝ _ _).comp (.snd ℝ _ _)) +
    (lin 1).comp ((ContinuousLinearMap.snd ℝ _ _).comp (.snd ℝ _ _)) : (Fin 1 → ℝ) × (Fin 1 → ℝ) × (Fin 1 → ℝ) →L[ℝ] (Fin 1 → ℝ)),
    (lin 1).hasFDerivAt, (lin (fun _ _ => 1)).hasFDerivAt, ContinuousLinearMap.hasFDerivAt
      ((lin 1).comp (.fst ℝ _ _) + (lin 1).comp ((ContinuousLinearMap.fst ℝ _ _).comp (.snd ℝ _ _)) +
        (lin 1).comp ((ContinuousLinearMap.snd ℝ _ _).comp (.snd ℝ _ _)) : (Fin 1 → ℝ) × (Fin 1 → ℝ) × (Fin 1 → ℝ) →L[ℝ] (Fin 1 → ℝ))⟩

/-- **C45 (balance).** If the derivatives of the optimiser satisfy the differentiated linear constraints, then the sensitivities keep the
components: with the inputs nothing is gained, and with component amounts exactly what is added. -/
theorem C45_balance {K : Type} [Field K] (W : Matrix (Fin Nb) (Fin Nn) K) (Aq : Matrix (Fin Nb) (Fin Nq) K) (Aep : Matrix (Fin Nb) (Fin Np) K)
    (xc : Matrix (Fin (Nn + Nq)) (Fin (Nw + Nb)) K) (pc : Matrix (Fin Np) (Fin (Nw + Nb)) K) (dudn : Matrix (Fin Nu) (Fin Nn) K)
    (dudp : Matrix (Fin Nu) (Fin Np) K) (dudw : Matrix (Fin Nu) (Fin Nw) K) (h : beside W Aq * xc + Aep * pc = bec) :
    let s : Sens Nn Nq Np Nw Nb Nu K := sensitivity xc pc dudn dudp dudw
    W * s.dndw + Aq * s.dqdw + Aep * s.dpdw = 0 ∧ W * s.dndb + Aq * s.dqdb + Aep * s.dpdb = 1 := by
  intro s
  constructor
  · ext i j
    have := congrFun (congrFun h i) (Fin.castAdd Nb j)
    simp only [Matrix.add_apply, mul_apply, Fin.sum_univ_add, beside, Fin.addCases_left, Fin.addCases_right, bec] at this ⊢
    rw [if_neg (by intro hh; have := congrArg Fin.val hh; simp at this; omega)] at this
    exact this
  · ext i j
    have := congrFun (congrFun h i) (Fin.natAdd Nw j)
    simp only [Matrix.add_apply, mul_apply, Fin.sum_univ_add, beside, Fin.addCases_left, Fin.addCases_right, bec] at this ⊢
    rw [one_apply]
    refine this.trans ?_
    by_cases hij : i = j
    · subst hij; simp
    · rw [if_neg hij, if_neg]
      intro hh
      apply hij
      have := congrArg Fin.val hh
      simp at this
      exact Fin.ext this.symm

example : beside (1 : Matrix (Fin 1) (Fin 1) ℚ) (1 : Matrix (Fin 1) (Fin 1) ℚ) * (!![-1, 1; 1, 0] : Matrix (Fin (1 + 1)) (Fin (1 + 1)) ℚ) +
    (0 : Matrix (Fin 1) (Fin 0) ℚ) * (0 : Matrix (Fin 0) (Fin (1 + 1)) ℚ) = (bec : Matrix (Fin 1) (Fin (1 + 1)) ℚ) := by
  decide +kernel

/-- **C45 (getters by name), partial.** The getter by name returns the column at the position of the input. -/
theorem C45_getter_partial {K : Type} [Field K] {R : Nat} (inputs : List Str) (hw : inputs.length = Nw) (hnd : inputs.Nodup)
    (M : Matrix (Fin R) (Fin Nw) K) (j : Fin Nw) : columnOf inputs M (inputs[j]'(by omega)) = .ok (fun i => M i j) := by
  have hj : (j : Nat) < inputs.length := by omega
  have hidx : EquilibriumProps.index inputs inputs[(j : Nat)] = j := by
    unfold EquilibriumProps.index Chem.indexfn
    rw [List.findIdx_eq hj]
    refine ⟨by simp, fun k hk => ?_⟩
    simp only [decide_eq_false_iff_not]
    intro hh
    have := (List.Nodup.getElem_inj_iff hnd).1 hh
    omega
  unfold columnOf
  have e : ((⟨(j : Nat), j.2⟩ : Fin Nw)) = j := rfl
  simp only [Fin.getElem_fin, hidx]
  rw [dif_pos j.2]

example : columnOf [c!"T", c!"P"] (!![1, 2; 3, 4] : Matrix (Fin 2) (Fin 2) ℚ) c!"P" = .ok (fun i => !![1, 2; 3, 4] i 1) :=
  C45_getter_partial [c!"T", c!"P"] rfl (by decide) _ 1

/-- **C45, the missing part.** A name that is not an input is not rejected: the behaviour is undefined. -/
theorem C45_getter_unknown {K : Type} [Field K] {R : Nat} (inputs : List Str) (hw : inputs.length = Nw) (M : Matrix (Fin R) (Fin Nw) K) (name : Str)
    (h : name ∉ inputs) : columnOf inputs M name = .ub := by
  unfold columnOf
  rw [dif_neg]
  rcases EquilibriumProps.index_cases inputs name with ⟨hm, -⟩ | ⟨-, hlt⟩
  · exact absurd hm h
  · omega

/-- **C45 (setters).** Matrices are accepted if and only if they have the dimensions of the specification, and then kept. -/
theorem C45_setter {K : Type} [Field K] (rows cols : Nat) (data : List (List K)) :
    (data.length = rows ∧ (∀ r ∈ data, r.length = cols) → setMatrix rows cols data = .ok data) ∧
    (¬ (data.length = rows ∧ ∀ r ∈ data, r.length = cols) → setMatrix rows cols data = .throw) := by
  unfold setMatrix
  constructor
  · rintro ⟨h1, h2⟩
    rw [if_neg (not_not.2 h1), if_neg]
    rintro ⟨r, hr, hh⟩
    exact hh (h2 r hr)
  · intro h
    by_cases h1 : data.length ≠ rows
    · rw [if_pos h1]
    · rw [if_neg h1, if_pos]
      by_contra hh
      push_neg at hh h1
      exact h ⟨h1, hh⟩

end C45

end Verif.EquilibriumSolver
