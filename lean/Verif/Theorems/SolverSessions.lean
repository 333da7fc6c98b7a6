import Verif.Lemmas.SolverSessions

/-!
# Theorems C103: equilibrium solvers as objects
-/

namespace Verif.SolverSessions

open EquilibriumSpecs Conditions Restrictions EquilibriumSolver

variable {Pr : Type}

/-- **C103 (programs).** A program that makes solvers, sets their options, copies and assigns them and calculates with any of the overloads of
`solve` on any of its states leaves the states the specification says, and every statement ends as it says, whatever the optimiser does; if no
options were refused. Missing: programs in which `setOptions` refuses options (`C103_refused_wrong`). -/
theorem C103_program_partial (x : Ctx Pr) (states : List EqState) (prog : List (Stmt Pr)) (hd : ∀ st ∈ prog, Spec.Distinct st) (ha : ∀ st ∈ prog, Spec.Accepted st) :
    Spec.Same (run x ⟨[], states⟩ prog) (Spec.run x ⟨[], states⟩ prog) := by
  have h := run_eq x prog ⟨[], states⟩ (fun st h => ⟨hd st h, ha st h⟩) (by simp)
  have h0 : concreteWorld x (⟨[], states⟩ : Spec.World Pr) = ⟨[], states⟩ := rfl
  rw [h0] at h
  rw [h]
  exact ⟨rfl, rfl, by simp [concreteWorld]⟩

/-- **C103 (options after any history).** After any sequence of calls of `setOptions`, refused or not, on a new solver, calculations use the bound and the
barrier of the options given last, and the optimiser's options of those accepted last. -/
theorem C103_options_history (x : Ctx Pr) (specs : Specs Rat Pr) (s : Solver Pr) (h : construct x specs = some s) (os : List Options) :
    let s' := os.foldl (fun s o => (setOptions x s o).1) s
    s'.specs = specs ∧ s'.setup = (os.getLast?).getD {} ∧
      s'.optsolver = Spec.optimaOf x.sys ⟨specs, ((os.filter fun o => 0 < o.epsilon).getLast?).getD {}⟩ := by
  have hs : s = concrete x ⟨specs, {}⟩ := by
    rw [construct_eq] at h
    split_ifs at h
    injection h with h
    exact h.symm
  dsimp only
  induction os using List.reverseRecOn with
  | nil => rw [hs]; exact ⟨rfl, rfl, rfl⟩
  | append_singleton os o ih =>
    rw [List.foldl_append]
    simp only [List.foldl_cons, List.foldl_nil, List.filter_append, List.getLast?_append]
    obtain ⟨h1, h2, h3⟩ := ih
    by_cases hp : 0 < o.epsilon
    · rw [setOptions_ok x _ o hp, h1]
      refine ⟨rfl, by simp [concrete], ?_⟩
      simp [concrete, hp]
    · rw [setOptions_refused x _ o (not_lt.1 hp)]
      refine ⟨h1, by simp, ?_⟩
      rw [h3]
      simp [hp]

/-- **C103 (overloads).** `solve` without conditions is `solve` with the temperature, the pressure and the amounts of the state as conditions, and
without restrictions it is `solve` with none; a specification without temperature or pressure among its inputs makes it throw, and the state
stays as it is. With or without sensitivities the state is the same if the optimiser ends at the same point. -/
theorem C103_overloads (x : Ctx Pr) (o : Spec.Obj Pr) (hnd : o.specs.inputs.Nodup) (sens : Bool) (e : EqState) (r : Restr) :
    solve x (concrete x o) sens e .state = solve x (concrete x o) sens e (.restrictions {}) ∧
    (∀ c, Spec.closed x o e = some c → solve x (concrete x o) sens e (.restrictions r) = solve x (concrete x o) sens e (.both c r)) ∧
    (Spec.closed x o e = none → solve x (concrete x o) sens e (.restrictions r) = (e, .threw)) ∧
    (∀ c, solve x (concrete x o) sens e (.conditions c) = solve x (concrete x o) sens e (.both c {})) ∧
    (x.optimaS = x.optima → ∀ a, solve x (concrete x o) true e a = solve x (concrete x o) false e a) := by
  refine ⟨rfl, ?_, ?_, fun c => rfl, ?_⟩
  · intro c hc
    rw [solve_eq x o hnd, solve_eq x o hnd]
    simp only [Spec.solve, Spec.onlyRestrictions, hc]
  · intro hc
    rw [solve_eq x o hnd]
    simp only [Spec.solve, Spec.onlyRestrictions, hc]
  · intro hx a
    rw [solve_eq x o hnd, solve_eq x o hnd]
    cases a <;> simp [Spec.solve, Spec.onlyRestrictions, Spec.full, hx]

/-- **C103 (other objects).** A statement changes no other objects: options are set in one solver, a calculation changes one state and no solver, and a
copy leaves the solvers there were. -/
theorem C103_other_objects (x : Ctx Pr) (w : World Pr) :
    (∀ i o j, j ≠ i → (step x w (.setOptions i o)).1.solvers[j]? = w.solvers[j]?) ∧ (∀ i o, (step x w (.setOptions i o)).1.states = w.states) ∧
    (∀ i k sens a, (step x w (.solve i k sens a)).1.solvers = w.solvers) ∧
    (∀ i k sens a j, j ≠ k → (step x w (.solve i k sens a)).1.states[j]? = w.states[j]?) ∧
    (∀ i j, j < w.solvers.length → (step x w (.copy i)).1.solvers[j]? = w.solvers[j]?) ∧
    (∀ i s, w.solvers[i]? = some s → (step x w (.copy i)).1.solvers[w.solvers.length]? = some s) := by
  refine ⟨?_, ?_, ?_, ?_, ?_, ?_⟩
  · intro i o j hj
    simp only [step]
    cases w.solvers[i]? with
    | none => rfl
    | some s => exact List.getElem?_set_ne (Ne.symm hj)
  · intro i o
    simp only [step]
    cases w.solvers[i]? <;> rfl
  · intro i k sens a
    simp only [step]
    cases w.solvers[i]? <;> cases w.states[k]? <;> rfl
  · intro i k sens a j hj
    simp only [step]
    cases w.solvers[i]? with
    | none => rfl
    | some s =>
      cases w.states[k]? with
      | none => rfl
      | some e => exact List.getElem?_set_ne (Ne.symm hj)
  · intro i j hj
    simp only [step]
    cases w.solvers[i]? with
    | none => rfl
    | some s => exact List.getElem?_append_left hj
  · intro i s hs
    simp only [step, hs]
    simp

/-- **C103 (starting points).** In a program whose specifications, if they have the same number of implicit titrants, have the same number of other unknowns,
every calculation with any of the solvers on any of the states begins at a point with an entry for every unknown, and
not more. Missing: states used with solvers that differ in the other unknowns only (`C103_start_wrong`). -/
theorem C103_start_partial (x : Ctx Pr) (hN : 0 < x.sys.species.length) (hk : ∀ o s t w, Spec.Keeps (x.optima o s t w)) (hkS : ∀ o s t w, Spec.Keeps (x.optimaS o s t w))
    (states : List EqState) (hst : ∀ e ∈ states, e.st.n.length = x.sys.species.length ∧ e.opt = ⟨[], []⟩) (prog : List (Stmt Pr)) (hz : ∀ st ∈ prog, Spec.Sized x.sys st)
    (hc : ∀ a b, .make a ∈ prog → .make b ∈ prog → Spec.Compatible a b) :
    ∀ s ∈ (run x ⟨[], states⟩ prog).1.solvers, ∀ e ∈ (run x ⟨[], states⟩ prog).1.states, Spec.Fits x.sys s.specs (updateOptState x.sys s.specs e) := by
  classical
  let A : List (Specs Rat Pr) := prog.filterMap fun st => match st with | .make s => some s | _ => none
  have hmem : ∀ s, s ∈ A ↔ .make s ∈ prog := by
    intro s
    simp only [A, List.mem_filterMap]
    constructor
    · rintro ⟨st, h1, h2⟩
      cases st <;> simp at h2
      subst h2; exact h1
    · intro h; exact ⟨_, h, rfl⟩
  have hA : ∀ a ∈ A, ∀ b ∈ A, Spec.Compatible a b := fun a ha b hb => hc a b ((hmem a).1 ha) ((hmem b).1 hb)
  have h := run_known x hN A hA hk hkS prog ⟨[], states⟩ (by simp) (fun e he => ⟨(hst e he).1, .inl (hst e he).2⟩) hz (fun s hs => (hmem s).2 hs)
  intro s hs e he
  exact start_fits x.sys hN A hA e (h.2 e he) s.specs (h.1 s hs)

/-- **C103 (options without effect).** The options `warmstart` and `hessian` have no effect: every program leaves the same states with any other
values of them. (A calculation always begins with the amounts and the record in the state, and the derivatives are always the exact ones.) -/
theorem C103_flags_wrong (x : Ctx Pr) (states : List EqState) (prog : List (Stmt Pr)) (warm : Bool) (hess : Hessian) :
    (run x ⟨[], states⟩ prog).1.states = (run x ⟨[], states⟩ (prog.map (Spec.withFlags warm hess))).1.states ∧
    (run x ⟨[], states⟩ prog).2 = (run x ⟨[], states⟩ (prog.map (Spec.withFlags warm hess))).2 :=
  run_alike x warm hess prog _ _ .nil rfl

/-! ## Examples and counterexamples -/

/-- An optimiser that moves the variables to their lower bounds if they are below. -/
def raise : Optimizer := fun p o =>
  let x := o.x.zipIdx.map fun (v, i) => match p.xlower[i]? with
    | some (some l) => max v l
    | _ => v
  ⟨⟨x, o.p⟩, true, o.p⟩

theorem raise_keeps : Spec.Keeps raise := by intro p o; simp [raise]

/-- A program's surroundings with that optimiser. -/
def exampleCtx : Ctx Unit where
  debug := true
  sys := ChemicalSystem.exampleSystem
  me := 0
  ln10 := 2
  log := id
  params := fun _ => []
  optima := fun _ _ _ _ => raise
  optimaS := fun _ _ _ _ => raise

/-- A state in which one species is missing. -/
def missing : EqState := { st := ⟨300, 100000, [1, 0, 3]⟩ }

/-- A program with options, a copy and calculations. -/
def exampleProg : List (Stmt Unit) :=
  [.make (defaultSpecs Unit), .setOptions 0 { epsilon := 1 / 1000 }, .copy 0, .setOptions 1 { epsilon := 1 / 10 }, .solve 0 0 false .state, .solve 1 1 true .state]

example : (∀ st ∈ exampleProg, Spec.Distinct st) ∧ (∀ st ∈ exampleProg, Spec.Accepted st) ∧
    ((run exampleCtx ⟨[], [missing, missing]⟩ exampleProg).1.states.map fun e => e.st.n) = [[1, 1 / 1000, 3], [1, 1 / 10, 3]] := by
  refine ⟨?_, ?_, by decide +kernel⟩
  · intro st hst
    simp only [exampleProg, List.mem_cons, List.not_mem_nil, or_false] at hst
    rcases hst with h | h | h | h | h | h <;> subst h <;> first | trivial | (show (defaultSpecs Unit).inputs.Nodup; rw [(defaultSpecs_eq Unit).1]; decide)
  · intro st hst
    simp only [exampleProg, List.mem_cons, List.not_mem_nil, or_false] at hst
    rcases hst with h | h | h | h | h | h <;> subst h <;> first | trivial | (show (0 : Rat) < _; norm_num)

/-- A solver is given options, then options that are refused, and calculates. -/
def refusedProg : List (Stmt Unit) :=
  [.make (defaultSpecs Unit), .setOptions 0 { epsilon := 1 / 1000 }, .setOptions 0 { epsilon := -1 }, .solve 0 0 false .state]

/-- **C103, counterexample.** Options that are refused with an exception stay in effect: the amount of the missing species stays zero, with the options accepted before
it would be at least 1/1000. -/
theorem C103_refused_wrong : ((run exampleCtx ⟨[], [missing]⟩ refusedProg).2 = [.returned, .returned, .threw, .returned]) ∧
    ((run exampleCtx ⟨[], [missing]⟩ refusedProg).1.states.map fun e => e.st.n) = [[1, 0, 3]] ∧
    ((Spec.run exampleCtx ⟨[], [missing]⟩ refusedProg).1.states.map fun e => e.st.n) = [[1, 1 / 1000, 3]] ∧
    ¬ Spec.Same (run exampleCtx ⟨[], [missing]⟩ refusedProg) (Spec.run exampleCtx ⟨[], [missing]⟩ refusedProg) := by
  have h1 : ((run exampleCtx ⟨[], [missing]⟩ refusedProg).1.states.map fun e => e.st.n) = [[1, 0, 3]] := by decide +kernel
  have h2 : ((Spec.run exampleCtx ⟨[], [missing]⟩ refusedProg).1.states.map fun e => e.st.n) = [[1, 1 / 1000, 3]] := by decide +kernel
  refine ⟨by decide +kernel, h1, h2, ?_⟩
  intro h
  rw [h.1, h2] at h1
  revert h1
  decide +kernel

/-- The specification of a calculation with given temperature and volume. -/
def volumeSpecs : Specs Rat Unit := EquilibriumSpecs.run (fun _ => none) [] [.temperature, .volume]

/-- A state is equilibrated at its temperature and pressure; there is a second solver for given volume. -/
def sharedProg : List (Stmt Unit) := [.make (defaultSpecs Unit), .make volumeSpecs, .solve 0 0 false .state]

/-- **C103, counterexample.** After a calculation at given temperature and pressure, a calculation of the same state at given temperature and volume begins at
a point without an entry for the unknown pressure. -/
theorem C103_start_wrong : numControlVariablesP volumeSpecs = 1 ∧ (run exampleCtx ⟨[], [missing]⟩ sharedProg).2 = [.returned, .returned, .returned] ∧
    ∃ s ∈ (run exampleCtx ⟨[], [missing]⟩ sharedProg).1.solvers, ∃ e ∈ (run exampleCtx ⟨[], [missing]⟩ sharedProg).1.states,
      ¬ Spec.Fits exampleCtx.sys s.specs (updateOptState exampleCtx.sys s.specs e) := by
  refine ⟨by decide +kernel, by decide +kernel, ?_⟩
  have hs : (run exampleCtx ⟨[], [missing]⟩ sharedProg).1.solvers = [concrete exampleCtx ⟨defaultSpecs Unit, {}⟩, concrete exampleCtx ⟨volumeSpecs, {}⟩] := by
    have h1 : dimsAccept (defaultSpecs Unit) = true := by decide +kernel
    have h2 : dimsAccept volumeSpecs = true := by decide +kernel
    have h3 := (C103_other_objects exampleCtx ⟨[concrete exampleCtx ⟨defaultSpecs Unit, {}⟩, concrete exampleCtx ⟨volumeSpecs, {}⟩], [missing]⟩).2.2.1 0 0 false .state
    unfold sharedProg
    simp only [run]
    have s1 : step exampleCtx ⟨[], [missing]⟩ (.make (defaultSpecs Unit)) = (⟨[concrete exampleCtx ⟨defaultSpecs Unit, {}⟩], [missing]⟩, .returned) := by
      simp only [step, construct_eq, if_pos h1, List.nil_append]
    have s2 : step exampleCtx ⟨[concrete exampleCtx ⟨defaultSpecs Unit, {}⟩], [missing]⟩ (.make volumeSpecs) =
        (⟨[concrete exampleCtx ⟨defaultSpecs Unit, {}⟩, concrete exampleCtx ⟨volumeSpecs, {}⟩], [missing]⟩, .returned) := by
      simp only [step, construct_eq, if_pos h2, List.cons_append, List.nil_append]
    rw [s1]
    dsimp only
    rw [s2]
    dsimp only
    cases hw : step exampleCtx ⟨[concrete exampleCtx ⟨defaultSpecs Unit, {}⟩, concrete exampleCtx ⟨volumeSpecs, {}⟩], [missing]⟩ (.solve 0 0 false .state) with
    | mk w en =>
      rw [hw] at h3
      cases en <;> exact h3
  have he : (run exampleCtx ⟨[], [missing]⟩ sharedProg).1.states.map (·.opt.p) = [[]] ∧ (run exampleCtx ⟨[], [missing]⟩ sharedProg).1.states.map (·.opt.x.length) = [3] := by decide +kernel
  rw [hs]
  refine ⟨concrete exampleCtx ⟨volumeSpecs, {}⟩, by simp, ?_⟩
  cases hst : (run exampleCtx ⟨[], [missing]⟩ sharedProg).1.states with
  | nil => rw [hst] at he; simp at he
  | cons e l =>
    rw [hst] at he
    refine ⟨e, by simp, ?_⟩
    simp only [List.map_cons, List.cons.injEq, List.map_eq_nil_iff] at he
    intro hf
    have h1 := hf.2
    have hn : numControlVariablesP (concrete exampleCtx ⟨volumeSpecs, {}⟩).specs = 1 := by decide +kernel
    have hl : exampleCtx.sys.species.length + (concrete exampleCtx ⟨volumeSpecs, {}⟩).specs.titrantsImplicit.length = 3 := by decide +kernel
    rw [hn] at h1
    unfold updateOptState at h1
    dsimp only at h1
    rw [hl, if_neg (not_not.2 he.2.1), he.1.1] at h1
    simp at h1

/-- The hypotheses of `C103_start_partial` with two solvers. -/
example : 0 < exampleCtx.sys.species.length ∧ (∀ o s t w, Spec.Keeps (exampleCtx.optima o s t w)) ∧ (∀ st ∈ exampleProg, Spec.Sized exampleCtx.sys st) ∧
    (∀ a b, .make a ∈ exampleProg → .make b ∈ exampleProg → Spec.Compatible a b) := by
  refine ⟨by decide +kernel, fun _ _ _ _ => raise_keeps, ?_, ?_⟩
  · intro st hst
    simp only [exampleProg, List.mem_cons, List.not_mem_nil, or_false] at hst
    rcases hst with h | h | h | h | h | h <;> subst h <;> trivial
  · intro a b ha hb
    simp only [exampleProg, List.mem_cons, List.not_mem_nil, or_false, Stmt.make.injEq, reduceCtorEq] at ha hb
    subst ha hb
    intro _; rfl

end Verif.SolverSessions
