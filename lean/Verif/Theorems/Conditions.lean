import Verif.Spec.Conditions
import Mathlib.Tactic.Linarith

/-!
# Theorems C38: equilibrium conditions
-/

namespace Verif.Conditions

open Chem

/-- What holds of the conditions at any time. -/
def WF (c : Cond) : Prop := c.values.length = c.inputs.length

theorem contains_iff (l : List Str) (x : Str) : contains l x = true ↔ x ∈ l := by
  unfold contains
  cases l with
  | nil => simp
  | cons a l => simp only [List.length_cons, List.any_eq_true, Bool.and_eq_true, bne_iff_ne, beq_iff_eq, exists_eq_right]; simp

theorem index_lt (l : List Str) (x : Str) (h : x ∈ l) : index l x < l.length := by
  unfold index indexfn
  exact List.findIdx_lt_length_of_exists ⟨x, h, by simp⟩

theorem index_ge (l : List Str) (x : Str) (h : x ∉ l) : index l x = l.length := by
  unfold index indexfn
  apply List.findIdx_eq_length_of_false
  intro y hy
  simp only [decide_eq_false_iff_not]
  rintro rfl
  exact h hy

theorem lookup_set (inputs : List Str) : ∀ (values : List Rat), values.length = inputs.length → ∀ (name other : Str) (v : Rat),
    name ∈ inputs → (inputs.zip (values.set (index inputs name) v)).lookup other =
      if other = name then some v else (inputs.zip values).lookup other := by
  induction inputs with
  | nil => intro values _ name other v h; cases h
  | cons a inputs ih =>
    intro values hlen name other v hm
    cases values with
    | nil => cases hlen
    | cons b values =>
      by_cases ha : a = name
      · subst ha
        have : index (a :: inputs) a = 0 := by simp [index, indexfn, List.findIdx_cons]
        rw [this]
        simp only [List.set_cons_zero, List.zip_cons_cons, List.lookup_cons]
        by_cases ho : other = a
        · subst ho; simp
        · rw [if_neg ho, show (other == a) = false from by simpa using ho]
      · have hm' : name ∈ inputs := by
          rcases List.mem_cons.1 hm with h | h
          · exact absurd h.symm ha
          · exact h
        have : index (a :: inputs) name = index inputs name + 1 := by
          simp [index, indexfn, List.findIdx_cons, ha]
        rw [this]
        simp only [List.set_cons_succ, List.zip_cons_cons, List.lookup_cons]
        rw [ih values (by simpa using hlen) name other v hm']
        by_cases ho : other = a
        · subst ho
          simp only [beq_self_eq_true]; rw [if_neg ha]
        · rw [show (other == a) = false from by simpa using ho]

/-- The outcome of setting an input. -/
theorem setInput_spec (c : Cond) (hc : WF c) (name : Str) (r : Res Rat) :
    (name ∉ c.inputs ∧ setInput c name r = (c, .threw)) ∨
    (name ∈ c.inputs ∧ r = .throw ∧ setInput c name r = (c, .threw)) ∨
    (name ∈ c.inputs ∧ r = .ub ∧ setInput c name r = (c, .undefined)) ∨
    (name ∈ c.inputs ∧ ∃ v, r = .ok v ∧ setInput c name r = ({ c with values := c.values.set (index c.inputs name) v }, .returned)) := by
  unfold setInput
  by_cases h : name ∈ c.inputs
  · rw [if_pos ((contains_iff _ _).2 h)]
    cases r with
    | throw => exact .inr (.inl ⟨h, rfl, rfl⟩)
    | ub => exact .inr (.inr (.inl ⟨h, rfl, rfl⟩))
    | ok v =>
      refine .inr (.inr (.inr ⟨h, v, rfl, ?_⟩))
      unfold andThen assign
      dsimp only
      rw [if_pos (by rw [hc]; exact index_lt _ _ h)]
  · rw [if_neg (fun h' => h ((contains_iff _ _).1 h'))]
    exact .inl ⟨h, rfl⟩

/-- Every documented setter is `setInput`, apart from `Eh`. -/
theorem step_setInput (ln10 : Rat) (log : Rat → Rat) (sys : Sys) (c : Cond) (call : Call) (name : Str) (r : Res Rat)
    (hd : documented ln10 log call = some (name, r)) (hE : NotEhOtherUnit call) : step ln10 log sys c call = setInput c name r := by
  cases call with
  | set n v =>
    simp only [documented, Option.some.injEq, Prod.mk.injEq] at hd
    obtain ⟨rfl, rfl⟩ := hd
    simp only [step, setInput]
    by_cases h : n ∈ c.inputs
    · rw [if_pos ((contains_iff _ _).2 h), if_neg (by have := index_lt _ _ h; omega)]
      rfl
    · rw [if_neg (fun h' => h ((contains_iff _ _).1 h')), if_pos (by rw [index_ge _ _ h])]
  | Eh v u =>
    simp only [documented, Option.some.injEq, Prod.mk.injEq] at hd
    obtain ⟨rfl, rfl⟩ := hd
    simp only [NotEhOtherUnit] at hE
    subst hE
    simp only [step, Units.convert, if_true]
  | lgActivity s v =>
    simp only [documented, Option.some.injEq, Prod.mk.injEq] at hd
    obtain ⟨rfl, rfl⟩ := hd
    simp only [step, mul_comm]
  | startWithIndex => cases hd
  | startWithName => cases hd
  | startWithState => cases hd
  | startWithComponents => cases hd
  | _ =>
    simp only [documented, Option.some.injEq, Prod.mk.injEq] at hd
    obtain ⟨rfl, rfl⟩ := hd
    rfl

theorem start_keeps (ln10 : Rat) (log : Rat → Rat) (sys : Sys) (c : Cond) (call : Call) (hd : documented ln10 log call = none) :
    (step ln10 log sys c call).1.inputs = c.inputs ∧ (step ln10 log sys c call).1.values = c.values := by
  have key : ∀ i v u, (startWithIndex sys c i v u).1.inputs = c.inputs ∧ (startWithIndex sys c i v u).1.values = c.values := by
    intro i v u
    unfold startWithIndex
    by_cases h : i ≥ sys.species.length
    · rw [if_pos h]; exact ⟨rfl, rfl⟩
    · rw [if_neg h]
      cases computeSpeciesAmount sys i v u <;> exact ⟨rfl, rfl⟩
  cases call with
  | startWithIndex i v u => exact key i v u
  | startWithName s v u =>
    simp only [step, startWithName]
    cases ChemicalState.index sys.species s with
    | ok i => exact key i v u
    | throw => exact ⟨rfl, rfl⟩
    | ub => exact ⟨rfl, rfl⟩
  | startWithState n =>
    simp only [step, startWithState]
    by_cases h : n.length ≠ sys.species.length
    · rw [if_pos h]; exact ⟨rfl, rfl⟩
    · rw [if_neg h]; exact ⟨rfl, rfl⟩
  | startWithComponents b =>
    simp only [step, startWithComponents]
    by_cases h : b.length ≠ sys.numElements + 1
    · rw [if_pos h]; exact ⟨rfl, rfl⟩
    · rw [if_neg h]; exact ⟨rfl, rfl⟩
  | _ => cases hd

theorem assignParams_length : ∀ (is : List Nat) (vs values : List Rat), (assignParams values is vs).length = values.length := by
  intro is
  induction is with
  | nil => intro vs values; simp [assignParams]
  | cons i is ih =>
    intro vs values
    cases vs with
    | nil => simp [assignParams]
    | cons v vs => simp [assignParams, ih]

theorem initial_wf (inputs : List Str) (idxs : List Nat) (params : List Rat) : WF (initial inputs idxs params) := by
  simp [WF, initial, assignParams_length]

theorem step_keeps (ln10 : Rat) (log : Rat → Rat) (sys : Sys) (c : Cond) (hc : WF c) (call : Call) :
    WF (step ln10 log sys c call).1 ∧ (step ln10 log sys c call).1.inputs = c.inputs := by
  have key : ∀ name r, WF (setInput c name r).1 ∧ (setInput c name r).1.inputs = c.inputs := by
    intro name r
    rcases setInput_spec c hc name r with ⟨-, e⟩ | ⟨-, -, e⟩ | ⟨-, -, e⟩ | ⟨-, v, -, e⟩ <;> rw [e]
    · exact ⟨hc, rfl⟩
    · exact ⟨hc, rfl⟩
    · exact ⟨hc, rfl⟩
    · exact ⟨by unfold WF at hc ⊢; simpa using hc, rfl⟩
  cases hd : documented ln10 log call with
  | none =>
    obtain ⟨h1, h2⟩ := start_keeps ln10 log sys c call hd
    exact ⟨by unfold WF at hc ⊢; rw [h1, h2, hc], h1⟩
  | some p =>
    obtain ⟨name, r⟩ := p
    by_cases hE : NotEhOtherUnit call
    · rw [step_setInput ln10 log sys c call name r hd hE]; exact key _ _
    · cases call with
      | Eh v u => exact key _ _
      | _ => exact absurd trivial hE

/-- **C38 (one call), partial.** A setter whose input is not registered, or whose value cannot be converted, throws and changes nothing;
otherwise it gives the input the documented value and changes no other input and no initial condition. Missing: `Eh` with a unit
other than volt, for which this is false (`C38_Eh_unit_ignored`). -/
theorem C38_setter_partial (ln10 : Rat) (log : Rat → Rat) (sys : Sys) (c : Cond) (hc : c.values.length = c.inputs.length) (call : Call)
    (name : Str) (r : Res Rat) (hd : documented ln10 log call = some (name, r)) (hE : NotEhOtherUnit call) :
    (name ∉ c.inputs → step ln10 log sys c call = (c, .threw)) ∧
    (name ∈ c.inputs → r = .throw → step ln10 log sys c call = (c, .threw)) ∧
    (∀ v, name ∈ c.inputs → r = .ok v → (step ln10 log sys c call).2 = .returned ∧
      valueOf (step ln10 log sys c call).1 name = some v ∧
      (∀ other, other ≠ name → valueOf (step ln10 log sys c call).1 other = valueOf c other) ∧
      (step ln10 log sys c call).1.inputs = c.inputs ∧
      (step ln10 log sys c call).1.amounts = c.amounts ∧ (step ln10 log sys c call).1.components = c.components) := by
  rw [step_setInput ln10 log sys c call name r hd hE]
  rcases setInput_spec c hc name r with ⟨h, e⟩ | ⟨h, h2, e⟩ | ⟨h, h2, e⟩ | ⟨h, v, h2, e⟩ <;> rw [e]
  · exact ⟨fun _ => rfl, fun h' => absurd h' h, fun v h' => absurd h' h⟩
  · refine ⟨fun h' => absurd h h', fun _ _ => rfl, ?_⟩
    rintro v - rfl; cases h2
  · refine ⟨fun h' => absurd h h', ?_, ?_⟩
    · rintro - rfl; cases h2
    · rintro v - rfl; cases h2
  · refine ⟨fun h' => absurd h h', ?_, ?_⟩
    · rintro - rfl; cases h2
    · rintro v' - rfl
      cases h2
      refine ⟨rfl, ?_, ?_, rfl, rfl, rfl⟩
      · simp only [valueOf]; rw [lookup_set _ _ hc _ _ _ h, if_pos rfl]
      · intro other ho
        simp only [valueOf]; rw [lookup_set _ _ hc _ _ _ h, if_neg ho]

/-- **C38 (conditions on the initial amounts).** The calls that set the initial amounts change no input. -/
theorem C38_start_keeps_inputs (ln10 : Rat) (log : Rat → Rat) (sys : Sys) (c : Cond) (call : Call)
    (hd : documented ln10 log call = none) (name : Str) : valueOf (step ln10 log sys c call).1 name = valueOf c name := by
  obtain ⟨h1, h2⟩ := start_keeps ln10 log sys c call hd
  simp only [valueOf, h1, h2]

/-- **C38 (histories), partial.** After every sequence of calls without undefined behaviour, also when some throw, a registered input has the value
of the last call that set it, or its first value. Missing: `Eh` with other units. -/
theorem C38_last_wins_partial (ln10 : Rat) (log : Rat → Rat) (sys : Sys) (name : Str) (calls : List Call)
    (hE : ∀ call ∈ calls, NotEhOtherUnit call) : ∀ (c c' : Cond), c.values.length = c.inputs.length → name ∈ c.inputs →
    run ln10 log sys c calls = (c', .returned) →
    c'.inputs = c.inputs ∧ valueOf c' name = lastValue ln10 log name (valueOf c name) calls := by
  induction calls with
  | nil => intro c c' _ _ h; simp only [run, Prod.mk.injEq] at h; obtain ⟨rfl, -⟩ := h; exact ⟨rfl, rfl⟩
  | cons call calls ih =>
    intro c c' hc hn hrun
    have hk := step_keeps ln10 log sys c hc call
    have key : valueOf (step ln10 log sys c call).1 name =
        (match documented ln10 log call with
        | some (n, .ok v) => if n = name then some v else valueOf c name
        | _ => valueOf c name) ∧ ((step ln10 log sys c call).2 ≠ .undefined → run ln10 log sys c (call :: calls) =
          run ln10 log sys (step ln10 log sys c call).1 calls) := by
      constructor
      · cases hd : documented ln10 log call with
        | none => exact C38_start_keeps_inputs ln10 log sys c call hd name
        | some p =>
          obtain ⟨n, r⟩ := p
          rw [step_setInput ln10 log sys c call n r hd (hE call (by simp))]
          rcases setInput_spec c hc n r with ⟨h, e⟩ | ⟨h, h2, e⟩ | ⟨h, h2, e⟩ | ⟨h, v, h2, e⟩ <;> rw [e]
          · cases r with
            | ok v => dsimp only; rw [if_neg]; rintro rfl; exact h hn
            | throw => rfl
            | ub => rfl
          · subst h2; rfl
          · subst h2; rfl
          · subst h2
            simp only [valueOf]
            rw [lookup_set _ _ hc _ _ _ h]
            by_cases hx : n = name
            · rw [if_pos hx, if_pos hx.symm]
            · rw [if_neg hx, if_neg (fun h => hx h.symm)]
      · intro hne
        rw [run]
        cases hs : step ln10 log sys c call with
        | mk c1 e =>
          rw [hs] at hne
          cases e with
          | undefined => exact absurd rfl hne
          | returned => rfl
          | threw => rfl
    have hne : (step ln10 log sys c call).2 ≠ .undefined := by
      intro hu
      rw [run] at hrun
      cases hs : step ln10 log sys c call with
      | mk c1 e =>
        rw [hs] at hrun hu
        cases hu
        cases hrun
    rw [key.2 hne] at hrun
    obtain ⟨h1, h2⟩ := ih (fun x hx => hE x (List.mem_cons_of_mem _ hx)) _ _ hk.1 (by rw [hk.2]; exact hn) hrun
    refine ⟨h1.trans hk.2, ?_⟩
    rw [h2, key.1]
    rfl

/-- **C38, counterexample.** The unit given to `Eh` is ignored: 500 mV are taken as 500 V. -/
theorem C38_Eh_unit_ignored (ln10 : Rat) (log : Rat → Rat) (sys : Sys) :
    Units.convert 500 c!"mV" c!"V" = .ok (1 / 2) ∧
    valueOf (step ln10 log sys ⟨[c!"Eh"], [0], [], []⟩ (.Eh 500 c!"mV")).1 c!"Eh" = some 500 :=
  ⟨by decide +kernel, by rfl⟩

theorem assignParams_get : ∀ (is : List Nat) (vs values : List Rat), is.length = vs.length → is.Nodup → (∀ i ∈ is, i < values.length) →
    (∀ k (hk : k < is.length) (hv : k < vs.length), (assignParams values is vs)[is[k]]? = some vs[k]) ∧
    (∀ i, i ∉ is → (assignParams values is vs)[i]? = values[i]?) := by
  intro is
  induction is with
  | nil => intro vs values _ _ _; exact ⟨fun k hk => absurd hk (Nat.not_lt_zero _), fun i _ => by simp [assignParams]⟩
  | cons i is ih =>
    intro vs values hlen hnd hin
    cases vs with
    | nil => cases hlen
    | cons v vs =>
      rw [List.nodup_cons] at hnd
      obtain ⟨h1, h2⟩ := ih vs (values.set i v) (by simpa using hlen) hnd.2 (fun j hj => by
        rw [List.length_set]; exact hin j (List.mem_cons_of_mem _ hj))
      simp only [assignParams]
      constructor
      · intro k hk hv
        cases k with
        | zero =>
          simp only [List.getElem_cons_zero]
          rw [h2 i hnd.1, List.getElem?_set_self (hin i (by simp))]
        | succ k => simpa using h1 k (by simpa using hk) (by simpa using hv)
      · intro j hj
        rw [h2 j (fun h => hj (List.mem_cons_of_mem _ h)), List.getElem?_set_ne]
        intro h
        exact hj (by rw [h]; simp)

/-- **C38 (first values).** When the conditions are made, an input that is a model parameter has the current value of that parameter, and
every other input is zero. The specification keeps the positions of the parameters distinct and in range (C35). -/
theorem C38_initial_values (inputs : List Str) (idxs : List Nat) (params : List Rat) (hlen : idxs.length = params.length)
    (hnd : idxs.Nodup) (hin : ∀ i ∈ idxs, i < inputs.length) :
    (∀ k (hk : k < idxs.length) (hv : k < params.length), (initial inputs idxs params).values[idxs[k]]? = some params[k]) ∧
    (∀ i < inputs.length, i ∉ idxs → (initial inputs idxs params).values[i]? = some 0) := by
  obtain ⟨h1, h2⟩ := assignParams_get idxs params (List.replicate inputs.length 0) hlen hnd (by simpa using hin)
  refine ⟨h1, fun i hi hni => ?_⟩
  exact (h2 i hni).trans (by rw [List.getElem?_replicate, if_pos hi])

theorem computeSpeciesAmount_meant (sys : Sys) (i : Nat) (value : Rat) (unit : Str) (a : Rat)
    (h : computeSpeciesAmount sys i value unit = .ok a) : AmountMeant sys i value unit a := by
  unfold computeSpeciesAmount at h
  by_cases hu : unit = c!"mol"
  · rw [if_pos hu] at h; cases h; exact .inl ⟨hu, rfl⟩
  · rw [if_neg hu] at h
    cases hc : Units.convertible unit c!"kg" with
    | throw => rw [hc] at h; cases h
    | ub => rw [hc] at h; cases h
    | ok b =>
      rw [hc, Res.bind_ok'] at h
      cases b with
      | false =>
        rw [if_neg (by decide)] at h
        exact .inr (.inr ⟨hc, h⟩)
      | true =>
        rw [if_pos rfl] at h
        by_cases hi : i < sys.species.length
        · rw [at!_of_lt _ _ hi, Res.bind_ok'] at h
          cases hm : Units.convert value unit c!"kg" with
          | throw => rw [hm] at h; cases h
          | ub => rw [hm] at h; cases h
          | ok m =>
            rw [hm, Res.bind_ok'] at h
            cases h
            exact .inr (.inl ⟨hc, _, m, List.getElem?_eq_getElem hi, hm, rfl⟩)
        · rw [at!_of_ge _ _ (by omega)] at h; cases h

theorem resize_holds (sys : Sys) (c : Cond) (st : Start) (h : Holds sys c st) :
    resize c.amounts sys.species.length = (List.range sys.species.length).map st.amount := by
  have hz : ∀ f : Nat → Rat, (∀ j, f j = 0) → (List.range sys.species.length).map f = List.replicate sys.species.length 0 := by
    intro f hf
    rw [show f = fun _ => 0 from funext hf, List.map_const', List.length_range]
  have hz' : resize [] sys.species.length = List.replicate sys.species.length 0 := by
    unfold resize
    by_cases h0 : ([] : List Rat).length = sys.species.length
    · rw [if_pos h0, ← h0]; rfl
    · rw [if_neg h0]
  cases st with
  | none => rw [h.1, hz']; exact (hz _ (fun _ => rfl)).symm
  | components b => rw [h.1, hz']; exact (hz _ (fun _ => rfl)).symm
  | species n =>
    rw [h.1]
    unfold resize
    rw [if_pos (by rw [List.length_map, List.length_range])]
    rfl

theorem set_map_range (n i : Nat) (f : Nat → Rat) (a : Rat) :
    ((List.range n).map f).set i a = (List.range n).map (fun j => if j = i then a else f j) := by
  apply List.ext_getElem
  · simp
  · intro j h1 h2
    simp only [List.getElem_set, List.getElem_map, List.getElem_range]
    by_cases hji : i = j
    · rw [if_pos hji, if_pos hji.symm]
    · rw [if_neg hji, if_neg (fun h => hji h.symm)]

theorem startWithIndex_step (sys : Sys) (c c' : Cond) (st : Start) (h : Holds sys c st) (i : Nat) (v : Rat) (u : Str)
    (hs : startWithIndex sys c i v u = (c', .returned)) : i < sys.species.length ∧ ∃ a, AmountMeant sys i v u a ∧
    Holds sys c' (.species (fun j => if j = i then a else st.amount j)) := by
  unfold startWithIndex at hs
  by_cases hi : i ≥ sys.species.length
  · rw [if_pos hi] at hs; simp at hs
  · rw [if_neg hi] at hs
    refine ⟨by omega, ?_⟩
    cases ha : computeSpeciesAmount sys i v u with
    | throw => rw [ha] at hs; simp [andThen] at hs
    | ub => rw [ha] at hs; simp [andThen] at hs
    | ok a =>
      rw [ha] at hs
      simp only [andThen, Prod.mk.injEq, and_true] at hs
      subst hs
      refine ⟨a, computeSpeciesAmount_meant sys i v u a ha, ?_⟩
      simp only [Holds, and_true]
      rw [resize_holds sys c st h, set_map_range]

/-- **C38 (initial condition).** Every call that returns changes the initial condition as documented: `startWith` for a species sets its
amount and keeps those of the others given before, or zero; a state or component amounts replace everything. A call that throws
changes nothing. -/
theorem C38_initial_condition (ln10 : Rat) (log : Rat → Rat) (sys : Sys) (c : Cond) (st : Start) (hc : c.values.length = c.inputs.length)
    (h : Holds sys c st) (call : Call) :
    ((step ln10 log sys c call).2 = .threw → (step ln10 log sys c call).1 = c) ∧
    ((step ln10 log sys c call).2 = .returned → ∃ st', StartStep sys st call st' ∧ Holds sys (step ln10 log sys c call).1 st') := by
  have hset : ∀ name r, ((setInput c name r).2 = .threw → (setInput c name r).1 = c) ∧
      ((setInput c name r).2 = .returned → Holds sys (setInput c name r).1 st) := by
    intro name r
    rcases setInput_spec c hc name r with ⟨-, e⟩ | ⟨-, -, e⟩ | ⟨-, -, e⟩ | ⟨-, v, -, e⟩ <;> rw [e]
    · exact ⟨fun _ => rfl, fun h => End.noConfusion h⟩
    · exact ⟨fun _ => rfl, fun h => End.noConfusion h⟩
    · exact ⟨fun h => End.noConfusion h, fun h => End.noConfusion h⟩
    · refine ⟨fun h => End.noConfusion h, fun _ => ?_⟩
      cases st <;> exact h
  have hidx : ∀ i v u, (startWithIndex sys c i v u).2 = .threw → (startWithIndex sys c i v u).1 = c := by
    intro i v u ht
    unfold startWithIndex at ht ⊢
    by_cases hi : i ≥ sys.species.length
    · rw [if_pos hi]
    · rw [if_neg hi] at ht ⊢
      cases ha : computeSpeciesAmount sys i v u with
      | throw => rfl
      | ub => rfl
      | ok a => rw [ha] at ht; cases ht
  cases hd : documented ln10 log call with
  | some p =>
    obtain ⟨name, r⟩ := p
    have hother : StartStep sys st call st := by
      apply StartStep.other <;> (intros; intro h; subst h; cases hd)
    by_cases hE : NotEhOtherUnit call
    · rw [step_setInput ln10 log sys c call name r hd hE]
      exact ⟨(hset name r).1, fun h' => ⟨st, hother, (hset name r).2 h'⟩⟩
    · cases call with
      | Eh v u => exact ⟨(hset _ _).1, fun h' => ⟨st, hother, (hset _ _).2 h'⟩⟩
      | _ => exact absurd trivial hE
  | none =>
    cases call with
    | startWithIndex i v u =>
      refine ⟨hidx i v u, fun hr => ?_⟩
      obtain ⟨hi, a, h1, h2⟩ := startWithIndex_step sys c (startWithIndex sys c i v u).1 st h i v u (Prod.ext rfl hr)
      exact ⟨_, .index st i v u a hi h1, h2⟩
    | startWithName s v u =>
      simp only [step, startWithName]
      unfold ChemicalState.index
      by_cases hlt : findWithName sys.species s ≥ sys.species.length
      · dsimp only
        rw [if_pos hlt]
        exact ⟨fun _ => rfl, fun h => End.noConfusion h⟩
      · dsimp only
        rw [if_neg hlt]
        refine ⟨hidx _ v u, fun hr => ?_⟩
        obtain ⟨hi, a, h1, h2⟩ := startWithIndex_step sys c (startWithIndex sys c _ v u).1 st h _ v u (Prod.ext rfl hr)
        refine ⟨_, .name st s (findWithName sys.species s) v u a hi ?_ ?_ h1, h2⟩
        · rw [List.getElem?_eq_getElem hi]
          have := List.findIdx_getElem (p := fun x : Species => decide (x.name = s)) (xs := sys.species) (w := hi)
          simp only [decide_eq_true_eq] at this
          rw [Option.map_some]
          exact congrArg some this
        · intro j hj
          have hjl : j < sys.species.length := by omega
          rw [List.getElem?_eq_getElem hjl]
          have := List.not_of_lt_findIdx (p := fun x : Species => decide (x.name = s)) (xs := sys.species) hj
          simpa using this
    | startWithState n =>
      simp only [step, startWithState]
      by_cases hn : n.length ≠ sys.species.length
      · rw [if_pos hn]; exact ⟨fun _ => rfl, fun h => End.noConfusion h⟩
      · rw [if_neg hn]
        refine ⟨fun h => End.noConfusion h, fun _ => ⟨_, .state st n (not_not.1 hn), ?_⟩⟩
        simp only [Holds, and_true]
        rw [← not_not.1 hn]
        apply List.ext_getElem
        · simp
        · intro j h1 h2
          simp [List.getD_eq_getElem?_getD, h1]
    | startWithComponents b =>
      simp only [step, startWithComponents]
      by_cases hb : b.length ≠ sys.numElements + 1
      · rw [if_pos hb]; exact ⟨fun _ => rfl, fun h => End.noConfusion h⟩
      · rw [if_neg hb]
        refine ⟨fun h => End.noConfusion h, fun _ => ⟨_, .components st b (not_not.1 hb), ?_⟩⟩
        exact ⟨rfl, rfl, not_not.1 hb⟩
    | _ => cases hd

/-- **C38 (component amounts).** Without initial condition the component amounts cannot be obtained; given component amounts are returned;
and for given species amounts component `i` is the sum over the species of the coefficient in the formula matrix times the amount. -/
theorem C38_component_amounts (sys : Sys) (c : Cond) (st : Start) (h : Holds sys c st) (hs : sys.species ≠ [])
    (hrows : ∀ row ∈ sys.formulaMatrix, row.length = sys.species.length) :
    match st with
    | .none => initialComponentAmounts sys c = .throw
    | .components b => initialComponentAmounts sys c = .ok b
    | .species n => ∃ b, initialComponentAmounts sys c = .ok b ∧ b.length = sys.formulaMatrix.length ∧
        ∀ i (hi : i < sys.formulaMatrix.length) (hb : i < b.length),
          b[i] = ((List.range sys.species.length).map fun j => sys.formulaMatrix[i].getD j 0 * n j).sum := by
  unfold initialComponentAmounts
  cases st with
  | none => simp only [Holds] at h; simp [h.1, h.2]
  | components b =>
    obtain ⟨h1, h2, h3⟩ := h
    dsimp only
    rw [h2, if_pos (by omega)]
  | species n =>
    obtain ⟨h1, h2⟩ := h
    dsimp only
    have hl : sys.species.length ≠ 0 := fun h => hs (List.length_eq_zero_iff.1 h)
    rw [h2, if_neg (by simp), if_neg (by rw [h1]; simpa using hs)]
    refine ⟨_, rfl, by simp [ChemicalSystem.mulVec], ?_⟩
    intro i hi hb
    simp only [ChemicalSystem.mulVec, List.getElem_map]
    have key : ∀ row : List Rat, row.length = sys.species.length → (List.zipWith (· * ·) row c.amounts).sum =
        ((List.range sys.species.length).map fun j => row.getD j 0 * n j).sum := by
      intro row hr
      rw [h1]
      congr 1
      apply List.ext_getElem
      · simp [hr]
      · intro j h3 h4
        simp only [List.getElem_zipWith, List.getElem_map, List.getElem_range]
        congr 1
        have : j < row.length := by rw [hr]; simpa using h4
        simp [List.getD_eq_getElem?_getD, this]
    exact key _ (hrows _ (List.getElem_mem hi))

/-! ### Examples -/

/-- A system with one species, water, and two elements. -/
def exampleSys : Sys :=
  { species := [{ rawName := c!"H2O", formula := c!"H2O", elements := [(⟨c!"H", 1 / 1000, [], []⟩, 2), (⟨c!"O", 16 / 1000, [], []⟩, 1)],
                  charge := 0, rawState := .Aqueous }],
    numElements := 2, formulaMatrix := [[2], [1], [0]], me := 0 }

example : run 2 id exampleSys (initial [c!"T", c!"P", c!"pH"] [] [])
    [.temperature 10 c!"celsius", .volume 1 c!"m3", .startWithName c!"H2O" 18 c!"g", .pressure 2 c!"bar", .pH 7, .temperature 25 c!"celsius"] =
    (⟨[c!"T", c!"P", c!"pH"], [29815 / 100, 200000, 7], [1], []⟩, .returned) := by decide +kernel

example : initialComponentAmounts exampleSys ⟨[], [], [1], []⟩ = .ok [2, 1, 0] := by decide +kernel

example : Holds exampleSys (initial [c!"T"] [] []) .none := ⟨rfl, rfl⟩

end Verif.Conditions
