import Verif.Model.EquilibriumPredictor
import Verif.Theorems.EquilibriumSolver

/-!
# Theorem C44: `EquilibriumPredictor`
-/

namespace Verif.EquilibriumPredictor

open Matrix EquilibriumSpecs EquilibriumSolver

variable {Nn Nq Np Nw Nb Nu : Nat}

/-- What a prediction that returns has done. -/
theorem predict_returned (debug : Bool) (r : Ref Nn Nq Np Nw Nb Nu) (s : Sens Nn Nq Np Nw Nb Nu Rat) (x x' : State Nn Nq Np Nw Nb Nu)
    (w : Fin Nw → Rat) (b : Fin Nb → Rat) (h : predict debug r s x w b = (x', .returned)) :
    x'.st.n = List.ofFn (predicted Nn r.n0 s.dndw s.dndb r.w0 w r.b0 b) ∧ x'.p = predicted Np r.p0 s.dpdw s.dpdb r.w0 w r.b0 b ∧
    x'.q = predicted Nq r.q0 s.dqdw s.dqdb r.w0 w r.b0 b ∧ x'.u = predicted Nu r.u0 s.dudw s.dudb r.w0 w r.b0 b ∧
    getT r.inputs (List.ofFn x'.p) (List.ofFn w) = .ok x'.st.T ∧ getP r.inputs (List.ofFn x'.p) (List.ofFn w) = .ok x'.st.P ∧
    0 < x'.st.T ∧ 0 < x'.st.P ∧ x'.inputs = r.inputs ∧ x'.w = r.w0 ∧ x'.b = r.b0 := by
  unfold predict at h
  dsimp only at h
  generalize hp : predicted Np r.p0 s.dpdw s.dpdb r.w0 w r.b0 b = p at h ⊢
  cases hT : getT r.inputs (List.ofFn p) (List.ofFn w) <;> rw [hT] at h <;> try (simp at h; done)
  rename_i T
  cases hP : getP r.inputs (List.ofFn p) (List.ofFn w) <;> rw [hP] at h <;> try (simp at h; done)
  rename_i P
  dsimp only at h
  rcases h1 : ChemicalState.setTemperature x.st T with ⟨st1, e1⟩
  rw [h1] at h
  cases e1 <;> try (simp at h; done)
  dsimp only at h
  rcases h2 : ChemicalState.setPressure st1 P with ⟨st2, e2⟩
  rw [h2] at h
  cases e2 <;> try (simp at h; done)
  dsimp only at h
  rcases h3 : ChemicalState.setAmounts debug st2 (List.ofFn (predicted Nn r.n0 s.dndw s.dndb r.w0 w r.b0 b)) with ⟨st3, e3⟩
  rw [h3] at h
  cases e3 <;> try (simp at h; done)
  dsimp only at h
  injection h with h _
  obtain ⟨hT0, rfl⟩ := setTemperature_returned h1
  obtain ⟨hP0, rfl⟩ := setPressure_returned h2
  have := setAmounts_returned h3
  subst this h
  exact ⟨rfl, rfl, rfl, rfl, hT, hP, hT0, hP0, rfl, rfl, rfl⟩

/-- **C44 (reference state).** With the inputs and the component amounts of the reference state the prediction is the reference state. -/
theorem C44_reference (debug : Bool) (r : Ref Nn Nq Np Nw Nb Nu) (s : Sens Nn Nq Np Nw Nb Nu Rat) (x : State Nn Nq Np Nw Nb Nu) (T P : Rat)
    (hT : getT r.inputs (List.ofFn r.p0) (List.ofFn r.w0) = .ok T) (hP : getP r.inputs (List.ofFn r.p0) (List.ofFn r.w0) = .ok P)
    (hT0 : 0 < T) (hP0 : 0 < P) (hn : ∀ i, 0 ≤ r.n0 i) (hN : Nn ≠ 0) (hx : x.st.n.length = Nn) :
    predict debug r s x r.w0 r.b0 = (⟨⟨T, P, List.ofFn r.n0⟩, r.u0, r.inputs, r.w0, r.b0, r.p0, r.q0⟩, .returned) := by
  have hz : ∀ (N : Nat) (v0 : Fin N → Rat) (A : Matrix (Fin N) (Fin Nw) Rat) (B : Matrix (Fin N) (Fin Nb) Rat), predicted N v0 A B r.w0 r.w0 r.b0 r.b0 = v0 := by
    intro N v0 A B; unfold predicted; rw [sub_self, sub_self, mulVec_zero, mulVec_zero, add_zero, add_zero]
  unfold predict
  simp only [hz, hT, hP]
  rw [show ChemicalState.setTemperature x.st T = ({ x.st with T := T }, .returned) from if_neg (not_le.2 hT0)]
  dsimp only
  rw [show ∀ st, ChemicalState.setPressure st P = ({ st with P := P }, .returned) from fun st => if_neg (not_le.2 hP0)]
  dsimp only
  have : ∀ st : ChemicalState.St, st.n.length = Nn → ChemicalState.setAmounts debug st (List.ofFn r.n0) = ({ st with n := List.ofFn r.n0 }, .returned) := by
    intro st hst
    unfold ChemicalState.setAmounts ChemicalState.asserted
    have h1 : (List.ofFn r.n0).length = st.n.length := by rw [List.length_ofFn, hst]
    have h2 : ∀ v ∈ List.ofFn r.n0, 0 ≤ v := by
      intro v hv
      rw [List.mem_ofFn] at hv
      obtain ⟨i, rfl⟩ := hv
      exact hn i
    simp [h1, h2, hN]
  rw [this ⟨T, P, x.st.n⟩ hx]

/-- **C44 (affine).** Predicted amounts, control variables and properties change by the given sensitivities times the change of inputs and of
component amounts, for any two predictions with the same reference. -/
theorem C44_affine (debug debug' : Bool) (r : Ref Nn Nq Np Nw Nb Nu) (s : Sens Nn Nq Np Nw Nb Nu Rat) (x y x' y' : State Nn Nq Np Nw Nb Nu)
    (w w' : Fin Nw → Rat) (b b' : Fin Nb → Rat) (h : predict debug r s x w b = (x', .returned)) (h' : predict debug' r s y w' b' = (y', .returned)) :
    (∃ n n' : Fin Nn → Rat, x'.st.n = List.ofFn n ∧ y'.st.n = List.ofFn n' ∧ n' = n + s.dndw *ᵥ (w' - w) + s.dndb *ᵥ (b' - b)) ∧
    y'.p = x'.p + s.dpdw *ᵥ (w' - w) + s.dpdb *ᵥ (b' - b) ∧
    y'.q = x'.q + s.dqdw *ᵥ (w' - w) + s.dqdb *ᵥ (b' - b) ∧
    y'.u = x'.u + s.dudw *ᵥ (w' - w) + s.dudb *ᵥ (b' - b) := by
  have key : ∀ (N : Nat) (v0 : Fin N → Rat) (A : Matrix (Fin N) (Fin Nw) Rat) (B : Matrix (Fin N) (Fin Nb) Rat),
      predicted N v0 A B r.w0 w' r.b0 b' = predicted N v0 A B r.w0 w r.b0 b + A *ᵥ (w' - w) + B *ᵥ (b' - b) := by
    intro N v0 A B
    unfold predicted
    simp only [mulVec_sub]
    abel
  obtain ⟨h1, h2, h3, h4, -⟩ := predict_returned debug r s x x' w b h
  obtain ⟨g1, g2, g3, g4, -⟩ := predict_returned debug' r s y y' w' b' h'
  exact ⟨⟨_, _, h1, g1, key _ _ _ _⟩, by rw [g2, h2, key], by rw [g3, h3, key], by rw [g4, h4, key]⟩

/-- **C44 (conservation).** If the reference state has the component amounts recorded in it and the sensitivities keep components (C45), then
the predicted state has the requested component amounts. -/
theorem C44_conservation (debug : Bool) (r : Ref Nn Nq Np Nw Nb Nu) (s : Sens Nn Nq Np Nw Nb Nu Rat) (x x' : State Nn Nq Np Nw Nb Nu)
    (w : Fin Nw → Rat) (b : Fin Nb → Rat) (W : Matrix (Fin Nb) (Fin Nn) Rat) (Aq : Matrix (Fin Nb) (Fin Nq) Rat) (Aep : Matrix (Fin Nb) (Fin Np) Rat)
    (hw : W * s.dndw + Aq * s.dqdw + Aep * s.dpdw = 0) (hb : W * s.dndb + Aq * s.dqdb + Aep * s.dpdb = 1)
    (h0 : W *ᵥ r.n0 + Aq *ᵥ r.q0 + Aep *ᵥ r.p0 = r.b0) (h : predict debug r s x w b = (x', .returned)) :
    ∃ n : Fin Nn → Rat, x'.st.n = List.ofFn n ∧ W *ᵥ n + Aq *ᵥ x'.q + Aep *ᵥ x'.p = b := by
  obtain ⟨h1, h2, h3, -⟩ := predict_returned debug r s x x' w b h
  refine ⟨_, h1, ?_⟩
  rw [h2, h3]
  unfold predicted
  simp only [mulVec_add, mulVec_mulVec]
  have e1 : (W * s.dndw) *ᵥ (w - r.w0) + (Aq * s.dqdw) *ᵥ (w - r.w0) + (Aep * s.dpdw) *ᵥ (w - r.w0) = 0 := by
    rw [← add_mulVec, ← add_mulVec, hw, zero_mulVec]
  have e2 : (W * s.dndb) *ᵥ (b - r.b0) + (Aq * s.dqdb) *ᵥ (b - r.b0) + (Aep * s.dpdb) *ᵥ (b - r.b0) = b - r.b0 := by
    rw [← add_mulVec, ← add_mulVec, hb, one_mulVec]
  calc _ = (W *ᵥ r.n0 + Aq *ᵥ r.q0 + Aep *ᵥ r.p0) + ((W * s.dndw) *ᵥ (w - r.w0) + (Aq * s.dqdw) *ᵥ (w - r.w0) + (Aep * s.dpdw) *ᵥ (w - r.w0)) +
        ((W * s.dndb) *ᵥ (b - r.b0) + (Aq * s.dqdb) *ᵥ (b - r.b0) + (Aep * s.dpdb) *ᵥ (b - r.b0)) := by abel
    _ = b := by rw [h0, e1, e2]; abel

/-- **C44 (temperature and pressure), partial.** For specifications in which temperature is not at the same time an input and unknown, the
predictor takes temperature and pressure from where the solver does: from the input if there is one, otherwise from the control variable. -/
theorem C44_temperature_pressure_partial {Pr : Type} (parse : EquilibriumSpecs.Str → Option Formula) (db : List Species) (calls : List (Call Rat Pr)) (p w : List Rat) :
    let s := run parse db calls
    ¬ (c!"T" ∈ s.inputs ∧ s.unknownT = true) → EquilibriumProps.Sized s p w →
    ∃ T P, getT s.inputs p w = .ok T ∧ EquilibriumProps.Known s c!"T" p w T ∧ EquilibriumProps.getter s c!"T" p w = .ok T ∧
      getP s.inputs p w = .ok P ∧ EquilibriumProps.Known s c!"P" p w P ∧ EquilibriumProps.getter s c!"P" p w = .ok P := by
  intro s hT hs
  have hc : Consistent s := C35_invariant parse db calls
  have hlen : p.length = (namesControlVariablesP s).length := by rw [EquilibriumProps.names_length]; exact hs.1
  obtain ⟨T, g1, k1⟩ := EquilibriumProps.getter_known s c!"T" (EquilibriumProps.T_known s hc) p w hlen hs.2
  obtain ⟨P, g2, k2⟩ := EquilibriumProps.getter_known s c!"P" (EquilibriumProps.P_known s hc) p w hlen hs.2
  refine ⟨T, P, ?_, k1, g1, ?_, k2, g2⟩
  · unfold getT
    dsimp only
    unfold EquilibriumProps.getter at g1
    rcases EquilibriumProps.index_cases s.inputs c!"T" with ⟨hm, hlt⟩ | ⟨hm, heq⟩
    · rw [if_pos hlt] at g1 ⊢; exact g1
    · rw [if_neg (by omega)] at g1 ⊢
      have hu : s.unknownT = true := by
        cases h : s.unknownT with
        | true => rfl
        | false => exact absurd (hc.temperature h) hm
      have : EquilibriumProps.index (namesControlVariables s) c!"T" = 0 := by
        unfold namesControlVariables namesControlVariablesP
        rw [if_pos hu]
        simp [EquilibriumProps.index, Chem.indexfn, List.findIdx_cons]
      rw [this] at g1
      exact g1
  · unfold getP
    dsimp only
    unfold EquilibriumProps.getter at g2
    rcases EquilibriumProps.index_cases s.inputs c!"P" with ⟨hm, hlt⟩ | ⟨hm, heq⟩
    · rw [if_pos hlt] at g2 ⊢; exact g2
    · rw [if_neg (by omega)] at g2 ⊢
      have hu : s.unknownP = true := by
        cases h : s.unknownP with
        | true => rfl
        | false => exact absurd (hc.pressure h) hm
      rcases EquilibriumProps.index_cases s.inputs c!"T" with ⟨hm', hlt'⟩ | ⟨hm', heq'⟩
      · rw [if_pos hlt']
        have hut : s.unknownT = false := by
          cases h : s.unknownT with
          | true => exact absurd ⟨hm', h⟩ hT
          | false => rfl
        have : EquilibriumProps.index (namesControlVariables s) c!"P" = 0 := by
          unfold namesControlVariables namesControlVariablesP
          rw [if_pos hu, hut]
          simp [EquilibriumProps.index, Chem.indexfn, List.findIdx_cons]
        rw [this] at g2
        exact g2
      · rw [if_neg (by omega)]
        have hut : s.unknownT = true := by
          cases h : s.unknownT with
          | true => rfl
          | false => exact absurd (hc.temperature h) hm'
        have : EquilibriumProps.index (namesControlVariables s) c!"P" = 1 := by
          unfold namesControlVariables namesControlVariablesP
          rw [if_pos hu, if_pos hut]
          simp [EquilibriumProps.index, Chem.indexfn, List.findIdx_cons]
        rw [this] at g2
        exact g2

example : let s : Specs Rat Unit := run (fun _ => none) [] [.temperature, .volume]
    ¬ (c!"T" ∈ s.inputs ∧ s.unknownT = true) ∧ s.unknownP = true ∧ EquilibriumProps.Sized s [(7 : Rat)] [300, 5] :=
  ⟨by decide +kernel, by decide +kernel, by decide +kernel, by decide +kernel⟩

/-- **C44, counterexample.** With an input named `T` while temperature and pressure are unknown, the predictor takes the temperature
for the pressure. The solver takes pressure from the second control variable. -/
theorem C44_pressure_from_temperature : let s : Specs Rat Unit := run (fun _ => none) [] [.addInput c!"T"]
    namesControlVariablesP s = [c!"T", c!"P"] ∧ getP s.inputs [400, 100000] [300] = .ok (400 : Rat) ∧
    EquilibriumProps.getter s c!"P" [400, 100000] [300] = .ok (100000 : Rat) := by
  decide +kernel

/-- **C44, counterexample.** The record of a predicted state has the inputs and component amounts of the reference state, not those of the
prediction. -/
theorem C44_record_is_reference (debug : Bool) (r : Ref Nn Nq Np Nw Nb Nu) (s : Sens Nn Nq Np Nw Nb Nu Rat) (x x' : State Nn Nq Np Nw Nb Nu)
    (w : Fin Nw → Rat) (b : Fin Nb → Rat) (h : predict debug r s x w b = (x', .returned)) : x'.w = r.w0 ∧ x'.b = r.b0 :=
  (predict_returned debug r s x x' w b h).2.2.2.2.2.2.2.2.2

/-- An example: one species, one component, inputs temperature and pressure. -/
def exampleRef : Ref 1 0 0 2 1 1 := ⟨[c!"T", c!"P"], ![2], ![], ![], ![300, 100000], ![2], ![5]⟩
def exampleSens : Sens 1 0 0 2 1 1 Rat := ⟨!![0, 0], 0, 0, !![1], 0, 0, !![1, 2], !![3]⟩
def exampleStart : State 1 0 0 2 1 1 := ⟨⟨1, 1, [0]⟩, ![0], [], ![0, 0], ![0], ![], ![]⟩

example : (predict true exampleRef exampleSens exampleStart ![310, 200000] ![4]).2 = .returned ∧
    (predict true exampleRef exampleSens exampleStart ![310, 200000] ![4]).1.st = ⟨310, 200000, [4]⟩ ∧
    (predict true exampleRef exampleSens exampleStart ![310, 200000] ![4]).1.u = ![200021] ∧
    (!![1] : Matrix (Fin 1) (Fin 1) Rat) * exampleSens.dndw + (0 : Matrix (Fin 1) (Fin 0) Rat) * exampleSens.dqdw + (0 : Matrix (Fin 1) (Fin 0) Rat) * exampleSens.dpdw = 0 ∧
    (!![1] : Matrix (Fin 1) (Fin 1) Rat) * exampleSens.dndb + (0 : Matrix (Fin 1) (Fin 0) Rat) * exampleSens.dqdb + (0 : Matrix (Fin 1) (Fin 0) Rat) * exampleSens.dpdb = 1 :=
  ⟨by decide +kernel, by decide +kernel, by decide +kernel, by decide +kernel, by decide +kernel⟩

/-- **C44, limit.** Without assertions a predicted negative amount is kept. -/
theorem C44_negative_amount : ∃ x', predict false exampleRef exampleSens exampleStart ![300, 100000] ![-1] = (x', .returned) ∧ x'.st.n = [-1] :=
  ⟨_, rfl, by decide +kernel⟩

/-- **C44 (no reference).** A predictor for a state without record of an equilibrium calculation cannot be made. -/
theorem C44_no_reference (r : Ref Nn Nq Np Nw Nb Nu) (h : r.inputs = []) : construct r = .throw := by
  unfold construct; rw [h]; rfl

end Verif.EquilibriumPredictor
