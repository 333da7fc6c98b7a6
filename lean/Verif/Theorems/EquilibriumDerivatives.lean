import Verif.Lemmas.EquilibriumDerivatives
import Mathlib.Analysis.Calculus.Deriv.Add
import Mathlib.Data.Fin.VecNotation

/-!
# C100: derivatives in equilibrium calculations
-/

namespace Verif.EquilibriumDerivatives

open EquilibriumProps (Dual)

noncomputable section

variable {Nn Nq Np Nw Nu : Nat}

theorem stale_clean {w : Fin Nw → Dual ℝ} (h : ∀ k, (w k).grad = 0) (d : Var Nn Np Nw → ℝ) : stale w d = 0 :=
  Finset.sum_eq_zero fun l _ => by rw [h l, mul_zero]

theorem staleAfter_clean {w : Fin Nw → Dual ℝ} (h : ∀ k, (w k).grad = 0) (k : Fin Nw) (d : Var Nn Np Nw → ℝ) : staleAfter w k d = 0 :=
  Finset.sum_eq_zero fun l _ => by rw [h l, mul_zero, ite_self]

theorem rightX {m : Nat} (F : Fin m → Fun (Var Nn Np Nw)) {w : Fin Nw → Dual ℝ} (h : ∀ k, (w k).grad = 0) (r : Request Nn Nq Np)
    (hF : ∀ i k, Partial (F i).f (point (fun k => (w k).val) r) k ((F i).d (point (fun k => (w k).val) r) k)) (b : Bool) : RightX F (point (fun k => (w k).val) r) b (if b then some (matX F w r) else none) := by
  cases b
  · simp [RightX]
  · simp only [RightX, if_true]
    refine ⟨_, rfl, fun i => ⟨fun j => ?_, fun j => ?_⟩⟩
    · unfold matX
      rw [stale_clean h, add_zero, Fin.addCases_left]
      exact hF _ _
    · unfold matX
      rw [stale_clean h, add_zero, Fin.addCases_right]

theorem rightP {m : Nat} (F : Fin m → Fun (Var Nn Np Nw)) {w : Fin Nw → Dual ℝ} (h : ∀ k, (w k).grad = 0) (r : Request Nn Nq Np)
    (hF : ∀ i k, Partial (F i).f (point (fun k => (w k).val) r) k ((F i).d (point (fun k => (w k).val) r) k)) (b : Bool) : RightP F (point (fun k => (w k).val) r) b (if b then some (matP F w r) else none) := by
  cases b
  · simp [RightP]
  · simp only [RightP, if_true]
    refine ⟨_, rfl, fun i j => ?_⟩
    unfold matP
    rw [stale_clean h, add_zero]
    exact hF _ _

theorem rightW {m : Nat} (F : Fin m → Fun (Var Nn Np Nw)) {w : Fin Nw → Dual ℝ} (h : ∀ k, (w k).grad = 0) (r : Request Nn Nq Np)
    (hF : ∀ i k, Partial (F i).f (point (fun k => (w k).val) r) k ((F i).d (point (fun k => (w k).val) r) k)) (b : Bool) : RightW F (point (fun k => (w k).val) r) b (if b then some (matW F w r) else none) := by
  cases b
  · simp [RightW]
  · simp only [RightW, if_true]
    refine ⟨_, rfl, fun i j => ?_⟩
    unfold matW
    rw [staleAfter_clean h, add_zero]
    exact hF _ _

theorem answer_right (pb : Problem Nn Nq Np Nw Nu) {w : Fin Nw → Dual ℝ} (h : ∀ k, (w k).grad = 0) (s : Setup Nn Np Nw Nu)
    (r : Request Nn Nq Np) (hd : Differentiated pb (point (fun k => (w k).val) r)) : Right pb (fun k => (w k).val) r (answer pb w s r).2 := by
  rw [answer_eq]
  cases ho : r.objective
  · simp only [Bool.false_eq_true, if_false]
    exact ⟨ho, fun _ => rfl, rightX _ h r hd.2.1 _, rightP _ h r hd.2.1 _, rightW _ h r hd.2.1 _⟩
  · simp only [if_true]
    exact ⟨ho, rfl, fun _ => rfl, rightX _ h r hd.1 _, rightP _ h r hd.1 _, rightW _ h r hd.1 _⟩

theorem answers_right (pb : Problem Nn Nq Np Nw Nu) {w : Fin Nw → Dual ℝ} (h : ∀ k, (w k).grad = 0) (rs : List (Request Nn Nq Np)) :
    (∀ r ∈ rs, Differentiated pb (point (fun k => (w k).val) r)) → ∀ s : Setup Nn Np Nw Nu, List.Forall₂ (Right pb (fun k => (w k).val)) rs (answers pb w s rs).2 := by
  induction rs with
  | nil => intro _ s; exact .nil
  | cons r rs ih => intro hd s; exact .cons (answer_right pb h s r (hd r List.mem_cons_self)) (ih (fun x hx => hd x (List.mem_cons_of_mem _ hx)) _)

/-- **C100**, inputs given as numbers: whatever was calculated before with the solver and the state, and whatever the optimiser asks for, it gets the values and
exactly the derivatives it asked for, at the given inputs. -/
theorem C100_given (pb : Problem Nn Nq Np Nw Nu) (a : Setup Nn Np Nw Nu × State) (cs : List (Calculation Nn Nq Np Nw))
    (w : Fin Nw → ℝ) (rs : List (Request Nn Nq Np)) (hd : ∀ r ∈ rs, Differentiated pb (point w r)) :
    List.Forall₂ (Right pb w) rs (solve pb (history pb a cs) ⟨.given w, rs⟩).2 :=
  answers_right pb (w := fun k => plain (w k)) (fun _ => rfl) rs hd _

/-! ### What stays in the state -/

theorem derivs_T (pb : Problem Nn Nq Np Nw Nu) (w : Fin Nw → Dual ℝ) (r : Request Nn Nq Np) (s : Setup Nn Np Nw Nu)
    (hs : s.T = vars (fun i => plain (r.x i)) (fun i => plain (r.p i)) w (Sum.inr pb.iT) ∧
      s.P = vars (fun i => plain (r.x i)) (fun i => plain (r.p i)) w (Sum.inr pb.iP)) :
    let g := fun i : Fin Np ⊕ Fin Nw =>
      if r.dw ∧ 0 < Nw then (if lastSeed Nw r = some i then 1 else 0) else
        Sum.elim (fun _ => if lastSeed Nw r = some i then 1 else 0) (fun k => (w k).grad) i
    (derivs pb w r s).T.grad = g pb.iT ∧ (derivs pb w r s).P.grad = g pb.iP := by
  intro g
  obtain ⟨hT, hP⟩ := hs
  -- after the derivatives with respect to `x`
  have h1 : ∀ s1 : Setup Nn Np Nw Nu, s1 = (if r.dx then foldX pb w r s else s) →
      s1.T.grad = Sum.elim (fun _ => 0) (fun k => (w k).grad) pb.iT ∧ s1.P.grad = Sum.elim (fun _ => 0) (fun k => (w k).grad) pb.iP := by
    rintro s1 rfl
    have base : s.T.grad = Sum.elim (fun _ => 0) (fun k => (w k).grad) pb.iT ∧ s.P.grad = Sum.elim (fun _ => 0) (fun k => (w k).grad) pb.iP := by
      rw [hT, hP]
      constructor
      · rcases pb.iT with i | i <;> rfl
      · rcases pb.iP with i | i <;> rfl
    split
    · unfold foldX
      have := fold_last pb s (fun k => vars (seededAt (fun i => plain (r.x i)) k) (fun i => plain (r.p i)) w)
      rw [this.1, this.2]
      split
      · constructor
        · rcases pb.iT with i | i <;> rfl
        · rcases pb.iP with i | i <;> rfl
      · exact base
    · exact base
  have key : ∀ (i : Fin Np ⊕ Fin Nw) (p : Fin Np → Dual ℝ) (w' : Fin Nw → Dual ℝ),
      vars (Nn := Nn) (Nq := Nq) (fun i => plain (r.x i)) p w' (Sum.inr i) = Sum.elim p w' i := by
    intro i p w'; rcases i with i | i <;> rfl
  unfold derivs
  dsimp only
  generalize hs1 : (if r.dx then foldX pb w r s else s) = s1
  obtain ⟨a1, b1⟩ := h1 s1 hs1.symm
  -- after `p`
  have h2 : ∀ s2 : Setup Nn Np Nw Nu, s2 = (if r.dp then foldP pb w r s1 else s1) →
      ∀ i, (i = pb.iT → s2.T.grad = Sum.elim (fun k : Fin Np => if r.dp ∧ k.val + 1 = Np then 1 else 0) (fun k => (w k).grad) i) ∧
        (i = pb.iP → s2.P.grad = Sum.elim (fun k : Fin Np => if r.dp ∧ k.val + 1 = Np then 1 else 0) (fun k => (w k).grad) i) := by
    rintro s2 rfl i
    by_cases hdp : r.dp = true
    · rw [if_pos hdp]
      unfold foldP
      have := fold_last pb s1 (fun k => vars (fun i => plain (r.x i)) (seededAt (fun i => plain (r.p i)) k) w)
      rw [this.1, this.2]
      by_cases hN : 0 < Np
      · rw [dif_pos hN, dif_pos hN]
        simp only [key]
        have e : ∀ i, (Sum.elim (seededAt (fun i => plain (r.p i)) ⟨Np - 1, by omega⟩) w i).grad =
            Sum.elim (fun k : Fin Np => if r.dp ∧ k.val + 1 = Np then 1 else 0) (fun k => (w k).grad) i := by
          intro i
          rcases i with i | i
          · have : i = ⟨Np - 1, by omega⟩ ↔ i.val + 1 = Np := by rw [Fin.ext_iff]; show i.val = Np - 1 ↔ _; omega
            simp only [Sum.elim_inl, seededAt, plain, hdp, true_and, ite_self, this]
          · rfl
        exact ⟨fun h => by rw [← h]; exact e i, fun h => by rw [← h]; exact e i⟩
      · rw [dif_neg hN, dif_neg hN, a1, b1]
        refine ⟨fun h => ?_, fun h => ?_⟩ <;> rw [← h] <;> rcases i with i | i
        · exact absurd (by have := i.2; omega) hN
        · rfl
        · exact absurd (by have := i.2; omega) hN
        · rfl
    · rw [if_neg hdp]
      refine ⟨fun h => ?_, fun h => ?_⟩
      · rw [a1, ← h]; rcases i with i | i <;> simp [hdp]
      · rw [b1, ← h]; rcases i with i | i <;> simp [hdp]
  generalize hs2 : (if r.dp then foldP pb w r s1 else s1) = s2
  have h2 := h2 s2 hs2.symm
  have fin : ¬ (r.dw = true ∧ 0 < Nw) → ∀ i : Fin Np ⊕ Fin Nw,
      Sum.elim (fun k : Fin Np => if r.dp ∧ k.val + 1 = Np then 1 else 0) (fun k => (w k).grad) i = g i := by
    intro hn i
    simp only [g, if_neg hn]
    rcases i with i | i
    · simp only [Sum.elim_inl, lastSeed, dif_neg hn]
      have hN : 0 < Np := by have := i.2; omega
      by_cases hdp : r.dp = true
      · rw [dif_pos ⟨hdp, hN⟩]
        have : (⟨Np - 1, by omega⟩ : Fin Np) = i ↔ i.val + 1 = Np := by rw [Fin.ext_iff]; show Np - 1 = i.val ↔ _; omega
        simp [hdp, this]
      · rw [dif_neg (by simp [hdp])]
        simp [hdp]
    · rfl
  by_cases hdw : r.dw = true
  · rw [if_pos hdw]
    unfold foldW
    have := fold_last pb s2 (fun k => vars (fun i => plain (r.x i)) (fun i => plain (r.p i)) (seededAt w k))
    rw [this.1, this.2]
    by_cases hN : 0 < Nw
    · rw [dif_pos hN, dif_pos hN]
      simp only [key]
      have e : ∀ i : Fin Np ⊕ Fin Nw, (Sum.elim (fun i => plain (r.p i)) (seededAt w ⟨Nw - 1, by omega⟩) i).grad = g i := by
        intro i
        simp only [g, if_pos (⟨hdw, hN⟩ : r.dw = true ∧ 0 < Nw), lastSeed, dif_pos (⟨hdw, hN⟩ : r.dw = true ∧ 0 < Nw)]
        rcases i with i | i
        · simp [plain]
        · simp only [Sum.elim_inr, seededAt, Option.some.injEq, Sum.inr.injEq]
          by_cases hi : i = ⟨Nw - 1, by omega⟩
          · rw [if_pos hi, if_pos hi.symm]
          · have hlt : i < ⟨Nw - 1, by omega⟩ := by
              have h1 := i.2
              have h2 : i.val ≠ Nw - 1 := fun h => hi (Fin.ext h)
              show i.val < Nw - 1
              omega
            rw [if_neg hi, if_pos hlt, if_neg (fun h => hi (Eq.symm h))]
      exact ⟨e _, e _⟩
    · rw [dif_neg hN, dif_neg hN, (h2 pb.iT).1 rfl, (h2 pb.iP).2 rfl]
      exact ⟨fin (fun h => hN h.2) _, fin (fun h => hN h.2) _⟩
  · rw [if_neg hdw, (h2 pb.iT).1 rfl, (h2 pb.iP).2 rfl]
    exact ⟨fin (fun h => hdw h.1) _, fin (fun h => hdw h.1) _⟩

theorem answer_T (pb : Problem Nn Nq Np Nw Nu) (w : Fin Nw → Dual ℝ) (r : Request Nn Nq Np) (s : Setup Nn Np Nw Nu) :
    let g := fun i : Fin Np ⊕ Fin Nw =>
      if r.dw ∧ 0 < Nw then (if lastSeed Nw r = some i then 1 else 0) else
        Sum.elim (fun _ => if lastSeed Nw r = some i then 1 else 0) (fun k => (w k).grad) i
    (answer pb w s r).1.T.grad = g pb.iT ∧ (answer pb w s r).1.P.grad = g pb.iP := by
  intro g
  rw [answer_eq]
  cases ho : r.objective
  · simp only [Bool.false_eq_true, if_false]
    exact derivs_T pb w r _ ⟨update_T _ _ _, update_P _ _ _⟩
  · simp only [if_true]
    have e : ∀ (b : Bool) (s2 : Setup Nn Np Nw Nu), (if b then { s2 with recording := false } else s2).T = s2.T ∧
        (if b then { s2 with recording := false } else s2).P = s2.P := by
      intro b s2; cases b <;> exact ⟨rfl, rfl⟩
    rw [(e _ _).1, (e _ _).2]
    refine derivs_T pb w r _ ?_
    split
    · exact ⟨update_T _ _ _, update_P _ _ _⟩
    · exact ⟨update_T _ _ _, update_P _ _ _⟩

theorem answers_last (pb : Problem Nn Nq Np Nw Nu) (w : Fin Nw → Dual ℝ) (r : Request Nn Nq Np) (rs : List (Request Nn Nq Np)) :
    ∀ s : Setup Nn Np Nw Nu, (answers pb w s (rs ++ [r])).1 = (answer pb w (answers pb w s rs).1 r).1 := by
  induction rs with
  | nil => intro s; rfl
  | cons r' rs ih => intro s; exact ih _

/-- **C100**, what stays in the state: after a calculation with inputs without derivatives, the temperature (pressure) of the state has the derivative one if it
was the last variable to be differentiated in the last request of the optimiser, and otherwise zero. -/
theorem C100_residue (pb : Problem Nn Nq Np Nw Nu) (a : Setup Nn Np Nw Nu × State) (c : Conditions Nw) (hc : ∀ k, (inputs pb a.2 c k).grad = 0)
    (rs : List (Request Nn Nq Np)) (r : Request Nn Nq Np) :
    (solve pb a ⟨c, rs ++ [r]⟩).1.2.T.grad = (if lastSeed Nw r = some pb.iT then 1 else 0) ∧
      (solve pb a ⟨c, rs ++ [r]⟩).1.2.P.grad = if lastSeed Nw r = some pb.iP then 1 else 0 := by
  unfold solve
  dsimp only
  rw [answers_last]
  obtain ⟨h1, h2⟩ := answer_T pb (inputs pb a.2 c) r (answers pb (inputs pb a.2 c) a.1 rs).1
  have e : ∀ i : Fin Np ⊕ Fin Nw, (if r.dw ∧ 0 < Nw then (if lastSeed Nw r = some i then (1 : ℝ) else 0) else
      Sum.elim (fun _ => if lastSeed Nw r = some i then 1 else 0) (fun k => (inputs pb a.2 c k).grad) i) = if lastSeed Nw r = some i then 1 else 0 := by
    intro i
    split
    · rfl
    · rename_i hn
      rcases i with i | i
      · rfl
      · rw [Sum.elim_inr, hc, if_neg]
        unfold lastSeed
        rw [dif_neg hn]
        split <;> simp
  rw [h1, h2]
  exact ⟨e _, e _⟩

theorem inputs_clean (pb : Problem Nn Nq Np Nw Nu) {st : State} (h : st.Clean) (c : Conditions Nw) (k : Fin Nw) : (inputs pb st c k).grad = 0 := by
  cases c with
  | given w => rfl
  | ofState a =>
    unfold inputs
    dsimp only
    split_ifs
    · exact h.1
    · exact h.2
    · rfl

/-- The last request of a calculation does not end with the differentiation with respect to temperature or pressure. -/
def Harmless (pb : Problem Nn Nq Np Nw Nu) (c : Calculation Nn Nq Np Nw) : Prop :=
  ∃ rs r, c.requests = rs ++ [r] ∧ lastSeed Nw r ≠ some pb.iT ∧ lastSeed Nw r ≠ some pb.iP

theorem history_clean (pb : Problem Nn Nq Np Nw Nu) (cs : List (Calculation Nn Nq Np Nw)) (hcs : ∀ c ∈ cs, Harmless pb c) :
    ∀ a : Setup Nn Np Nw Nu × State, a.2.Clean → (history pb a cs).2.Clean := by
  induction cs with
  | nil => intro a h; exact h
  | cons c cs ih =>
    intro a h
    refine ih (fun x hx => hcs x (List.mem_cons_of_mem _ hx)) _ ?_
    obtain ⟨rs, r, e, h1, h2⟩ := hcs c List.mem_cons_self
    have := C100_residue pb a c.conditions (inputs_clean pb h _) rs r
    rw [if_neg h1, if_neg h2, ← e] at this
    exact this

/-- **C100**, inputs taken from the state, what holds: in every history of calculations that does not leave derivatives in the state, a calculation from a state
that started without derivatives gets right answers. Missing: other histories (`C100_state_wrong`). -/
theorem C100_state_partial (pb : Problem Nn Nq Np Nw Nu) (a : Setup Nn Np Nw Nu × State) (h : a.2.Clean)
    (cs : List (Calculation Nn Nq Np Nw)) (hcs : ∀ c ∈ cs, Harmless pb c) (c : Calculation Nn Nq Np Nw)
    (hd : ∀ r ∈ c.requests, Differentiated pb (point (values pb (history pb a cs).2 c.conditions) r)) :
    List.Forall₂ (Right pb (values pb (history pb a cs).2 c.conditions)) c.requests (solve pb (history pb a cs) c).2 :=
  answers_right pb (inputs_clean pb (history_clean pb cs hcs a h) c.conditions) c.requests hd _

/-- **C100**: calculations without sensitivities at given temperature and pressure are of that kind. -/
theorem C100_without_sensitivities (pb : Problem Nn Nq Np Nw Nu) {i j : Fin Nw} (hT : pb.iT = Sum.inr i) (hP : pb.iP = Sum.inr j)
    (c : Calculation Nn Nq Np Nw) (hne : c.requests ≠ []) (hc : ∀ r ∈ c.requests, r.dw = false) : Harmless pb c := by
  have h0 := hc _ (List.getLast_mem hne)
  have key : ∀ k : Fin Nw, lastSeed Nw (c.requests.getLast hne) ≠ some (Sum.inr k) := by
    intro k
    unfold lastSeed
    rw [dif_neg (by simp [h0])]
    split <;> simp
  exact ⟨c.requests.dropLast, c.requests.getLast hne, (List.dropLast_append_getLast hne).symm, by rw [hT]; exact key i, by rw [hP]; exact key j⟩

/-- **C100**, wrong in the code: a calculation with sensitivities at given temperature and pressure, the pressure being the last input (as in the default
specifications), leaves a derivative in the pressure of the state. In the next calculation from this state, all derivatives with respect to the amounts
of the species that the optimiser gets have the derivatives with respect to pressure added: they are wrong unless these are zero. -/
theorem C100_state_wrong (pb : Problem Nn Nq Np Nw Nu) {i j : Fin Nw} (hT : pb.iT = Sum.inr i) (hP : pb.iP = Sum.inr j) (hij : i ≠ j)
    (hj : j.val + 1 = Nw) (a : Setup Nn Np Nw Nu × State) (c : Conditions Nw) (rs : List (Request Nn Nq Np)) (r : Request Nn Nq Np) (hr : r.dw = true)
    (params : Fin Nw → ℝ) (rs' : List (Request Nn Nq Np)) (r' : Request Nn Nq Np) (hx : r'.dx = true) :
    let st := (solve pb a ⟨c, rs ++ [r]⟩).1.2
    let pt := point (values pb st (.ofState params)) r'
    ∀ ans, (solve pb (solve pb a ⟨c, rs ++ [r]⟩).1 ⟨.ofState params, rs' ++ [r']⟩).2.getLast? = some ans →
      (∀ f fx fxx fxp fxw, ans = .objective f fx fxx fxp fxw →
        fxx = some fun k l => Fin.addCases (fun m => (pb.g k).d pt (Sum.inl m)) (fun _ => 0) l + (pb.g k).d pt (Sum.inr (Sum.inr j))) ∧
      (Differentiated pb pt → (r'.objective = true ∧ ∃ k, (pb.g k).d pt (Sum.inr (Sum.inr j)) ≠ 0) → 0 < Nn → ¬ Right pb (values pb st (.ofState params)) r' ans) := by
  intro st pt ans hans
  have hNw : 0 < Nw := by omega
  have hlast : lastSeed Nw r = some (Sum.inr j) := by
    unfold lastSeed
    rw [dif_pos ⟨hr, hNw⟩]
    congr 2
    apply Fin.ext
    show Nw - 1 = j.val
    omega
  have hst : st.T.grad = 0 ∧ st.P.grad = 1 := by
    have := answer_T pb (inputs pb a.2 c) r (answers pb (inputs pb a.2 c) a.1 rs).1
    simp only [if_pos (⟨hr, hNw⟩ : r.dw = true ∧ 0 < Nw), hlast, hT, hP] at this
    rw [if_neg (by simpa using fun h : j = i => hij h.symm), if_pos trivial] at this
    have e : (solve pb a ⟨c, rs ++ [r]⟩).1.2 = ⟨(answer pb (inputs pb a.2 c) (answers pb (inputs pb a.2 c) a.1 rs).1 r).1.T,
      (answer pb (inputs pb a.2 c) (answers pb (inputs pb a.2 c) a.1 rs).1 r).1.P⟩ := by
      unfold solve
      dsimp only
      rw [answers_last]
    have e' : st = _ := e
    rw [e']
    exact this
  generalize hw : inputs pb st (.ofState params) = w
  have hwg : ∀ l, (w l).grad = if l = j then 1 else 0 := by
    intro l
    rw [← hw]
    simp only [inputs, hT, hP, Sum.inr.injEq]
    split_ifs with h1 h2 h2
    · exact absurd (h1.symm.trans h2) hij
    · exact hst.1
    · exact hst.2
    · rfl
  have hstale : ∀ d : Var Nn Np Nw → ℝ, stale w d = d (Sum.inr (Sum.inr j)) := by
    intro d
    unfold stale
    simp [hwg]
  have hap : ∀ (l : List (Request Nn Nq Np)) (s : Setup Nn Np Nw Nu), (answers pb w s (l ++ [r'])).2.getLast? = some (answer pb w (answers pb w s l).1 r').2 := by
    intro l
    induction l with
    | nil => intro s; rfl
    | cons x l ih =>
      intro s
      show ((answer pb w s x).2 :: (answers pb w (answer pb w s x).1 (l ++ [r'])).2).getLast? = _
      rw [List.getLast?_cons, ih]
      rfl
  have hval : (fun k => (w k).val) = values pb st (.ofState params) := by rw [← hw]; rfl
  have hans' : ans = (answer pb w (answers pb w (solve pb a ⟨c, rs ++ [r]⟩).1.1 rs').1 r').2 := by
    have h1 : (solve pb (solve pb a ⟨c, rs ++ [r]⟩).1 ⟨.ofState params, rs' ++ [r']⟩).2 =
        (answers pb w (solve pb a ⟨c, rs ++ [r]⟩).1.1 (rs' ++ [r'])).2 := by rw [← hw]; rfl
    rw [h1, hap] at hans
    exact (Option.some.inj hans).symm
  have hform : ∀ f fx fxx fxp fxw, ans = .objective f fx fxx fxp fxw →
      fxx = some fun k l => Fin.addCases (fun m => (pb.g k).d pt (Sum.inl m)) (fun _ => 0) l + (pb.g k).d pt (Sum.inr (Sum.inr j)) := by
    intro f fx fxx fxp fxw h
    rw [h, answer_eq] at hans'
    cases ho : r'.objective
    · simp [ho] at hans'
    · simp only [ho, if_true, Answer.objective.injEq, hx] at hans'
      rw [hans'.2.2.1]
      congr 1
      funext k l
      unfold matX
      rw [hstale, hval]
  refine ⟨hform, fun hd ⟨ho, k, hk⟩ hN hright => ?_⟩
  cases ans with
  | constraints v ddx ddp ddw => exact absurd hright.1 (by simp [ho])
  | objective f fx fxx fxp fxw =>
    obtain ⟨-, -, -, hX, -, -⟩ := hright
    unfold RightX at hX
    rw [hx, if_pos rfl] at hX
    obtain ⟨H, hH, hall⟩ := hX
    have h1 := (hall k).1 ⟨0, hN⟩
    have h2 := hd.1 k (Sum.inl ⟨0, hN⟩)
    have h3 := hform f fx fxx fxp fxw rfl
    rw [hH] at h3
    have h4 := congrFun (congrFun (Option.some.inj h3) k) (Fin.castAdd Nq ⟨0, hN⟩)
    rw [Fin.addCases_left] at h4
    have := HasDerivAt.unique h1 h2
    rw [h4] at this
    exact hk (by linarith)

/-! ### Recorded derivatives of the properties -/

theorem mem_all (k : Var Nn Np Nw) :
    k ∈ (List.finRange Nn).map Sum.inl ++ (List.finRange Np).map (Sum.inr ∘ Sum.inl) ++ (List.finRange Nw).map (Sum.inr ∘ Sum.inr) := by
  rcases k with k | k | k <;> simp

theorem seededVar_onehot {v : Var Nn Np Nw → Dual ℝ} {k : Var Nn Np Nw} (h : ∀ l, (v l).grad = if l = k then 1 else 0) : seededVar v = some k := by
  classical
  unfold seededVar
  cases hf : List.find? (fun k => decide ((v k).grad = 1))
      ((List.finRange Nn).map Sum.inl ++ (List.finRange Np).map (Sum.inr ∘ Sum.inl) ++ (List.finRange Nw).map (Sum.inr ∘ Sum.inr)) with
  | none =>
    have := List.find?_eq_none.1 hf k (mem_all k)
    simp [h] at this
  | some k' =>
    have := List.find?_some hf
    simp only [decide_eq_true_eq, h] at this
    by_cases hk : k' = k
    · rw [hk]
    · rw [if_neg hk] at this
      norm_num at this

theorem seededVar_none {v : Var Nn Np Nw → Dual ℝ} (h : ∀ l, (v l).grad = 0) : seededVar v = none := by
  unfold seededVar
  rw [List.find?_eq_none]
  intro k _
  simp [h]

theorem fold_columns (pb : Problem Nn Nq Np Nw Nu) {N : Nat} (V : Fin N → Var Nn Np Nw → Dual ℝ) (κ : Fin N → Option (Var Nn Np Nw))
    (D : Var Nn Np Nw → Fin Nu → ℝ) (hκ : ∀ k, seededVar (V k) = κ k) (hD : ∀ k key, κ k = some key → (fun i => ((pb.u i).eval (V k)).grad) = D key) :
    ∀ (l : List (Fin N)) (s : Setup Nn Np Nw Nu), s.recording = true →
      (l.foldl (fun s k => update pb s (V k)) s).recording = true ∧
        ∀ key, (∃ k ∈ l, κ k = some key) ∨ s.columns key = some (D key) → (l.foldl (fun s k => update pb s (V k)) s).columns key = some (D key) := by
  intro l
  induction l with
  | nil => intro s hs; exact ⟨hs, fun key h => by simpa using h⟩
  | cons k l ih =>
    intro s hs
    rw [List.foldl_cons]
    obtain ⟨h1, h2⟩ := ih (update pb s (V k)) (by rw [update_rec, hs])
    refine ⟨h1, fun key hkey => h2 key ?_⟩
    have hc : (update pb s (V k)).columns = match κ k with
        | some k' => Function.update s.columns k' (some (D k'))
        | none => s.columns := by
      unfold update
      dsimp only
      rw [hs, if_pos rfl, hκ]
      cases hk : κ k with
      | none => rfl
      | some k' => dsimp only; rw [← hD k k' hk]
    rw [hc]
    rcases hkey with ⟨k', hk', he⟩ | hkey
    · rcases List.mem_cons.1 hk' with rfl | hm
      · right; rw [he]; simp
      · exact .inl ⟨k', hm, he⟩
    · right
      cases hk : κ k with
      | none => exact hkey
      | some k' =>
        by_cases e : key = k'
        · subst e; simp
        · dsimp only; rw [Function.update_of_ne e]; exact hkey

/-- **C100**, derivatives of the properties: after an objective request with all derivatives and inputs without derivatives, the recorded derivatives of the
serialized properties with respect to all amounts, control variables and inputs are the partial derivatives at the point. -/
theorem C100_recorded (pb : Problem Nn Nq Np Nw Nu) (w : Fin Nw → Dual ℝ) (hw : ∀ k, (w k).grad = 0) (s : Setup Nn Np Nw Nu)
    (r : Request Nn Nq Np) (hd : Differentiated pb (point (fun k => (w k).val) r)) (ho : r.objective = true) (hx : r.dx = true) (hp : r.dp = true) (hdw : r.dw = true) :
    ∀ key, ∃ col, (answer pb w s r).1.columns key = some col ∧ ∀ i, Partial (pb.u i).f (point (fun k => (w k).val) r) key (col i) := by
  intro key
  refine ⟨fun i => (pb.u i).d (point (fun k => (w k).val) r) key, ?_, fun i => hd.2.2 i _⟩
  rw [answer_eq]
  simp only [ho, hx, hp, hdw, if_true, derivs]
  generalize hs0 : ({ update pb (update pb s (vars (fun i => plain (r.x i)) (fun i => plain (r.p i)) w)) (vars (fun i => plain (r.x i)) (fun i => plain (r.p i)) w)
    with recording := true } : Setup Nn Np Nw Nu) = s0
  have hr0 : s0.recording = true := by rw [← hs0]
  let D : Var Nn Np Nw → Fin Nu → ℝ := fun key i => (pb.u i).d (point (fun k => (w k).val) r) key
  obtain ⟨r1, c1⟩ := fold_columns pb (fun k => vars (seededAt (fun i => plain (r.x i)) k) (fun i => plain (r.p i)) w)
    (fun k => Fin.addCases (fun j => some (Sum.inl j)) (fun _ => none) k) D
    (by
      intro k
      refine Fin.addCases (fun j => ?_) (fun j => ?_) k
      · rw [Fin.addCases_left]
        refine seededVar_onehot fun l => ?_
        rcases l with l | l | l
        · simp [vars, seededAt, plain, Fin.castAdd_inj]
        · simp [vars, plain]
        · simp [vars, hw]
      · rw [Fin.addCases_right]
        refine seededVar_none fun l => ?_
        rcases l with l | l | l
        · have : Fin.castAdd Nq l ≠ Fin.natAdd Nn j := fun h => by have := congrArg Fin.val h; simp at this; omega
          simp [vars, seededAt, plain, this]
        · simp [vars, plain]
        · simp [vars, hw])
    (by
      intro k key hk
      funext i
      rw [evalX, stale_clean hw, add_zero]
      revert hk
      refine Fin.addCases (fun j => ?_) (fun j => ?_) k
      · rw [Fin.addCases_left, Fin.addCases_left]
        intro hk
        rw [← Option.some.inj hk]
      · rw [Fin.addCases_right]
        intro hk
        exact absurd hk (by simp))
    (List.finRange (Nn + Nq)) s0 hr0
  obtain ⟨r2, c2⟩ := fold_columns pb (fun k => vars (fun i => plain (r.x i)) (seededAt (fun i => plain (r.p i)) k) w)
    (fun k => some (Sum.inr (Sum.inl k))) D
    (by
      intro k
      refine seededVar_onehot fun l => ?_
      rcases l with l | l | l
      · simp [vars, plain]
      · simp [vars, seededAt, plain]
      · simp [vars, hw])
    (by
      intro k key hk
      funext i
      rw [evalP, stale_clean hw, add_zero, ← Option.some.inj hk])
    (List.finRange Np) _ r1
  obtain ⟨-, c3⟩ := fold_columns pb (fun k => vars (fun i => plain (r.x i)) (fun i => plain (r.p i)) (seededAt w k))
    (fun k => some (Sum.inr (Sum.inr k))) D
    (by
      intro k
      refine seededVar_onehot fun l => ?_
      rcases l with l | l | l
      · simp [vars, plain]
      · simp [vars, plain]
      · simp [vars, seededAt, hw])
    (by
      intro k key hk
      funext i
      rw [evalW, staleAfter_clean hw, add_zero, ← Option.some.inj hk])
    (List.finRange Nw) _ r2
  refine c3 key ?_
  rcases key with j | j | j
  · exact .inr (c2 _ (.inr (c1 _ (.inl ⟨Fin.castAdd Nq j, List.mem_finRange _, by rw [Fin.addCases_left]⟩))))
  · exact .inr (c2 _ (.inl ⟨j, List.mem_finRange _, rfl⟩))
  · exact .inl ⟨j, List.mem_finRange _, rfl⟩

/-! ### Example -/

/-- One species, temperature and pressure given in this order; the gradient is `n + P` and the property is `T`. -/
def exampleProblem : Problem 1 0 0 2 1 :=
  { f := fun _ => 0
    g := fun _ => ⟨fun v => v (Sum.inl 0) + v (Sum.inr (Sum.inr 1)), fun _ => Sum.elim (fun _ => 1) (Sum.elim (fun _ => 0) fun k => if k = 1 then 1 else 0)⟩
    v := fun i => i.elim0
    u := fun _ => ⟨fun v => v (Sum.inr (Sum.inr 0)), fun _ => Sum.elim (fun _ => 0) (Sum.elim (fun _ => 0) fun k => if k = 0 then 1 else 0)⟩
    iT := Sum.inr 0
    iP := Sum.inr 1 }

/-- The problem has its partial derivatives. -/
theorem example_differentiated (v : Var 1 0 2 → ℝ) : Differentiated exampleProblem v := by
  have coord : ∀ (v : Var 1 0 2 → ℝ) (k l : Var 1 0 2), HasDerivAt (fun t => Function.update v k t l) (if l = k then 1 else 0) (v k) := by
    intro v k l
    by_cases h : l = k
    · subst h
      simpa using hasDerivAt_id' (v l)
    · simpa [h] using hasDerivAt_const (v k) (v l)
  refine ⟨fun i k => ?_, fun i => i.elim0, fun i k => ?_⟩
  · refine ((coord v k (Sum.inl 0)).add (coord v k (Sum.inr (Sum.inr 1)))).congr_deriv ?_
    rcases k with k | k | k
    · simp [exampleProblem, Subsingleton.elim k 0]
    · exact k.elim0
    · simp [exampleProblem, eq_comm]
  · refine (coord v k (Sum.inr (Sum.inr 0))).congr_deriv ?_
    rcases k with k | k | k
    · simp [exampleProblem]
    · exact k.elim0
    · simp [exampleProblem, eq_comm]

/-- The hypotheses of `C100_state_wrong` are met: the second calculation gets wrong derivatives. -/
example (a : Setup 1 0 2 1 × State) (r : Request 1 0 0) (ho : r.objective = true) (hx : r.dx = true) (hw : r.dw = true) :
    ∃ ans, (solve exampleProblem (solve exampleProblem a ⟨.given ![300, 1], [r]⟩).1 ⟨.ofState ![0, 0], [r]⟩).2 = [ans] ∧
      ¬ Right exampleProblem (values exampleProblem (solve exampleProblem a ⟨.given ![300, 1], [r]⟩).1.2 (.ofState ![0, 0])) r ans := by
  have h := C100_state_wrong exampleProblem (i := 0) (j := 1) rfl rfl (by decide) rfl a (.given ![300, 1]) [] r hw ![0, 0] [] r hx
  dsimp only at h
  refine ⟨_, rfl, (h _ rfl).2 (example_differentiated _) ⟨ho, 0, ?_⟩ (by norm_num)⟩
  simp [exampleProblem]

/-- A calculation without sensitivities is harmless, and new states are clean. -/
example (r : Request 1 0 0) (hw : r.dw = false) : Harmless exampleProblem ⟨.ofState ![0, 0], [r]⟩ ∧ (⟨plain 298.15, plain 1e5⟩ : State).Clean :=
  ⟨C100_without_sensitivities exampleProblem (i := 0) (j := 1) rfl rfl _ (by simp) (by simpa using hw), rfl, rfl⟩

end
end Verif.EquilibriumDerivatives
