import Verif.Spec.SeededProps
import Mathlib.Analysis.Calculus.Deriv.Add
import Mathlib.Analysis.Calculus.Deriv.Mul
import Mathlib.Tactic.Ring
import Mathlib.Tactic.NormNum
/-!
# C124: standard properties with derivatives
-/
namespace Verif.SeededProps
open ThermoProps
open ChemicalProps (Std)

/-- Temperature and pressure with the derivatives that a call passes on. -/
noncomputable def nums : Call → Num × Num
  | .plain T P => (⟨T, 0⟩, ⟨P, 0⟩)
  | .wrt x T P => seedVars x 1 (⟨T, 0⟩, ⟨P, 0⟩)

theorem step_eq (same : Num → Num → Bool) (phases : List (List SpeciesModel)) (ds : List (PhaseData Num)) (c : Call) :
    step same phases ds c = update same phases (nums c).1 (nums c).2 ds := by
  cases c <;> rfl

theorem nums_val (c : Call) : ((nums c).1.val, (nums c).2.val) = c.TP := by
  cases c with
  | plain T P => rfl
  | wrt x T P => cases x <;> rfl

/-- Each phase has the data of the constructor, or those of its models at the temperature and pressure it keeps. -/
def Inv (phases : List (List SpeciesModel)) (ds : List (PhaseData Num)) : Prop :=
  ds.length = phases.length ∧ ∀ (j : Nat) ph d, phases[j]? = some ph → ds[j]? = some d → d = initPhase ph ∨ d.std = ph.map (eval d.T d.P)

theorem update_get (same : Num → Num → Bool) (phases : List (List SpeciesModel)) (ds : List (PhaseData Num)) (T P : Num)
    (hl : ds.length = phases.length) (j : Nat) (ph : List SpeciesModel) (h : phases[j]? = some ph) :
    ∃ d, ds[j]? = some d ∧ (update same phases T P ds)[j]? = some (updatePhase same T P ph d) := by
  have hj : j < ds.length := by rw [hl]; exact (List.getElem?_eq_some_iff.1 h).1
  exact ⟨ds[j], List.getElem?_eq_getElem hj, by simp [update, List.getElem?_zipWith, h, List.getElem?_eq_getElem hj]⟩

theorem inv_update (same : Num → Num → Bool) (phases : List (List SpeciesModel)) (ds : List (PhaseData Num)) (T P : Num)
    (h : Inv phases ds) : Inv phases (update same phases T P ds) := by
  refine ⟨by simp [update, h.1], fun j ph d hp hd => ?_⟩
  obtain ⟨d', h1, h2⟩ := update_get same phases ds T P h.1 j ph hp
  rw [h2] at hd
  obtain rfl := Option.some.inj hd
  unfold updatePhase
  split
  · exact h.2 j ph d' hp h1
  · exact Or.inr rfl

theorem inv_run (same : Num → Num → Bool) (phases : List (List SpeciesModel)) (calls : List Call) : Inv phases (run same phases calls) := by
  induction calls using List.reverseRecOn with
  | nil =>
    refine ⟨by simp [run], fun j ph d hp hd => Or.inl ?_⟩
    simp only [run, List.foldl_nil, List.getElem?_map, hp, Option.map_some, Option.some.injEq] at hd
    exact hd.symm
  | append_singleton cs c ih =>
    unfold run at *
    rw [List.foldl_append, List.foldl_cons, List.foldl_nil, step_eq]
    exact inv_update same phases _ _ _ ih

theorem run_snoc (same : Num → Num → Bool) (phases : List (List SpeciesModel)) (calls : List Call) (c : Call) :
    run same phases (calls ++ [c]) = update same phases (nums c).1 (nums c).2 (run same phases calls) := by
  unfold run
  rw [List.foldl_append, List.foldl_cons, List.foldl_nil, step_eq]

/-- With numbers compared by value, each phase keeps temperature and pressure of the last call. -/
theorem last_TP (same : Num → Num → Bool) (hs : ByValue same) (phases : List (List SpeciesModel)) (calls : List Call) (c : Call) (j : Nat)
    (d : PhaseData Num) (hd : (run same phases (calls ++ [c]))[j]? = some d) : (d.T.val, d.P.val) = c.TP := by
  have hi := inv_run same phases (calls ++ [c])
  have hj : j < phases.length := by rw [← hi.1]; exact (List.getElem?_eq_some_iff.1 hd).1
  rw [run_snoc] at hd
  obtain ⟨d', h1, h2⟩ := update_get same phases _ (nums c).1 (nums c).2 (inv_run same phases calls).1 j _ (List.getElem?_eq_getElem hj)
  rw [h2] at hd
  obtain rfl := Option.some.inj hd
  rw [← nums_val c]
  unfold updatePhase
  split
  next e =>
    simp only [Bool.and_eq_true] at e
    rw [(hs _ _).1 e.1, (hs _ _).1 e.2]
  next e => rfl

theorem eval_right (m : SpeciesModel) (q : Which) (g : ℝ → ℝ → ℝ) (h : Computes m q g) (T P : Num) :
    (get (eval T P m) q).val = g T.val P.val ∧
      (get (eval T P m) q).der = deriv (fun t => g t P.val) T.val * T.der + deriv (fun p => g T.val p) P.val * P.der := by
  cases m with
  | some f => exact h T P
  | none =>
    obtain rfl : g = fun _ _ => 0 := h
    cases q <;> simp [eval, zeroStd, get] <;> exact ⟨rfl, rfl⟩

theorem der_wrt (g : ℝ → ℝ → ℝ) (x : Wrt) (T P : ℝ) :
    deriv (fun t => g t (nums (.wrt x T P)).2.val) (nums (.wrt x T P)).1.val * (nums (.wrt x T P)).1.der +
      deriv (fun p => g (nums (.wrt x T P)).1.val p) (nums (.wrt x T P)).2.val * (nums (.wrt x T P)).2.der = dWrt g x T P := by
  cases x <;> simp [nums, seedVars, setDer, dWrt]

/-- The data of a phase that is not up to date are computed anew. -/
theorem fresh (same : Num → Num → Bool) (phases : List (List SpeciesModel)) (calls : List Call) (c : Call) (j i : Nat) (m : SpeciesModel)
    (hm : HasModel phases j i m)
    (hn : ∀ d, (run same phases calls)[j]? = some d → (same (nums c).1 d.T && same (nums c).2 d.P) = false) (q : Which) :
    Property (run same phases (calls ++ [c])) j i q (get (eval (nums c).1 (nums c).2 m) q) := by
  obtain ⟨ph, h1, h2⟩ := hm
  obtain ⟨d, e1, e2⟩ := update_get same phases _ (nums c).1 (nums c).2 (inv_run same phases calls).1 j ph h1
  rw [run_snoc]
  have : updatePhase same (nums c).1 (nums c).2 ph d = ⟨(nums c).1, (nums c).2, ph.map (eval (nums c).1 (nums c).2)⟩ := by
    unfold updatePhase
    rw [hn d e1]
    rfl
  exact ⟨_, _, e2, by rw [this]; simp [h2], rfl⟩

theorem init_get (same : Num → Num → Bool) (phases : List (List SpeciesModel)) (j : Nat) (d : PhaseData Num)
    (h : (run same phases [])[j]? = some d) : d.T = 0 ∧ d.P = 0 := by
  simp only [run, List.foldl_nil, List.getElem?_map, Option.map_eq_some_iff] at h
  obtain ⟨ph, -, rfl⟩ := h
  exact ⟨rfl, rfl⟩

/-- By value, a call with temperature and pressure other than those of the call before (zero for new properties) computes anew. -/
theorem not_same (same : Num → Num → Bool) (hs : ByValue same) (phases : List (List SpeciesModel)) (calls : List Call) (c : Call) (j : Nat)
    (h0 : c.TP ≠ (0, 0)) (hc : ∀ b, calls.getLast? = some b → b.TP ≠ c.TP) (d : PhaseData Num)
    (hd : (run same phases calls)[j]? = some d) : (same (nums c).1 d.T && same (nums c).2 d.P) = false := by
  have hne : (d.T.val, d.P.val) ≠ c.TP := by
    induction calls using List.reverseRecOn with
    | nil =>
      obtain ⟨e1, e2⟩ := init_get same phases j d hd
      rw [e1, e2]
      exact fun e => h0 e.symm
    | append_singleton cs b _ =>
      rw [last_TP same hs phases cs b j d hd]
      exact hc b (by simp)
  rw [Bool.eq_false_iff]
  intro e
  simp only [Bool.and_eq_true] at e
  exact hne (by rw [← nums_val c, (hs _ _).1 e.1, (hs _ _).1 e.2])

/-- C124: after any history of updates, with or without a variable to differentiate by, the values of the standard properties are those of
the models at temperature and pressure of the last call.  (Temperature and pressure both zero are taken for an update already done.) -/
theorem C124_values (same : Num → Num → Bool) (hs : ByValue same) (phases : List (List SpeciesModel)) (calls : List Call) (c : Call)
    (h0 : c.TP ≠ (0, 0)) (j i : Nat) (m : SpeciesModel) (hm : HasModel phases j i m) (q : Which) (g : ℝ → ℝ → ℝ)
    (hg : Computes m q g) : ∃ r, Property (run same phases (calls ++ [c])) j i q r ∧ r.val = g c.TP.1 c.TP.2 := by
  obtain ⟨ph, h1, h2⟩ := hm
  have hi := inv_run same phases (calls ++ [c])
  have hj : j < (run same phases (calls ++ [c])).length := by rw [hi.1]; exact (List.getElem?_eq_some_iff.1 h1).1
  have hd := List.getElem?_eq_getElem hj
  have ht := last_TP same hs phases calls c j _ hd
  rcases hi.2 j ph _ h1 hd with e | e
  · exfalso
    rw [e] at ht
    exact h0 ht.symm
  · refine ⟨_, ⟨_, _, hd, by rw [e, List.getElem?_map, h2]; rfl, rfl⟩, ?_⟩
    rw [(eval_right m q g hg _ _).1, ← ht]

/-- C124, the part that holds: `update(T, P, wrt(x))` gives derivatives with respect to `x` if the call before had another temperature
or another pressure. -/
theorem C124_derivatives_partial (same : Num → Num → Bool) (hs : ByValue same) (phases : List (List SpeciesModel)) (calls : List Call)
    (x : Wrt) (T P : ℝ) (h0 : (T, P) ≠ (0, 0)) (hc : ∀ b, calls.getLast? = some b → b.TP ≠ (T, P)) (j i : Nat) (m : SpeciesModel)
    (hm : HasModel phases j i m) (q : Which) (g : ℝ → ℝ → ℝ) (hg : Computes m q g) :
    ∃ r, Property (run same phases (calls ++ [.wrt x T P])) j i q r ∧ r.val = g T P ∧ r.der = dWrt g x T P := by
  refine ⟨_, fresh same phases calls (.wrt x T P) j i m hm (fun d hd => not_same same hs phases calls (.wrt x T P) j h0 hc d hd) q, ?_, ?_⟩
  · rw [(eval_right m q g hg _ _).1]
    have := nums_val (.wrt x T P)
    simp only [Call.TP, Prod.mk.injEq] at this
    rw [this.1, this.2]
  · rw [(eval_right m q g hg _ _).2, der_wrt]

/-- A second call at the same values changes nothing. -/
theorem skipped (same : Num → Num → Bool) (hs : ByValue same) (phases : List (List SpeciesModel)) (calls : List Call) (b c : Call)
    (h : b.TP = c.TP) : run same phases (calls ++ [b] ++ [c]) = run same phases (calls ++ [b]) := by
  rw [run_snoc same phases (calls ++ [b]) c]
  apply List.ext_getElem?
  intro j
  have hl := (inv_run same phases (calls ++ [b])).1
  by_cases hj : j < phases.length
  · obtain ⟨d, e1, e2⟩ := update_get same phases _ (nums c).1 (nums c).2 hl j _ (List.getElem?_eq_getElem hj)
    have ht := last_TP same hs phases calls b j d e1
    rw [h, ← nums_val c, Prod.mk.injEq] at ht
    rw [e2, e1]
    unfold updatePhase
    rw [(hs _ _).2 ht.1.symm, (hs _ _).2 ht.2.symm]
    rfl
  · rw [List.getElem?_eq_none (by simp [update, hl]; omega), List.getElem?_eq_none (by rw [hl]; omega)]

/-- C124 is false if numbers are compared by value: `update(T, P)` and then `update(T, P, wrt(x))` leaves every derivative zero, for each variable `x`. -/
theorem C124_derivatives_wrong (same : Num → Num → Bool) (hs : ByValue same) (phases : List (List SpeciesModel)) (calls : List Call)
    (x : Wrt) (T P : ℝ) (h0 : (T, P) ≠ (0, 0)) (hc : ∀ b, calls.getLast? = some b → b.TP ≠ (T, P)) (j i : Nat) (m : SpeciesModel)
    (hm : HasModel phases j i m) (q : Which) (g : ℝ → ℝ → ℝ) (hg : Computes m q g) :
    ∃ r, Property (run same phases (calls ++ [.plain T P] ++ [.wrt x T P])) j i q r ∧ r.der = 0 := by
  rw [skipped same hs phases calls (.plain T P) (.wrt x T P) rfl]
  refine ⟨_, fresh same phases calls (.plain T P) j i m hm (fun d hd => not_same same hs phases calls (.plain T P) j h0 hc d hd) q, ?_⟩
  rw [(eval_right m q g hg _ _).2]
  simp [nums]

/-- Likewise `update(T, P, wrt(x))` and then `update(T, P, wrt(y))` leaves the derivatives with respect to `x`. -/
theorem C124_other_variable_wrong (same : Num → Num → Bool) (hs : ByValue same) (phases : List (List SpeciesModel)) (calls : List Call)
    (x y : Wrt) (T P : ℝ) (h0 : (T, P) ≠ (0, 0)) (hc : ∀ b, calls.getLast? = some b → b.TP ≠ (T, P)) (j i : Nat) (m : SpeciesModel)
    (hm : HasModel phases j i m) (q : Which) (g : ℝ → ℝ → ℝ) (hg : Computes m q g) :
    ∃ r, Property (run same phases (calls ++ [.wrt x T P] ++ [.wrt y T P])) j i q r ∧ r.der = dWrt g x T P := by
  rw [skipped same hs phases calls (.wrt x T P) (.wrt y T P) rfl]
  obtain ⟨r, h1, -, h2⟩ := C124_derivatives_partial same hs phases calls x T P h0 hc j i m hm q g hg
  exact ⟨r, h1, h2⟩

/-- C124 holds for every history if numbers are compared with their derivatives. -/
theorem C124_with_derivatives (same : Num → Num → Bool) (hs : WithDerivatives same) (phases : List (List SpeciesModel)) (calls : List Call)
    (x : Wrt) (T P : ℝ) (h0 : (T, P) ≠ (0, 0)) (j i : Nat) (m : SpeciesModel) (hm : HasModel phases j i m) (q : Which) (g : ℝ → ℝ → ℝ)
    (hg : Computes m q g) :
    ∃ r, Property (run same phases (calls ++ [.wrt x T P])) j i q r ∧ r.val = g T P ∧ r.der = dWrt g x T P := by
  have hv := nums_val (.wrt x T P)
  simp only [Call.TP, Prod.mk.injEq] at hv
  suffices Property (run same phases (calls ++ [.wrt x T P])) j i q (get (eval (nums (.wrt x T P)).1 (nums (.wrt x T P)).2 m) q) from
    ⟨_, this, by rw [(eval_right m q g hg _ _).1, hv.1, hv.2], by rw [(eval_right m q g hg _ _).2, der_wrt]⟩
  obtain ⟨ph, h1, h2⟩ := hm
  obtain ⟨d, e1, e2⟩ := update_get same phases _ (nums (.wrt x T P)).1 (nums (.wrt x T P)).2 (inv_run same phases calls).1 j ph h1
  rw [run_snoc]
  refine ⟨_, _, e2, ?_, rfl⟩
  unfold updatePhase
  split
  next e =>
    simp only [Bool.and_eq_true] at e
    have eT := (hs _ _).1 e.1
    have eP := (hs _ _).1 e.2
    rcases (inv_run same phases calls).2 j ph d h1 e1 with r | r
    · exfalso
      rw [r] at eT eP
      apply h0
      exact Prod.ext (hv.1.symm.trans (congrArg Num.val eT)) (hv.2.symm.trans (congrArg Num.val eP))
    · rw [r, List.getElem?_map, h2, eT, eP]
      rfl
  next e => simp [h2]

/-- C124: the caller's variables keep their values, and the variable that was seeded has no derivative afterwards. -/
theorem C124_caller (same : Num → Num → Bool) (phases : List (List SpeciesModel)) (x : Wrt) (v : Num × Num) (ds : List (PhaseData Num)) :
    let v' := (updateWrt same phases x v ds).2
    v'.1.val = v.1.val ∧ v'.2.val = v.2.val ∧ v'.1.der = (match x with | .T => 0 | _ => v.1.der) ∧
      v'.2.der = (match x with | .P => 0 | _ => v.2.der) := by
  cases x <;> exact ⟨rfl, rfl, rfl, rfl⟩

/-! ### The hypotheses are met -/

/-- A species with Gibbs energy `3 T + 2 P`, written with derivatives. -/
def linear : Num → Num → Std Num := fun T P => ⟨⟨3 * T.val + 2 * P.val, 3 * T.der + 2 * P.der⟩, ⟨0, 0⟩, ⟨0, 0⟩, ⟨0, 0⟩, ⟨0, 0⟩⟩

theorem linear_computes : Computes (some linear) .G0 (fun t p => 3 * t + 2 * p) := by
  intro T P
  refine ⟨rfl, ?_⟩
  have e1 : deriv (fun t : ℝ => 3 * t + 2 * P.val) T.val = 3 := by
    have := (((hasDerivAt_id' T.val).const_mul 3).add_const (2 * P.val)).deriv
    simpa using this
  have e2 : deriv (fun p : ℝ => 3 * T.val + 2 * p) P.val = 2 := by
    have := (((hasDerivAt_id' P.val).const_mul 2).const_add (3 * T.val)).deriv
    simpa using this
  rw [e1, e2]
  rfl

noncomputable def byValue : Num → Num → Bool := fun a b => @decide (a.val = b.val) (Classical.propDecidable _)

theorem byValue_ok : ByValue byValue := fun a b => by simp [byValue]

/-- The derivative of the Gibbs energy with respect to temperature is 3, and 0 is returned. -/
example : (∃ r, Property (run byValue [[none, some linear]] ([] ++ [.plain 300 1] ++ [.wrt .T 300 1])) 0 1 .G0 r ∧ r.der = 0) ∧
    dWrt (fun t p => 3 * t + 2 * p) .T 300 1 = 3 := by
  refine ⟨C124_derivatives_wrong byValue byValue_ok _ [] .T 300 1 (by norm_num) (by simp) 0 1 (some linear) ⟨_, rfl, rfl⟩ .G0 _
    linear_computes, ?_⟩
  have := (((hasDerivAt_id' (300 : ℝ)).const_mul 3).add_const (2 * 1)).deriv
  simpa [dWrt] using this

/-- On new properties it is right. -/
example : ∃ r, Property (run byValue [[none, some linear]] ([] ++ [.wrt .P 300 1])) 0 1 .G0 r ∧ r.val = 3 * 300 + 2 * 1 ∧
    r.der = dWrt (fun t p => 3 * t + 2 * p) .P 300 1 :=
  C124_derivatives_partial byValue byValue_ok _ [] .P 300 1 (by norm_num) (by simp) 0 1 (some linear) ⟨_, rfl, rfl⟩ .G0 _ linear_computes

end Verif.SeededProps
