import Verif.Spec.EquilibriumProps
import Verif.Theorems.EquilibriumSpecs

/-!
# Theorem C42: `EquilibriumProps`
-/

namespace Verif.EquilibriumProps

open EquilibriumSpecs

variable {K Pr α : Type}

theorem index_cases (names : List Str) (x : Str) : (x ∈ names ∧ index names x < names.length) ∨ (x ∉ names ∧ index names x = names.length) := by
  unfold index Chem.indexfn
  by_cases h : x ∈ names
  · exact .inl ⟨h, List.findIdx_lt_length_of_exists ⟨x, h, by simp⟩⟩
  · refine .inr ⟨h, List.findIdx_eq_length_of_false ?_⟩
    intro y hy
    simp only [decide_eq_false_iff_not]
    intro e
    exact h (e ▸ hy)

/-- Reading at the index of a name is looking up the name. -/
theorem lookup_index (names : List Str) (x : Str) : ∀ (w : List α), names.length ≤ w.length → ∀ v,
    index names x < names.length → (w[index names x]? = some v ↔ valueOf names w x = some v) := by
  induction names with
  | nil => intro w _ v h; simp at h
  | cons y names ih =>
    intro w hw v h
    cases w with
    | nil => simp at hw
    | cons a w =>
      unfold valueOf index Chem.indexfn
      rw [List.findIdx_cons, List.zip_cons_cons, List.lookup_cons]
      by_cases hyx : y = x
      · subst hyx; simp
      · have hxy : (x == y) = false := by simp only [beq_eq_false_iff_ne]; exact fun e => hyx e.symm
        rw [hxy]
        simp only [hyx, decide_false, cond_false]
        rw [List.getElem?_cons_succ]
        refine ih w (by simpa using hw) v ?_
        unfold index Chem.indexfn at h
        rw [List.findIdx_cons] at h
        simp only [hyx, decide_false, cond_false, List.length_cons] at h
        unfold index Chem.indexfn
        omega

theorem index_append (a b : List Str) (x : Str) (h : x ∈ a) : index (a ++ b) x = index a x := by
  unfold index Chem.indexfn
  rw [List.findIdx_append, if_pos]
  exact List.findIdx_lt_length_of_exists ⟨x, h, by simp⟩

/-- The getters find a value, and the right one. -/
theorem getter_known (s : Specs K Pr) (name : Str) (hk : name ∈ s.inputs ∨ name ∈ namesControlVariablesP s)
    (p w : List α) (hlen : p.length = (namesControlVariablesP s).length) (hw : w.length = s.inputs.length) :
    ∃ v, getter s name p w = .ok v ∧ Known s name p w v := by
  unfold getter
  rcases index_cases s.inputs name with ⟨hm, hlt⟩ | ⟨hm, heq⟩
  · rw [if_pos hlt]
    have hlt' : index s.inputs name < w.length := by omega
    refine ⟨_, at!_of_lt _ _ hlt', .inl ?_⟩
    exact (lookup_index s.inputs name w (by omega) _ hlt).1 (List.getElem?_eq_getElem hlt')
  · rw [if_neg (by omega)]
    have hp := hk.resolve_left hm
    have hidx : index (namesControlVariables s) name = index (namesControlVariablesP s) name := index_append _ _ _ hp
    have hlt : index (namesControlVariablesP s) name < (namesControlVariablesP s).length := by
      rcases index_cases (namesControlVariablesP s) name with h | h
      · exact h.2
      · exact absurd hp h.1
    rw [hidx]
    have hlt' : index (namesControlVariablesP s) name < p.length := by omega
    refine ⟨_, at!_of_lt _ _ hlt', .inr ⟨hm, ?_⟩⟩
    exact (lookup_index _ name p (by omega) _ hlt).1 (List.getElem?_eq_getElem hlt')

theorem names_length (s : Specs K Pr) : (namesControlVariablesP s).length = numControlVariablesP s := by
  unfold namesControlVariablesP numControlVariablesP
  cases s.unknownT <;> cases s.unknownP <;> simp <;> omega

theorem T_known (s : Specs K Pr) (hs : Consistent s) : c!"T" ∈ s.inputs ∨ c!"T" ∈ namesControlVariablesP s := by
  cases h : s.unknownT with
  | false => exact .inl (hs.temperature h)
  | true => right; unfold namesControlVariablesP; rw [if_pos h]; simp

theorem P_known (s : Specs K Pr) (hs : Consistent s) : c!"P" ∈ s.inputs ∨ c!"P" ∈ namesControlVariablesP s := by
  cases h : s.unknownP with
  | false => exact .inl (hs.pressure h)
  | true => right; unfold namesControlVariablesP; rw [if_pos h]; simp

theorem setParams_spec (inputs : List Str) (w : List (Dual K)) (hw : w.length = inputs.length) (hnd : inputs.Nodup) :
    ∀ (ps : List Par) (is : List Nat) (h : Heap K), List.Forall₂ (fun (p : Par) (i : Nat) => inputs[i]? = some p.id) ps is →
    ∃ h1, setParams w ps is h = .ok h1 ∧ (∀ c, c ∉ ps.map (·.cell) → h1 c = h c) ∧
      ((ps.map (·.cell)).Nodup → ∀ p ∈ ps, valueOf inputs w p.id = some (h1 p.cell)) := by
  intro ps is h hf
  induction hf generalizing h with
  | nil => exact ⟨h, rfl, fun _ _ => rfl, by simp⟩
  | @cons p i ps is hpi hf ih =>
    have hi : i < inputs.length := by
      rw [List.getElem?_eq_some_iff] at hpi
      exact hpi.1
    have hiw : i < w.length := by omega
    obtain ⟨h1, e1, e2, e3⟩ := ih (write h p.cell w[i])
    refine ⟨h1, ?_, ?_, ?_⟩
    · simp only [setParams]
      rw [at!_of_lt _ _ hiw, Res.bind_ok']
      exact e1
    · intro c hc
      rw [List.map_cons, List.mem_cons, not_or] at hc
      rw [e2 c hc.2]
      unfold write
      rw [if_neg hc.1]
    · intro hn q hq
      rw [List.map_cons, List.nodup_cons] at hn
      rcases List.mem_cons.1 hq with rfl | hq
      · rw [e2 _ hn.1]
        unfold write
        rw [if_pos rfl]
        have hidx : index inputs q.id = i := by
          unfold index Chem.indexfn
          rw [List.findIdx_eq hi]
          have hpi' : inputs[i] = q.id := by
            rw [List.getElem?_eq_some_iff] at hpi
            exact hpi.2
          refine ⟨by simp [hpi'], ?_⟩
          intro j hj
          simp only [decide_eq_false_iff_not]
          intro e
          have := (List.Nodup.getElem_inj_iff hnd (hi := hj.trans hi) (hj := hi)).1 (e.trans hpi'.symm)
          omega
        rw [← lookup_index inputs q.id w (by omega) _ (by omega), hidx, List.getElem?_eq_getElem hiw]
      · exact e3 hn.2 q hq

theorem restoreParams_spec (h0 : Heap K) : ∀ (ps : List Par) (h1 : Heap K), (∀ c, c ∉ ps.map (·.cell) → h1 c = h0 c) →
    restoreParams ps (ps.map fun p => h0 p.cell) h1 = h0 := by
  intro ps
  induction ps with
  | nil =>
    intro h1 h
    funext c
    exact h c (by simp)
  | cons p ps ih =>
    intro h1 h
    simp only [List.map_cons, restoreParams]
    apply ih
    intro c hc
    unfold write
    by_cases hcp : c = p.cell
    · rw [if_pos hcp, hcp]
    · rw [if_neg hcp]
      exact h c (by rw [List.map_cons, List.mem_cons, not_or]; exact ⟨hcp, hc⟩)

/-- **C42, partial.** An update evaluates the chemical properties once, at the temperature and pressure of the inputs or unknowns, with the
parameters that are inputs set to the values given and no other parameter changed. If it returns, every parameter has its old
value. Missing: the old values after an exception, for which this is false (`C42_throw_keeps_inputs`). -/
theorem C42_update_partial [DecidableEq K] [One K] (parse : Str → Option Formula) (db : List EquilibriumSpecs.Species) (calls : List (Call K Pr)) (eval : Eval K Pr)
    (serialize : Pr → List (Dual K)) (junk : K) (h : Heap K) (e : EProps K Pr) (n p w : List (Dual K)) :
    let s := run parse db calls
    Sized s p w →
    let r := update s eval serialize junk h e n p w
    ∃ h1 T P, Known s c!"T" p w T ∧ Known s c!"P" p w P ∧
      (∀ c, c ∉ s.params.map (·.cell) → h1 c = h c) ∧
      ((s.params.map (·.cell)).Nodup → ∀ par ∈ s.params, valueOf s.inputs w par.id = some (h1 par.cell)) ∧
      r.2.1.props = (eval h1 T P n e.props).1 ∧
      r.2.2 = (if (eval h1 T P n e.props).2 then .returned else .threw) ∧
      (r.2.2 = .returned → r.1 = h) := by
  intro s hsz
  have hs : Consistent s := C35_invariant parse db calls
  generalize s = s at hs hsz
  dsimp only
  obtain ⟨hp, hw⟩ := hsz
  rw [← names_length] at hp
  obtain ⟨T, hT, kT⟩ := getter_known s c!"T" (T_known s hs) p w hp hw
  obtain ⟨P, hP, kP⟩ := getter_known s c!"P" (P_known s hs) p w hp hw
  obtain ⟨h1, e1, e2, e3⟩ := setParams_spec s.inputs w hw hs.inputs s.params s.paramsIdxs h hs.params
  refine ⟨h1, T, P, kT, kP, e2, e3, ?_⟩
  unfold update
  rw [hT, hP, e1]
  dsimp only
  rcases hev : eval h1 T P n e.props with ⟨props, b⟩
  cases b with
  | false => exact ⟨rfl, rfl, fun hh => by cases hh⟩
  | true =>
    dsimp only
    rw [restoreParams_spec h s.params h1 e2]
    rw [if_pos rfl]
    by_cases hrec : e.recording = true
    · rw [if_pos hrec]
      by_cases hlt : seeded n p w < n.length + p.length + w.length
      · rw [if_pos hlt]; exact ⟨rfl, rfl, fun _ => rfl⟩
      · rw [if_neg hlt]; exact ⟨rfl, rfl, fun _ => rfl⟩
    · rw [if_neg hrec]; exact ⟨rfl, rfl, fun _ => rfl⟩

/-- A specification with one parameter among its inputs. -/
def exampleCalls : List (Call Rat Rat) := [.temperature, .pressure, .addInputParam ⟨c!"k", 7⟩]

/-- **C42, counterexample.** If the evaluation throws, the parameter keeps the value of the input. -/
theorem C42_throw_keeps_inputs : ∃ h' e', update (run (fun _ => none) [] exampleCalls) (fun _ _ _ _ p => (p, false)) (fun _ => []) 0
    (fun _ => ⟨1, 0⟩) { props := 0 } [] [] [⟨300, 0⟩, ⟨100000, 0⟩, ⟨5, 0⟩] = (h', e', .threw) ∧ h' 7 = ⟨5, 0⟩ :=
  ⟨_, _, rfl, by decide +kernel⟩

theorem seeded_at [DecidableEq K] [Zero K] [One K] [NeZero (1 : K)] (n p w : List (Dual K)) (j : Nat) (h : SeededAt (n ++ p ++ w) j) :
    seeded n p w = j := by
  obtain ⟨hj, hg⟩ := h
  unfold seeded
  rw [List.findIdx_eq hj]
  refine ⟨by rw [decide_eq_true_eq, hg j hj, if_pos rfl], ?_⟩
  intro i hi
  simp only [decide_eq_false_iff_not]
  rw [hg i (hi.trans hj), if_neg (by omega)]
  exact fun e => NeZero.ne (1 : K) e.symm

theorem seeded_ne [DecidableEq K] [Zero K] [One K] [NeZero (1 : K)] (n p w : List (Dual K)) (j : Nat) (hj : j < (n ++ p ++ w).length)
    (h : (n ++ p ++ w)[j].grad ≠ 1) : seeded n p w ≠ j := by
  intro e
  unfold seeded at e
  have := List.findIdx_getElem (p := fun v : Dual K => decide (v.grad = 1)) (xs := n ++ p ++ w) (w := by rw [e]; exact hj)
  simp only [decide_eq_true_eq] at this
  apply h
  rw [← this]
  congr 2
  exact e.symm

/-- What a recorded update does to the columns. -/
theorem update_columns [DecidableEq K] [Zero K] [One K] [NeZero (1 : K)] (s : Specs K Pr) (eval : Eval K Pr) (serialize : Pr → List (Dual K)) (junk : K)
    (h h' : Heap K) (e e' : EProps K Pr) (n p w : List (Dual K)) (hr : e.recording = true)
    (hu : update s eval serialize junk h e n p w = (h', e', .returned)) :
    e'.recording = true ∧ e'.columns = if seeded n p w < n.length + p.length + w.length then
      (resize e.columns (serialize e'.props).length (n.length + p.length + w.length) junk).set (seeded n p w) ((serialize e'.props).map (·.grad))
      else e.columns := by
  unfold update at hu
  split at hu
  · split at hu
    · simp at hu
    · dsimp only at hu
      rw [if_pos hr] at hu
      split_ifs at hu with hlt <;>
      · injection hu with _ hu
        injection hu with hu _
        subst hu
        first
          | (rw [if_pos hlt]; exact ⟨hr, rfl⟩)
          | (rw [if_neg hlt]; exact ⟨hr, rfl⟩)
  · simp at hu

theorem resize_shape (columns : List (List K)) (rows cols : Nat) (junk : K) :
    (resize columns rows cols junk).length = cols ∧ ∀ c ∈ resize columns rows cols junk, c.length = rows := by
  unfold resize
  split_ifs with h
  · exact h
  · refine ⟨by simp, ?_⟩
    intro c hc
    rw [List.eq_of_mem_replicate hc, List.length_replicate]

theorem keep_column [DecidableEq K] [Zero K] [One K] [NeZero (1 : K)] (s : Specs K Pr) (eval : Eval K Pr) (serialize : Pr → List (Dual K)) (junk : K)
    (Nu N : Nat) (hNu : ∀ x, (serialize x).length = Nu) (j : Nat) (hj : j < N) :
    ∀ (post : List (List (Dual K) × List (Dual K) × List (Dual K))) (h : Heap K) (e e' : EProps K Pr), e.recording = true →
    (∀ c ∈ post, (c.1 ++ c.2.1 ++ c.2.2).length = N ∧ ∀ v, (c.1 ++ c.2.1 ++ c.2.2)[j]? = some v → v.grad ≠ 1) →
    e.columns.length = N → (∀ c ∈ e.columns, c.length = Nu) →
    updates s eval serialize junk h e post = some e' → e'.columns[j]? = e.columns[j]? ∧ e'.columns.length = N := by
  intro post
  induction post with
  | nil => intro h e e' _ _ hl _ hu; simp only [updates, Option.some.injEq] at hu; rw [← hu]; exact ⟨rfl, hl⟩
  | cons c post ih =>
    obtain ⟨n, p, w⟩ := c
    intro h e e' hr hc hl hrow hu
    simp only [updates] at hu
    rcases hup : update s eval serialize junk h e n p w with ⟨h1, e1, en⟩
    rw [hup] at hu
    cases en with
    | threw => simp at hu
    | undefined => simp at hu
    | returned =>
      dsimp only at hu
      obtain ⟨hr1, hcol⟩ := update_columns s eval serialize junk h h1 e e1 n p w hr hup
      obtain ⟨hN, hg⟩ := hc _ List.mem_cons_self
      dsimp only at hN hg
      have hjl : j < (n ++ p ++ w).length := by omega
      have hne := seeded_ne n p w j hjl (hg _ (List.getElem?_eq_getElem hjl))
      have hNN : n.length + p.length + w.length = N := by rw [← hN]; simp [Nat.add_assoc]
      rw [hNu, hNN] at hcol
      have hres : resize e.columns Nu N junk = e.columns := by
        unfold resize
        rw [if_pos ⟨hl, hrow⟩]
      rw [hres] at hcol
      have key : e1.columns.length = N ∧ (∀ c ∈ e1.columns, c.length = Nu) ∧ e1.columns[j]? = e.columns[j]? := by
        rw [hcol]
        split_ifs with hlt
        · refine ⟨by simp [hl], ?_, List.getElem?_set_ne hne⟩
          intro c hc
          rcases List.mem_or_eq_of_mem_set hc with hc | rfl
          · exact hrow c hc
          · rw [List.length_map, hNu]
        · exact ⟨hl, hrow, rfl⟩
      have := ih h1 e1 e' hr1 (fun c hc' => hc c (List.mem_cons_of_mem _ hc')) key.1 key.2.1 hu
      exact ⟨this.1.trans key.2.2, this.2⟩

theorem updates_append [DecidableEq K] [One K] (s : Specs K Pr) (eval : Eval K Pr) (serialize : Pr → List (Dual K)) (junk : K) :
    ∀ (pre post : List (List (Dual K) × List (Dual K) × List (Dual K))) (h : Heap K) (e e' : EProps K Pr), e.recording = true →
    updates s eval serialize junk h e (pre ++ post) = some e' →
    ∃ h1 e1, updates s eval serialize junk h e pre = some e1 ∧ e1.recording = true ∧ updates s eval serialize junk h1 e1 post = some e' := by
  intro pre
  induction pre with
  | nil => intro post h e e' hr hu; exact ⟨h, e, rfl, hr, hu⟩
  | cons c pre ih =>
    obtain ⟨n, p, w⟩ := c
    intro post h e e' hr hu
    simp only [List.cons_append, updates] at hu ⊢
    rcases hup : update s eval serialize junk h e n p w with ⟨h1, e1, en⟩
    rw [hup] at hu
    cases en with
    | threw => simp at hu
    | undefined => simp at hu
    | returned =>
      dsimp only at hu ⊢
      refine ih post h1 e1 e' ?_ hu
      unfold update at hup
      split at hup
      · split at hup
        · simp at hup
        · dsimp only at hup
          split_ifs at hup <;>
          · injection hup with _ hup
            injection hup with hup _
            subst hup
            assumption
      · simp at hup

/-- **C42 (Jacobian).** While the Jacobian is recorded, if variable `j` of `(n, p, w)` is seeded in some update and not again later, then
column `j` of the matrix has the derivatives of the properties computed by that update, whatever other variables are seeded before and
after it. The three blocks returned are the columns of `n`, `p` and `w`. -/
theorem C42_jacobian [DecidableEq K] [Zero K] [One K] [NeZero (1 : K)] (s : Specs K Pr) (eval : Eval K Pr) (serialize : Pr → List (Dual K)) (junk : K)
    (Nu Nn Np Nw : Nat) (hNu : ∀ x, (serialize x).length = Nu) (h : Heap K) (e e' : EProps K Pr) (hr : e.recording = true)
    (pre post : List (List (Dual K) × List (Dual K) × List (Dual K))) (n p w : List (Dual K)) (j : Nat) (hseed : SeededAt (n ++ p ++ w) j)
    (hsize : ∀ c ∈ (n, p, w) :: post, c.1.length = Nn ∧ c.2.1.length = Np ∧ c.2.2.length = Nw)
    (hlast : ∀ c ∈ post, ∀ v, (c.1 ++ c.2.1 ++ c.2.2)[j]? = some v → v.grad ≠ 1)
    (hu : updates s eval serialize junk h e (pre ++ (n, p, w) :: post) = some e') :
    ∃ h1 h2 e1 e2, updates s eval serialize junk h e pre = some e1 ∧ update s eval serialize junk h1 e1 n p w = (h2, e2, .returned) ∧
      e'.columns[j]? = some ((serialize e2.props).map (·.grad)) ∧
      (j < Nn → (dudn e' Nn)[j]? = some ((serialize e2.props).map (·.grad))) ∧
      (∀ i, j = Nn + i → i < Np → (dudp e' Nn Np)[i]? = some ((serialize e2.props).map (·.grad))) ∧
      (∀ i, j = Nn + Np + i → (dudw e' Nw)[i]? = some ((serialize e2.props).map (·.grad))) := by
  obtain ⟨h1, e1, hpre, hr1, hrest⟩ := updates_append s eval serialize junk pre _ h e e' hr hu
  simp only [updates] at hrest
  rcases hup : update s eval serialize junk h1 e1 n p w with ⟨h2, e2, en⟩
  rw [hup] at hrest
  cases en with
  | threw => simp at hrest
  | undefined => simp at hrest
  | returned =>
    dsimp only at hrest
    obtain ⟨hr2, hcol⟩ := update_columns s eval serialize junk h1 h2 e1 e2 n p w hr1 hup
    have hsz := hsize _ List.mem_cons_self
    dsimp only at hsz
    have hjN : j < Nn + Np + Nw := by
      have := hseed.1
      simp only [List.length_append] at this
      omega
    rw [seeded_at n p w j hseed, hsz.1, hsz.2.1, hsz.2.2, if_pos hjN, hNu] at hcol
    obtain ⟨hl, hrow⟩ := resize_shape e1.columns Nu (Nn + Np + Nw) junk
    have hkeep := keep_column s eval serialize junk Nu (Nn + Np + Nw) hNu j hjN post h2 e2 e' hr2 (by
      intro c hc
      have := hsize c (List.mem_cons_of_mem _ hc)
      exact ⟨by simp only [List.length_append]; omega, hlast c hc⟩) (by rw [hcol]; simp [hl]) (by
      rw [hcol]
      intro c hc
      rcases List.mem_or_eq_of_mem_set hc with hc | rfl
      · exact hrow c hc
      · rw [List.length_map, hNu]) hrest
    have hmain : e'.columns[j]? = some ((serialize e2.props).map (·.grad)) := by
      rw [hkeep.1, hcol, List.getElem?_set_self (by omega)]
    refine ⟨h1, h2, e1, e2, hpre, hup, hmain, ?_, ?_, ?_⟩
    · intro hj
      unfold dudn
      rw [List.getElem?_take, if_pos hj, hmain]
    · intro i hi hiN
      unfold dudp
      rw [List.getElem?_take, if_pos hiN, List.getElem?_drop, ← hi, hmain]
    · intro i hi
      unfold dudw
      rw [List.getElem?_drop, hkeep.2, show Nn + Np + Nw - Nw + i = j by omega, hmain]

/-- The hypotheses are met: one species and two inputs; the property is the product of amount and temperature. -/
example : ∃ e', updates (run (fun _ => none) [] [.temperature, .pressure]) (fun _ T _ n _ => (⟨(n.headD ⟨0, 0⟩).val * T.val,
    (n.headD ⟨0, 0⟩).grad * T.val + (n.headD ⟨0, 0⟩).val * T.grad⟩, true)) (fun u : Dual Rat => [u]) 0 (fun _ => ⟨0, 0⟩)
    { props := ⟨0, 0⟩, recording := true }
    [([⟨3, 1⟩], [], [⟨300, 0⟩, ⟨5, 0⟩]), ([⟨3, 0⟩], [], [⟨300, 1⟩, ⟨5, 0⟩]), ([⟨3, 0⟩], [], [⟨300, 0⟩, ⟨5, 1⟩])] = some e' ∧
    e'.columns = [[300], [3], [0]] := ⟨_, rfl, by decide +kernel⟩

example : Sized (run (fun _ => none) [] exampleCalls) ([] : List Rat) [300, 100000, 5] := ⟨by decide +kernel, by decide +kernel⟩

end Verif.EquilibriumProps
