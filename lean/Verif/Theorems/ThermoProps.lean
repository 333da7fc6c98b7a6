import Verif.Spec.ThermoProps
import Verif.Lemmas.ChemicalProps
import Mathlib.Tactic.FieldSimp
import Mathlib.Tactic.Ring
import Mathlib.Tactic.NormNum

/-!
# Theorems C74: standard properties of a system at given temperature and pressure
-/

namespace Verif.ThermoProps

open ArraySerialization (write)
open ChemicalProps (Std seg seg_length seg_write_same seg_write_other write_length getD_set_self getD_set_ne)

variable {K W : Type}

/-! ### Lemmas -/

section Lemmas

variable [Zero K]

/-- The arrays have one entry for each phase or species. -/
structure Shape (phases : List (List (Model W K))) (p : Props K) : Prop where
  Ts : p.Ts.length = phases.length
  Ps : p.Ps.length = phases.length
  std : p.std.length = begin phases phases.length

theorem begin_succ (phases : List (List (Model W K))) (i : Nat) : begin phases (i + 1) = begin phases i + (phases.getD i []).length := by
  unfold begin
  rw [List.take_add_one, List.getD_eq_getElem?_getD]
  cases phases[i]? <;> simp

theorem begin_mono (phases : List (List (Model W K))) {i j : Nat} (h : i ≤ j) : begin phases i ≤ begin phases j := by
  induction h with
  | refl => exact Nat.le_refl _
  | step _ ih => rw [begin_succ]; omega

theorem begin_le (phases : List (List (Model W K))) (i : Nat) (h : i < phases.length) :
    begin phases i + (phases.getD i []).length ≤ begin phases phases.length := by
  rw [← begin_succ]; exact begin_mono _ h

theorem view_length (phases : List (List (Model W K))) (p : Props K) (hs : Shape phases p) (i : Nat) (h : i < phases.length) :
    (view phases p i).std.length = (phases.getD i []).length := by
  have := begin_le phases i h
  exact seg_length _ _ _ (by rw [hs.std]; exact this)

theorem put_shape (phases : List (List (Model W K))) (p : Props K) (hs : Shape phases p) (i : Nat) (h : i < phases.length)
    (d : PhaseData K) (hd : d.std.length = (phases.getD i []).length) : Shape phases (put phases p i d) := by
  have hb := begin_le phases i h
  refine ⟨by simp [put, hs.Ts], by simp [put, hs.Ps], ?_⟩
  unfold put
  dsimp only
  rw [write_length _ _ _ (by rw [hd, hs.std]; exact hb), hs.std]

theorem view_put_same (phases : List (List (Model W K))) (p : Props K) (hs : Shape phases p) (i : Nat) (h : i < phases.length)
    (d : PhaseData K) (hd : d.std.length = (phases.getD i []).length) : view phases (put phases p i d) i = d := by
  have hb := begin_le phases i h
  have h1 := hs.Ts
  have h2 := hs.Ps
  unfold view put
  dsimp only
  rw [getD_set_self _ _ _ (by omega), getD_set_self _ _ _ (by omega), ← hd,
    seg_write_same _ _ _ (by rw [hd, hs.std]; exact hb)]

theorem view_put_other (phases : List (List (Model W K))) (p : Props K) (hs : Shape phases p) (i j : Nat) (h : i < phases.length)
    (hij : i ≠ j) (d : PhaseData K) (hd : d.std.length = (phases.getD i []).length) :
    view phases (put phases p i d) j = view phases p j := by
  have hb := begin_le phases i h
  unfold view put
  dsimp only
  rw [getD_set_ne _ _ _ _ hij, getD_set_ne _ _ _ _ hij, seg_write_other _ _ _ _ _ (by rw [hd, hs.std]; exact hb)]
  rw [hd, ← begin_succ, ← begin_succ]
  rcases Nat.lt_or_gt_of_ne hij with h | h
  · exact Or.inl (begin_mono _ h)
  · exact Or.inr (begin_mono _ h)

theorem speciesLoop_length (w : W) (T P : K) (ms : List (Model W K)) (i : Nat) (l : List (Std K)) :
    (speciesLoop w T P ms i l).1.length = l.length := by
  induction ms generalizing i l with
  | nil => rfl
  | cons m ms ih =>
    rw [speciesLoop]
    cases evalModel w T P m with
    | none => rfl
    | some s => dsimp only; rw [ih]; simp

theorem evalModel_gives (w : W) (T P : K) (m : Model W K) (s : Std K) : evalModel w T P m = some s ↔ Gives w T P m s := by
  unfold evalModel Gives
  cases m with
  | none => exact ⟨fun h => by cases h; rfl, fun h => by rw [h]⟩
  | some f => exact Iff.rfl

theorem speciesLoop_ok (w : W) (T P : K) (ms : List (Model W K)) (pre l : List (Std K)) (hl : l.length = ms.length)
    (h : (speciesLoop w T P ms pre.length (pre ++ l)).2 = true) :
    ∃ l', (speciesLoop w T P ms pre.length (pre ++ l)).1 = pre ++ l' ∧ List.Forall₂ (Gives w T P) ms l' := by
  induction ms generalizing pre l with
  | nil =>
    have : l = [] := List.length_eq_zero_iff.1 hl
    subst this
    exact ⟨[], rfl, .nil⟩
  | cons m ms ih =>
    match l, hl with
    | a :: l, hl =>
      rw [speciesLoop] at h ⊢
      cases hm : evalModel w T P m with
      | none => rw [hm] at h; cases h
      | some s =>
        rw [hm] at h
        dsimp only at h ⊢
        have e1 : (pre ++ a :: l).set pre.length s = (pre ++ [s]) ++ l := by simp
        have e2 : pre.length + 1 = (pre ++ [s]).length := by simp
        rw [e1, e2] at h ⊢
        obtain ⟨l', i1, i2⟩ := ih (pre ++ [s]) l (by simpa using hl) h
        exact ⟨s :: l', by rw [i1]; simp, .cons ((evalModel_gives w T P m s).1 hm) i2⟩

theorem speciesLoop_iff (w : W) (T P : K) (ms : List (Model W K)) (i : Nat) (l : List (Std K)) :
    (speciesLoop w T P ms i l).2 = true ↔ ∀ f, some f ∈ ms → (f w T P).isSome := by
  induction ms generalizing i l with
  | nil => simp [speciesLoop]
  | cons m ms ih =>
    rw [speciesLoop]
    cases m with
    | none => simp [evalModel, ih]
    | some f =>
      cases hf : f w T P with
      | none =>
        simp only [evalModel, hf, Bool.false_eq_true, false_iff, not_forall]
        exact ⟨f, List.mem_cons_self, by simp [hf]⟩
      | some s => simp [evalModel, hf, ih]

/-- All species of the phase have the properties of the temperature and pressure of the phase. -/
def Right (w : W) (ph : List (Model W K)) (d : PhaseData K) : Prop := List.Forall₂ (Gives w d.T d.P) ph d.std

variable [DecidableEq K]

theorem phaseUpdate_length (w : W) (ph : List (Model W K)) (T P : K) (d : PhaseData K) :
    (phaseUpdate w ph T P d).1.std.length = d.std.length := by
  unfold phaseUpdate
  split_ifs
  · rfl
  · exact speciesLoop_length w T P ph 0 d.std

/-- What an update of a phase does if it is not skipped. -/
theorem phaseUpdate_new (w : W) (ph : List (Model W K)) (T P : K) (d : PhaseData K) (hd : d.std.length = ph.length)
    (hne : ¬ (T = d.T ∧ P = d.P)) :
    (phaseUpdate w ph T P d).1.T = T ∧ (phaseUpdate w ph T P d).1.P = P ∧
    ((phaseUpdate w ph T P d).2 = true ↔ ∀ f, some f ∈ ph → (f w T P).isSome) ∧
    ((phaseUpdate w ph T P d).2 = true → Right w ph (phaseUpdate w ph T P d).1) := by
  unfold phaseUpdate Right
  rw [if_neg hne]
  refine ⟨rfl, rfl, speciesLoop_iff w T P ph 0 d.std, ?_⟩
  intro h
  obtain ⟨l', h1, h2⟩ := speciesLoop_ok w T P ph [] d.std hd h
  dsimp only
  simp only [List.length_nil, List.nil_append] at h1
  rw [h1]; exact h2

/-- What an update of the system does with each phase. -/
theorem phaseLoop_spec (w : W) (phases : List (List (Model W K))) (T P : K) (done rest : List (List (Model W K)))
    (hd : phases = done ++ rest) (p : Props K) (hs : Shape phases p) :
    let r := phaseLoop w phases T P rest done.length p
    Shape phases r.1 ∧ r.1.T = p.T ∧ r.1.P = p.P ∧
    (∀ j, j < phases.length → view phases r.1 j = view phases p j ∨
      view phases r.1 j = (phaseUpdate w (phases.getD j []) T P (view phases p j)).1) ∧
    (∀ j, done.length ≤ j → j < phases.length → (∀ i, done.length ≤ i → i < j →
        (phaseUpdate w (phases.getD i []) T P (view phases p i)).2 = true) →
      view phases r.1 j = (phaseUpdate w (phases.getD j []) T P (view phases p j)).1) ∧
    (r.2 = true ↔ ∀ i, done.length ≤ i → i < phases.length → (phaseUpdate w (phases.getD i []) T P (view phases p i)).2 = true) := by
  induction rest generalizing done p with
  | nil =>
    simp only [List.append_nil] at hd
    subst hd
    refine ⟨hs, rfl, rfl, fun j hj => .inl rfl, fun j h1 h2 => by omega, ?_⟩
    simp only [phaseLoop, true_iff]
    intro i h1 h2; omega
  | cons ph rest ih =>
    dsimp only
    have hlt : done.length < phases.length := by rw [hd]; simp
    have hget : phases.getD done.length [] = ph := by rw [hd]; simp
    have hlen : (phaseUpdate w ph T P (view phases p done.length)).1.std.length = (phases.getD done.length []).length := by
      rw [phaseUpdate_length, view_length phases p hs _ hlt]
    have hs1 := put_shape phases p hs _ hlt _ hlen
    have hv1 := view_put_same phases p hs _ hlt _ hlen
    have hv2 : ∀ j, done.length ≠ j → view phases (put phases p done.length (phaseUpdate w ph T P (view phases p done.length)).1) j =
        view phases p j := fun j hj => view_put_other phases p hs _ j hlt hj _ hlen
    rw [phaseLoop]
    generalize hp1 : put phases p done.length (phaseUpdate w ph T P (view phases p done.length)).1 = p1 at *
    have hT : p1.T = p.T := by rw [← hp1]; rfl
    have hP : p1.P = p.P := by rw [← hp1]; rfl
    cases hb : (phaseUpdate w ph T P (view phases p done.length)).2 with
    | false =>
      simp only [Bool.false_eq_true, if_false]
      refine ⟨hs1, hT, hP, ?_, ?_, ?_⟩
      · intro j hj
        by_cases hjd : done.length = j
        · subst hjd; right; rw [hget]; exact hv1
        · left; exact hv2 j hjd
      · intro j h1 h2 h3
        by_cases hjd : done.length = j
        · subst hjd; rw [hget]; exact hv1
        · have := h3 done.length (Nat.le_refl _) (by omega)
          rw [hget, hb] at this; cases this
      · refine ⟨fun h => absurd h (by simp), fun h => ?_⟩
        have := h done.length (Nat.le_refl _) hlt
        rw [hget, hb] at this; cases this
    | true =>
      simp only [if_true]
      have hi := ih (done ++ [ph]) (by rw [hd]; simp) p1 hs1
      simp only [List.length_append, List.length_cons, List.length_nil, Nat.zero_add] at hi
      obtain ⟨i1, i2, i3, i4, i5, i6⟩ := hi
      have hrest : ∀ i, done.length + 1 ≤ i → view phases p1 i = view phases p i := fun i hi => hv2 i (by omega)
      refine ⟨i1, i2.trans hT, i3.trans hP, ?_, ?_, ?_⟩
      · intro j hj
        by_cases hjd : done.length = j
        · subst hjd
          rw [hget]
          rcases i4 done.length hj with h | h
          · right; rw [h, hv1]
          · right
            rw [h, hget, hv1]
            unfold phaseUpdate
            by_cases hc : T = (view phases p done.length).T ∧ P = (view phases p done.length).P
            · rw [if_pos hc]; dsimp only; rw [if_pos hc]
            · rw [if_neg hc]; dsimp only; rw [if_pos ⟨rfl, rfl⟩]
        · rw [← hv2 j hjd]; exact i4 j hj
      · intro j h1 h2 h3
        by_cases hjd : done.length = j
        · subst hjd
          rw [hget]
          rcases i4 done.length h2 with h | h
          · rw [h, hv1]
          · rw [h, hget, hv1]
            unfold phaseUpdate
            by_cases hc : T = (view phases p done.length).T ∧ P = (view phases p done.length).P
            · rw [if_pos hc]; dsimp only; rw [if_pos hc]
            · rw [if_neg hc]; dsimp only; rw [if_pos ⟨rfl, rfl⟩]
        · rw [← hrest j (by omega)]
          apply i5 j (by omega) h2
          intro i g1 g2
          rw [hrest i g1]
          exact h3 i (by omega) g2
      · rw [i6]
        constructor
        · intro h i g1 g2
          by_cases hid : done.length = i
          · subst hid; rw [hget]; exact hb
          · rw [← hrest i (by omega)]; exact h i (by omega) g2
        · intro h i g1 g2
          rw [hrest i g1]; exact h i (by omega) g2

theorem forall₂_flatten {α β : Type} (R : α → β → Prop) (ls : List (List α)) (a : List β)
    (ha : a.length = ((ls.take ls.length).map List.length).sum)
    (h : ∀ i, i < ls.length → List.Forall₂ R (ls.getD i []) (seg a ((ls.take i).map List.length).sum (ls.getD i []).length)) :
    List.Forall₂ R ls.flatten a := by
  induction ls generalizing a with
  | nil =>
    have : a = [] := List.length_eq_zero_iff.1 (by simpa using ha)
    subst this; exact .nil
  | cons l ls ih =>
    rw [List.flatten_cons, ← List.take_append_drop l.length a]
    refine List.rel_append ?_ ?_
    · have := h 0 (by simp)
      simpa [seg] using this
    · apply ih
      · simp only [List.take_length, List.map_cons, List.sum_cons] at ha
        rw [List.length_drop, List.take_length]
        omega
      · intro i hi
        have := h (i + 1) (by simpa using hi)
        simp only [List.getD_cons_succ, List.take_succ_cons, List.map_cons, List.sum_cons] at this
        unfold seg at this ⊢
        rw [List.drop_drop]
        exact this

/-- If each phase has been updated, the system is up to date. -/
theorem upToDate_of_views (w : W) (phases : List (List (Model W K))) (T P : K) (p : Props K) (hs : Shape phases p) (hT : p.T = T) (hP : p.P = P)
    (h : ∀ j, j < phases.length → (view phases p j).T = T ∧ (view phases p j).P = P ∧ Right w (phases.getD j []) (view phases p j)) :
    UpToDate w phases T P p := by
  refine ⟨hT, hP, ?_, ?_, ?_⟩
  · rw [List.eq_replicate_iff]
    refine ⟨hs.Ts, fun x hx => ?_⟩
    obtain ⟨i, hi, rfl⟩ := List.getElem_of_mem hx
    have := (h i (by rw [← hs.Ts]; exact hi)).1
    simpa [view, List.getD_eq_getElem?_getD, hi] using this
  · rw [List.eq_replicate_iff]
    refine ⟨hs.Ps, fun x hx => ?_⟩
    obtain ⟨i, hi, rfl⟩ := List.getElem_of_mem hx
    have := (h i (by rw [← hs.Ps]; exact hi)).2.1
    simpa [view, List.getD_eq_getElem?_getD, hi] using this
  · apply forall₂_flatten
    · exact hs.std
    · intro i hi
      obtain ⟨h1, h2, h3⟩ := h i hi
      unfold Right at h3
      rw [h1, h2] at h3
      exact h3

/-- If no phase is skipped without being right, an update where all models are defined gives right properties. -/
theorem update_right (w : W) (phases : List (List (Model W K))) (p : Props K) (hs : Shape phases p) (T P : K)
    (hdef : Defined w phases T P)
    (h : ∀ j, j < phases.length → T = (view phases p j).T → P = (view phases p j).P → Right w (phases.getD j []) (view phases p j)) :
    (update w phases p T P).2 = true ∧ UpToDate w phases T P (update w phases p T P).1 := by
  have hs1 : Shape phases { p with T := T, P := P } := ⟨hs.Ts, hs.Ps, hs.std⟩
  have hmem : ∀ j, j < phases.length → phases.getD j [] ∈ phases := by
    intro j hj
    rw [List.getD_eq_getElem?_getD, List.getElem?_eq_getElem hj]
    exact List.getElem_mem hj
  obtain ⟨a1, a2, a3, -, a5, a6⟩ := phaseLoop_spec w phases T P [] phases rfl _ hs1
  have hok : ∀ i, i < phases.length → (phaseUpdate w (phases.getD i []) T P (view phases { p with T := T, P := P } i)).2 = true ∧
      (phaseUpdate w (phases.getD i []) T P (view phases { p with T := T, P := P } i)).1.T = T ∧
      (phaseUpdate w (phases.getD i []) T P (view phases { p with T := T, P := P } i)).1.P = P ∧
      Right w (phases.getD i []) (phaseUpdate w (phases.getD i []) T P (view phases { p with T := T, P := P } i)).1 := by
    intro i hi
    by_cases hc : T = (view phases { p with T := T, P := P } i).T ∧ P = (view phases { p with T := T, P := P } i).P
    · unfold phaseUpdate
      rw [if_pos hc]
      exact ⟨rfl, hc.1.symm, hc.2.symm, h i hi hc.1 hc.2⟩
    · obtain ⟨b1, b2, b3, b4⟩ := phaseUpdate_new w (phases.getD i []) T P _ (view_length phases _ hs1 i hi) hc
      have h2 := b3.2 (hdef _ (hmem i hi))
      exact ⟨h2, b1, b2, b4 h2⟩
  refine ⟨a6.2 fun i _ hi => (hok i hi).1, ?_⟩
  apply upToDate_of_views w phases T P _ a1 a2 a3
  intro j hj
  have := a5 j (Nat.zero_le _) hj (fun i _ hij => (hok i (by omega)).1)
  rw [this]
  exact (hok j hj).2

theorem init_shape (phases : List (List (Model W K))) : Shape phases (Props.init phases) := by
  constructor <;> simp [Props.init]

theorem init_view (phases : List (List (Model W K))) (j : Nat) (hj : j < phases.length) :
    (view phases (Props.init phases) j).T = 0 ∧ (view phases (Props.init phases) j).P = 0 := by
  simp [view, Props.init, List.getD_eq_getElem?_getD, hj]

/-- What holds of every phase at the start, and after each update of a phase, holds after every history. -/
theorem run_induct (phases : List (List (Model W K))) (I : W → Nat → PhaseData K → Prop) (w0 : W)
    (events : List (Event W K))
    (h0 : ∀ j, j < phases.length → I w0 j (view phases (Props.init phases) j))
    (hset : ∀ w w' j d, Event.setParams w' ∈ events → I w j d → I w' j d)
    (hupd : ∀ w j d T P, Event.update T P ∈ events → j < phases.length → d.std.length = (phases.getD j []).length → I w j d →
      I w j (phaseUpdate w (phases.getD j []) T P d).1) :
    Shape phases (run phases w0 events).p ∧ ∀ j, j < phases.length → I (run phases w0 events).w j (view phases (run phases w0 events).p j) := by
  unfold run
  suffices ∀ (evs : List (Event W K)) (s : World W K), (∀ e ∈ evs, e ∈ events) → Shape phases s.p →
      (∀ j, j < phases.length → I s.w j (view phases s.p j)) →
      Shape phases (evs.foldl (step phases) s).p ∧
        ∀ j, j < phases.length → I (evs.foldl (step phases) s).w j (view phases (evs.foldl (step phases) s).p j) from
    this events _ (fun _ h => h) (init_shape phases) h0
  intro evs
  induction evs with
  | nil => intro s _ h1 h2; exact ⟨h1, h2⟩
  | cons e evs ih =>
    intro s hev hs hI
    rw [List.foldl_cons]
    have hmem := hev e List.mem_cons_self
    refine ih _ (fun x hx => hev x (List.mem_cons_of_mem _ hx)) ?_ ?_
    · cases e with
      | setParams w => exact hs
      | update T P => exact (phaseLoop_spec s.w phases T P [] phases rfl { s.p with T := T, P := P } ⟨hs.Ts, hs.Ps, hs.std⟩).1
    · intro j hj
      cases e with
      | setParams w => exact hset _ _ _ _ hmem (hI j hj)
      | update T P =>
        have hs1 : Shape phases { s.p with T := T, P := P } := ⟨hs.Ts, hs.Ps, hs.std⟩
        obtain ⟨-, -, -, a4, -⟩ := phaseLoop_spec s.w phases T P [] phases rfl _ hs1
        have hlen := view_length phases _ hs1 j hj
        rcases a4 j hj with h | h
        · show I s.w j (view phases (update s.w phases s.p T P).1 j)
          unfold update
          simp only [List.length_nil] at h
          rw [h]; exact hI j hj
        · show I s.w j (view phases (update s.w phases s.p T P).1 j)
          unfold update
          simp only [List.length_nil] at h
          rw [h]
          exact hupd s.w j _ T P hmem hj hlen (hI j hj)

end Lemmas

/-! ### C74 -/

variable [Zero K] [DecidableEq K]

/-- **C74, with constant parameters.** After any history of updates, also with exceptions, an update to a temperature and pressure at
which no model throws returns normally, and then all properties are those of this temperature and pressure. -/
theorem C74_update_partial (w : W) (phases : List (List (Model W K))) (events : List (Event W K))
    (hconst : ∀ w', Event.setParams w' ∉ events) (T P : K) (hTP : ¬ (T = 0 ∧ P = 0)) (hdef : Defined w phases T P) :
    (update w phases (run phases w events).p T P).2 = true ∧
    UpToDate w phases T P (update w phases (run phases w events).p T P).1 := by
  have key := run_induct phases (fun w' j d => w' = w ∧ ((d.T = 0 ∧ d.P = 0) ∨
      ((∀ f, some f ∈ phases.getD j [] → (f w d.T d.P).isSome) → Right w (phases.getD j []) d))) w events
    (fun j hj => ⟨rfl, .inl (init_view phases j hj)⟩)
    (fun _ _ _ _ hm _ => absurd hm (hconst _))
    (by
      rintro w' j d T' P' - hj hlen ⟨rfl, hI⟩
      refine ⟨rfl, ?_⟩
      by_cases hc : T' = d.T ∧ P' = d.P
      · unfold phaseUpdate; rw [if_pos hc]; exact hI
      · obtain ⟨b1, b2, b3, b4⟩ := phaseUpdate_new w' (phases.getD j []) T' P' d hlen hc
        right
        intro h
        rw [b1, b2] at h
        exact b4 (b3.2 h))
  obtain ⟨hs, hI⟩ := key
  apply update_right w phases _ hs T P hdef
  intro j hj hT hP
  obtain ⟨-, h | h⟩ := hI j hj
  · exact absurd ⟨hT.trans h.1, hP.trans h.2⟩ hTP
  · apply h
    rw [← hT, ← hP]
    intro f hf
    refine hdef _ ?_ f hf
    rw [List.getD_eq_getElem?_getD, List.getElem?_eq_getElem hj]
    exact List.getElem_mem hj

/-- **C74, with changing parameters.** After any history, an update to a temperature and pressure that has not been used before and at
which no model throws returns normally, and then all properties are those of this temperature and pressure and the current parameters. -/
theorem C74_fresh_partial (w : W) (phases : List (List (Model W K))) (events : List (Event W K)) (T P : K) (hTP : ¬ (T = 0 ∧ P = 0))
    (hnew : Event.update T P ∉ events) (hdef : Defined (run phases w events).w phases T P) :
    (update (run phases w events).w phases (run phases w events).p T P).2 = true ∧
    UpToDate (run phases w events).w phases T P (update (run phases w events).w phases (run phases w events).p T P).1 := by
  have key := run_induct phases (fun _ _ d => (d.T = 0 ∧ d.P = 0) ∨ Event.update d.T d.P ∈ events) w events
    (fun j hj => .inl (init_view phases j hj))
    (fun _ _ _ _ _ h => h)
    (by
      intro w' j d T' P' hm hj hlen hI
      by_cases hc : T' = d.T ∧ P' = d.P
      · unfold phaseUpdate; rw [if_pos hc]; exact hI
      · obtain ⟨b1, b2, -⟩ := phaseUpdate_new w' (phases.getD j []) T' P' d hlen hc
        right
        rw [b1, b2]; exact hm)
  obtain ⟨hs, hI⟩ := key
  apply update_right _ phases _ hs T P hdef
  intro j hj hT hP
  rcases hI j hj with h | h
  · exact absurd ⟨hT.trans h.1, hP.trans h.2⟩ hTP
  · rw [← hT, ← hP] at h; exact absurd h hnew

/-- An update to the temperature and pressure of the system and all its phases does nothing. -/
theorem update_skip (w : W) (phases : List (List (Model W K))) (T P : K) (p : Props K) (hs : Shape phases p) (hT0 : p.T = T) (hP0 : p.P = P)
    (hv : ∀ j, j < phases.length → (view phases p j).T = T ∧ (view phases p j).P = P) :
    update w phases p T P = (p, true) := by
  have hp : ({ p with T := T, P := P } : Props K) = p := by rw [← hT0, ← hP0]
  have hput : ∀ j, j < phases.length → put phases p j (view phases p j) = p := by
    intro j hj
    have hb := begin_le phases j hj
    unfold put view
    dsimp only
    have e1 : p.Ts.set j (p.Ts.getD j 0) = p.Ts := by
      have : j < p.Ts.length := by rw [hs.Ts]; exact hj
      rw [List.getD_eq_getElem?_getD, List.getElem?_eq_getElem this]; simp
    have e2 : p.Ps.set j (p.Ps.getD j 0) = p.Ps := by
      have : j < p.Ps.length := by rw [hs.Ps]; exact hj
      rw [List.getD_eq_getElem?_getD, List.getElem?_eq_getElem this]; simp
    have e3 : write p.std (begin phases j) (seg p.std (begin phases j) (phases.getD j []).length) = p.std := by
      unfold write
      rw [seg_length _ _ _ (by rw [hs.std]; exact hb)]
      unfold seg
      conv_rhs => rw [← List.take_append_drop (begin phases j) p.std,
        ← List.take_append_drop (phases.getD j []).length (p.std.drop (begin phases j))]
      rw [List.drop_drop, List.append_assoc]
    rw [e1, e2, e3]
  have key : ∀ rest i, i + rest.length = phases.length → phaseLoop w phases T P rest i p = (p, true) := by
    intro rest
    induction rest with
    | nil => intro i _; rfl
    | cons ph rest ih =>
      intro i hi
      have hi' : i < phases.length := by simp only [List.length_cons] at hi; omega
      obtain ⟨hT, hP⟩ := hv i hi'
      rw [phaseLoop]
      have hu : phaseUpdate w ph T P (view phases p i) = (view phases p i, true) := by
        unfold phaseUpdate; rw [if_pos ⟨hT.symm, hP.symm⟩]
      rw [hu]
      simp only [if_true]
      rw [hput i hi']
      exact ih (i + 1) (by simp only [List.length_cons] at hi; omega)
  unfold update
  rw [hp]
  exact key phases 0 (by omega)

/-- **C74 is false if parameters change**: an update to the temperature and pressure of the properties does nothing, whatever the
parameters have become since. -/
theorem C74_stale_wrong (w w' : W) (phases : List (List (Model W K))) (T P : K) (p : Props K) (h : UpToDate w phases T P p) :
    update w' phases p T P = (p, true) := by
  have hlen : p.std.length = begin phases phases.length := by
    rw [← h.standard.length_eq, List.length_flatten]; unfold begin; rw [List.take_length]
  apply update_skip w' phases T P p ⟨by rw [h.temperatures]; simp, by rw [h.pressures]; simp, hlen⟩ h.temperature h.pressure
  intro j hj
  constructor
  · simp [view, h.temperatures, List.getD_eq_getElem?_getD, hj]
  · simp [view, h.pressures, List.getD_eq_getElem?_getD, hj]

/-- **C74 is false after exceptions**: if a model of the last phase throws in an update, then the same update called again returns
normally and changes nothing. -/
theorem C74_throw_wrong (w w0 : W) (phases : List (List (Model W K))) (ph : List (Model W K)) (events : List (Event W K)) (T P : K)
    (hdef : Defined w phases T P)
    (_h : (update w (phases ++ [ph]) (run (phases ++ [ph]) w0 events).p T P).2 = false) :
    update w (phases ++ [ph]) (update w (phases ++ [ph]) (run (phases ++ [ph]) w0 events).p T P).1 T P =
      ((update w (phases ++ [ph]) (run (phases ++ [ph]) w0 events).p T P).1, true) := by
  have hs := (run_induct (phases ++ [ph]) (fun _ _ _ => True) w0 events (fun _ _ => trivial) (fun _ _ _ _ _ _ => trivial)
    (fun _ _ _ _ _ _ _ _ _ => trivial)).1
  generalize (run (phases ++ [ph]) w0 events).p = p at hs _h ⊢
  have hs1 : Shape (phases ++ [ph]) { p with T := T, P := P } := ⟨hs.Ts, hs.Ps, hs.std⟩
  obtain ⟨a1, a2, a3, -, a5, -⟩ := phaseLoop_spec w (phases ++ [ph]) T P [] _ rfl _ hs1
  apply update_skip w (phases ++ [ph]) T P _ a1 a2 a3
  have hset : ∀ (ph : List (Model W K)) (d : PhaseData K), (phaseUpdate w ph T P d).1.T = T ∧ (phaseUpdate w ph T P d).1.P = P := by
    intro ph d
    unfold phaseUpdate
    split_ifs with hc
    · exact ⟨hc.1.symm, hc.2.symm⟩
    · exact ⟨rfl, rfl⟩
  intro j hj
  have := a5 j (Nat.zero_le _) hj (by
    intro i _ hij
    have hi : i < phases.length := by simp only [List.length_append, List.length_cons, List.length_nil] at hj; omega
    have e : (phases ++ [ph]).getD i [] = phases[i] := by simp [List.getD_eq_getElem?_getD, List.getElem?_append_left hi, hi]
    rw [e]
    unfold phaseUpdate
    split_ifs
    · rfl
    · exact (speciesLoop_iff w T P _ 0 _).2 (hdef _ (List.getElem_mem hi)))
  rw [this]
  exact hset _ _

/-- **C74, at zero temperature and pressure**: the first update to zero temperature and pressure evaluates no model: all properties stay
zero. -/
theorem C74_zero_wrong (w : W) (phases : List (List (Model W K))) :
    update w phases (Props.init phases) 0 0 = (Props.init phases, true) :=
  update_skip w phases 0 0 _ (init_shape phases) rfl rfl (init_view phases)

/-- **C74, other properties.** The entropy, internal energy and Helmholtz energy of each species satisfy `G0 = H0 - T*S0`,
`U0 = H0 - P*V0` and `A0 = U0 - T*S0`. -/
theorem C74_getters {K : Type} [Field K] (p : Props K) (hT : p.T ≠ 0) (i : Nat) (hi : i < p.std.length) :
    ∃ S U A : K, (standardEntropies p)[i]? = some S ∧ (standardInternalEnergies p)[i]? = some U ∧ (standardHelmholtzEnergies p)[i]? = some A ∧
      p.std[i].G0 = p.std[i].H0 - p.T * S ∧ U = p.std[i].H0 - p.P * p.std[i].V0 ∧ A = U - p.T * S := by
  refine ⟨_, _, _, by simp [standardEntropies, hi]; rfl, by simp [standardInternalEnergies, hi],
    by simp [standardHelmholtzEnergies, hi]; rfl, ?_, rfl, ?_⟩
  · field_simp; ring
  · field_simp; ring

/-! ### Examples -/

/-- A system with two phases and three species, one without model; the second phase throws below 100 K.  There is one parameter. -/
def exPhases : List (List (Model ℚ ℚ)) :=
  [[some fun w T P => some ⟨w + T, T, P, 0, 1⟩, none],
   [some fun w T P => if T < 100 then none else some ⟨w * T, P, 0, 0, 2⟩]]

/-- The hypotheses of `C74_update_partial` and `C74_fresh_partial` hold for a history with an exception and repeated states. -/
example : Defined (5 : ℚ) exPhases 300 10 ∧ ¬ Defined (5 : ℚ) exPhases 50 10 ∧
    (update 5 exPhases (run exPhases 5 [.update 300 10]).p 50 10).2 = false ∧
    (∀ w', Event.setParams w' ∉ ([.update 300 10, .update 50 10, .update 50 10] : List (Event ℚ ℚ))) ∧
    UpToDate (5 : ℚ) exPhases 300 10 (update 5 exPhases (run exPhases 5 [.update 300 10, .update 50 10, .update 50 10]).p 300 10).1 ∧
    (update 5 exPhases (run exPhases 5 [.update 300 10, .update 50 10, .update 50 10]).p 300 10).1.std.map (fun s => s.G0) = [305, 0, 1500] := by
  have hd : Defined (5 : ℚ) exPhases 300 10 := by
    intro ph hph f hf
    simp only [exPhases, List.mem_cons, List.not_mem_nil, or_false] at hph
    rcases hph with rfl | rfl
    · simp only [List.mem_cons, Option.some.injEq, List.not_mem_nil, or_false] at hf
      rcases hf with rfl | hf
      · rfl
      · cases hf
    · simp only [List.mem_cons, Option.some.injEq, List.not_mem_nil, or_false] at hf
      subst hf; decide +kernel
  refine ⟨hd, ?_, by decide +kernel, by simp, ?_, by decide +kernel⟩
  · intro h
    have := h _ (List.mem_cons_of_mem _ List.mem_cons_self) _ List.mem_cons_self
    revert this; decide +kernel
  · exact (C74_update_partial 5 exPhases _ (by simp) 300 10 (by decide +kernel) hd).2

/-- A parameter changes from 5 to 6, and the Gibbs energies stay the same after another update, although they should change.  After an
update to other conditions and back they are right. -/
example : ((run exPhases 5 [.update 300 10, .setParams 6, .update 300 10]).p.std.map fun s => s.G0) = [305, 0, 1500] ∧
    ((run exPhases 5 [.update 300 10, .setParams 6, .update 301 10, .update 300 10]).p.std.map fun s => s.G0) = [306, 0, 1800] := by
  decide +kernel

/-- The update to 50 K throws; called again it returns normally, with the Gibbs energy 1500 of 300 K in the second phase. -/
example : (update 5 exPhases (run exPhases 5 [.update 300 10]).p 50 10).2 = false ∧
    (update 5 exPhases (run exPhases 5 [.update 300 10, .update 50 10]).p 50 10).2 = true ∧
    ((run exPhases 5 [.update 300 10, .update 50 10, .update 50 10]).p.std.map fun s => s.G0) = [55, 0, 1500] ∧
    (run exPhases 5 [.update 300 10, .update 50 10, .update 50 10]).p.Ts = [50, 50] := by
  decide +kernel

end Verif.ThermoProps
