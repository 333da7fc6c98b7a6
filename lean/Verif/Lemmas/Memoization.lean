import Verif.Spec.Memoization

namespace Verif.Memo

variable {A : Type u} {R : Type v}

/-- A cell whose cached result is right whenever it may be returned for an argument in `p`. -/
def Good (f : A → Res R) (same : A → A → Bool) (p : A → Prop) (c : Cell A R) : Prop :=
  c.first = false → ∀ a, p a → same c.cache a = true → f a = .ok c.result

theorem run_agree (callfn : Bool → Cell A R → A → Cell A R × Res R) (f : A → Res R) (p : A → Prop)
    (G : Bool → Cell A R → Prop)
    (hsw : ∀ c, G true c → G false c) (hsw' : ∀ c, G false c → G true c)
    (hcall : ∀ e c a, G e c → G e (callfn e c a).1 ∧ (p a → (callfn e c a).2 = f a))
    (ops : List (Op A)) :
    ∀ w : World A R, (∀ c ∈ w.cells, G w.enabled c) →
      AgreeOn p ops (run callfn w ops).2 (plain f w.cells.length ops) := by
  induction ops with
  | nil => intro w _; simp [run, plain, AgreeOn]
  | cons op ops ih =>
    intro w hw
    cases op with
    | enable =>
      simp only [run, step, plain, AgreeOn]
      refine ⟨trivial, ih { w with enabled := true } ?_⟩
      intro c hc
      have := hw c hc
      cases h : w.enabled <;> simp only [h] at this
      · exact hsw' c this
      · exact this
    | disable =>
      simp only [run, step, plain, AgreeOn]
      refine ⟨trivial, ih { w with enabled := false } ?_⟩
      intro c hc
      have := hw c hc
      cases h : w.enabled <;> simp only [h] at this
      · exact this
      · exact hsw c this
    | copy i =>
      by_cases hi : i < w.cells.length
      · simp only [run, step, plain, AgreeOn, List.getElem?_eq_getElem hi, if_pos hi]
        refine ⟨trivial, ?_⟩
        have := ih { w with cells := w.cells ++ [w.cells[i]] } (by
          intro c hc
          simp only [List.mem_append, List.mem_singleton] at hc
          rcases hc with hc | rfl
          · exact hw c hc
          · exact hw _ (List.getElem_mem hi))
        simpa using this
      · have h0 : w.cells[i]? = none := List.getElem?_eq_none (by omega)
        simp only [run, step, plain, AgreeOn, h0, if_neg hi]
        exact ⟨trivial, ih w hw⟩
    | call i a =>
      by_cases hi : i < w.cells.length
      · have hc := hcall w.enabled w.cells[i] a (hw _ (List.getElem_mem hi))
        simp only [run, step, plain, AgreeOn, List.getElem?_eq_getElem hi, if_pos hi]
        refine ⟨fun hp => by rw [hc.2 hp], ?_⟩
        have := ih { w with cells := w.cells.set i (callfn w.enabled w.cells[i] a).1 } (by
          intro c hcm
          rcases List.mem_or_eq_of_mem_set hcm with h | rfl
          · exact hw c h
          · exact hc.1)
        simpa using this
      · have h0 : w.cells[i]? = none := List.getElem?_eq_none (by omega)
        simp only [run, step, plain, AgreeOn, h0, if_neg hi]
        exact ⟨fun _ => trivial, ih w hw⟩

theorem agreeOn_true {ops : List (Op A)} {xs ys : List (Option (Res R))}
    (h : AgreeOn (fun _ => True) ops xs ys) : xs = ys := by
  induction ops generalizing xs ys with
  | nil =>
    cases xs <;> cases ys <;> simp [AgreeOn] at h ⊢
  | cons op ops ih =>
    cases xs <;> cases ys <;> cases op <;> simp [AgreeOn] at h ⊢ <;> exact ⟨h.1, ih h.2⟩

theorem callLast_good (f : A → Res R) (same : A → A → Bool) (p : A → Prop)
    (hsame : ∀ a b, same a b = true → f a = f b)
    (hp : ∀ a, p a → (f a).isOk = true) :
    ∀ e c a, Good f same p c →
      Good f same p (callLast f same e c a).1 ∧ (p a → (callLast f same e c a).2 = f a) := by
  intro e c a hg
  unfold callLast
  cases e
  · simp [hg]
  · by_cases hs : (same c.cache a && !c.first) = true
    · simp only [hs, if_true]
      simp only [Bool.and_eq_true, Bool.not_eq_true'] at hs
      refine ⟨by simpa using hg, fun h => ?_⟩
      simp [hg hs.2 a h hs.1]
    · simp only [hs]
      simp only [if_neg (by simp : ¬ (true = false)), Bool.false_eq_true, if_false]
      cases hf : f a with
      | ok r =>
        refine ⟨?_, fun _ => rfl⟩
        intro _ b _ hb
        have := hsame a b hb
        simp only [hf] at this
        simpa using this.symm
      | throw =>
        refine ⟨?_, fun _ => rfl⟩
        intro _ b hpb hb
        have := hsame a b hb
        have h2 := hp b hpb
        rw [← this, hf] at h2
        simp at h2
      | ub =>
        refine ⟨?_, fun _ => rfl⟩
        intro _ b hpb hb
        have := hsame a b hb
        have h2 := hp b hpb
        rw [← this, hf] at h2
        simp at h2

theorem callRef_good (f : A → Res R) (same : A → A → Bool) (a0 : A)
    (hsame : ∀ a b, same a b = true → f a = f b) :
    ∀ e (c : Cell A R) a,
      ((same c.cache = same a0) ∨ ∀ b, same c.cache b = true → f b = .ok c.result) →
      ((same (callRef f same e c a).1.cache = same a0) ∨
          ∀ b, same (callRef f same e c a).1.cache b = true → f b = .ok (callRef f same e c a).1.result) ∧
      (same a0 a = false → (callRef f same e c a).2 = f a) := by
  intro e c a hg
  unfold callRef
  cases e
  · cases hf : f a <;> simp [hg]
  · by_cases hs : (same c.cache a && !c.first) = true
    · simp only [hs, if_true]
      simp only [Bool.and_eq_true, Bool.not_eq_true'] at hs
      refine ⟨by simpa using hg, fun h => ?_⟩
      rcases hg with hg | hg
      · rw [hg, h] at hs; simp at hs
      · simp [hg a hs.1]
    · simp only [hs]
      simp only [if_neg (by simp : ¬ (true = false)), Bool.false_eq_true, if_false]
      cases hf : f a with
      | ok r =>
        refine ⟨Or.inr ?_, fun _ => rfl⟩
        intro b hb
        have := hsame a b hb
        rw [← this, hf]
      | throw => exact ⟨hg, fun _ => rfl⟩
      | ub => exact ⟨hg, fun _ => rfl⟩

/-- Programs that never switch memoization off. -/
theorem run_agree_enabled (callfn : Bool → Cell A R → A → Cell A R × Res R) (f : A → Res R)
    (G : Cell A R → Prop)
    (hcall : ∀ c a, G c → G (callfn true c a).1 ∧ (callfn true c a).2 = f a)
    (ops : List (Op A)) (hops : Op.disable ∉ ops) :
    ∀ w : World A R, w.enabled = true → (∀ c ∈ w.cells, G c) →
      (run callfn w ops).2 = plain f w.cells.length ops := by
  induction ops with
  | nil => intro w _ _; simp [run, plain]
  | cons op ops ih =>
    intro w he hw
    simp only [List.mem_cons, not_or] at hops
    have ih := ih hops.2
    cases op with
    | enable =>
      simp only [run, step, plain, List.cons.injEq, true_and]
      exact ih { w with enabled := true } rfl hw
    | disable => exact absurd rfl hops.1
    | copy i =>
      by_cases hi : i < w.cells.length
      · simp only [run, step, plain, List.getElem?_eq_getElem hi, if_pos hi, List.cons.injEq, true_and]
        have := ih { w with cells := w.cells ++ [w.cells[i]] } he (by
          intro c hc
          simp only [List.mem_append, List.mem_singleton] at hc
          rcases hc with hc | rfl
          · exact hw c hc
          · exact hw _ (List.getElem_mem hi))
        simpa using this
      · have h0 : w.cells[i]? = none := List.getElem?_eq_none (by omega)
        simp only [run, step, plain, h0, if_neg hi, List.cons.injEq, true_and]
        exact ih w he hw
    | call i a =>
      by_cases hi : i < w.cells.length
      · have hc := hcall w.cells[i] a (hw _ (List.getElem_mem hi))
        simp only [run, step, plain, List.getElem?_eq_getElem hi, if_pos hi, he, hc.2, List.cons.injEq, true_and]
        have := ih { enabled := true, cells := w.cells.set i (callfn true w.cells[i] a).1 } rfl (by
          intro c hcm
          rcases List.mem_or_eq_of_mem_set hcm with h | rfl
          · exact hw c h
          · exact hc.1)
        simpa using this
      · have h0 : w.cells[i]? = none := List.getElem?_eq_none (by omega)
        simp only [run, step, plain, h0, if_neg hi, List.cons.injEq, true_and]
        exact ih w he hw

theorem callRef_good_enabled (f : A → Res R) (same : A → A → Bool)
    (hsame : ∀ a b, same a b = true → f a = f b) :
    ∀ (c : Cell A R) a, (c.first = false → ∀ b, same c.cache b = true → f b = .ok c.result) →
      ((callRef f same true c a).1.first = false →
          ∀ b, same (callRef f same true c a).1.cache b = true → f b = .ok (callRef f same true c a).1.result) ∧
      (callRef f same true c a).2 = f a := by
  intro c a hg
  unfold callRef
  by_cases hs : (same c.cache a && !c.first) = true
  · simp only [hs, if_true]
    simp only [Bool.and_eq_true, Bool.not_eq_true'] at hs
    have := hg hs.2
    exact ⟨fun _ => by simpa using this, by simp [this a hs.1]⟩
  · simp only [hs]
    simp only [if_neg (by simp : ¬ (true = false)), Bool.false_eq_true, if_false]
    cases hf : f a with
    | ok r =>
      refine ⟨?_, rfl⟩
      intro _ b hb
      have := hsame a b hb
      rw [← this, hf]
    | throw => exact ⟨hg, rfl⟩
    | ub => exact ⟨hg, rfl⟩

/-- Invariant of the shared cache of `memoize`. -/
def MapInv [DecidableEq A] (f : A → Res R) (w : MapWorld A R) : Prop :=
  (∀ a r, w.cache.lookup a = some r → f a = .ok r) ∧ w.log.Nodup ∧
    (∀ a, a ∈ w.log → ∃ r, w.cache.lookup a = some r)

theorem callMap_inv [DecidableEq A] (f : A → Res R) (w : MapWorld A R) (a : A) (h : MapInv f w) :
    MapInv f (callMap f w a).1 ∧ (callMap f w a).2 = f a ∧ (callMap f w a).1.copies = w.copies := by
  unfold callMap
  by_cases he : w.enabled = false
  · simp [he, h]
  · rw [if_neg he]
    cases hl : w.cache.lookup a with
    | some r => simp [h, h.1 a r hl]
    | none =>
      cases hf : f a with
      | throw => simp [h]
      | ub => simp [h]
      | ok r =>
        refine ⟨⟨?_, ?_, ?_⟩, rfl, rfl⟩
        · intro b s hb
          simp only [List.lookup_cons] at hb
          by_cases hba : b = a
          · subst hba; simp at hb; rw [hf, hb]
          · have : (b == a) = false := by simpa using hba
            rw [this] at hb
            exact h.1 b s hb
        · simp only [List.nodup_cons]
          refine ⟨fun hm => ?_, h.2.1⟩
          obtain ⟨r', hr'⟩ := h.2.2 a hm
          rw [hl] at hr'; simp at hr'
        · intro b hb
          simp only [List.mem_cons] at hb
          simp only [List.lookup_cons]
          by_cases hba : b = a
          · subst hba; simp
          · have hba' : (b == a) = false := by simpa using hba
            rw [hba']
            rcases hb with hb | hb
            · exact absurd hb hba
            · exact h.2.2 b hb

theorem runMap_spec [DecidableEq A] (f : A → Res R) (ops : List (Op A)) :
    ∀ w : MapWorld A R, MapInv f w →
      (runMap f w ops).2 = plain f w.copies ops ∧ MapInv f (runMap f w ops).1 := by
  induction ops with
  | nil => intro w h; simp [runMap, plain, h]
  | cons op ops ih =>
    intro w h
    cases op with
    | enable =>
      have := ih { w with enabled := true } h
      simp [runMap, stepMap, plain, this]
    | disable =>
      have := ih { w with enabled := false } h
      simp [runMap, stepMap, plain, this]
    | copy i =>
      by_cases hi : i < w.copies
      · have := ih { w with copies := w.copies + 1 } h
        simp [runMap, stepMap, plain, hi, this]
      · have := ih w h
        simp [runMap, stepMap, plain, hi, this]
    | call i a =>
      by_cases hi : i < w.copies
      · have hc := callMap_inv f w a h
        have := ih (callMap f w a).1 hc.1
        simp [runMap, stepMap, plain, hi, this, hc.2]
      · have := ih w h
        simp [runMap, stepMap, plain, hi, this]

end Verif.Memo
