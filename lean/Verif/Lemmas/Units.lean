import Verif.Spec.Units
import Mathlib.Tactic.Ring
import Mathlib.Tactic.FieldSimp
import Mathlib.Tactic.NormNum
import Mathlib.Tactic.Linarith
import Mathlib.Tactic.LinearCombination
import Mathlib.Algebra.BigOperators.Group.List.Basic

namespace Verif.Units

/-! ## Temperature -/

theorem toKelvin_reading (n : Str) (s : Scale) (h : (n, s) ∈ scaleNames) (t : Rat) :
    toKelvin depth (s.reading t) n = .ok t ∧ fromKelvin depth t n = .ok (s.reading t) ∧ isTemperature n = true := by
  simp only [scaleNames, List.mem_cons, Prod.mk.injEq, List.not_mem_nil, or_false] at h
  rcases h with ⟨rfl, rfl⟩ | ⟨rfl, rfl⟩ | ⟨rfl, rfl⟩ | ⟨rfl, rfl⟩ | ⟨rfl, rfl⟩ | ⟨rfl, rfl⟩ | ⟨rfl, rfl⟩ | ⟨rfl, rfl⟩ <;>
  (refine ⟨?_, ?_, by decide⟩ <;>
   simp [toKelvin, fromKelvin, depth, find, temperatureUnitsMap, Scale.reading] <;> ring)

theorem isTemperature_iff (n : Str) : isTemperature n = true ↔ ∃ s, (n, s) ∈ scaleNames := by
  constructor
  · intro h
    simp only [isTemperature, temperatureUnitsMap, find] at h
    simp only [scaleNames, List.mem_cons, Prod.mk.injEq, List.not_mem_nil, or_false]
    split_ifs at h <;> first | (subst_vars; simp; done) | simp at h
  · rintro ⟨s, h⟩; exact (toKelvin_reading n s h 0).2.2

theorem reading_surj (s : Scale) (x : Rat) : ∃ t, s.reading t = x := by
  cases s
  · exact ⟨x, rfl⟩
  · exact ⟨x + 27315 / 100, by simp [Scale.reading]⟩
  · exact ⟨(x + 45967 / 100) * (5 / 9), by simp only [Scale.reading]; ring⟩
  · exact ⟨x * (5 / 9), by simp only [Scale.reading]; ring⟩

theorem reading_affine (s : Scale) : ∃ a b : Rat, 0 < a ∧ ∀ t, s.reading t = a * t + b := by
  cases s
  · exact ⟨1, 0, by norm_num, fun t => by simp [Scale.reading]⟩
  · exact ⟨1, -27315 / 100, by norm_num, fun t => by simp only [Scale.reading]; ring⟩
  · exact ⟨9 / 5, -45967 / 100, by norm_num, fun t => by simp only [Scale.reading]; ring⟩
  · exact ⟨9 / 5, 0, by norm_num, fun t => by simp [Scale.reading]⟩

theorem convertTemperature_reading (a b : Str) (sa sb : Scale) (ha : (a, sa) ∈ scaleNames) (hb : (b, sb) ∈ scaleNames)
    (t : Rat) : convertTemperature (sa.reading t) a b = .ok (sb.reading t) := by
  obtain ⟨h1, -, h3⟩ := toKelvin_reading a sa ha t
  obtain ⟨-, h5, h6⟩ := toKelvin_reading b sb hb t
  simp [convertTemperature, h1, h3, h5, h6]

theorem scale_unique (n : Str) (s s' : Scale) (h : (n, s) ∈ scaleNames) (h' : (n, s') ∈ scaleNames) : s = s' := by
  have : ∀ e ∈ scaleNames, ∀ e' ∈ scaleNames, e.1 = e'.1 → e.2 = e'.2 := by decide
  exact this _ h _ h' rfl

theorem convert_reading (a b : Str) (sa sb : Scale) (ha : (a, sa) ∈ scaleNames) (hb : (b, sb) ∈ scaleNames) (t : Rat) :
    convert (sa.reading t) a b = .ok (sb.reading t) := by
  by_cases hab : a = b
  · subst hab
    rw [scale_unique a sb sa hb ha]
    simp [convert]
  · have h3 := (toKelvin_reading a sa ha t).2.2
    have h6 := (toKelvin_reading b sb hb t).2.2
    obtain ⟨t0, h0⟩ := reading_surj sa 0
    obtain ⟨t1, h1⟩ := reading_surj sa 1
    have e0 := convertTemperature_reading a b sa sb ha hb t0
    have e1 := convertTemperature_reading a b sa sb ha hb t1
    rw [h0] at e0
    rw [h1] at e1
    simp only [convert, hab, if_false, slope, intercept, h3, h6, Bool.and_self, if_true, e0, e1, Res.bind_ok']
    obtain ⟨k, c, hk, hl⟩ := reading_affine sa
    obtain ⟨k', c', -, hl'⟩ := reading_affine sb
    rw [hl] at h0 h1
    simp only [hl, hl']
    congr 1
    have hd : k * (t1 - t0) = 1 := by linarith
    linear_combination k' * (t - t0) * hd + k' * (t1 - t0) * h0

/-! ## Factors and dimensions -/

theorem factorLoop_ok (F : Str → Rat) (f : Str → Res Rat) (hf : ∀ s q, f s = .ok q → q = F s) (us : DerivedUnit) :
    ∀ r q, factorLoop f r us = .ok q → q = r * (us.map (fun p => p.factor * F p.symbol ^ p.power)).prod := by
  induction us with
  | nil => intro r q h; simp only [factorLoop, Res.ok.injEq] at h; simp [h]
  | cons u us ih =>
    intro r q h
    simp only [factorLoop] at h
    cases hx : f u.symbol with
    | throw => rw [hx] at h; simp at h
    | ub => rw [hx] at h; simp at h
    | ok x =>
      rw [hx] at h
      have := ih _ _ h
      rw [this, hf _ _ hx, List.map_cons, List.prod_cons]
      ring

theorem factorSymbol_ok (F : Str → Rat) (hF : IsFactor F) (n : Nat) : ∀ s q, factorSymbol n s = .ok q → q = F s := by
  induction n with
  | zero => intro s q h; simp [factorSymbol] at h
  | succ n ih =>
    intro s q h
    simp only [factorSymbol] at h
    by_cases ht : isTemperature s = true
    · rw [if_pos ht] at h
      simp only [Res.ok.injEq] at h
      rw [hF.1 s ht, h]
    · rw [if_neg ht] at h
      have ht' : isTemperature s = false := by simpa using ht
      split at h
      · simp at h
      · simp at h
      · rename_i u us hfind
        have hd := hF.2 s u us ht' hfind
        by_cases hs : u.symbol = s
        · rw [if_pos hs] at h hd
          simp only [Res.ok.injEq] at h
          rw [hd, h]
        · rw [if_neg hs] at h hd
          have := factorLoop_ok F _ ih _ _ _ h
          rw [this, hd, one_mul]

/-- Value of a key in a map, zero if absent. -/
def get (m : DimMap) (k : Str) : Int := (find m k).getD 0

theorem get_addTo (m : DimMap) (s k : Str) (x : Int) : get (addTo m s x) k = get m k + if s = k then x else 0 := by
  induction m with
  | nil => by_cases h : s = k <;> simp [get, addTo, find, h]
  | cons p m ih =>
    obtain ⟨a, v⟩ := p
    simp only [get] at ih
    by_cases h1 : a = s
    · subst h1
      by_cases h : a = k <;> simp [get, addTo, find, h]
    · by_cases h2 : a = k
      · subst h2
        simp [get, addTo, find, h1, Ne.symm h1]
      · simp [get, addTo, find, h1, h2, ih]

theorem keys_addTo (m : DimMap) (s : Str) (x : Int) (k : Str) :
    k ∈ (addTo m s x).map Prod.fst ↔ k ∈ m.map Prod.fst ∨ k = s := by
  induction m with
  | nil => simp [addTo]
  | cons p m ih =>
    obtain ⟨a, v⟩ := p
    by_cases h1 : a = s
    · subst h1; simp [addTo]; tauto
    · simp only [addTo, h1, if_false, List.map_cons, List.mem_cons, ih]; tauto

theorem nodup_addTo (m : DimMap) (s : Str) (x : Int) (h : (m.map Prod.fst).Nodup) : ((addTo m s x).map Prod.fst).Nodup := by
  induction m with
  | nil => simp [addTo]
  | cons p m ih =>
    obtain ⟨a, v⟩ := p
    simp only [List.map_cons, List.nodup_cons] at h
    by_cases h1 : a = s
    · subst h1; simp [addTo]; simpa using h
    · simp only [addTo, h1, if_false, List.map_cons, List.nodup_cons]
      refine ⟨?_, ih h.2⟩
      rw [keys_addTo]
      rintro (hh | hh)
      · exact h.1 hh
      · exact h1 hh

theorem dimLoop_ok (D : Str → Str → Int) (f : Str → Int → DimMap → Res DimMap)
    (hf : ∀ s mult m m', f s mult m = .ok m' → (∀ k, get m' k = get m k + mult * D s k) ∧
      ((m.map Prod.fst).Nodup → (m'.map Prod.fst).Nodup)) (mult : Int) (us : DerivedUnit) :
    ∀ m m', dimLoop f mult us m = .ok m' →
      (∀ k, get m' k = get m k + mult * (us.map (fun p => p.power * D p.symbol k)).sum) ∧
      ((m.map Prod.fst).Nodup → (m'.map Prod.fst).Nodup) := by
  induction us with
  | nil => intro m m' h; simp only [dimLoop, Res.ok.injEq] at h; subst h; simp
  | cons u us ih =>
    intro m m' h
    simp only [dimLoop] at h
    cases hx : f u.symbol (u.power * mult) m with
    | throw => rw [hx] at h; simp at h
    | ub => rw [hx] at h; simp at h
    | ok m1 =>
      rw [hx] at h
      obtain ⟨h1, h2⟩ := ih _ _ h
      obtain ⟨h3, h4⟩ := hf _ _ _ _ hx
      refine ⟨fun k => ?_, fun hn => h2 (h4 hn)⟩
      rw [h1, h3, List.map_cons, List.sum_cons]; ring

theorem dimSymbol_ok (D : Str → Str → Int) (hD : IsDim D) (n : Nat) :
    ∀ s mult m m', dimSymbol n s mult m = .ok m' → (∀ k, get m' k = get m k + mult * D s k) ∧
      ((m.map Prod.fst).Nodup → (m'.map Prod.fst).Nodup) := by
  induction n with
  | zero => intro s mult m m' h; simp [dimSymbol] at h
  | succ n ih =>
    intro s mult m m' h
    simp only [dimSymbol] at h
    by_cases ht : isTemperature s = true
    · rw [if_pos ht] at h
      simp only [Res.ok.injEq] at h
      subst h
      refine ⟨fun k => ?_, nodup_addTo _ _ _⟩
      rw [get_addTo, hD.1 s k ht]
      split <;> simp
    · rw [if_neg ht] at h
      have ht' : isTemperature s = false := by simpa using ht
      split at h
      · simp at h
      · simp at h
      · rename_i u us hfind
        by_cases hs : u.symbol = s
        · rw [if_pos hs] at h
          simp only [Res.ok.injEq] at h
          subst h
          refine ⟨fun k => ?_, nodup_addTo _ _ _⟩
          have hd := hD.2 s u us k ht' hfind
          rw [if_pos hs] at hd
          rw [get_addTo, hd]
          split <;> simp; ring
        · rw [if_neg hs] at h
          obtain ⟨h1, h2⟩ := dimLoop_ok D _ ih _ _ _ _ h
          refine ⟨fun k => ?_, h2⟩
          have hd := hD.2 s u us k ht' hfind
          rw [if_neg hs] at hd
          rw [h1, hd]

/-- The kind of outcome does not depend on the multiplier and the map. -/
theorem dimLoop_outcome (f : Str → Int → DimMap → Res DimMap)
    (hf : ∀ s a m b m', (f s a m).isOk = (f s b m').isOk ∧ (f s a m = .throw ↔ f s b m' = .throw)) (us : DerivedUnit) :
    ∀ a m b m', (dimLoop f a us m).isOk = (dimLoop f b us m').isOk ∧
      (dimLoop f a us m = .throw ↔ dimLoop f b us m' = .throw) := by
  induction us with
  | nil => intro a m b m'; simp [dimLoop]
  | cons u us ih =>
    intro a m b m'
    have h := hf u.symbol (u.power * a) m (u.power * b) m'
    simp only [dimLoop]
    cases h1 : f u.symbol (u.power * a) m with
    | ok x =>
      cases h2 : f u.symbol (u.power * b) m' with
      | ok y => simpa using ih a x b y
      | throw => rw [h1, h2] at h; simp at h
      | ub => rw [h1, h2] at h; simp at h
    | throw =>
      cases h2 : f u.symbol (u.power * b) m' with
      | ok y => rw [h1, h2] at h; simp at h
      | throw => simp
      | ub => rw [h1, h2] at h; simp at h
    | ub =>
      cases h2 : f u.symbol (u.power * b) m' with
      | ok y => rw [h1, h2] at h; simp at h
      | throw => rw [h1, h2] at h; simp at h
      | ub => simp

theorem dimSymbol_outcome (n : Nat) : ∀ s a m b m', (dimSymbol n s a m).isOk = (dimSymbol n s b m').isOk ∧
    (dimSymbol n s a m = .throw ↔ dimSymbol n s b m' = .throw) := by
  induction n with
  | zero => intro s a m b m'; simp [dimSymbol]
  | succ n ih =>
    intro s a m b m'
    simp only [dimSymbol]
    by_cases ht : isTemperature s = true
    · simp [ht]
    · rw [if_neg ht, if_neg ht]
      split
      · simp
      · simp
      · rename_i u us hfind
        by_cases hs : u.symbol = s
        · simp [hs]
        · rw [if_neg hs, if_neg hs]
          exact dimLoop_outcome _ ih _ _ _ _ _

/-- All table entries have a non-zero factor and a dimension, within the recursion bound less one. -/
theorem table_check : derivedUnitsMap.all (fun e =>
    (match factorSymbol 31 e.1 with | .ok q => decide (q ≠ 0) | _ => false) && (factorSymbol 31 e.1 == factorSymbol 32 e.1) &&
    (dimSymbol 31 e.1 1 []).isOk && (dimSymbol 31 e.1 1 [] == dimSymbol 32 e.1 1 []) && !e.2.isEmpty) = true := by
  decide +kernel

theorem find_mem {β : Type} (m : List (Str × β)) (k : Str) (v : β) (h : find m k = some v) : (k, v) ∈ m := by
  induction m with
  | nil => simp [find] at h
  | cons p m ih =>
    obtain ⟨a, w⟩ := p
    simp only [find] at h
    split at h
    · rename_i e
      simp only [Option.some.injEq] at h
      subst e h; simp
    · exact List.mem_cons_of_mem _ (ih h)

theorem known_factor (s : Str) (h : Known s) : ∃ q, q ≠ 0 ∧ factorSymbol depth s = .ok q ∧ factorSymbol 31 s = .ok q := by
  rcases h with h | ⟨us, h⟩
  · exact ⟨1, one_ne_zero, by simp [factorSymbol, depth, h], by simp [factorSymbol, h]⟩
  · have := List.all_eq_true.1 table_check _ (find_mem _ _ _ h)
    simp only [Bool.and_eq_true, beq_iff_eq] at this
    obtain ⟨⟨⟨⟨h1, h2⟩, -⟩, -⟩, -⟩ := this
    cases hq : factorSymbol 31 s with
    | ok q => rw [hq] at h1 h2; exact ⟨q, by simpa using h1, h2.symm, rfl⟩
    | throw => rw [hq] at h1; simp at h1
    | ub => rw [hq] at h1; simp at h1

theorem known_dim (s : Str) (h : Known s) (a : Int) (m : DimMap) : ∃ m', dimSymbol depth s a m = .ok m' := by
  have key : (dimSymbol depth s 1 []).isOk = true := by
    rcases h with h | ⟨us, h⟩
    · simp [dimSymbol, depth, h]
    · have := List.all_eq_true.1 table_check _ (find_mem _ _ _ h)
      simp only [Bool.and_eq_true, beq_iff_eq] at this
      obtain ⟨⟨⟨⟨-, -⟩, h1⟩, h2⟩, -⟩ := this
      rw [h2] at h1; exact h1
  rw [(dimSymbol_outcome depth s 1 [] a m).1] at key
  cases hd : dimSymbol depth s a m with
  | ok m' => exact ⟨m', rfl⟩
  | throw => rw [hd] at key; simp at key
  | ub => rw [hd] at key; simp at key

theorem unknown_throw (s : Str) (h : ¬ Known s) (a : Int) (m : DimMap) :
    dimSymbol depth s a m = .throw ∧ factorSymbol depth s = .throw := by
  unfold Known at h
  have h1 : isTemperature s = false := by
    cases hh : isTemperature s with
    | true => exact absurd (Or.inl hh) h
    | false => rfl
  have h2 : find derivedUnitsMap s = none := by
    cases hh : find derivedUnitsMap s with
    | none => rfl
    | some us => exact absurd (Or.inr ⟨us, hh⟩) h
  simp [dimSymbol, factorSymbol, depth, h1, h2]

/-- There are factors satisfying the table equations. -/
theorem exists_factor : ∃ F, IsFactor F := by
  let F : Str → Rat := fun s => match factorSymbol 31 s with | .ok q => q | _ => 1
  refine ⟨F, ?_, ?_⟩
  · intro s h; simp [F, factorSymbol, h]
  · intro s u us ht hfind
    have hk : Known s := Or.inr ⟨_, hfind⟩
    obtain ⟨q, -, h2, h1⟩ := known_factor s hk
    have hFs : F s = q := by simp [F, h1]
    simp only [depth, factorSymbol, ht, Bool.false_eq_true, if_false, hfind] at h2
    by_cases hs : u.symbol = s
    · rw [if_pos hs] at h2 ⊢
      rw [hFs]; simpa using h2.symm
    · rw [if_neg hs] at h2 ⊢
      have := factorLoop_ok F (factorSymbol 31) (by intro s q hq; simp [F, hq]) _ _ _ h2
      rw [hFs, this, one_mul]

theorem exists_dim : ∃ D, IsDim D := by
  let D : Str → Str → Int := fun s k => match dimSymbol 31 s 1 [] with | .ok m => get m k | _ => 0
  have hlin : ∀ n, ∃ D' : Str → Str → Int, ∀ s a m m', dimSymbol n s a m = .ok m' → ∀ k, get m' k = get m k + a * D' s k := by
    intro n
    induction n with
    | zero => exact ⟨fun _ _ => 0, by intro s a m m' h; simp [dimSymbol] at h⟩
    | succ n ih =>
      obtain ⟨D', hD'⟩ := ih
      refine ⟨fun s k => if isTemperature s then (if s = k then 1 else 0) else
        match find derivedUnitsMap s with
        | none => 0
        | some [] => 0
        | some (u :: us) => if u.symbol = s then (if s = k then u.power else 0)
          else ((u :: us).map (fun p => p.power * D' p.symbol k)).sum, ?_⟩
      intro s a m m' h k
      beta_reduce
      simp only [dimSymbol] at h
      by_cases ht : isTemperature s = true
      · rw [if_pos ht] at h
        simp only [Res.ok.injEq] at h
        subst h
        rw [get_addTo, if_pos ht]
        split <;> simp
      · rw [if_neg ht] at h
        rw [if_neg ht]
        split at h
        · simp at h
        · simp at h
        · rename_i u us hfind
          rw [hfind]
          by_cases hs : u.symbol = s
          · rw [if_pos hs] at h
            simp only [Res.ok.injEq] at h
            subst h
            simp only [hs, if_true]
            rw [get_addTo]
            split <;> simp; ring
          · rw [if_neg hs] at h
            simp only [hs, if_false]
            have hl : ∀ (us : DerivedUnit) m m', dimLoop (dimSymbol n) a us m = .ok m' →
                get m' k = get m k + a * (us.map (fun p => p.power * D' p.symbol k)).sum := by
              intro us
              induction us with
              | nil => intro m m' h; simp only [dimLoop, Res.ok.injEq] at h; subst h; simp
              | cons u us ih2 =>
                intro m m' h
                simp only [dimLoop] at h
                cases hx : dimSymbol n u.symbol (u.power * a) m with
                | throw => rw [hx] at h; simp at h
                | ub => rw [hx] at h; simp at h
                | ok m1 =>
                  rw [hx] at h
                  rw [ih2 _ _ h, hD' _ _ _ _ hx k, List.map_cons, List.sum_cons]; ring
            exact hl _ _ _ h
  obtain ⟨D', hD'⟩ := hlin 31
  have hDD : ∀ s k, (dimSymbol 31 s 1 []).isOk = true → D s k = D' s k := by
    intro s k h
    cases hd : dimSymbol 31 s 1 [] with
    | throw => rw [hd] at h; simp at h
    | ub => rw [hd] at h; simp at h
    | ok m => simp only [D, hd]; rw [hD' _ _ _ _ hd k]; simp [get, find]
  refine ⟨D, ?_, ?_⟩
  · intro s k h
    simp [D, dimSymbol, h, addTo, get, find]
    split <;> simp
  · intro s u us k ht hfind
    have hc := List.all_eq_true.1 table_check _ (find_mem _ _ _ hfind)
    simp only [Bool.and_eq_true, beq_iff_eq] at hc
    obtain ⟨⟨⟨⟨-, -⟩, h1⟩, h2⟩, -⟩ := hc
    cases hd : dimSymbol 31 s 1 [] with
    | throw => rw [hd] at h1; simp at h1
    | ub => rw [hd] at h1; simp at h1
    | ok m =>
      rw [hd] at h2
      have hDs : D s k = get m k := by simp only [D, hd]
      have h3 := h2.symm
      simp only [dimSymbol, ht, Bool.false_eq_true, if_false, hfind] at h3
      by_cases hs : u.symbol = s
      · rw [if_pos hs] at h3 ⊢
        simp only [Res.ok.injEq] at h3
        rw [hDs, ← h3, get_addTo]; simp [get, find]
      · rw [if_neg hs] at h3 ⊢
        have hl : ∀ (us : DerivedUnit) m m', dimLoop (dimSymbol 31) 1 us m = .ok m' →
            get m' k = get m k + (us.map (fun p => p.power * D p.symbol k)).sum := by
          intro us
          induction us with
          | nil => intro m m' h; simp only [dimLoop, Res.ok.injEq] at h; subst h; simp
          | cons u us ih2 =>
            intro m m' h
            simp only [dimLoop] at h
            cases hx : dimSymbol 31 u.symbol (u.power * 1) m with
            | throw => rw [hx] at h; simp at h
            | ub => rw [hx] at h; simp at h
            | ok m1 =>
              have hok : (dimSymbol 31 u.symbol 1 []).isOk = true := by
                rw [(dimSymbol_outcome 31 u.symbol 1 [] (u.power * 1) m).1, hx]; rfl
              rw [hx] at h
              rw [ih2 _ _ h, hD' _ _ _ _ hx k, List.map_cons, List.sum_cons, hDD _ _ hok]; ring
        rw [hDs, hl _ _ _ h3]
        simp [get, find]

end Verif.Units
