import Verif.Spec.NamingUtils
import Verif.Lemmas.NumberText
import Mathlib.Data.List.TakeWhile

/-!
# C86: alternative names of species
-/

namespace Verif.Naming

open Verif.Numbers Verif.NumberText

/-! ## Lists -/

theorem mem_squeeze (l : List Str) (x : Str) : x ∈ squeeze l ↔ x ∈ l := by
  induction l with
  | nil => simp [squeeze]
  | cons a l ih =>
    cases l with
    | nil => simp [squeeze]
    | cons b l =>
      rw [squeeze]
      split_ifs with h
      · rw [ih, h]; simp
      · rw [List.mem_cons, ih]; simp

theorem mem_unique (l : List Str) (x : Str) : x ∈ unique l ↔ x ∈ l := by
  rw [unique, mem_squeeze, List.mem_mergeSort]

/-! ## Reading a charge -/

theorem digits_ne_nil {z : Int} (h : z ≠ 0) : digits z ≠ [] := by
  intro hd
  have := natDigits_val z.natAbs
  rw [digits] at hd
  rw [hd] at this
  simp [digitsVal] at this
  omega

theorem takeWhile_all {p : Char → Bool} {l : Str} (h : ∀ c ∈ l, p c = true) : l.takeWhile p = l := by
  induction l with
  | nil => rfl
  | cons a l ih => simp [h a (by simp), ih fun c hc => h c (by simp [hc])]

theorem takeWhile_stop {p : Char → Bool} {l : Str} {c : Char} {t : Str} (h : ∀ c ∈ l, p c = true)
    (hc : p c = false) : (l ++ c :: t).takeWhile p = l ∧ (l ++ c :: t).dropWhile p = c :: t := by
  induction l with
  | nil => simp [hc]
  | cons a l ih =>
    obtain ⟨h1, h2⟩ := ih fun c hc => h c (by simp [hc])
    simp [h a (by simp), h1, h2]

/-- `std::stoi` of digits. -/
theorem stoi_digits {z : Int} (hz : Charge z) : stoi (digits z) = .ok (z.natAbs : Int) := by
  have hne := digits_ne_nil hz.1
  have hd : ∀ c ∈ digits z, c.isDigit = true := natDigits_isDigit _
  have hv : digitsVal (digits z) = z.natAbs := natDigits_val _
  have hle := hz.2
  cases hl : digits z with
  | nil => exact absurd hl hne
  | cons c t =>
    have hcd : c.isDigit = true := hd c (by rw [hl]; simp)
    have h1 : c ≠ '-' := by rintro rfl; simp [Char.isDigit] at hcd
    have h2 : c ≠ '+' := by rintro rfl; simp [Char.isDigit] at hcd
    have ht : (c :: t).takeWhile Char.isDigit = c :: t := takeWhile_all fun c hc => hd c (by rw [hl]; exact hc)
    rw [stoi]
    · simp only [ht]
      rw [← hl, hv, if_neg hne]
      simp only [Bool.false_eq_true, if_false]
      rw [if_neg (by omega)]
    · simpa using h1
    · simpa using h2

theorem stoi_signed {z : Int} (hz : Charge z) : stoi (sgn z :: digits z) = .ok z := by
  have hne := digits_ne_nil hz.1
  have hd : ∀ c ∈ digits z, c.isDigit = true := natDigits_isDigit _
  have hv : digitsVal (digits z) = z.natAbs := natDigits_val _
  have ht : (digits z).takeWhile Char.isDigit = digits z := takeWhile_all hd
  obtain ⟨h0, hle⟩ := hz
  by_cases hp : 0 < z
  · have hs : sgn z = '+' := if_pos hp
    rw [hs, stoi]
    simp only [ht, hv, if_neg hne, Bool.false_eq_true, if_false]
    rw [if_neg (by omega)]
    congr 1
    omega
  · have hs : sgn z = '-' := if_neg hp
    rw [hs, stoi]
    simp only [ht, hv, if_neg hne, if_true]
    rw [if_neg (by omega)]
    congr 1
    omega

theorem sgn_cases (z : Int) : (sgn z = '+' ∧ 0 < z) ∨ (sgn z = '-' ∧ ¬ 0 < z) := by
  by_cases h : 0 < z
  · exact Or.inl ⟨if_pos h, h⟩
  · exact Or.inr ⟨if_neg h, h⟩

theorem signOf_eq {z : Int} (h : z ≠ 0) : signOf z = sgn z := by
  rw [signOf, sgn]
  split_ifs <;> first | rfl | omega

theorem plain_mark {base : Str} (hb : PlainBase base) : ∀ c ∈ base, (!isMark c) = true := by
  intro c hc
  obtain ⟨h1, h2, h3⟩ := hb c hc
  simp [isMark, h1, h2, h3]

theorem sgn_mark (z : Int) : (!isMark (sgn z)) = false := by
  rcases sgn_cases z with h | h <;> rw [h.1] <;> rfl

theorem sgn_ne_bracket (z : Int) : sgn z ≠ '[' := by
  rcases sgn_cases z with h | h <;> rw [h.1] <;> decide

/-- **C86.** Every way of writing a charged species is read: its base name and its charge. -/
theorem C86_split (base : Str) (z : Int) (name : Str) (hb : PlainBase base) (hz : Charge z)
    (h : Written base z name) : splitCharged name = .ok (base, z) := by
  have hm := plain_mark hb
  have hz0 := hz.1
  cases h with
  | signs =>
    obtain ⟨n, hn⟩ : ∃ n, z.natAbs = n + 1 := ⟨z.natAbs - 1, by omega⟩
    rw [hn, List.replicate_succ]
    obtain ⟨h1, h2⟩ := takeWhile_stop (t := List.replicate n (sgn z)) hm (sgn_mark z)
    rw [splitCharged]
    simp only [h1, h2]
    rw [if_neg (sgn_ne_bracket z)]
    have hlast : (sgn z :: List.replicate n (sgn z)).getLast (by simp) = sgn z := by
      have := List.getLast_mem (l := sgn z :: List.replicate n (sgn z)) (by simp)
      simp only [List.mem_cons, List.mem_replicate] at this
      tauto
    rw [if_pos hlast]
    simp only [List.length_cons, List.length_replicate]
    rcases sgn_cases z with hs | hs
    · rw [hs.1, if_neg (by decide)]
      congr 2
      omega
    · rw [hs.1, if_pos rfl]
      congr 2
      omega
  | number =>
    obtain ⟨h1, h2⟩ := takeWhile_stop (t := digits z) hm (sgn_mark z)
    rw [splitCharged]
    simp only [h1, h2]
    rw [if_neg (sgn_ne_bracket z)]
    have hne := digits_ne_nil hz0
    have hlast : ((sgn z :: digits z).getLast (by simp)).isDigit = true := by
      rw [List.getLast_cons hne]
      exact natDigits_isDigit _ _ (List.getLast_mem hne)
    rw [if_neg, if_pos hlast, stoi_signed hz]
    · rfl
    · intro he
      rw [he] at hlast
      rcases sgn_cases z with hs | hs <;> rw [hs.1] at hlast <;> simp [Char.isDigit] at hlast
  | bracket =>
    have e : base ++ c!"[" ++ digits z ++ [sgn z] ++ c!"]" = base ++ '[' :: (digits z ++ sgn z :: c!"]") := by simp
    rw [e]
    obtain ⟨h1, h2⟩ := takeWhile_stop (c := '[') (t := digits z ++ sgn z :: c!"]") hm (by rfl)
    rw [splitCharged]
    simp only [h1, h2]
    rw [if_pos trivial, if_pos (by simp)]
    have hne := digits_ne_nil hz0
    have hin : (digits z ++ sgn z :: c!"]").takeWhile (fun c => decide (c ≠ ']')) = digits z ++ [sgn z] := by
      have := (takeWhile_stop (p := fun c => decide (c ≠ ']')) (l := digits z ++ [sgn z]) (c := ']') (t := [])
        (fun c hc => by
          simp only [List.mem_append, List.mem_singleton] at hc
          rcases hc with hc | rfl
          · have := natDigits_isDigit _ c hc
            have : c ≠ ']' := by rintro rfl; simp [Char.isDigit] at this
            simpa using this
          · rcases sgn_cases z with hs | hs <;> rw [hs.1] <;> rfl)
        (by rfl)).1
      simpa using this
    simp only [hin]
    have hlen : 1 < (digits z ++ [sgn z]).length := by
      have := List.length_pos_of_ne_nil hne
      simp; omega
    rw [if_pos hlen, List.dropLast_concat, stoi_digits hz]
    have hl : ('[' :: (digits z ++ [sgn z])).getLast (by simp) = sgn z := by
      rw [List.getLast_cons (by simp)]; simp
    simp only [hl, Res.bind_ok']
    rcases sgn_cases z with hs | hs
    · rw [hs.1, if_neg (by decide)]
      congr 2
      omega
    · rw [hs.1, if_pos rfl]
      congr 2
      omega
  | single h1z =>
    have e : base ++ c!"[" ++ [sgn z] ++ c!"]" = base ++ '[' :: [sgn z, ']'] := by simp
    rw [e]
    obtain ⟨h1, h2⟩ := takeWhile_stop (c := '[') (t := [sgn z, ']']) hm (by rfl)
    rw [splitCharged]
    simp only [h1, h2]
    rw [if_pos trivial, if_pos (by simp)]
    have hin : [sgn z, ']'].takeWhile (fun c => decide (c ≠ ']')) = [sgn z] := by
      rcases sgn_cases z with hs | hs <;> rw [hs.1] <;> rfl
    simp only [hin]
    have h1s : stoi c!"1" = .ok 1 := by decide
    simp only [List.length_singleton, lt_irrefl, if_false, h1s, Res.bind_ok']
    rcases sgn_cases z with hs | hs
    · simp only [hs.1]
      congr 2
      simp
      omega
    · simp only [hs.1]
      congr 2
      simp
      omega

/-- **C86.** The conventional name of a charged species is `Ca++` for each way of writing it. -/
theorem C86_conventional (base : Str) (z : Int) (name : Str) (hb : PlainBase base) (hz : Charge z)
    (h : Written base z name) :
    conventionalCharged name = .ok (base ++ List.replicate z.natAbs (sgn z)) ∧
    splitCharged (base ++ List.replicate z.natAbs (sgn z)) = .ok (base, z) := by
  refine ⟨?_, C86_split base z _ hb hz .signs⟩
  rw [conventionalCharged, C86_split base z name hb hz h, Res.bind_ok', signOf_eq hz.1]

/-! ## The maps -/

theorem mem_chargedNames {base : Str} {z : Int} (hz : z ≠ 0) (x : Str) :
    x ∈ chargedNames base z ↔ x ∈ announced base z := by
  rw [chargedNames, mem_unique, announced, signOf_eq hz]
  simp [toString, digits]

section MapLemmas

variable {α β : Type} [DecidableEq α]

theorem find_append (k : α) (l r : List (α × β)) :
    find k (l ++ r) = match find k l with | some b => some b | none => find k r := by
  induction l with
  | nil => rfl
  | cons a l ih =>
    obtain ⟨a, b⟩ := a
    simp only [List.cons_append, find]
    split_ifs
    · rfl
    · exact ih

theorem find_insert (k k' : α) (v : β) (l : List (α × β)) :
    find k (insert k' v l) = match find k l with
      | some b => some b
      | none => if k = k' then some v else none := by
  rw [insert]
  cases hf : find k' l with
  | some b =>
    simp only
    cases hk : find k l with
    | some c => rfl
    | none =>
      by_cases he : k = k'
      · subst he; rw [hf] at hk; cases hk
      · simp [he]
  | none =>
    simp only [find_append]
    cases hk : find k l with
    | some c => rfl
    | none =>
      simp only [find]
      by_cases he : k' = k
      · simp [he]
      · simp [he, Ne.symm he]

theorem find_change (k k' : α) (f : β → β) (l : List (α × β)) :
    find k (change k' f l) = if k = k' then (find k l).map f else find k l := by
  induction l with
  | nil => simp [change, find]
  | cons a l ih =>
    obtain ⟨a, b⟩ := a
    simp only [change]
    split_ifs with h1 h2
    · subst h1; subst h2; simp [find]
    · subst h1; simp [find, Ne.symm h2]
    · rename_i h2
      subst h2
      simp only [find, if_neg h1]
      simpa using ih
    · rename_i h2
      simp only [find]
      split_ifs
      · rfl
      · simpa [h2] using ih

end MapLemmas

/-- An entry, or the list that is about to be entered. -/
def entryC (s : Maps) (base : Str) (z : Int) : List Str := (find (base, z) s.charged).getD (chargedNames base z)
def entryN (s : Maps) (base : Str) : List Str := (find base s.neutral).getD (neutralNames base)

theorem chargedEntry_spec (s : Maps) (name base : Str) (z : Int) (h : splitCharged name = .ok (base, z)) (hz : z ≠ 0) :
    (s.chargedEntry name).2 = .ok (base, z) ∧
    find (base, z) (s.chargedEntry name).1.charged = some (entryC s base z) := by
  rw [Maps.chargedEntry, h]
  simp only [if_neg hz]
  refine ⟨trivial, ?_⟩
  rw [find_insert, entryC]
  cases find (base, z) s.charged <;> simp

theorem entryC_entry (s : Maps) (name : Str) (base : Str) (z : Int) :
    entryC (s.chargedEntry name).1 base z = entryC s base z := by
  rw [Maps.chargedEntry]
  cases splitCharged name with
  | throw => rfl
  | ub => rfl
  | ok bz =>
    obtain ⟨b, z'⟩ := bz
    simp only
    split_ifs
    · rfl
    · rw [entryC, entryC, find_insert]
      cases hf : find (base, z) s.charged with
      | some l => rfl
      | none =>
        simp only
        split_ifs with he
        · injection he with h1 h2; subst h1; subst h2; rfl
        · rfl

theorem entryN_entry (s : Maps) (name : Str) : ∀ base, entryN (s.chargedEntry name).1 base = entryN s base := by
  intro base
  rw [Maps.chargedEntry]
  cases splitCharged name with
  | throw => rfl
  | ub => rfl
  | ok bz =>
    simp only
    split_ifs <;> rfl

theorem chargedAlternatives_fst (s : Maps) (name : Str) : (s.chargedAlternatives name).1 = (s.chargedEntry name).1 := by
  rw [Maps.chargedAlternatives]
  generalize s.chargedEntry name = r
  obtain ⟨s', r⟩ := r
  cases r <;> rfl

theorem chargedAlternatives_spec (s : Maps) (name base : Str) (z : Int) (h : splitCharged name = .ok (base, z))
    (hz : z ≠ 0) : (s.chargedAlternatives name).2 = .ok (entryC s base z) := by
  obtain ⟨h1, h2⟩ := chargedEntry_spec s name base z h hz
  rw [Maps.chargedAlternatives]
  revert h1 h2
  generalize s.chargedEntry name = r
  obtain ⟨s', r⟩ := r
  intro h1 h2
  simp only at h1 h2
  subst h1
  simp only [h2]

theorem neutral_spec (s : Maps) (name : Str) :
    (s.neutralAlternatives name).2 = .ok (entryN s (baseNeutral name)) := by
  rw [Maps.neutralAlternatives]
  simp only [find_insert, entryN]
  cases find (baseNeutral name) s.neutral <;> simp

theorem entryN_neutral (s : Maps) (name base : Str) :
    entryN (s.neutralAlternatives name).1 base = entryN s base := by
  rw [Maps.neutralAlternatives]
  simp only [entryN, find_insert]
  cases hf : find base s.neutral with
  | some l => rfl
  | none =>
    simp only
    split_ifs with he
    · subst he; rfl
    · rfl

theorem entryC_neutral (s : Maps) (name base : Str) (z : Int) :
    entryC (s.neutralAlternatives name).1 base z = entryC s base z := rfl

theorem entryC_run (s : Maps) (op : Op) (base : Str) (z : Int) (hz : z ≠ 0) :
    entryC (s.run op) base z = entryC s base z ++ addedCharged base z [op] := by
  cases op with
  | charged name =>
    simp only [Maps.run, chargedAlternatives_fst, entryC_entry, addedCharged, List.filterMap_cons, List.filterMap_nil,
      List.append_nil]
  | neutral name =>
    simp only [Maps.run, entryC_neutral, addedCharged, List.filterMap_cons, List.filterMap_nil, List.append_nil]
  | addNeutral name extra =>
    simp only [Maps.run, addedCharged, List.filterMap_cons, List.filterMap_nil, List.append_nil]
    rfl
  | addCharged name extra =>
    by_cases h : splitCharged name = .ok (base, z)
    · obtain ⟨h1, h2⟩ := chargedEntry_spec s name base z h hz
      simp only [Maps.run, addedCharged, List.filterMap_cons, List.filterMap_nil, if_pos h]
      revert h1 h2
      generalize s.chargedEntry name = r
      obtain ⟨s', r⟩ := r
      intro h1 h2
      simp only at h1 h2
      subst h1
      simp only [entryC, find_change, if_true, h2, Option.map_some, Option.getD_some]
    · simp only [Maps.run, addedCharged, List.filterMap_cons, List.filterMap_nil, if_neg h, List.append_nil]
      have hent := entryC_entry s name base z
      have hkey : ∀ k, (s.chargedEntry name).2 = .ok k → k ≠ (base, z) := by
        intro k hk he
        subst he
        apply h
        rw [Maps.chargedEntry] at hk
        cases hsp : splitCharged name with
        | throw => rw [hsp] at hk; cases hk
        | ub => rw [hsp] at hk; cases hk
        | ok bz =>
          obtain ⟨b, z'⟩ := bz
          rw [hsp] at hk
          simp only at hk
          split_ifs at hk
          simp only [Res.ok.injEq] at hk
          rw [hk]
      revert hent hkey
      generalize s.chargedEntry name = r
      obtain ⟨s', r⟩ := r
      intro hent hkey
      cases r with
      | throw => exact hent
      | ub => exact hent
      | ok k =>
        simp only at hent hkey ⊢
        have := hkey k rfl
        rw [entryC, find_change, if_neg (Ne.symm this)]
        exact hent

theorem entryN_run (s : Maps) (op : Op) (base : Str) :
    entryN (s.run op) base = entryN s base ++ addedNeutral base [op] := by
  cases op with
  | charged name =>
    simp only [Maps.run, chargedAlternatives_fst, entryN_entry, addedNeutral, List.filterMap_cons, List.filterMap_nil,
      List.append_nil]
  | neutral name =>
    simp only [Maps.run, entryN_neutral, addedNeutral, List.filterMap_cons, List.filterMap_nil, List.append_nil]
  | addCharged name extra =>
    simp only [Maps.run, addedNeutral, List.filterMap_cons, List.filterMap_nil, List.append_nil]
    have hent := entryN_entry s name base
    revert hent
    generalize s.chargedEntry name = r
    obtain ⟨s', r⟩ := r
    intro hent
    cases r <;> exact hent
  | addNeutral name extra =>
    simp only [Maps.run, addedNeutral, List.filterMap_cons, List.filterMap_nil]
    have hent := entryN_neutral s name base
    by_cases he : baseNeutral name = base
    · subst he
      rw [if_pos rfl, entryN, find_change, if_pos rfl]
      have hf : find (baseNeutral name) (s.neutralAlternatives name).1.neutral
          = some (entryN s (baseNeutral name)) := by
        rw [Maps.neutralAlternatives]
        simp only [find_insert, entryN]
        cases find (baseNeutral name) s.neutral <;> simp
      rw [hf]
      rfl
    · rw [if_neg he, entryN, find_change, if_neg (Ne.symm he)]
      simpa [entryN] using hent

theorem entryC_runs (ops : List Op) (s : Maps) (base : Str) (z : Int) (hz : z ≠ 0) :
    entryC (ops.foldl Maps.run s) base z = entryC s base z ++ addedCharged base z ops := by
  induction ops generalizing s with
  | nil => simp [addedCharged]
  | cons op ops ih =>
    rw [List.foldl_cons, ih, entryC_run s op base z hz, List.append_assoc]
    congr 1
    rw [addedCharged, addedCharged, addedCharged, ← List.filterMap_append]
    rfl

theorem entryN_runs (ops : List Op) (s : Maps) (base : Str) :
    entryN (ops.foldl Maps.run s) base = entryN s base ++ addedNeutral base ops := by
  induction ops generalizing s with
  | nil => simp [addedNeutral]
  | cons op ops ih =>
    rw [List.foldl_cons, ih, entryN_run s op base, List.append_assoc]
    congr 1
    rw [addedNeutral, addedNeutral, addedNeutral, ← List.filterMap_append]
    rfl

/-- **C86.** Whatever names were asked for and added before, `trial` is an alternative to a way of
writing a charged species exactly when it is one of the announced names of this species or one that was
added for it. -/
theorem C86_alternative (ops : List Op) (base : Str) (z : Int) (name trial : Str) (hb : PlainBase base)
    (hz : Charge z) (h : Written base z name) :
    ∃ b, ((ops.foldl Maps.run Maps.new).isAlternativeCharged trial name).2 = .ok b ∧
      (b = true ↔ trial ∈ announced base z ∨ trial ∈ addedCharged base z ops) := by
  have hs := C86_split base z name hb hz h
  set s := ops.foldl Maps.run Maps.new with hsdef
  have hl := chargedAlternatives_spec s name base z hs hz.1
  refine ⟨(entryC s base z).contains trial, ?_, ?_⟩
  · rw [Maps.isAlternativeCharged]
    revert hl
    generalize s.chargedAlternatives name = r
    obtain ⟨s', r⟩ := r
    intro hl
    simp only at hl
    subst hl
    rfl
  · rw [List.contains_iff_mem, hsdef, entryC_runs ops _ base z hz.1, List.mem_append]
    have : entryC Maps.new base z = chargedNames base z := rfl
    rw [this, mem_chargedNames hz.1]

/-- **C86.** Two ways of writing a charged species have the same alternatives; in particular, without
names added by users, being an alternative is symmetric among the announced names. -/
theorem C86_symmetric (ops : List Op) (base : Str) (z : Int) (a b : Str) (hb : PlainBase base)
    (hz : Charge z) (ha : a ∈ announced base z) (hbm : b ∈ announced base z) :
    ((ops.foldl Maps.run Maps.new).isAlternativeCharged a b).2 = .ok true ∧
    ((ops.foldl Maps.run Maps.new).isAlternativeCharged b a).2 = .ok true := by
  have hw : ∀ x ∈ announced base z, Written base z x := by
    intro x hx
    simp only [announced, List.mem_cons, List.not_mem_nil, or_false] at hx
    by_cases h1 : z.natAbs = 1
    · rw [if_pos h1, h1] at hx
      rcases hx with rfl | rfl | rfl
      · have := Written.signs (base := base) (z := z); rwa [h1] at this
      · have := Written.signs (base := base) (z := z); rw [h1] at this; simpa using this
      · have := Written.single (base := base) (z := z) h1; simpa using this
    · rw [if_neg h1] at hx
      rcases hx with rfl | rfl | rfl
      · exact .signs
      · exact .number
      · exact .bracket
  obtain ⟨x, hx1, hx2⟩ := C86_alternative ops base z b a hb hz (hw b hbm)
  obtain ⟨y, hy1, hy2⟩ := C86_alternative ops base z a b hb hz (hw a ha)
  rw [hx1, hy1, hx2.2 (Or.inl ha), hy2.2 (Or.inl hbm)]
  exact ⟨rfl, rfl⟩

/-! ## Neutral species -/

theorem before_none {p s : Str} (hp : p ≠ []) : before p s = none ↔ ¬ p <:+: s := by
  induction s with
  | nil => simp [before, hp]
  | cons c s ih =>
    rw [before, List.infix_cons_iff, ← List.isPrefixOf_iff_prefix]
    split_ifs with h
    · simp [h]
    · simp [h, ih]

/-- The first occurrence of a pattern whose first character does not occur again in it. -/
theorem before_append {a : Char} {p : Str} (hap : a ∉ p) (base rest : Str) (hb : ¬ (a :: p) <:+: base) :
    before (a :: p) (base ++ a :: p ++ rest) = some base := by
  induction base with
  | nil =>
    have : (a :: p).isPrefixOf ([] ++ a :: p ++ rest) = true := by
      rw [List.isPrefixOf_iff_prefix]; exact ⟨rest, by simp⟩
    cases hl : [] ++ a :: p ++ rest with
    | nil => simp at hl
    | cons c s =>
      rw [hl] at this
      rw [before, if_pos this]
  | cons c base ih =>
    rw [List.infix_cons_iff, not_or] at hb
    have hnp : (a :: p).isPrefixOf (c :: (base ++ a :: p ++ rest)) = false := by
      rw [Bool.eq_false_iff]
      intro hc
      rw [List.isPrefixOf_iff_prefix, List.cons_prefix_cons] at hc
      obtain ⟨rfl, hc⟩ := hc
      by_cases hlen : p.length ≤ base.length
      · apply hb.1
        rw [List.cons_prefix_cons]
        refine ⟨rfl, ?_⟩
        have h2 : base <+: base ++ a :: p ++ rest := ⟨a :: p ++ rest, by simp⟩
        exact List.prefix_of_prefix_length_le hc h2 hlen
      · -- the pattern reaches over its own first character
        obtain ⟨t, ht⟩ := hc
        have h3 : (p ++ t)[base.length]? = some a := by
          rw [ht]; simp
        rw [List.getElem?_append_left (by omega)] at h3
        exact hap (List.mem_of_getElem? h3)
    rw [List.cons_append, List.cons_append, before, hnp]
    simp only [Bool.false_eq_true, if_false]
    have := ih hb.2
    rw [this]
    rfl

theorem not_infix_append_char {p base : Str} {c : Char} (hc : p.getLast? ≠ some c) (hp : p ≠ [])
    (h : ¬ p <:+: base) : ¬ p <:+: base ++ [c] := by
  rintro ⟨u, v, huv⟩
  rcases List.eq_nil_or_concat v with rfl | ⟨v', x, rfl⟩
  · obtain ⟨p', y, rfl⟩ := (List.eq_nil_or_concat p).resolve_left hp
    rw [List.concat_eq_append] at huv hc
    have h1 : (u ++ (p' ++ [y]) ++ []).getLast? = some y := by simp [← List.append_assoc]
    rw [huv] at h1
    simp at h1
    simp [h1] at hc
  · apply h
    refine ⟨u, v', ?_⟩
    rw [List.concat_eq_append] at huv
    have h1 : (u ++ p ++ (v' ++ [x])).dropLast = (base ++ [c]).dropLast := by rw [huv]
    rw [← List.append_assoc, List.dropLast_concat, List.dropLast_concat] at h1
    exact h1

/-- **C86.** Every way of writing a neutral species has the base name and the conventional name expected. -/
theorem C86_neutral (base suffix : Str) (hb : PlainNeutral base) (hs : suffix ∈ neutralSuffixes) :
    baseNeutral (base ++ suffix) = base ∧ conventionalNeutral (base ++ suffix) = base ++ c!"(aq)" := by
  have key : baseNeutral (base ++ suffix) = base := by
    obtain ⟨h1, h2, h3⟩ := hb
    have h2' : ¬ c!"@" <:+: base := fun h => h2 (h.subset (by simp))
    have n1 := (before_none (p := c!"(aq)") (s := base) (by simp)).2 h1
    have n2 := (before_none (p := c!"@") (s := base) (by simp)).2 h2'
    have n3 := (before_none (p := c!",aq") (s := base) (by simp)).2 h3
    simp only [neutralSuffixes, List.mem_cons, List.not_mem_nil, or_false] at hs
    rcases hs with rfl | rfl | rfl | rfl
    · have := before_append (a := '(') (p := c!"aq)") (by decide) base [] h1
      rw [List.append_nil] at this
      rw [baseNeutral, this]
    · rw [List.append_nil, baseNeutral, n1, n2, n3]
    · have h4 : before c!"(aq)" (base ++ c!"@") = none :=
        (before_none (by simp)).2 (not_infix_append_char (by decide) (by simp) h1)
      have := before_append (a := '@') (p := []) (by simp) base [] h2'
      rw [List.append_nil] at this
      rw [baseNeutral, h4, this]
    · have e : base ++ c!",aq" = base ++ c!"," ++ c!"a" ++ c!"q" := by simp
      have h4 : before c!"(aq)" (base ++ c!",aq") = none := by
        rw [before_none (by simp), e]
        exact not_infix_append_char (by decide) (by simp)
          (not_infix_append_char (by decide) (by simp) (not_infix_append_char (by decide) (by simp) h1))
      have h5 : before c!"@" (base ++ c!",aq") = none := by
        rw [before_none (by simp)]
        intro h
        have hm := h.subset (show '@' ∈ c!"@" by simp)
        simp [h2] at hm
      have := before_append (a := ',') (p := c!"aq") (by decide) base [] h3
      rw [List.append_nil] at this
      rw [baseNeutral, h4, h5, this]
  exact ⟨key, by rw [conventionalNeutral, key]⟩

/-- **C86.** Whatever names were asked for and added before, `trial` is an alternative to a way of
writing a neutral species exactly when it is one of the four ways or was added for the species. -/
theorem C86_neutral_alternative (ops : List Op) (base suffix trial : Str) (hb : PlainNeutral base)
    (hs : suffix ∈ neutralSuffixes) :
    ∃ b, ((ops.foldl Maps.run Maps.new).isAlternativeNeutral trial (base ++ suffix)).2 = .ok b ∧
      (b = true ↔ (∃ t ∈ neutralSuffixes, trial = base ++ t) ∨ trial ∈ addedNeutral base ops) := by
  have hbn := (C86_neutral base suffix hb hs).1
  set s := ops.foldl Maps.run Maps.new with hsdef
  have hl := neutral_spec s (base ++ suffix)
  rw [hbn] at hl
  refine ⟨(entryN s base).contains trial, ?_, ?_⟩
  · rw [Maps.isAlternativeNeutral]
    revert hl
    generalize s.neutralAlternatives (base ++ suffix) = r
    obtain ⟨s', r⟩ := r
    intro hl
    simp only at hl
    subst hl
    rfl
  · rw [List.contains_iff_mem, hsdef, entryN_runs ops _ base, List.mem_append]
    have : entryN Maps.new base = neutralNames base := rfl
    rw [this, neutralNames, mem_unique]
    simp [neutralSuffixes]

/-! ## Failures -/

/-- **C86 fails** for the name `Mg[+2]` of the documentation of `conventionalChargedSpeciesName`: it is
refused, and not turned into `Mg++`. -/
theorem C86_documented_wrong : conventionalCharged c!"Mg[+2]" = .throw := by decide

/-- **C86 fails** for names without a charge: the name is read out of its bounds, for every such name. -/
theorem C86_uncharged_wrong (name : Str) (h : PlainBase name) :
    splitCharged name = .ub ∧ conventionalCharged name = .ub := by
  have h1 : name.dropWhile (fun c => !isMark c) = [] := by
    exact List.dropWhile_eq_nil_iff.2 (plain_mark h)
  have h2 : splitCharged name = .ub := by
    rw [splitCharged]; simp only [h1]
  exact ⟨h2, by rw [conventionalCharged, h2]; rfl⟩

/-- **C86 fails** for malformed names: they are given charges instead of being refused. -/
theorem C86_malformed_wrong :
    splitCharged c!"Ca[]" = .ok (c!"Ca", 1) ∧ splitCharged c!"Ca[2]" = .ok (c!"Ca", 1) ∧
    splitCharged c!"A+-B+" = .ok (c!"A", 4) ∧ splitCharged c!"Ca+2x3" = .ok (c!"Ca", 2) := by decide

/-- **C86 fails** for different names with the same text before a mark: they count as one species. -/
theorem C86_neutral_wrong : conventionalNeutral c!"Fe@A" = conventionalNeutral c!"Fe@B" ∧
    ((Maps.new.isAlternativeNeutral c!"Fe" c!"Fe@A").2 = .ok true) := by
  refine ⟨by decide +kernel, ?_⟩
  have hb : baseNeutral c!"Fe@A" = c!"Fe" := by decide +kernel
  have hl := neutral_spec Maps.new c!"Fe@A"
  rw [hb] at hl
  rw [Maps.isAlternativeNeutral]
  revert hl
  generalize Maps.new.neutralAlternatives c!"Fe@A" = r
  obtain ⟨s', r⟩ := r
  intro hl
  simp only at hl
  subst hl
  have : c!"Fe" ∈ entryN Maps.new c!"Fe" := by
    show _ ∈ neutralNames _
    rw [neutralNames, mem_unique]
    simp
  simp only [List.contains_iff_mem.2 this]

/-- **C86 (water).** The names of water are `H2O(l)` and the ways of writing the neutral species `H2O`, but for the last way: `H2O,aq` is not known as a name of water. -/
theorem C86_water_partial (name : Str) :
    name ∈ waterNames ↔ name = c!"H2O(l)" ∨ (∃ t ∈ neutralSuffixes, name = c!"H2O" ++ t) ∧ name ≠ c!"H2O,aq" := by
  simp only [waterNames, neutralSuffixes, List.mem_cons, List.not_mem_nil, or_false, exists_eq_or_imp, exists_eq_left]
  constructor
  · rintro (rfl | rfl | rfl | rfl) <;> decide
  · rintro (rfl | ⟨rfl | rfl | rfl | rfl, h⟩)
    · simp
    · simp
    · simp
    · simp
    · exact absurd rfl h

/-- **C86 fails** for water: `H2O,aq` is an alternative to `H2O` among the neutral species, and not a name of water. -/
theorem C86_water_wrong : c!"H2O,aq" ∉ waterNames ∧ ((Maps.new.isAlternativeNeutral c!"H2O,aq" c!"H2O").2 = .ok true) := by
  refine ⟨by decide, ?_⟩
  obtain ⟨b, h1, h2⟩ := C86_neutral_alternative [] c!"H2O" [] c!"H2O,aq" ⟨by decide, by decide, by decide⟩ (by simp [neutralSuffixes])
  have : b = true := h2.2 (Or.inl ⟨c!",aq", by simp [neutralSuffixes], rfl⟩)
  rw [this] at h1
  exact h1

/-- The hypotheses hold for calcium. -/
example : PlainBase c!"Ca" ∧ Charge 2 ∧ Written c!"Ca" 2 c!"Ca[2+]" ∧
    announced c!"Ca" 2 = [c!"Ca++", c!"Ca+2", c!"Ca[2+]"] ∧
    ((Maps.new.isAlternativeCharged c!"Ca+2" c!"Ca[2+]").2 = .ok true) := by
  have hd : digits 2 = c!"2" := by decide +kernel
  refine ⟨by simp [PlainBase], ⟨by decide, by decide⟩, ?_, ?_, ?_⟩
  · have := Written.bracket (base := c!"Ca") (z := 2)
    rw [hd] at this
    exact this
  · simp [announced, hd, sgn]
  · refine (C86_symmetric [] c!"Ca" 2 c!"Ca+2" c!"Ca[2+]" (by simp [PlainBase]) ⟨by decide, by decide⟩ ?_ ?_).1 <;>
      simp [announced, hd, sgn]

/-- The hypotheses hold for carbon dioxide. -/
example : PlainNeutral c!"CO2" := by
  refine ⟨by decide, by decide, by decide⟩

end Verif.Naming
