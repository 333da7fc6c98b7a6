import Verif.Theorems.NamingUtils

/-!
# C86: the lists of names
-/

namespace Verif.Naming

/-- Alphabetical order, by the codes of the characters. -/
def Alphabetical (a b : List Char) : Prop := List.Lex (fun x y : Char => x.toNat < y.toNat) a b

theorem le_refl (a : Str) : le a a = true := by
  induction a with
  | nil => rfl
  | cons c s ih => simp [le, ih]

theorem toNat_inj {a b : Char} (h : a.toNat = b.toNat) : a = b := Char.ext (UInt32.toNat_inj.1 h)

theorem le_trans (a b c : Str) : le a b = true → le b c = true → le a c = true := by
  induction a generalizing b c with
  | nil => intros; rfl
  | cons x a ih =>
    cases b with
    | nil => simp [le]
    | cons y b =>
      cases c with
      | nil => simp [le]
      | cons z c =>
        simp only [le]
        by_cases h1 : x = y
        · subst h1
          by_cases h2 : x = z
          · simp only [h2, if_true]; exact ih b c
          · simp [h2]
        · by_cases h2 : y = z
          · subst h2; simp only [h1, if_true, if_false]; exact fun h _ => h
          · simp only [h1, h2, if_false, decide_eq_true_eq]
            intro p q
            rw [if_neg (fun e => by subst e; omega), decide_eq_true_eq]
            omega

theorem le_total (a b : Str) : (le a b || le b a) = true := by
  induction a generalizing b with
  | nil => simp [le]
  | cons x a ih =>
    cases b with
    | nil => simp [le]
    | cons y b =>
      simp only [le]
      by_cases h : x = y
      · subst h; simpa using ih b
      · have h' : ¬ y = x := fun e => h e.symm
        have : x.toNat ≠ y.toNat := fun e => h (toNat_inj e)
        simp only [h, h', if_false, Bool.or_eq_true, decide_eq_true_eq]
        omega

theorem le_cases (a b : Str) (h : le a b = true) : a = b ∨ Alphabetical a b := by
  induction a generalizing b with
  | nil =>
    cases b with
    | nil => exact .inl rfl
    | cons y b => exact .inr .nil
  | cons x a ih =>
    cases b with
    | nil => simp [le] at h
    | cons y b =>
      simp only [le] at h
      by_cases e : x = y
      · subst e
        rw [if_pos rfl] at h
        rcases ih b h with rfl | h
        · exact .inl rfl
        · exact .inr (.cons h)
      · rw [if_neg e, decide_eq_true_eq] at h
        exact .inr (.rel h)

theorem le_antisymm (a b : Str) : le a b = true → le b a = true → a = b := by
  induction a generalizing b with
  | nil => cases b with
    | nil => intros; rfl
    | cons y b => simp [le]
  | cons x a ih =>
    cases b with
    | nil => simp [le]
    | cons y b =>
      simp only [le]
      by_cases h : x = y
      · subst h
        simp only [if_true]
        exact fun p q => by rw [ih b p q]
      · have h' : ¬ y = x := fun e => h e.symm
        simp only [h, h', if_false, decide_eq_true_eq]
        omega

theorem squeeze_sorted (l : List Str) (h : l.Pairwise fun a b => le a b = true) : (squeeze l).Pairwise Alphabetical := by
  induction l with
  | nil => simp [squeeze]
  | cons a l ih =>
    cases l with
    | nil => simp [squeeze]
    | cons b l =>
      rw [squeeze]
      have h2 := (List.pairwise_cons.1 h)
      split
      · exact ih h2.2
      · rename_i hab
        refine List.pairwise_cons.2 ⟨fun x hx => ?_, ih h2.2⟩
        rw [mem_squeeze] at hx
        rcases le_cases a x (h2.1 x hx) with rfl | h3
        · exfalso
          apply hab
          rcases List.mem_cons.1 hx with rfl | hx
          · rfl
          · exact le_antisymm _ _ (h2.1 b (by simp)) ((List.pairwise_cons.1 h2.2).1 _ hx)
        · exact h3

theorem unique_sorted (l : List Str) : (unique l).Pairwise Alphabetical :=
  squeeze_sorted _ (List.pairwise_mergeSort le_trans le_total l)

/-- **C86 (lists).** Whatever names were asked for and added before, `alternativeChargedSpeciesNames` gives for each way of writing a charged species the announced names, in
strict alphabetical order and so each once, followed by the names that were added for it in the order of their addition. -/
theorem C86_listed (ops : List Op) (base : Str) (z : Int) (name : Str) (hb : PlainBase base) (hz : Charge z) (h : Written base z name) :
    ∃ l, ((ops.foldl Maps.run Maps.new).chargedAlternatives name).2 = .ok (l ++ addedCharged base z ops) ∧ l.Pairwise Alphabetical ∧
      ∀ x, x ∈ l ↔ x ∈ announced base z := by
  have hs := C86_split base z name hb hz h
  refine ⟨chargedNames base z, ?_, unique_sorted _, fun x => mem_chargedNames hz.1 x⟩
  rw [chargedAlternatives_spec _ name base z hs hz.1, entryC_runs ops _ base z hz.1]
  rfl

/-- **C86 (lists of neutral species).** The same for `alternativeNeutralSpeciesNames`. -/
theorem C86_listed_neutral (ops : List Op) (base suffix : Str) (hb : PlainNeutral base) (hs : suffix ∈ neutralSuffixes) :
    ∃ l, ((ops.foldl Maps.run Maps.new).neutralAlternatives (base ++ suffix)).2 = .ok (l ++ addedNeutral base ops) ∧ l.Pairwise Alphabetical ∧
      ∀ x, x ∈ l ↔ ∃ s ∈ neutralSuffixes, x = base ++ s := by
  refine ⟨neutralNames base, ?_, unique_sorted _, fun x => ?_⟩
  · rw [neutral_spec, (C86_neutral base suffix hb hs).1, entryN_runs ops _ base]
    rfl
  · rw [neutralNames, mem_unique]
    simp [neutralSuffixes]

/-- The names of calcium after a user added one. -/
example : ∃ l, (([Op.addCharged c!"Ca++" c!"calcium"].foldl Maps.run Maps.new).chargedAlternatives c!"Ca++").2 = .ok (l ++ [c!"calcium"]) ∧ c!"Ca[2+]" ∈ l := by
  have hd : digits 2 = c!"2" := by decide +kernel
  obtain ⟨l, h1, _, h3⟩ := C86_listed [Op.addCharged c!"Ca++" c!"calcium"] c!"Ca" 2 c!"Ca++" (by simp [PlainBase]) ⟨by decide, by decide⟩
    .signs
  refine ⟨l, ?_, (h3 _).2 (by simp [announced, hd, sgn])⟩
  rw [h1]
  congr 1

end Verif.Naming
