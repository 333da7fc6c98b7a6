import Verif.Model.ReactionEquation
import Verif.Spec.ReactionEquation
import Verif.Lemmas.FormulaParser

namespace Verif.ReactionEquation

open Verif.Formula Verif.FormulaParser Verif.Numbers

theorem split_flatMap_after (d : Char) (ws : List Str) (h : ∀ w ∈ ws, w ≠ [] ∧ d ∉ w) :
    Strings.split (ws.flatMap (fun w => w ++ [d])) [d] = ws := by
  induction ws with
  | nil => exact Strings.split_nil _
  | cons w ws ih =>
    simp only [List.flatMap_cons, List.append_assoc, List.singleton_append]
    rw [Strings.split_word [d] w _ (h w (by simp)).1 (by intro c hc; simp; rintro rfl; exact (h w (by simp)).2 hc)
      (by simp), Strings.split_cons_delim _ _ _ (by simp), ih (fun x hx => h x (List.mem_cons_of_mem _ hx))]

theorem split_flatMap_before (d : Char) (ws : List Str) (h : ∀ w ∈ ws, w ≠ [] ∧ d ∉ w) :
    Strings.split (ws.flatMap (fun w => d :: w)) [d] = ws := by
  induction ws with
  | nil => exact Strings.split_nil _
  | cons w ws ih =>
    simp only [List.flatMap_cons, List.cons_append]
    rw [Strings.split_cons_delim _ _ _ (by simp),
      Strings.split_word [d] w _ (h w (by simp)).1 (by intro c hc; simp; rintro rfl; exact (h w (by simp)).2 hc),
      ih (fun x hx => h x (List.mem_cons_of_mem _ hx))]
    cases ws <;> simp

theorem num_chars (n : Num) : ∀ c ∈ n.text, c.isDigit = true ∨ c = '.' := by
  intro c hc
  cases n with
  | implicit => simp [Num.text] at hc
  | int ds => exact Or.inl (digitsText_all ds c hc)
  | dec ds fs =>
    simp only [Num.text, List.mem_append, List.mem_cons] at hc
    rcases hc with hc | rfl | hc
    · exact Or.inl (digitsText_all ds c hc)
    · exact Or.inr rfl
    · exact Or.inl (digitsText_all fs c hc)

theorem num_no (n : Num) (x : Char) (h1 : x.isDigit = false) (h2 : x ≠ '.') : x ∉ n.text := by
  intro h
  rcases num_chars n x h with h | h
  · rw [h1] at h; simp at h
  · exact h2 h

theorem num_text_ne_nil (n : Num) (hn : n.WF) (h : n ≠ .implicit) : n.text ≠ [] := by
  cases n with
  | implicit => exact absurd rfl h
  | int ds => simpa [Num.text, digitsText, Num.WF] using hn
  | dec ds fs => simp [Num.text]

theorem atof_num (n : Num) (hn : n.WF) (h : n ≠ .implicit) : atof n.text = n.val := by
  have h1 : n.text.head? ≠ some '-' := by
    intro hh
    exact num_no n '-' (by decide) (by decide) (List.mem_of_mem_head? hh)
  have h2 : n.text.head? ≠ some '+' := by
    intro hh
    exact num_no n '+' (by decide) (by decide) (List.mem_of_mem_head? hh)
  rw [atof_of_head _ h1 h2]
  cases n with
  | implicit => exact absurd rfl h
  | int ds => simpa [Num.text, Num.val] using decimalPrefix_int ds [] (by simp)
  | dec ds fs => simpa [Num.text, Num.val] using decimalPrefix_dec ds fs [] (by simp)

theorem term_text_props (t : Term) (ht : t.WF) :
    t.text ≠ [] ∧ (' ' ∉ t.text) ∧ ('=' ∉ t.text) ∧ t.text ≠ ['+'] := by
  obtain ⟨num, name⟩ := t
  obtain ⟨hn, h1, h2, h3⟩ := ht
  simp only at hn h1 h2 h3
  have hsp : ' ' ∉ name := fun h => (h3 _ h).1 rfl
  have heq : '=' ∉ name := fun h => (h3 _ h).2.1 rfl
  by_cases hi : num = .implicit
  · subst hi; exact ⟨h1, hsp, heq, h2⟩
  · have e : (Term.mk num name).text = num.text ++ '*' :: name := by
      cases num <;> first | exact absurd rfl hi | rfl
    rw [e]
    refine ⟨by simp, ?_, ?_, ?_⟩
    · simp only [List.mem_append, List.mem_cons, not_or]
      exact ⟨num_no num ' ' (by decide) (by decide), by decide, hsp⟩
    · simp only [List.mem_append, List.mem_cons, not_or]
      exact ⟨num_no num '=' (by decide) (by decide), by decide, heq⟩
    · intro h
      have := congrArg List.length h
      simp only [List.length_append, List.length_cons, List.length_nil] at this
      have hl : 0 < name.length := List.length_pos_iff.2 h1
      omega

theorem parseWord_term (sign : Rat) (t : Term) (ht : t.WF) :
    parseWord sign t.text = .ok [(t.name, sign * t.num.val)] := by
  have hp := (term_text_props t ht).2.2.2
  obtain ⟨num, name⟩ := t
  obtain ⟨hn, h1, h2, h3⟩ := ht
  simp only at hn h1 h2 h3
  have hst : ∀ c ∈ name, c ∉ ['*'] := fun c hc => by simpa using (h3 c hc).2.2
  unfold parseWord
  rw [if_neg hp]
  by_cases hi : num = .implicit
  · subst hi
    have e : Strings.split (Term.mk .implicit name).text ['*'] = [name] := by
      have := Strings.split_word ['*'] name [] h1 hst (by simp)
      simpa [Strings.split_nil, Term.text] using this
    rw [e]
    simp [Num.val]
  · have e0 : (Term.mk num name).text = num.text ++ '*' :: name := by
      cases num <;> first | exact absurd rfl hi | rfl
    have e : Strings.split (Term.mk num name).text ['*'] = [num.text, name] := by
      rw [e0, Strings.split_word ['*'] num.text _ (num_text_ne_nil num hn hi)
        (by intro c hc; simp; rintro rfl; exact num_no num '*' (by decide) (by decide) hc) (by simp),
        Strings.split_cons_delim _ _ _ (by simp)]
      have := Strings.split_word ['*'] name [] h1 hst (by simp)
      simpa [Strings.split_nil] using this
    rw [e]
    simp [atof_num num hn hi]

theorem sideWords_props (ts : List Term) (h : ∀ t ∈ ts, t.WF) :
    ∀ w ∈ sideWords ts, w ≠ [] ∧ ' ' ∉ w ∧ '=' ∉ w := by
  induction ts with
  | nil => simp [sideWords]
  | cons t ts ih =>
    have ht := term_text_props t (h t (by simp))
    have ih' := ih (fun x hx => h x (List.mem_cons_of_mem _ hx))
    cases ts with
    | nil =>
      intro w hw
      simp only [sideWords, List.mem_singleton] at hw
      subst hw; exact ⟨ht.1, ht.2.1, ht.2.2.1⟩
    | cons u us =>
      intro w hw
      simp only [sideWords, List.mem_cons] at hw
      rcases hw with rfl | rfl | hw
      · exact ⟨ht.1, ht.2.1, ht.2.2.1⟩
      · decide
      · exact ih' w (by simpa [sideWords] using hw)

theorem parseWords_side (sign : Rat) (ts : List Term) (h : ∀ t ∈ ts, t.WF) :
    parseWords sign (sideWords ts) = .ok (ts.map (fun t => (t.name, sign * t.num.val))) := by
  induction ts with
  | nil => rfl
  | cons t ts ih =>
    have ht := parseWord_term sign t (h t (by simp))
    have ih' := ih (fun x hx => h x (List.mem_cons_of_mem _ hx))
    cases ts with
    | nil => simp [sideWords, parseWords, ht]
    | cons u us =>
      simp only [sideWords, parseWords, ht, Res.bind_ok']
      rw [ih']
      simp [parseWord]

theorem sideWords_ne_nil (ts : List Term) (h : ts ≠ []) : sideWords ts ≠ [] := by
  match ts with
  | [] => exact absurd rfl h
  | [t] => simp [sideWords]
  | t :: u :: us => simp [sideWords]

theorem coefficient_of_mem (eq : Equation) (h : (eq.map Prod.fst).Nodup) (n : Str) (c : Rat) (hm : (n, c) ∈ eq) :
    coefficient eq n = c := by
  unfold coefficient
  induction eq with
  | nil => simp at hm
  | cons x eq ih =>
    simp only [List.map_cons, List.nodup_cons] at h
    rcases List.mem_cons.1 hm with rfl | hm
    · simp
    · have : x.1 ≠ n := by
        rintro rfl
        exact h.1 (List.mem_map.2 ⟨_, hm, rfl⟩)
      rw [List.find?_cons_of_neg (by simpa using this)]
      exact ih h.2 hm

theorem coefficient_of_not_mem (eq : Equation) (n : Str) (h : n ∉ eq.map Prod.fst) : coefficient eq n = 0 := by
  unfold coefficient
  have : eq.find? (fun x => x.1 = n) = none := by
    rw [List.find?_eq_none]
    intro x hx
    simp only [decide_eq_true_eq]
    rintro rfl
    exact h (List.mem_map_of_mem (f := Prod.fst) hx)
  rw [this]

theorem identical_iff (a b : List Str) : identical a b = true ↔ ∀ x, x ∈ a ↔ x ∈ b := by
  simp only [identical, contained, Bool.and_eq_true, List.all_eq_true, List.contains_iff_mem]
  constructor
  · rintro ⟨h1, h2⟩ x; exact ⟨h1 x, h2 x⟩
  · intro h; exact ⟨fun x hx => (h x).1 hx, fun x hx => (h x).2 hx⟩

theorem equal_iff (eps : Rat) (lhs rhs : Equation) :
    equal eps lhs rhs = true ↔
      (∀ n, n ∈ lhs.map Prod.fst ↔ n ∈ rhs.map Prod.fst) ∧
      (∀ n ∈ lhs.map Prod.fst, |coefficient lhs n - coefficient rhs n| ≤ eps) := by
  unfold equal
  by_cases h : identical (lhs.map Prod.fst) (rhs.map Prod.fst) = true
  · simp only [h, Bool.not_true, Bool.false_eq_true, if_false]
    rw [identical_iff] at h
    simp only [List.all_eq_true, Bool.not_eq_true', decide_eq_false_iff_not, not_lt, gt_iff_lt]
    exact ⟨fun h2 => ⟨h, h2⟩, fun h2 => h2.2⟩
  · rw [if_pos (by simpa using h)]
    constructor
    · intro h'; exact absurd h' (by simp)
    · intro h'; exact absurd ((identical_iff _ _).2 h'.1) h

end Verif.ReactionEquation
