import Verif.Model.Strings
import Verif.Spec.Strings
import Mathlib.Data.List.Induction

namespace Verif.Strings

/-! ### trim -/

theorem isSpace_iff (c : Char) : isSpace c = true ↔ c ∈ whiteChars := by
  simp [isSpace, whiteChars, or_assoc]

theorem dropWhile_split (p : Char → Bool) (s : Str) :
    ∃ a, s = a ++ s.dropWhile p ∧ (∀ c ∈ a, p c = true) ∧ (∀ c ∈ (s.dropWhile p).head?, p c = false) := by
  refine ⟨s.takeWhile p, (List.takeWhile_append_dropWhile).symm, fun c hc => ?_, ?_⟩
  · exact List.all_eq_true.1 (List.all_takeWhile (p := p) (l := s)) c hc
  · intro c hc
    induction s with
    | nil => simp at hc
    | cons x xs ih =>
      simp only [List.dropWhile] at hc
      cases hx : p x with
      | true => rw [hx] at hc; exact ih hc
      | false => rw [hx] at hc; simp at hc; subst hc; exact hx

theorem trimleft_spec (s : Str) : ∃ a, s = a ++ trimleft s ∧ (∀ c ∈ a, isSpace c = true) ∧
    (∀ c ∈ (trimleft s).head?, isSpace c = false) := dropWhile_split isSpace s

theorem trimright_spec (s : Str) : ∃ b, s = trimright s ++ b ∧ (∀ c ∈ b, isSpace c = true) ∧
    (∀ c ∈ (trimright s).getLast?, isSpace c = false) := by
  obtain ⟨a, h1, h2, h3⟩ := dropWhile_split isSpace s.reverse
  refine ⟨a.reverse, ?_, ?_, ?_⟩
  · have := congrArg List.reverse h1
    simpa [trimright] using this
  · intro c hc; exact h2 c (by simpa using hc)
  · intro c hc
    apply h3 c
    simpa [trimright, List.getLast?_reverse] using hc

/-! ### makeunique -/

theorem repeated_append (s : Str) (a b : Nat) : repeated s (a + b) = repeated s a ++ repeated s b := by
  induction b with
  | zero => simp [repeated]
  | succ b ih => rw [← Nat.add_assoc]; simp [repeated, ih, List.append_assoc]

theorem repeated_comm (s : Str) (a b : Nat) : repeated s a ++ repeated s b = repeated s b ++ repeated s a := by
  rw [← repeated_append, ← repeated_append, Nat.add_comm]

theorem repeated_length (s : Str) (a : Nat) : (repeated s a).length = a * s.length := by
  induction a with
  | zero => simp [repeated]
  | succ a ih => simp [repeated, ih, Nat.succ_mul]

/-- The words already processed extend the input words; `uniqueWord` only appends suffixes. -/
theorem uniqueWord_extends (suffix : Str) (prev : List Str) (w : Str) :
    ∃ k, uniqueWord suffix prev w = w ++ repeated suffix k := by
  suffices ∀ k, ∃ k', uniqueWord suffix prev (w ++ repeated suffix k) = w ++ repeated suffix k' by
    simpa [repeated] using this 0
  induction prev with
  | nil => intro k; exact ⟨k, rfl⟩
  | cons x xs ih =>
    intro k
    simp only [uniqueWord, List.foldl_cons] at ih ⊢
    split
    · obtain ⟨k', h⟩ := ih (k + 1)
      exact ⟨k', by rw [← h]; simp [repeated, List.append_assoc]⟩
    · exact ih k

theorem makeunique_snoc (ws : List Str) (w suffix : Str) :
    makeunique (ws ++ [w]) suffix = makeunique ws suffix ++ [uniqueWord suffix (makeunique ws suffix) w] := by
  simp [makeunique, List.foldl_append]

theorem makeunique_length (ws : List Str) (suffix : Str) : (makeunique ws suffix).length = ws.length := by
  induction ws using List.reverseRecOn with
  | nil => rfl
  | append_singleton ws w ih => rw [makeunique_snoc]; simp [ih]

theorem Clean.eq_of_append {ws : List Str} {s : Str} (hc : Clean ws s) {x y : Str} (hx : x ∈ ws) (hy : y ∈ ws)
    {a b : Nat} (h : x ++ repeated s a = y ++ repeated s b) : x = y := by
  rcases Nat.le_total a b with hab | hab
  · obtain ⟨d, rfl⟩ := Nat.exists_eq_add_of_le hab
    rw [Nat.add_comm, repeated_append, ← List.append_assoc, List.append_cancel_right_eq] at h
    exact hc.2 x hx y hy d h
  · obtain ⟨d, rfl⟩ := Nat.exists_eq_add_of_le hab
    rw [Nat.add_comm, repeated_append, ← List.append_assoc, List.append_cancel_right_eq] at h
    exact (hc.2 y hy x hx d h.symm).symm

theorem Clean.rep_inj {s : Str} (hs : s ≠ []) {a b : Nat} {x : Str}
    (h : x ++ repeated s a = x ++ repeated s b) : a = b := by
  have h1 := congrArg List.length h
  simp only [List.length_append, repeated_length] at h1
  have : 0 < s.length := List.length_pos_iff.2 hs
  exact Nat.eq_of_mul_eq_mul_right this (by omega)

theorem Clean.mono {ws ws' : List Str} {s : Str} (hc : Clean ws s) (h : ∀ x ∈ ws', x ∈ ws) : Clean ws' s :=
  ⟨hc.1, fun x hx y hy k hk => hc.2 x (h x hx) y (h y hy) k hk⟩

theorem uniqueWord_snoc (suffix : Str) (prev : List Str) (x w : Str) :
    uniqueWord suffix (prev ++ [x]) w =
      if uniqueWord suffix prev w == x then uniqueWord suffix prev w ++ suffix else uniqueWord suffix prev w := by
  simp [uniqueWord, List.foldl_append]

theorem uniqueWord_clean (s : Str) (ws : List Str) :
    ∀ w, Clean (w :: ws) s → uniqueWord s (makeunique ws s) w = w ++ repeated s (ws.count w) := by
  induction ws using List.reverseRecOn with
  | nil => intro w _; simp [makeunique, uniqueWord, repeated]
  | append_singleton ws x ih =>
    intro w hc
    have h1 := ih w (hc.mono (by intro y hy; simp only [List.mem_cons, List.mem_append] at hy ⊢; tauto))
    have h2 := ih x (hc.mono (by intro y hy; simp only [List.mem_cons, List.mem_append, List.mem_singleton] at hy ⊢; tauto))
    rw [makeunique_snoc, uniqueWord_snoc, h1, h2, List.count_append]
    by_cases hxw : x = w
    · subst hxw
      simp [repeated, List.append_assoc]
    · have hne : ¬ w ++ repeated s (ws.count w) = x ++ repeated s (ws.count x) := by
        intro h
        exact hxw (hc.eq_of_append (by simp) (by simp) h).symm
      have h0 : List.count w [x] = 0 := by
        rw [List.count_eq_zero]; simp; exact fun h => hxw h.symm
      rw [h0]
      simp [hne]

theorem makeunique_getElem (s : Str) (ws : List Str) (hc : Clean ws s) (i : Nat) (hi : i < ws.length) :
    (makeunique ws s)[i]'(by rw [makeunique_length]; exact hi) = ws[i] ++ repeated s ((ws.take i).count ws[i]) := by
  induction ws using List.reverseRecOn generalizing i with
  | nil => simp at hi
  | append_singleton ws x ih =>
    simp only [makeunique_snoc]
    by_cases hl : i < ws.length
    · rw [List.getElem_append_left (by rw [makeunique_length]; exact hl)]
      rw [ih (hc.mono (by intro y hy; simp [hy])) i hl]
      rw [List.getElem_append_left hl, List.take_append_of_le_length (by omega)]
    · have : i = ws.length := by simp at hi; omega
      subst this
      have := uniqueWord_clean s ws x (hc.mono (by intro y hy; simp at hy ⊢; tauto))
      rw [List.getElem_append_right (by rw [makeunique_length]; exact Nat.le_refl _)]
      simp [this]

theorem count_take_lt (ws : List Str) (i : Nat) (hi : i < ws.length) :
    (ws.take i).count ws[i] < ws.count ws[i] := by
  generalize hx : ws[i] = x
  have : ws.count x = (ws.take i).count x + (ws.drop i).count x := by
    rw [← List.count_append, List.take_append_drop]
  rw [this, List.drop_eq_getElem_cons hi, hx]
  simp

theorem makeunique_nodup (s : Str) (ws : List Str) (hc : Clean ws s) : (makeunique ws s).Nodup := by
  induction ws using List.reverseRecOn with
  | nil => simp [makeunique]
  | append_singleton ws x ih =>
    have hcw : Clean ws s := hc.mono (by intro y hy; simp [hy])
    rw [makeunique_snoc, uniqueWord_clean s ws x (hc.mono (by intro y hy; simp at hy ⊢; tauto))]
    rw [List.nodup_append]
    refine ⟨ih hcw, by simp, ?_⟩
    intro y hy z hz
    simp only [List.mem_singleton] at hz
    subst hz
    obtain ⟨i, hi, rfl⟩ := List.getElem_of_mem hy
    rw [makeunique_length] at hi
    rw [makeunique_getElem s ws hcw i hi]
    intro h
    have hx : ws[i] = x := hc.eq_of_append (by simp) (by simp) h
    subst hx
    have h1 := Clean.rep_inj hc.1 h
    have h2 := count_take_lt ws i hi
    omega

theorem uniqueWord_of_not_mem (s : Str) (prev : List Str) (w : Str) (h : w ∉ prev) : uniqueWord s prev w = w := by
  induction prev with
  | nil => rfl
  | cons x xs ih =>
    simp only [List.mem_cons, not_or] at h
    simp only [uniqueWord, List.foldl_cons] at ih ⊢
    rw [if_neg (by simpa using h.1)]
    exact ih h.2

theorem makeunique_of_nodup (s : Str) (ws : List Str) (h : ws.Nodup) : makeunique ws s = ws := by
  induction ws using List.reverseRecOn with
  | nil => rfl
  | append_singleton ws x ih =>
    rw [List.nodup_append] at h
    rw [makeunique_snoc, ih h.1, uniqueWord_of_not_mem]
    intro hx
    exact h.2.2 x hx x (by simp) rfl

theorem makeunique_extends (s : Str) (ws : List Str) (i : Nat) (hi : i < ws.length) :
    ∃ k, (makeunique ws s)[i]'(by rw [makeunique_length]; exact hi) = ws[i] ++ repeated s k := by
  induction ws using List.reverseRecOn generalizing i with
  | nil => simp at hi
  | append_singleton ws x ih =>
    simp only [makeunique_snoc]
    by_cases hl : i < ws.length
    · rw [List.getElem_append_left (by rw [makeunique_length]; exact hl), List.getElem_append_left hl]
      exact ih i hl
    · have : i = ws.length := by simp at hi; omega
      subst this
      rw [List.getElem_append_right (by rw [makeunique_length]; exact Nat.le_refl _)]
      simpa [makeunique_length] using uniqueWord_extends s (makeunique ws s) x

/-! ### split and join -/

theorem split_fields (d : Str) (s : Str) : Fields d s (split s d) := by
  induction hn : s.length using Nat.strongRecOn generalizing s with
  | _ n ih =>
    rw [split]
    have htd := List.takeWhile_append_dropWhile (p := fun c => !d.contains c) (l := s)
    have htw : ∀ c ∈ s.takeWhile (fun c => !d.contains c), c ∉ d := by
      intro c hc
      have := List.all_eq_true.1 (List.all_takeWhile (p := fun c => !d.contains c) (l := s)) c hc
      simpa using this
    obtain ⟨_, _, _, hhead⟩ := dropWhile_split (fun c => !d.contains c) s
    generalize hw : s.takeWhile (fun c => !d.contains c) = w at htd htw
    split
    · rename_i hr
      rw [hr] at htd
      simp only [List.append_nil] at htd
      subst htd
      by_cases hne : w = []
      · subst hne; simpa using Fields.none (d := d) [] (by simp)
      · simp only [ne_eq, hne, not_false_eq_true, if_true]
        simpa using Fields.word (d := d) [] w [] [] (by simp) hne htw (by simp) (Fields.none [] (by simp))
    · rename_i c rest hr
      rw [hr] at htd hhead
      have hcd : c ∈ d := by simpa using hhead c (by simp)
      have hlen : rest.length < n := by
        have := congrArg List.length htd
        simp only [List.length_append, List.length_cons] at this
        omega
      have h1 := ih rest.length hlen rest rfl
      -- prepend the delimiter
      have h2 : Fields d (c :: rest) (split rest d) := by
        generalize split rest d = ws at h1
        cases h1 with
        | none sep hsep => exact Fields.none _ (by intro x hx; rcases List.mem_cons.1 hx with rfl | hx; exacts [hcd, hsep x hx])
        | word sep w' rest' ws hsep hne hw hrest h =>
          have := Fields.word (d := d) (c :: sep) w' rest' ws
            (by intro x hx; rcases List.mem_cons.1 hx with rfl | hx; exacts [hcd, hsep x hx]) hne hw hrest h
          simpa using this
      rw [← htd]
      by_cases hne : w = []
      · subst hne; simpa using h2
      · simp only [ne_eq, hne, not_false_eq_true, if_true]
        simpa using Fields.word (d := d) [] w (c :: rest) _ (by simp) hne htw (by simpa using hcd) h2

/-- Dropping leading delimiters does not change the fields found by `split`. -/
theorem split_cons_delim (d : Str) (c : Char) (s : Str) (hc : c ∈ d) : split (c :: s) d = split s d := by
  conv_lhs => rw [split]
  have : (!d.contains c) = false := by simpa using hc
  split
  · rename_i h; rw [List.dropWhile_cons_of_neg (by simp [hc])] at h; simp at h
  · rename_i c' rest h
    rw [List.dropWhile_cons_of_neg (by simp [hc])] at h
    simp only [List.cons.injEq] at h
    rw [List.takeWhile_cons_of_neg (by simp [hc])]
    simp [h.2]

theorem split_append_delims (d sep s : Str) (hsep : ∀ c ∈ sep, c ∈ d) : split (sep ++ s) d = split s d := by
  induction sep with
  | nil => rfl
  | cons c sep ih =>
    rw [List.cons_append, split_cons_delim d c _ (hsep c (by simp))]
    exact ih (fun x hx => hsep x (List.mem_cons_of_mem _ hx))

theorem split_nil (d : Str) : split [] d = [] := by
  rw [split]; simp

theorem split_delims (d sep : Str) (hsep : ∀ c ∈ sep, c ∈ d) : split sep d = [] := by
  have := split_append_delims d sep [] hsep
  simpa [split_nil] using this

theorem takeWhile_append_of_head {p : Char → Bool} (w rest : Str) (hw : ∀ c ∈ w, p c = true)
    (hrest : ∀ c ∈ rest.head?, p c = false) :
    (w ++ rest).takeWhile p = w ∧ (w ++ rest).dropWhile p = rest := by
  induction w with
  | nil =>
    cases rest with
    | nil => simp
    | cons c rest => have := hrest c (by simp); simp [List.takeWhile, List.dropWhile, this]
  | cons x w ih =>
    have hx := hw x (by simp)
    obtain ⟨h1, h2⟩ := ih (fun c hc => hw c (List.mem_cons_of_mem _ hc))
    simp [List.takeWhile, List.dropWhile, hx, h1, h2]

theorem split_word (d w rest : Str) (hne : w ≠ []) (hw : ∀ c ∈ w, c ∉ d) (hrest : ∀ c ∈ rest.head?, c ∈ d) :
    split (w ++ rest) d = w :: split rest d := by
  obtain ⟨h1, h2⟩ := takeWhile_append_of_head (p := fun c => !d.contains c) w rest
    (by intro c hc; simpa using hw c hc) (by intro c hc; simpa using hrest c hc)
  conv_lhs => rw [split]
  rw [h1]
  split
  · rename_i h
    rw [h2] at h
    subst h
    simp [hne, split_nil]
  · rename_i c rest' h
    rw [h2] at h
    subst h
    rw [split_cons_delim d c rest' (hrest c (by simp))]
    simp [hne]

theorem fields_unique (d s : Str) (ws : List Str) (h : Fields d s ws) : split s d = ws := by
  induction h with
  | none sep hsep => exact split_delims d sep hsep
  | word sep w rest ws hsep hne hw hrest _ ih =>
    rw [List.append_assoc, split_append_delims d sep _ hsep, split_word d w rest hne hw hrest, ih]

theorem joinGo_eq (sep : Str) (i : Nat) (res : Str) (ws : List Str) (hi : i ≠ 0) :
    joinGo sep i res ws = res ++ (ws.map (fun w => sep ++ w)).flatten := by
  induction ws generalizing i res with
  | nil => simp [joinGo]
  | cons w ws ih =>
    rw [joinGo, if_neg hi, ih (i + 1) _ (by omega)]
    simp [List.append_assoc]

theorem join_cons (sep w : Str) (ws : List Str) :
    join (w :: ws) sep = w ++ (ws.map (fun w => sep ++ w)).flatten := by
  simp [join, joinGo, joinGo_eq]

theorem join_eq_intercalate (ws : List Str) (sep : Str) : join ws sep = sep.intercalate ws := by
  cases ws with
  | nil => rfl
  | cons w ws =>
    rw [join_cons]
    induction ws generalizing w with
    | nil => simp
    | cons x ws ih =>
      simp only [List.map_cons, List.flatten_cons]
      rw [List.append_assoc, ih]
      simp [List.intercalate, List.intersperse]

theorem split_join (ws : List Str) (sep d : Str) (hsep : sep ≠ []) (hsd : ∀ c ∈ sep, c ∈ d)
    (hws : ∀ w ∈ ws, w ≠ [] ∧ ∀ c ∈ w, c ∉ d) : split (join ws sep) d = ws := by
  cases ws with
  | nil => simpa [join, joinGo] using split_nil d
  | cons w ws =>
    rw [join_cons]
    induction ws generalizing w with
    | nil =>
      have := split_word d w [] (hws w (by simp)).1 (hws w (by simp)).2 (by simp)
      simpa [split_nil] using this
    | cons x ws ih =>
      simp only [List.map_cons, List.flatten_cons]
      rw [split_word d w _ (hws w (by simp)).1 (hws w (by simp)).2]
      · rw [List.append_assoc, split_append_delims d sep _ hsd, ih x (fun y hy => hws y (List.mem_cons_of_mem _ hy))]
      · intro c hc
        cases sep with
        | nil => exact absurd rfl hsep
        | cons y ys => simp at hc; subst hc; exact hsd _ (by simp)

/-! ### StringList -/

theorem findMatchingBracket_append (level : Int) (s : Str) :
    (findMatchingBracket level s).1 ++ (findMatchingBracket level s).2 = s := by
  induction s generalizing level with
  | nil => rfl
  | cons c rest ih =>
    simp only [findMatchingBracket]
    split
    · rfl
    · simp [ih]

theorem convertHelper_ne_nil (token : Char) (acc s : Str) : convertHelper token acc s ≠ [] := by
  induction hn : s.length using Nat.strongRecOn generalizing s acc with
  | _ n ih =>
    unfold convertHelper
    split
    · simp
    · rename_i c rest
      simp only [List.length_cons] at hn
      split
      · simp
      · split
        · exact ih rest.length (by omega) _ _ rfl
        · have := findMatchingBracket_length 0 rest
          exact ih _ (by omega) _ _ rfl

theorem intercalate_cons_of_ne_nil (sep a : Str) (l : List Str) (h : l ≠ []) :
    sep.intercalate (a :: l) = a ++ sep ++ sep.intercalate l := by
  cases l with
  | nil => exact absurd rfl h
  | cons b l => simp [List.intercalate, List.intersperse]

theorem convertHelper_join (token : Char) (acc s : Str) :
    [token].intercalate (convertHelper token acc s) = acc ++ s := by
  induction hn : s.length using Nat.strongRecOn generalizing s acc with
  | _ n ih =>
    unfold convertHelper
    split
    · simp
    · rename_i c rest
      simp only [List.length_cons] at hn
      split
      · rename_i hc
        subst hc
        rw [intercalate_cons_of_ne_nil _ _ _ (convertHelper_ne_nil _ _ _), ih rest.length (by omega) _ _ rfl]
        simp
      · split
        · rw [ih rest.length (by omega) _ _ rfl]; simp
        · have := findMatchingBracket_length 0 rest
          rw [ih _ (by omega) _ _ rfl]
          have h := findMatchingBracket_append 0 rest
          rw [List.append_assoc, List.cons_append, h]

/-- Skipping to the matching bracket of a balanced text. -/
theorem findMatchingBracket_balanced (sep : Char) (s : Str) : ∀ (k d : Nat), balancedFrom (d + k + 1) s = true →
    ∃ r, (findMatchingBracket (k : Int) s).2 = ')' :: r ∧ balancedFrom d r = true ∧
      (∀ e x, balancedFrom (e + k + 1) ((findMatchingBracket (k : Int) s).1 ++ ')' :: x) = balancedFrom e x) ∧
      (∀ e x, noSepFrom sep (e + k + 1) ((findMatchingBracket (k : Int) s).1 ++ ')' :: x) = noSepFrom sep e x) := by
  induction s with
  | nil => intro k d h; simp [balancedFrom] at h
  | cons c s ih =>
    intro k d h
    by_cases h1 : c = '('
    · subst h1
      have hn : nextLevel (k : Int) '(' = ((k + 1 : Nat) : Int) := by simp [nextLevel]
      have hs : balancedFrom (d + (k + 1) + 1) s = true := h
      obtain ⟨r, e1, e2, e3, e4⟩ := ih (k + 1) d hs
      have hf : findMatchingBracket (k : Int) ('(' :: s) =
          ('(' :: (findMatchingBracket ((k + 1 : Nat) : Int) s).1, (findMatchingBracket ((k + 1 : Nat) : Int) s).2) := by
        rw [findMatchingBracket, if_neg (by simp), hn]
      rw [hf]
      refine ⟨r, e1, e2, ?_, ?_⟩
      · intro e x
        exact e3 e x
      · intro e x
        exact e4 e x
    · by_cases h2 : c = ')'
      · subst h2
        cases k with
        | zero =>
          have hf : findMatchingBracket ((0 : Nat) : Int) (')' :: s) = ([], ')' :: s) := by
            rw [findMatchingBracket, if_pos]; simp [nextLevel]
          rw [hf]
          refine ⟨s, rfl, ?_, ?_, ?_⟩
          · simpa [balancedFrom] using h
          · intro e x; simp [balancedFrom]
          · intro e x; simp [noSepFrom]
        | succ k =>
          have hn : nextLevel ((k + 1 : Nat) : Int) ')' = (k : Int) := by simp [nextLevel]
          have hs : balancedFrom (d + k + 1) s = true := by
            simp only [balancedFrom] at h
            simpa [Nat.add_assoc] using h
          obtain ⟨r, e1, e2, e3, e4⟩ := ih k d hs
          have hf : findMatchingBracket ((k + 1 : Nat) : Int) (')' :: s) =
              (')' :: (findMatchingBracket (k : Int) s).1, (findMatchingBracket (k : Int) s).2) := by
            rw [findMatchingBracket, hn, if_neg (by omega)]
          rw [hf]
          refine ⟨r, e1, e2, ?_, ?_⟩
          · intro e x
            have := e3 e x
            have hne : (e + (k + 1) + 1 != 0) = true := by simp
            simp only [List.cons_append, balancedFrom, hne, Bool.true_and]
            simpa [Nat.add_assoc] using this
          · intro e x
            have := e4 e x
            simp only [List.cons_append, noSepFrom]
            simpa [Nat.add_assoc] using this
      · have hn : nextLevel (k : Int) c = (k : Int) := by simp [nextLevel, h1, h2]
        have hs : balancedFrom (d + k + 1) s = true := by simpa [balancedFrom, h1, h2] using h
        obtain ⟨r, e1, e2, e3, e4⟩ := ih k d hs
        have hf : findMatchingBracket (k : Int) (c :: s) =
            (c :: (findMatchingBracket (k : Int) s).1, (findMatchingBracket (k : Int) s).2) := by
          rw [findMatchingBracket, if_neg (by simp [h2]), hn]
        rw [hf]
        refine ⟨r, e1, e2, ?_, ?_⟩
        · intro e x
          have := e3 e x
          simpa [balancedFrom, h1, h2] using this
        · intro e x
          have := e4 e x
          simpa [noSepFrom, h1, h2] using this

theorem convertHelper_tokens (sep : Char) (h1 : sep ≠ '(') (h2 : sep ≠ ')') (acc s : Str)
    (hs : balanced s = true)
    (hacc : (∀ x, balanced (acc ++ x) = balanced x) ∧ (∀ x, noSep sep (acc ++ x) = noSep sep x)) :
    ∀ t ∈ convertHelper sep acc s, balanced t = true ∧ noSep sep t = true := by
  induction hn : s.length using Nat.strongRecOn generalizing s acc with
  | _ n ih =>
    have hself : balanced acc = true ∧ noSep sep acc = true := by
      have e1 := hacc.1 []
      have e2 := hacc.2 []
      simp only [List.append_nil] at e1 e2
      rw [e1, e2]
      exact ⟨rfl, rfl⟩
    unfold convertHelper
    split
    · intro t ht
      simp only [List.mem_singleton] at ht
      subst ht
      exact hself
    · rename_i c rest
      simp only [List.length_cons] at hn
      split
      · rename_i hc
        subst hc
        have hr : balanced rest = true := by simpa [balanced, balancedFrom, h1, h2] using hs
        intro t ht
        rcases List.mem_cons.1 ht with rfl | ht
        · exact hself
        · exact ih rest.length (by omega) [] rest hr ⟨fun _ => rfl, fun _ => rfl⟩ rfl t ht
      · rename_i hct
        split
        · rename_i hcb
          have hcb2 : c ≠ ')' := by
            rintro rfl
            simp [balanced, balancedFrom] at hs
          have hr : balanced rest = true := by simpa [balanced, balancedFrom, hcb, hcb2] using hs
          refine ih rest.length (by omega) (acc ++ [c]) rest hr ⟨fun x => ?_, fun x => ?_⟩ rfl
          · rw [List.append_assoc, hacc.1]; simp [balanced, balancedFrom, hcb, hcb2]
          · rw [List.append_assoc, hacc.2]; simp [noSep, noSepFrom, hcb, hcb2, hct]
        · rename_i hcb
          have hcb : c = '(' := by simpa using hcb
          subst hcb
          have hb : balancedFrom (0 + 0 + 1) rest = true := by simpa [balanced, balancedFrom] using hs
          obtain ⟨r, e1, e2, e3, e4⟩ := findMatchingBracket_balanced sep rest 0 0 hb
          have hlen := findMatchingBracket_length 0 rest
          have e1' : (findMatchingBracket 0 rest).2 = ')' :: r := e1
          rw [e1'] at hlen ⊢
          simp only [List.length_cons] at hlen
          unfold convertHelper
          simp only [show ¬ (')' : Char) = sep from fun h => h2 h.symm, if_false,
            show ((')' : Char) ≠ '(') from by decide, ne_eq, not_false_eq_true, if_true]
          refine ih r.length (by omega) _ r e2 ⟨fun x => ?_, fun x => ?_⟩ rfl
          · have := e3 0 x
            rw [List.append_assoc, List.append_assoc, hacc.1]
            simpa [balanced, balancedFrom] using this
          · have := e4 0 x
            rw [List.append_assoc, List.append_assoc, hacc.2]
            simpa [noSep, noSepFrom] using this

end Verif.Strings
