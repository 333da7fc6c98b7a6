import Verif.Spec.Outputter
import Mathlib.Data.List.Forall2
import Mathlib.Tactic.SplitIfs

/-!
# C89: tables of the progress of a calculation
-/

namespace Verif.Outputter

theorem colwidth_eq (width : Nat) (s : Str) : colwidth width s = max width (s.length + 4) := by
  rw [colwidth]; split_ifs <;> omega

theorem length_padded {w : Nat} {s : Str} (h : s.length ≤ w) : (padded w s).length = w := by
  simp [padded]; omega

theorem cells_of_plain (o : Options) : ∀ (entries values : List Str), o.separator ∉ values →
    List.Forall₂ (Fits o.width) entries values → ∃ line, cells o entries values = .ok line ∧
      line.map List.length = entries.map (colwidth o.width) ∧ Shows line values := by
  intro entries values hs h
  induction h with
  | nil => exact ⟨[], rfl, rfl, .nil⟩
  | @cons e v es vs hf _ ih =>
    simp only [List.mem_cons, not_or] at hs
    obtain ⟨line, h1, h2, h3⟩ := ih hs.2
    refine ⟨padded (colwidth o.width e) v :: line, ?_, ?_, ?_⟩
    · rw [cells, if_neg (Ne.symm hs.1)]
      simp only [h1, Res.bind_ok']
    · rw [List.map_cons, List.map_cons, h2, length_padded]
      rw [colwidth_eq]; exact hf
    · exact .cons ⟨_, rfl⟩ h3

theorem header_widths (o : Options) (entries : List Str) (hs : o.separator ∉ entries) :
    (bars o entries).map List.length = entries.map (colwidth o.width) ∧
    (names o entries).map List.length = entries.map (colwidth o.width) := by
  refine ⟨?_, ?_⟩
  · rw [bars, List.map_map]
    apply List.map_congr_left
    intro e he
    have : e ≠ o.separator := fun h => hs (h ▸ he)
    simp [this, barstr]
  · rw [names, List.map_map]
    apply List.map_congr_left
    intro e he
    have : e ≠ o.separator := fun h => hs (h ▸ he)
    simp only [Function.comp, if_neg this]
    apply length_padded
    rw [colwidth_eq]; omega

/-- **C89, part that holds** without separators: for all entries and values that fit, the line of the
state is aligned with the three lines of the header and shows the values. -/
theorem C89_aligned_partial (s : Outp) (ha : s.options.active = true)
    (he : s.options.separator ∉ s.entries) (hv : s.options.separator ∉ s.values)
    (hf : List.Forall₂ (Fits s.options.width) s.entries s.values) :
    ∃ line s', step s .outputState = .ok (s', false) ∧ s'.out = s.out ++ line.flatten ++ c!"\n" ∧ s'.values = [] ∧
      Aligned line (bars s.options s.entries) ∧ Aligned line (names s.options s.entries) ∧ Shows line s.values := by
  obtain ⟨line, h1, h2, h3⟩ := cells_of_plain s.options s.entries s.values hv hf
  obtain ⟨hb, hn⟩ := header_widths s.options s.entries he
  refine ⟨line, { s with out := s.out ++ line.flatten ++ c!"\n", values := [] }, ?_, rfl, rfl, ?_, ?_, h3⟩
  · rw [step, if_pos ha, if_pos hf.length_eq, h1]
    rfl
  · rw [Aligned, h2, hb]
  · rw [Aligned, h2, hn]

theorem cells_of_short (o : Options) : ∀ (entries pending values : List Str),
    (∀ e ∈ entries, e.length + 4 ≤ o.width) → values.length ≤ entries.length →
    List.Forall₂ (fun e v => (v = o.separator ↔ e = o.separator) ∧ v.length ≤ o.width) pending values →
    ∃ line, cells o entries values = .ok line ∧
      line.map List.length = pending.map (fun e => if e = o.separator then o.separator.length else o.width) ∧
      Shows line values := by
  intro entries pending values hw hl h
  induction h generalizing entries with
  | nil => exact ⟨[], by cases entries <;> rfl, rfl, .nil⟩
  | @cons e v es vs hf _ ih =>
    cases entries with
    | nil => simp at hl
    | cons x xs =>
      simp only [List.length_cons] at hl
      by_cases hvs : v = o.separator
      · obtain ⟨line, h1, h2, h3⟩ := ih (x :: xs) hw (by simp; omega)
        refine ⟨o.separator :: line, ?_, ?_, ?_⟩
        · rw [cells, if_pos hvs, h1]; rfl
        · rw [List.map_cons, List.map_cons, h2, if_pos (hf.1.1 hvs)]
        · exact .cons ⟨0, by simp [hvs]⟩ h3
      · obtain ⟨line, h1, h2, h3⟩ := ih xs (fun e he => hw e (by simp [he])) (by omega)
        have hc : colwidth o.width x = o.width := by
          have := hw x (by simp)
          rw [colwidth_eq]; omega
        refine ⟨padded (colwidth o.width x) v :: line, ?_, ?_, ?_⟩
        · rw [cells, if_neg hvs]
          simp only [h1, Res.bind_ok']
        · rw [List.map_cons, List.map_cons, h2, if_neg (fun h => hvs (hf.1.2 h)), hc, length_padded hf.2]
        · exact .cons ⟨_, rfl⟩ h3

/-- **C89, part that holds** with separators: when all entries are short, all lines are aligned. -/
theorem C89_short_partial (s : Outp) (ha : s.options.active = true)
    (hw : ∀ e ∈ s.entries, e.length + 4 ≤ s.options.width)
    (hf : List.Forall₂ (fun e v => (v = s.options.separator ↔ e = s.options.separator) ∧
      v.length ≤ s.options.width) s.entries s.values) :
    ∃ line s', step s .outputState = .ok (s', false) ∧ s'.out = s.out ++ line.flatten ++ c!"\n" ∧ s'.values = [] ∧
      Aligned line (bars s.options s.entries) ∧ Aligned line (names s.options s.entries) ∧ Shows line s.values := by
  obtain ⟨line, h1, h2, h3⟩ := cells_of_short s.options s.entries s.entries s.values hw (Nat.le_of_eq hf.length_eq.symm) hf
  refine ⟨line, { s with out := s.out ++ line.flatten ++ c!"\n", values := [] }, ?_, rfl, rfl, ?_, ?_, h3⟩
  · rw [step, if_pos ha, if_pos hf.length_eq, h1]
    rfl
  · rw [Aligned, h2, bars, List.map_map]
    apply List.map_congr_left
    intro e he
    have := hw e he
    simp only [Function.comp]
    split_ifs
    · rfl
    · simp [barstr, colwidth_eq]; omega
  · rw [Aligned, h2, names, List.map_map]
    apply List.map_congr_left
    intro e he
    have := hw e he
    simp only [Function.comp]
    split_ifs
    · rfl
    · rw [length_padded (by rw [colwidth_eq]; omega), colwidth_eq]; omega

/-- **C89 (nothing is printed while output is off).** No operations print anything or fail, unless the output is switched on. -/
theorem C89_silent (s : Outp) (ops : List Op) (hin : s.options.active = false) (hops : ∀ o, Op.setOptions o ∈ ops → o.active = false) :
    ∃ t, run s ops = .ok t ∧ t.out = s.out := by
  induction ops generalizing s with
  | nil => exact ⟨s, rfl, rfl⟩
  | cons op ops ih =>
    have one : ∃ u, step s op = .ok (u, false) ∧ u.out = s.out ∧ u.options.active = false := by
      cases op with
      | setOptions o => exact ⟨_, rfl, rfl, hops o (by simp)⟩
      | addEntry n => exact ⟨_, rfl, rfl, hin⟩
      | addEntrySeparator => exact ⟨_, rfl, rfl, hin⟩
      | addValue v => exact ⟨_, rfl, rfl, hin⟩
      | addValueSeparator => exact ⟨_, rfl, rfl, hin⟩
      | outputHeader => exact ⟨s, by simp [step, hin], rfl, hin⟩
      | outputState => exact ⟨s, by simp [step, hin], rfl, hin⟩
      | outputMessage m => exact ⟨s, by simp [step, hin], rfl, hin⟩
    obtain ⟨u, h1, h2, h3⟩ := one
    obtain ⟨t, h4, h5⟩ := ih u h3 fun o ho => hops o (by simp [ho])
    exact ⟨t, by rw [run, h1]; exact h4, h5.trans h2⟩

/-- **C89 (messages and header).** While output is on, a message is printed on a line of its own, and the header as bars, names and bars; they
change nothing else. -/
theorem C89_lines (s : Outp) (ha : s.options.active = true) (m : Str) :
    step s (.outputMessage m) = .ok ({ s with out := s.out ++ m ++ c!"\n" }, false) ∧
    step s .outputHeader = .ok ({ s with out := s.out ++ (bars s.options s.entries).flatten ++ c!"\n" ++ (names s.options s.entries).flatten ++ c!"\n" ++
      (bars s.options s.entries).flatten ++ c!"\n" }, false) ∧ Aligned (bars s.options s.entries) (names s.options s.entries) := by
  refine ⟨by simp [step, ha], by simp [step, ha], ?_⟩
  rw [Aligned, bars, names, List.map_map, List.map_map]
  apply List.map_congr_left
  intro e _
  simp only [Function.comp]
  split_ifs
  · rfl
  · rw [length_padded (by rw [colwidth_eq]; omega), barstr, List.length_replicate]

example : ∃ t, run ⟨[c!"x"], [], ⟨false, 10, c!" | "⟩, []⟩ [.outputHeader, .addValue c!"1.0", .outputState, .outputMessage c!"done"] = .ok t ∧ t.out = [] :=
  C89_silent _ _ rfl (by simp)

/-- **C89 fails** with separators: for every name longer than the width, the column after a separator is
narrower in the line of values than in the header. -/
theorem C89_separator_wrong (o : Options) (name v : Str) (hsl : o.separator.length + 4 ≤ o.width)
    (hn : o.width < name.length + 4) (hne : name ≠ o.separator) (hv : v ≠ o.separator) (hvl : v.length ≤ o.width) :
    ∃ line, cells o [o.separator, name] [o.separator, v] = .ok line ∧ Shows line [o.separator, v] ∧
      ¬ Aligned line (names o [o.separator, name]) := by
  refine ⟨[o.separator, padded (colwidth o.width o.separator) v], ?_, ?_, ?_⟩
  · rw [cells, if_pos rfl, cells, if_neg hv]
    rfl
  · exact .cons ⟨0, by simp⟩ (.cons ⟨_, rfl⟩ .nil)
  · have h1 : (padded (colwidth o.width o.separator) v).length = o.width := by
      rw [length_padded (by rw [colwidth_eq]; omega), colwidth_eq]; omega
    have h2 : (padded (colwidth o.width name) name).length = name.length + 4 := by
      rw [length_padded (by rw [colwidth_eq]; omega), colwidth_eq]; omega
    simp [Aligned, names, hne, h1, h2]
    omega

/-- **C89 fails** when the outputter is not active: the values are kept, and the first line after it is
activated is refused. Nothing removes the values then: every later line is refused as well. -/
theorem C89_inactive_wrong (s : Outp) (v : Str) (o : Options) (hin : s.options.active = false)
    (ho : o.active = true) (hlen : s.entries.length ≤ s.values.length) (rest : List (List Str)) :
    ∃ s', run s [.addValue v, .outputState, .setOptions o] = .ok s' ∧
      ∀ t, run s' ((rest.map fun l => l.map Op.addValue ++ [.outputState]).flatten) = .ok t →
        step t .outputState = .ok (t, true) ∧ t.out = s.out := by
  refine ⟨{ s with values := s.values ++ [v], options := o }, ?_, ?_⟩
  · simp [run, step, hin]
  · have adds : ∀ (l : List Str) (u : Outp), run u (l.map Op.addValue) = .ok { u with values := u.values ++ l } := by
      intro l
      induction l with
      | nil => intro u; simp [run]
      | cons a l ih => intro u; simp [run, step, ih]
    have app : ∀ (a b : List Op) (u : Outp), run u (a ++ b) = (run u a).bind fun w => run w b := by
      intro a
      induction a with
      | nil => intro b u; rfl
      | cons x a ih =>
        intro b u
        simp only [List.cons_append, run]
        cases step u x with
        | ok r => simp only [Res.bind_ok']; exact ih b r.1
        | throw => rfl
        | ub => rfl
    have key : ∀ (rest : List (List Str)) (u : Outp), u.options.active = true → u.entries.length < u.values.length →
        ∀ t, run u ((rest.map fun l => l.map Op.addValue ++ [.outputState]).flatten) = .ok t →
          step t .outputState = .ok (t, true) ∧ t.out = u.out := by
      intro rest
      induction rest with
      | nil =>
        intro u hu hl t ht
        simp only [List.map_nil, List.flatten_nil, run] at ht
        injection ht with ht
        subst ht
        refine ⟨?_, rfl⟩
        rw [step, if_pos hu, if_neg (by omega)]
      | cons l rest ih =>
        intro u hu hl t ht
        rw [List.map_cons, List.flatten_cons, app, app, adds, Res.bind_ok'] at ht
        have hst : run { u with values := u.values ++ l } [.outputState] = .ok { u with values := u.values ++ l } := by
          simp only [run, step]
          rw [if_pos hu, if_neg (by simp; omega)]
          rfl
        rw [hst, Res.bind_ok'] at ht
        have := ih { u with values := u.values ++ l } hu (by simp; omega) t ht
        exact this
    intro t ht
    exact key rest { s with values := s.values ++ [v], options := o } ho (by simp; omega) t ht

/-- The default options, and a table with two columns and a separator. -/
def defaults : Options := ⟨true, 15, c!"|"⟩

example : ∃ s line, run ⟨[], [], defaults, []⟩ [.addEntry c!"x", .addEntrySeparator, .addEntry c!"y", .addValue c!"1.5",
      .addValueSeparator, .addValue c!"2"] = .ok s ∧ cells s.options s.entries s.values = .ok line ∧
    Aligned line (names s.options s.entries) := ⟨_, _, rfl, rfl, by unfold Aligned; decide⟩

/-- A separator before a long name. -/
example : ∃ line, cells defaults [c!"|", c!"temperature (K)"] [c!"|", c!"298.15"] = .ok line ∧
    ¬ Aligned line (names defaults [c!"|", c!"temperature (K)"]) := ⟨_, rfl, by unfold Aligned; decide⟩

end Verif.Outputter
