import Verif.Spec.Param

namespace Verif.Param

variable {V : Type u}

/-- State after a program given last statement first. -/
def execRev : List (Op V) → World V
  | [] => ⟨[], []⟩
  | op :: hist => step (execRev hist) op

theorem exec_eq_execRev (ops : List (Op V)) : exec ops = execRev ops.reverse := by
  unfold exec
  suffices ∀ (hist : List (Op V)), ops.foldl step (execRev hist) = execRev (ops.reverse ++ hist) by
    have h := this []
    simp only [List.append_nil] at h
    exact h
  induction ops with
  | nil => intro hist; rfl
  | cons op ops ih =>
    intro hist
    simp only [List.foldl_cons, List.reverse_cons, List.append_assoc, List.singleton_append]
    exact ih (op :: hist)

/-- The heap state represents the history. -/
structure Rep (hist : List (Op V)) (w : World V) : Prop where
  len : w.ptr.length = count hist
  range : ∀ (h : Nat) (hh : h < w.ptr.length), w.ptr[h] < w.cells.length
  grp : ∀ (h h' : Nat) (hh : h < w.ptr.length) (hh' : h' < w.ptr.length),
    w.ptr[h] = w.ptr[h'] ↔ group hist h = group hist h'
  grplt : ∀ (h : Nat), h < w.ptr.length → group hist h ≤ hist.length
  rd : ∀ h, w.get? h = read hist h

theorem get?_of_lt {w : World V} {h : Nat} (hh : h < w.ptr.length) : w.get? h = w.cells[w.ptr[h]]? := by
  simp [World.get?, List.getElem?_eq_getElem hh]

theorem get?_of_ge {w : World V} {h : Nat} (hh : ¬ h < w.ptr.length) : w.get? h = none := by
  simp [World.get?, List.getElem?_eq_none (Nat.not_lt.1 hh)]

/-- Updating the contents of an object changes exactly the objects of its group. -/
theorem Rep.update {hist : List (Op V)} {w : World V} (hr : Rep hist w) (h0 : Nat) (g : Impl V → Impl V) (h : Nat) :
    (w.update h0 g).get? h = if Shares hist h0 h then (read hist h).map g else read hist h := by
  have hlen := hr.len
  by_cases hh0 : h0 < w.ptr.length
  · have hupd : w.update h0 g = { w with cells := w.cells.modify w.ptr[h0] g } := by
      simp [World.update, List.getElem?_eq_getElem hh0]
    rw [hupd]
    by_cases hh : h < w.ptr.length
    · have h1 : ({ w with cells := w.cells.modify w.ptr[h0] g } : World V).get? h =
          (w.cells.modify w.ptr[h0] g)[w.ptr[h]]? := by
        simp [World.get?, List.getElem?_eq_getElem hh]
      rw [h1, List.getElem?_modify, ← hr.rd h, get?_of_lt hh]
      have hiff := hr.grp h0 h hh0 hh
      by_cases hs : w.ptr[h0] = w.ptr[h]
      · rw [if_pos (show Shares hist h0 h from ⟨hlen ▸ hh0, (hiff.1 hs).symm⟩)]
        simp [hs]
      · rw [if_neg (show ¬ Shares hist h0 h from fun hsh => hs (hiff.2 hsh.2.symm))]
        simp [hs]
    · have h1 : ({ w with cells := w.cells.modify w.ptr[h0] g } : World V).get? h = none :=
        get?_of_ge (w := { w with cells := w.cells.modify w.ptr[h0] g }) hh
      have h2 : read hist h = none := by rw [← hr.rd, get?_of_ge hh]
      rw [h1, h2]; simp
  · have hupd : w.update h0 g = w := by
      simp [World.update, List.getElem?_eq_none (Nat.not_lt.1 hh0)]
    rw [hupd, if_neg (show ¬ Shares hist h0 h from fun hs => hh0 (hlen ▸ hs.1)), hr.rd]

theorem update_ptr (w : World V) (h0 : Nat) (g : Impl V → Impl V) : (w.update h0 g).ptr = w.ptr := by
  unfold World.update; split <;> rfl

theorem update_cells_length (w : World V) (h0 : Nat) (g : Impl V → Impl V) :
    (w.update h0 g).cells.length = w.cells.length := by
  unfold World.update; split <;> simp

/-- A statement that only updates contents preserves the representation. -/
theorem Rep.of_update {hist : List (Op V)} {w : World V} (hr : Rep hist w) (op : Op V) (h0 : Nat) (g : Impl V → Impl V)
    (hc : count (op :: hist) = count hist) (hg : ∀ h, group (op :: hist) h = group hist h)
    (hrd : ∀ h, read (op :: hist) h = if Shares hist h0 h then (read hist h).map g else read hist h) :
    Rep (op :: hist) (w.update h0 g) := by
  refine ⟨?_, ?_, ?_, ?_, ?_⟩
  · rw [update_ptr, hc]; exact hr.len
  · intro h hh
    have hp := update_ptr w h0 g
    simp only [hp] at hh ⊢
    rw [update_cells_length]
    exact hr.range h hh
  · intro h h' hh hh'
    have hp := update_ptr w h0 g
    simp only [hp] at hh hh' ⊢
    rw [hg, hg]
    exact hr.grp h h' hh hh'
  · intro h hh
    rw [update_ptr] at hh
    rw [hg]
    have := hr.grplt h hh
    simp only [List.length_cons]; omega
  · intro h; rw [hr.update, hrd]

/-- Allocating a new object. -/
theorem Rep.of_alloc {hist : List (Op V)} {w : World V} (hr : Rep hist w) (op : Op V) (d : Impl V)
    (hc : count (op :: hist) = count hist + 1)
    (hg : ∀ h, group (op :: hist) h = if h = count hist then hist.length + 1 else group hist h)
    (hrd : ∀ h, read (op :: hist) h = if h = count hist then some d else read hist h) :
    Rep (op :: hist) { cells := w.cells ++ [d], ptr := w.ptr ++ [w.cells.length] } := by
  have hlen := hr.len
  refine ⟨?_, ?_, ?_, ?_, ?_⟩
  · simp [hc, hlen]
  · intro h hh
    simp only [List.length_append, List.length_singleton] at hh ⊢
    by_cases hl : h < w.ptr.length
    · rw [List.getElem_append_left hl]
      have := hr.range h hl; omega
    · have : h = w.ptr.length := by omega
      subst this; simp
  · intro h h' hh hh'
    simp only [List.length_append, List.length_singleton] at hh hh'
    rw [hg, hg]
    by_cases hl : h < w.ptr.length
    · by_cases hl' : h' < w.ptr.length
      · rw [List.getElem_append_left hl, List.getElem_append_left hl', if_neg (by omega), if_neg (by omega)]
        exact hr.grp h h' hl hl'
      · have : h' = w.ptr.length := by omega
        subst this
        rw [List.getElem_append_left hl, if_neg (by omega), if_pos (by omega)]
        have h1 := hr.range h hl
        have h2 := hr.grplt h hl
        simp only [List.getElem_concat_length]
        constructor <;> intro <;> omega
    · have : h = w.ptr.length := by omega
      subst this
      by_cases hl' : h' < w.ptr.length
      · rw [List.getElem_append_left hl', if_pos (by omega), if_neg (by omega)]
        have h1 := hr.range h' hl'
        have h2 := hr.grplt h' hl'
        simp only [List.getElem_concat_length]
        constructor <;> intro <;> omega
      · have : h' = w.ptr.length := by omega
        subst this; simp
  · intro h hh
    simp only [List.length_append, List.length_singleton] at hh
    rw [hg]
    split
    · simp
    · have := hr.grplt h (by omega)
      simp only [List.length_cons]; omega
  · intro h
    rw [hrd]
    by_cases hl : h < w.ptr.length
    · rw [if_neg (by omega), ← hr.rd, get?_of_lt hl,
        get?_of_lt (w := { cells := w.cells ++ [d], ptr := w.ptr ++ [w.cells.length] }) (by simp; omega)]
      have := hr.range h hl
      simp only [List.getElem_append_left hl]
      rw [List.getElem?_append_left this]
    · by_cases he : h = w.ptr.length
      · subst he
        rw [if_pos hlen, get?_of_lt (w := { cells := w.cells ++ [d], ptr := w.ptr ++ [w.cells.length] }) (by simp)]
        simp
      · rw [if_neg (by omega), ← hr.rd, get?_of_ge hl, get?_of_ge]
        simp only [List.length_append, List.length_singleton]; omega

/-- A statement that does nothing. -/
theorem Rep.of_skip {hist : List (Op V)} {w : World V} (hr : Rep hist w) (op : Op V)
    (hc : count (op :: hist) = count hist) (hg : ∀ h, h < count hist → group (op :: hist) h = group hist h)
    (hrd : ∀ h, read (op :: hist) h = read hist h) : Rep (op :: hist) w := by
  have hlen := hr.len
  refine ⟨by rw [hc]; exact hr.len, hr.range, ?_, ?_, fun h => by rw [hrd]; exact hr.rd h⟩
  · intro h h' hh hh'
    rw [hg h (by omega), hg h' (by omega)]; exact hr.grp h h' hh hh'
  · intro h hh
    rw [hg h (by omega)]
    have := hr.grplt h hh
    simp only [List.length_cons]; omega

theorem rep_execRev (hist : List (Op V)) : Rep hist (execRev hist) := by
  induction hist with
  | nil =>
    refine ⟨rfl, ?_, ?_, ?_, ?_⟩
    · intro h hh; simp [execRev] at hh
    · intro h h' hh; simp [execRev] at hh
    · intro h hh; simp [execRev] at hh
    · intro h; simp [execRev, World.get?, read]
  | cons op hist ih =>
    simp only [execRev]
    generalize execRev hist = w at ih
    have hlen := ih.len
    have hnone : ∀ h, ¬ h < count hist → read hist h = none := by
      intro h hh; rw [← ih.rd, get?_of_ge]; omega
    cases op with
    | new d => exact ih.of_alloc _ d rfl (fun _ => rfl) (fun _ => rfl)
    | copy h0 =>
      by_cases hl : h0 < w.ptr.length
      · have hstep : step w (.copy h0) = { w with ptr := w.ptr ++ [w.ptr[h0]] } := by
          simp [step, List.getElem?_eq_getElem hl]
        have hl' : h0 < count hist := by omega
        rw [hstep]
        -- the pointer of object `h` after the copy is the pointer of object `src h` before
        have hsrc : ∀ h (hh : h < (w.ptr ++ [w.ptr[h0]]).length),
            ∃ (s : Nat) (hs : s < w.ptr.length), (w.ptr ++ [w.ptr[h0]])[h] = w.ptr[s] ∧
              group (.copy h0 :: hist) h = group hist s ∧ read (.copy h0 :: hist) h = read hist s := by
          intro h hh
          simp only [List.length_append, List.length_singleton] at hh
          by_cases hhl : h < w.ptr.length
          · refine ⟨h, hhl, List.getElem_append_left hhl, ?_, ?_⟩
            · simp only [group]; rw [if_neg (by omega)]
            · simp only [read]; rw [if_neg (by omega)]
          · have : h = w.ptr.length := by omega
            subst this
            refine ⟨h0, hl, by simp, ?_, ?_⟩
            · simp only [group]; rw [if_pos hlen]
            · simp only [read]; rw [if_pos hlen]
        refine ⟨?_, ?_, ?_, ?_, ?_⟩
        · simp only [count, List.length_append, List.length_singleton]
          rw [if_pos hl']; omega
        · intro h hh
          obtain ⟨s, hs, e1, _⟩ := hsrc h hh
          simp only [e1]; exact ih.range s hs
        · intro h h' hh hh'
          obtain ⟨s, hs, e1, e2, _⟩ := hsrc h hh
          obtain ⟨s', hs', e1', e2', _⟩ := hsrc h' hh'
          simp only [e1, e1', e2, e2']
          exact ih.grp s s' hs hs'
        · intro h hh
          obtain ⟨s, hs, _, e2, _⟩ := hsrc h hh
          rw [e2]
          have := ih.grplt s hs
          simp only [List.length_cons]; omega
        · intro h
          by_cases hh : h < (w.ptr ++ [w.ptr[h0]]).length
          · obtain ⟨s, hs, e1, _, e3⟩ := hsrc h hh
            rw [e3, ← ih.rd, get?_of_lt hs, get?_of_lt (w := { w with ptr := w.ptr ++ [w.ptr[h0]] }) hh]
            simp only [e1]
          · rw [get?_of_ge (w := { w with ptr := w.ptr ++ [w.ptr[h0]] }) hh]
            simp only [List.length_append, List.length_singleton] at hh
            simp only [read]
            rw [if_neg (by omega), hnone h (by omega)]
      · have hstep : step w (.copy h0) = w := by
          simp [step, List.getElem?_eq_none (Nat.not_lt.1 hl)]
        rw [hstep]
        refine ih.of_skip _ ?_ ?_ ?_
        · simp only [count]; rw [if_neg (by omega)]
        · intro h hh
          simp only [group]
          rw [if_neg (by omega)]
        · intro h
          simp only [read]
          split
          · rw [hnone h0 (by omega), hnone h (by omega)]
          · rfl
    | rebind h0 h1 =>
      by_cases hl : h1 < w.ptr.length
      · have hstep : step w (.rebind h0 h1) = { w with ptr := w.ptr.set h0 w.ptr[h1] } := by
          simp [step, List.getElem?_eq_getElem hl]
        have hl' : h1 < count hist := by omega
        rw [hstep]
        have hsrc : ∀ h (hh : h < (w.ptr.set h0 w.ptr[h1]).length),
            ∃ (s : Nat) (hs : s < w.ptr.length), (w.ptr.set h0 w.ptr[h1])[h] = w.ptr[s] ∧
              group (.rebind h0 h1 :: hist) h = group hist s ∧ read (.rebind h0 h1 :: hist) h = read hist s := by
          intro h hh
          have hh0 : h < w.ptr.length := by simpa using hh
          by_cases he : h = h0
          · subst he
            refine ⟨h1, hl, by simp, ?_, ?_⟩
            · simp only [group]; rw [if_pos ⟨trivial, hl'⟩]
            · simp only [read]; rw [if_pos ⟨trivial, by omega, hl'⟩]
          · refine ⟨h, hh0, ?_, ?_, ?_⟩
            · rw [List.getElem_set, if_neg (fun h => he h.symm)]
            · simp only [group]; rw [if_neg (fun h => he h.1)]
            · simp only [read]; rw [if_neg (fun h => he h.1)]
        refine ⟨?_, ?_, ?_, ?_, ?_⟩
        · simp only [count, List.length_set]; exact hlen
        · intro h hh
          obtain ⟨s, hs, e1, _⟩ := hsrc h hh
          simp only [e1]; exact ih.range s hs
        · intro h h' hh hh'
          obtain ⟨s, hs, e1, e2, _⟩ := hsrc h hh
          obtain ⟨s', hs', e1', e2', _⟩ := hsrc h' hh'
          simp only [e1, e1', e2, e2']
          exact ih.grp s s' hs hs'
        · intro h hh
          obtain ⟨s, hs, _, e2, _⟩ := hsrc h hh
          rw [e2]
          have := ih.grplt s hs
          simp only [List.length_cons]; omega
        · intro h
          by_cases hh : h < (w.ptr.set h0 w.ptr[h1]).length
          · obtain ⟨s, hs, e1, _, e3⟩ := hsrc h hh
            rw [e3, ← ih.rd, get?_of_lt hs, get?_of_lt (w := { w with ptr := w.ptr.set h0 w.ptr[h1] }) hh]
            simp only [e1]
          · rw [get?_of_ge (w := { w with ptr := w.ptr.set h0 w.ptr[h1] }) hh]
            simp only [List.length_set] at hh
            simp only [read]
            rw [if_neg (by omega), hnone h (by omega)]
      · have hstep : step w (.rebind h0 h1) = w := by
          simp [step, List.getElem?_eq_none (Nat.not_lt.1 hl)]
        rw [hstep]
        refine ih.of_skip _ rfl ?_ ?_
        · intro h hh
          simp only [group]; rw [if_neg (by omega)]
        · intro h
          simp only [read]; rw [if_neg (by omega)]
    | clone h0 =>
      by_cases hl : h0 < w.ptr.length
      · have hlt : w.ptr[h0] < w.cells.length := ih.range h0 hl
        have hget : w.get? h0 = some w.cells[w.ptr[h0]] := by
          rw [get?_of_lt hl, List.getElem?_eq_getElem hlt]
        have hstep : step w (.clone h0) =
            { cells := w.cells ++ [w.cells[w.ptr[h0]]], ptr := w.ptr ++ [w.cells.length] } := by
          simp [step, hget]
        rw [hstep]
        refine ih.of_alloc _ _ ?_ (fun _ => rfl) ?_
        · simp only [count]; rw [if_pos (by omega)]
        · intro h
          simp only [read]
          rw [← ih.rd h0, hget]
      · have hget : w.get? h0 = none := get?_of_ge hl
        have hstep : step w (.clone h0) = w := by simp [step, hget]
        rw [hstep]
        refine ih.of_skip _ ?_ ?_ ?_
        · simp only [count]; rw [if_neg (by omega)]
        · intro h hh
          simp only [group]; rw [if_neg (by omega)]
        · intro h
          simp only [read]
          split
          · rw [hnone h0 (by omega), hnone h (by omega)]
          · rfl
    | assign h0 h1 =>
      by_cases hl : h1 < w.ptr.length
      · have hlt : w.ptr[h1] < w.cells.length := ih.range h1 hl
        have hget : w.get? h1 = some w.cells[w.ptr[h1]] := by
          rw [get?_of_lt hl, List.getElem?_eq_getElem hlt]
        have hstep : step w (.assign h0 h1) = w.update h0 (fun _ => w.cells[w.ptr[h1]]) := by
          simp [step, hget]
        rw [hstep]
        refine ih.of_update _ h0 _ rfl (fun _ => rfl) ?_
        intro h
        simp only [read]
        by_cases hs : Shares hist h0 h
        · rw [if_pos hs]
          by_cases hh : h < w.ptr.length
          · rw [if_pos ⟨hs, by omega, by omega⟩, ← ih.rd h1, hget, ← ih.rd h, get?_of_lt hh,
              List.getElem?_eq_getElem (ih.range h hh)]
            rfl
          · rw [if_neg (by omega), hnone h (by omega)]; rfl
        · rw [if_neg hs, if_neg (fun h => hs h.1)]
      · have hget : w.get? h1 = none := get?_of_ge hl
        have hstep : step w (.assign h0 h1) = w := by simp [step, hget]
        rw [hstep]
        refine ih.of_skip _ rfl (fun _ _ => rfl) ?_
        intro h
        simp only [read]; rw [if_neg (by omega)]
    | setValue h0 v => exact ih.of_update _ h0 _ rfl (fun _ => rfl) (fun _ => rfl)
    | setId h0 v => exact ih.of_update _ h0 _ rfl (fun _ => rfl) (fun _ => rfl)
    | setLower h0 v => exact ih.of_update _ h0 _ rfl (fun _ => rfl) (fun _ => rfl)
    | setUpper h0 v => exact ih.of_update _ h0 _ rfl (fun _ => rfl) (fun _ => rfl)
    | setConst h0 v => exact ih.of_update _ h0 _ rfl (fun _ => rfl) (fun _ => rfl)

end Verif.Param
