import Verif.Lemmas.Param

/-!
# Theorem C06: copies of a `Param` share its contents, clones do not
-/

namespace Verif.Param

variable {V : Type u}

/-- **C06.** After every program of constructions, copies, rebinding, `clone`, `assign` and setters, the contents of
every `Param` object are those of the specification: a write is seen through exactly the objects in the sharing group of
the object written, copies join the group of their source, `clone` starts a new group with equal contents. -/
theorem C06_param_sharing (ops : List (Op V)) (h : Nat) : (exec ops).get? h = read ops.reverse h := by
  rw [exec_eq_execRev]
  exact (rep_execRev _).rd h

/-- **C06 (write seen by a copy).** After any program, copying object `h` and then writing through either one is seen
through the other. -/
theorem C06_copy_shares (ops : List (Op V)) (h : Nat) (hh : h < count ops.reverse) (v : V) :
    ((exec (ops ++ [.copy h, .setValue h v])).get? (count ops.reverse)).map (·.value) = some v ∧
    ((exec (ops ++ [.copy h, .setValue (count ops.reverse) v])).get? h).map (·.value) = some v := by
  have hr := rep_execRev ops.reverse
  have hlen := hr.len
  obtain ⟨d, hd⟩ : ∃ d, read ops.reverse h = some d := by
    rw [← hr.rd, get?_of_lt (by omega)]
    have := hr.range h (by omega)
    exact ⟨_, List.getElem?_eq_getElem this⟩
  constructor
  · rw [C06_param_sharing]
    have hs : Shares (.copy h :: ops.reverse) h (count ops.reverse) := by
      simp only [Shares, count, group]
      rw [if_pos hh, if_pos trivial, if_neg (by omega)]
      exact ⟨by omega, rfl⟩
    simp [read, hs, hd]
  · rw [C06_param_sharing]
    have hs : Shares (.copy h :: ops.reverse) (count ops.reverse) h := by
      simp only [Shares, count, group]
      rw [if_pos hh, if_pos trivial, if_neg (by omega)]
      exact ⟨by omega, rfl⟩
    have hne : ¬ h = count ops.reverse := by omega
    simp [read, hs, hd, hne]

/-- **C06 (clone is independent).** After any program, writing through a fresh clone of object `h` leaves every other
object unchanged, and writing through another object leaves the clone unchanged. -/
theorem C06_clone_independent (ops : List (Op V)) (h : Nat) (hh : h < count ops.reverse) (v : V)
    (h' : Nat) (hh' : h' < count ops.reverse) :
    (exec (ops ++ [.clone h, .setValue (count ops.reverse) v])).get? h' = (exec ops).get? h' ∧
    (exec (ops ++ [.clone h, .setValue h' v])).get? (count ops.reverse) = (exec ops).get? h := by
  have hr := rep_execRev ops.reverse
  have hlen := hr.len
  have hg := hr.grplt h' (by omega)
  constructor
  · rw [C06_param_sharing, C06_param_sharing]
    have hs : ¬ Shares (.clone h :: ops.reverse) (count ops.reverse) h' := by
      simp only [Shares, group]
      rw [if_pos trivial, if_neg (by omega)]
      omega
    have hne : ¬ h' = count ops.reverse := by omega
    simp [read, hs, hne]
  · rw [C06_param_sharing, C06_param_sharing]
    have hs : ¬ Shares (.clone h :: ops.reverse) h' (count ops.reverse) := by
      simp only [Shares, group]
      rw [if_pos trivial, if_neg (by omega)]
      omega
    simp [read, hs]

example : count ([.copy 0, .new { value := (1 : Nat) }] : List (Op Nat)) = 2 ∧
    ((exec ([.new { value := (1 : Nat) }, .copy 0, .clone 1, .setValue 1 7, .setId 2 "k"] : List (Op Nat))).get? 0).map
      (·.value) = some 7 ∧
    ((exec ([.new { value := (1 : Nat) }, .copy 0, .clone 1, .setValue 1 7] : List (Op Nat))).get? 2).map
      (·.value) = some 1 := by decide

end Verif.Param
