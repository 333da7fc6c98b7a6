import Verif.Spec.EquilibriumRecord
import Verif.Lemmas.Owned

/-!
# C87: the record of an equilibrium calculation
-/

namespace Verif.EquilibriumRecord

open Owned

theorem step_refines {w : World Data} {o : List Data} (h : Rep w o) (op : Op) :
    match step w op, valueStep o op with
    | .ok w', .ok o' => Rep w' o'
    | .throw, .throw => True
    | .ub, .ub => True
    | _, _ => False := by
  cases op with
  | new s e => exact h.append _
  | copy i =>
    simp only [step, valueStep]
    rw [h.val i]
    cases o[i]? with
    | none => exact h
    | some d => exact h.append d
  | assign i j =>
    simp only [step, valueStep]
    rw [h.val j]
    cases o[j]? with
    | none => exact h
    | some d => exact h.assign i d
  | set i v =>
    simp only [step, valueStep]
    have hv := h.val i
    cases hp : w.ptr[i]? with
    | none =>
      have : w.get? i = none := by rw [World.get?, hp]
      rw [this] at hv
      rw [← hv]
      exact h
    | some a =>
      cases hg : w.get? i with
      | none => rw [hg] at hv; rw [← hv]; exact h
      | some d =>
        rw [hg] at hv
        rw [← hv]
        simp only
        cases d.set v with
        | throw => trivial
        | ub => trivial
        | ok d' => exact h.update i a d' hp

/-- **C87.** Every program sees the records as values: a change of one object, through any number of
copies and assignments, never shows in another. -/
theorem C87_values (ops : List Op) :
    match run ⟨[], []⟩ ops, valueRun [] ops with
    | .ok w, .ok o => ∀ i : Nat, w.get? i = o[i]?
    | .throw, .throw => True
    | .ub, .ub => True
    | _, _ => False := by
  have key : ∀ (ops : List Op) (w : World Data) (o : List Data), Rep w o →
      match run w ops, valueRun o ops with
      | .ok w, .ok o => Rep w o
      | .throw, .throw => True
      | .ub, .ub => True
      | _, _ => False := by
    intro ops
    induction ops with
    | nil => intro w o h; exact h
    | cons op ops ih =>
      intro w o h
      have hs := step_refines h op
      simp only [run, valueRun]
      revert hs
      cases step w op <;> cases valueStep o op <;> intro hs <;> first | exact hs | trivial | exact ih _ _ hs
  have := key ops ⟨[], []⟩ [] Rep.empty
  revert this
  cases run ⟨[], []⟩ ops <;> cases valueRun [] ops <;> intro h <;> first | exact h | exact h.val

/-! ## The last value stored -/

theorem last_cons {α : Type} (pick : Setter → Option α) (v : Setter) (vs : List Setter) (x : α) :
    lastStored pick (v :: vs) x = lastStored pick vs ((pick v).getD x) := by
  simp only [lastStored, List.filterMap_cons]
  cases h : pick v with
  | none => rfl
  | some y =>
    simp only [Option.getD_some]
    cases h2 : vs.filterMap pick with
    | nil => rfl
    | cons a l => rw [List.getLast?_cons_cons, List.getLast?_eq_some_getLast (by simp)]; rfl

theorem member_last {α : Type} (get : Data → α) (pick : Data → Setter → Option α)
    (hinv : ∀ d v d', d.set v = .ok d' → pick d' = pick d)
    (h : ∀ d v d', d.set v = .ok d' → get d' = (pick d v).getD (get d)) :
    ∀ (vs : List Setter) (d d' : Data), setAll d vs = .ok d' → get d' = lastStored (pick d) vs (get d) := by
  intro vs
  induction vs with
  | nil => intro d d' hs; cases hs; rfl
  | cons v vs ih =>
    intro d d' hs
    simp only [setAll] at hs
    cases hd : d.set v with
    | throw => rw [hd] at hs; cases hs
    | ub => rw [hd] at hs; cases hs
    | ok d1 =>
      rw [hd, Res.bind_ok'] at hs
      rw [ih d1 d' hs, hinv d v d1 hd, last_cons, h d v d1 hd]

theorem set_Nn {d d' : Data} {v : Setter} (h : d.set v = .ok d') : d'.Nn = d.Nn ∧ d'.Nb = d.Nb := by
  cases v <;> simp only [Data.set] at h <;> (try split_ifs at h) <;> cases h <;> exact ⟨rfl, rfl⟩

/-- **C87.** After any sequence of setters, each getter returns what was last stored by a setter that
concerns it. The state of the optimisation sets the control variables too: `p`, and `q`, which are the
entries of `x` after those of the species. -/
theorem C87_last (species elements : Nat) (vs : List Setter) (d : Data)
    (h : setAll (Data.new species elements) vs = .ok d) :
    d.inputs = lastStored (fun | .inputNames l => some l | _ => none) vs [] ∧
    d.w = lastStored (fun | .inputValues l => some l | _ => none) vs [] ∧
    d.b = lastStored (fun | .initialComponentAmounts l => some l | _ => none) vs [] ∧
    d.opt.p = lastStored (fun | .controlVariablesP l => some l | .optimaState s => some s.p | _ => none) vs [] ∧
    d.q = lastStored (fun | .controlVariablesQ l => some l | .optimaState s => some (s.x.drop species) | _ => none)
      vs [] ∧
    d.opt.x = lastStored (fun | .optimaState s => some s.x | _ => none) vs [] ∧
    d.opt.ye = lastStored (fun | .optimaState s => some s.ye | _ => none) vs [] ∧
    d.opt.s = lastStored (fun | .optimaState s => some s.s | _ => none) vs [] ∧
    (d.ips, d.kp) = lastStored (fun | .primarySecondary l k => some (l, k) | _ => none) vs ([], 0) ∧
    d.isue = lastStored (fun | .strictlyUnstableElements l => some l | _ => none) vs [] ∧
    d.isus = lastStored (fun | .strictlyUnstableSpecies l => some l | _ => none) vs [] := by
  refine ⟨?_, ?_, ?_, ?_, ?_, ?_, ?_, ?_, ?_, ?_, ?_⟩
  · exact member_last (·.inputs) (fun _ => _) (fun _ _ _ _ => rfl) (fun d v d' hs => by
      cases v <;> simp only [Data.set] at hs <;> (try split_ifs at hs) <;> cases hs <;> rfl) vs _ d h
  · exact member_last (·.w) (fun _ => _) (fun _ _ _ _ => rfl) (fun d v d' hs => by
      cases v <;> simp only [Data.set] at hs <;> (try split_ifs at hs) <;> cases hs <;> rfl) vs _ d h
  · exact member_last (·.b) (fun _ => _) (fun _ _ _ _ => rfl) (fun d v d' hs => by
      cases v <;> simp only [Data.set] at hs <;> (try split_ifs at hs) <;> cases hs <;> rfl) vs _ d h
  · exact member_last (·.opt.p) (fun _ => _) (fun _ _ _ _ => rfl) (fun d v d' hs => by
      cases v <;> simp only [Data.set] at hs <;> (try split_ifs at hs) <;> cases hs <;> rfl) vs _ d h
  · exact member_last (·.q)
      (fun d v => match v with
        | .controlVariablesQ l => some l
        | .optimaState s => some (s.x.drop d.Nn)
        | _ => none)
      (fun d v d' hs => by rw [(set_Nn hs).1]) (fun d v d' hs => by
      cases v <;> simp only [Data.set] at hs <;> (try split_ifs at hs) <;> cases hs <;> rfl) vs _ d h
  · exact member_last (·.opt.x) (fun _ => _) (fun _ _ _ _ => rfl) (fun d v d' hs => by
      cases v <;> simp only [Data.set] at hs <;> (try split_ifs at hs) <;> cases hs <;> rfl) vs _ d h
  · exact member_last (·.opt.ye) (fun _ => _) (fun _ _ _ _ => rfl) (fun d v d' hs => by
      cases v <;> simp only [Data.set] at hs <;> (try split_ifs at hs) <;> cases hs <;> rfl) vs _ d h
  · exact member_last (·.opt.s) (fun _ => _) (fun _ _ _ _ => rfl) (fun d v d' hs => by
      cases v <;> simp only [Data.set] at hs <;> (try split_ifs at hs) <;> cases hs <;> rfl) vs _ d h
  · exact member_last (fun d => (d.ips, d.kp)) (fun _ => _) (fun _ _ _ _ => rfl) (fun d v d' hs => by
      cases v <;> simp only [Data.set] at hs <;> (try split_ifs at hs) <;> cases hs <;> rfl) vs _ d h
  · exact member_last (·.isue) (fun _ => _) (fun _ _ _ _ => rfl) (fun d v d' hs => by
      cases v <;> simp only [Data.set] at hs <;> (try split_ifs at hs) <;> cases hs <;> rfl) vs _ d h
  · exact member_last (·.isus) (fun _ => _) (fun _ _ _ _ => rfl) (fun d v d' hs => by
      cases v <;> simp only [Data.set] at hs <;> (try split_ifs at hs) <;> cases hs <;> rfl) vs _ d h

/-- **C87.** For a partition with a number of primary species within the list, the primary and the
secondary species are the two parts of the list, and the numbers are their lengths. -/
theorem C87_partition_partial (d : Data) (h : d.kp ≤ d.ips.length) (hl : d.ips.length < 2 ^ 64) :
    ∃ a b, d.primary = .ok a ∧ d.secondary = .ok b ∧ a ++ b = d.ips ∧ a.length = d.numPrimary ∧
      b.length = d.numSecondary := by
  have hs : d.numSecondary = d.ips.length - d.kp := by
    rw [Data.numSecondary, Nat.mod_eq_of_lt (by omega : d.kp < 2 ^ 64)]
    rcases Nat.eq_zero_or_pos d.kp with h0 | h0
    · rw [h0, Nat.sub_zero, Nat.add_mod_right, Nat.mod_eq_of_lt hl]; rfl
    · have : d.ips.length + (2 ^ 64 - d.kp) = (d.ips.length - d.kp) + 2 ^ 64 := by omega
      rw [this, Nat.add_mod_right, Nat.mod_eq_of_lt (by omega)]
  refine ⟨d.ips.take d.kp, d.ips.drop d.kp, ?_, ?_, List.take_append_drop _ _, ?_, ?_⟩
  · rw [Data.primary, head, Data.numPrimary, if_neg (by omega)]
  · rw [Data.secondary, tail, hs, if_neg (by omega)]
    congr 2
    omega
  · rw [List.length_take, Data.numPrimary]; omega
  · rw [List.length_drop, hs]

/-- **C87 fails** for larger numbers of primary species, which the setter accepts: reading either part
is undefined. -/
theorem C87_partition_wrong (d : Data) (ips : List Nat) (kp : Nat) (h : ips.length < kp) (hk : kp < 2 ^ 63) :
    ∃ d', d.set (.primarySecondary ips kp) = .ok d' ∧ d'.primary = .ub ∧ d'.secondary = .ub := by
  refine ⟨_, rfl, ?_, ?_⟩
  · rw [Data.primary, head, Data.numPrimary, if_pos h]
  · rw [Data.secondary, tail, if_pos]
    rw [Data.numSecondary]
    simp only
    rw [Nat.mod_eq_of_lt (by omega : kp < 2 ^ 64), Nat.mod_eq_of_lt (by omega)]
    omega

/-- **C87.** The state of the optimisation is the amounts of the species followed by the control variables
`q`, until `q` is set. -/
theorem C87_optima (d d' : Data) (s : Opt) (h : d.set (.optimaState s) = .ok d') :
    s.x.take d.Nn ++ d'.q = s.x ∧ (s.x.take d.Nn).length = d.Nn ∧ d'.opt = s := by
  simp only [Data.set] at h
  split_ifs at h with hl
  cases h
  exact ⟨List.take_append_drop _ _, by simp; omega, rfl⟩

/-- **C87.** Setting `p` changes the state of the optimisation, from which the next calculation starts. -/
theorem C87_setP (d : Data) (p : List Rat) :
    ∃ d', d.set (.controlVariablesP p) = .ok d' ∧ d'.opt.p = p := ⟨_, rfl, rfl⟩

/-- **C87 fails** for `q`: setting it does not change the state of the optimisation, from which the next
calculation starts, so that the two disagree. -/
theorem C87_setQ_wrong (d : Data) (s : Opt) (q : List Rat) (hx : d.Nn ≤ s.x.length) (hq : s.x.drop d.Nn ≠ q) :
    ∃ d1 d2, d.set (.optimaState s) = .ok d1 ∧ d1.set (.controlVariablesQ q) = .ok d2 ∧
      d2.q = q ∧ d2.opt.x.drop d2.Nn ≠ d2.q := by
  refine ⟨{ d with opt := s, q := s.x.drop d.Nn }, _, ?_, rfl, rfl, ?_⟩
  · rw [Data.set, if_neg (by omega)]
  · exact hq

/-- **C87.** The potentials and stabilities are empty before a calculation, and after one that has values
for all components and species they are as many as these. -/
theorem C87_sizes (d : Data) (hy : d.opt.ye = [] ∨ d.Nb ≤ d.opt.ye.length) (hs : d.opt.s = [] ∨ d.Nn ≤ d.opt.s.length) :
    ∃ y s, d.potentials = .ok y ∧ d.stabilities = .ok s ∧ y = d.opt.ye.take d.Nb ∧ s = d.opt.s.take d.Nn := by
  refine ⟨_, _, ?_, ?_, rfl, rfl⟩
  · rw [Data.potentials]
    rcases hy with hy | hy
    · simp [hy]
    · split_ifs with h0
      · rw [head, if_neg (by omega)]
      · have : d.opt.ye = [] := by simpa using h0
        simp [this]
  · rw [Data.stabilities]
    rcases hs with hs | hs
    · simp [hs]
    · split_ifs with h0
      · rw [head, if_neg (by omega)]
      · have : d.opt.s = [] := by simpa using h0
        simp [this]

theorem setAll_sizes (vs : List Setter) : ∀ d d' : Data, setAll d vs = .ok d' → d'.Nn = d.Nn ∧ d'.Nb = d.Nb := by
  induction vs with
  | nil => intro d d' h; cases h; exact ⟨rfl, rfl⟩
  | cons v vs ih =>
    intro d d' h
    simp only [setAll] at h
    cases hd : d.set v with
    | throw => rw [hd] at h; cases h
    | ub => rw [hd] at h; cases h
    | ok d1 =>
      rw [hd, Res.bind_ok'] at h
      exact ⟨(ih d1 d' h).1.trans (set_Nn hd).1, (ih d1 d' h).2.trans (set_Nn hd).2⟩

/-- **C87.** After any sequence of setters of which the last state of the optimisation has values for the elements, for the charge and for the species, the potentials are those of the
elements and of the charge, and the stabilities those of the species. -/
theorem C87_history (species elements : Nat) (vs : List Setter) (d : Data) (h : setAll (Data.new species elements) vs = .ok d) (s : Opt)
    (hlast : lastStored (fun | .optimaState s => some (some s) | _ => none) vs none = some s) (hy : elements + 1 ≤ s.ye.length) (hs : species ≤ s.s.length) :
    d.potentials = .ok (s.ye.take (elements + 1)) ∧ d.stabilities = .ok (s.s.take species) := by
  obtain ⟨n1, n2⟩ := setAll_sizes vs _ _ h
  have n1 : d.Nn = species := n1
  have n2 : d.Nb = elements + 1 := n2
  obtain ⟨-, -, -, -, -, -, e1, e2, -⟩ := C87_last species elements vs d h
  have key : ∀ (vs : List Setter) (f : Opt → List Rat) , lastStored (fun | .optimaState s => some (some s) | _ => none) vs none = some s →
      lastStored (fun | .optimaState s => some (f s) | _ => none) vs [] = f s := by
    intro vs f hl
    have hm : vs.filterMap (fun | .optimaState s => some (f s) | _ => none) =
        (vs.filterMap (fun | .optimaState s => some (some s) | _ => none)).map fun | some s => f s | none => [] := by
      rw [List.map_filterMap]
      congr 1
      funext v
      cases v <;> rfl
    unfold lastStored at hl ⊢
    rw [hm, List.getLast?_map]
    cases hg : (vs.filterMap (fun | .optimaState s => some (some s) | _ => none)).getLast? with
    | none => rw [hg] at hl; cases hl
    | some o => rw [hg] at hl; simp only [Option.getD_some] at hl; subst hl; rfl
  have e1 := e1.trans (key vs (·.ye) hlast)
  have e2 := e2.trans (key vs (·.s) hlast)
  obtain ⟨y, z, h1, h2, h3, h4⟩ := C87_sizes d (Or.inr (by rw [e1, n2]; exact hy)) (Or.inr (by rw [e2, n1]; exact hs))
  rw [h1, h2, h3, h4, e1, e2, n1, n2]
  exact ⟨rfl, rfl⟩

/-- A record of a system with two species and one implicit titrant. -/
example : ∃ d, setAll (Data.new 2 1) [.controlVariablesQ [7], .primarySecondary [1, 0] 1,
    .optimaState ⟨[1, 2, 3], [4], [5, 6], [0, 0, 0]⟩] = .ok d ∧ d.q = [3] ∧ d.opt.p = [4] ∧
    d.primary = .ok [1] ∧ d.secondary = .ok [0] ∧ d.potentials = .ok [5, 6] ∧ d.stabilities = .ok [0, 0] :=
  ⟨_, rfl, by decide +kernel⟩

/-- A program with a copy, an assignment and changes afterwards. -/
example : valueRun [] [.new 2 1, .copy 0, .set 0 (.inputValues [1]), .assign 1 0, .set 0 (.inputValues [2])] =
    .ok [{ Data.new 2 1 with w := [2] }, { Data.new 2 1 with w := [1] }] := by decide +kernel

end Verif.EquilibriumRecord
