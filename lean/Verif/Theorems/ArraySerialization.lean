import Verif.Model.ArraySerialization

/-!
# Theorems C23 and C24: arrays of serialized data
-/

namespace Verif.ArraySerialization

variable {α β : Type}

/-- The numbers of an argument. -/
def Item.values : Item α → List α
  | .scalar a => [a]
  | .array xs => xs

/-- Apply a function to all numbers of an argument. -/
def Item.map {γ : Type} (f : α → γ) : Item α → Item γ
  | .scalar a => .scalar (f a)
  | .array xs => .array (xs.map f)

/-- Two arguments are both scalars, or both arrays of the same length. -/
def Item.SameShape : Item α → Item α → Prop
  | .scalar _, .scalar _ => True
  | .array xs, .array ys => xs.length = ys.length
  | _, _ => False

/-- Same shapes, argument by argument. -/
def SameShapes : List (Item α) → List (Item α) → Prop
  | [], [] => True
  | x :: xs, y :: ys => x.SameShape y ∧ SameShapes xs ys
  | _, _ => False

/-- `resize` gives an array of the requested length (whatever its contents). -/
def Resizes (fill : List β → Nat → List β) : Prop := ∀ a n, (fill a n).length = n

theorem Item.values_length (x : Item α) : x.values.length = x.length := by cases x <;> rfl

theorem totalLength_eq (xs : List (Item α)) : totalLength xs = (xs.flatMap Item.values).length := by
  induction xs with
  | nil => rfl
  | cons x xs ih => rw [totalLength, ih, List.flatMap_cons, List.length_append, Item.values_length]

theorem serializeOne_eq (debug : Bool) (cast : α → β) (array : List β) (pos : Nat) (x : Item α) :
    serializeOne debug cast array pos x =
      if array.length ≥ pos + x.length then .ok (write array pos (x.values.map cast)) else outOfRange debug := by
  cases x <;> rfl

theorem write_length (array : List β) (pos : Nat) (vs : List β) (h : pos + vs.length ≤ array.length) :
    (write array pos vs).length = array.length := by
  unfold write
  rw [List.length_append, List.length_append, List.length_take, List.length_drop]
  omega

theorem serializeAt_eq (debug : Bool) (cast : α → β) : ∀ (xs : List (Item α)) (array : List β) (pos : Nat),
    pos + totalLength xs ≤ array.length →
    serializeAt debug cast array pos xs = .ok (write array pos ((xs.flatMap Item.values).map cast)) := by
  intro xs
  induction xs with
  | nil =>
    intro array pos _
    simp [serializeAt, write]
  | cons x xs ih =>
    intro array pos h
    rw [totalLength] at h
    have hl : (List.map cast x.values).length = x.length := by rw [List.length_map, Item.values_length]
    have hw : (write array pos (x.values.map cast)).length = array.length := write_length _ _ _ (by rw [hl]; omega)
    rw [serializeAt, serializeOne_eq, if_pos (by omega)]
    simp only [Res.bind_ok']
    rw [ih _ _ (by rw [hw]; omega)]
    congr 1
    rw [List.flatMap_cons, List.map_append]
    unfold write
    have e1 : (array.take pos ++ x.values.map cast).length = pos + x.length := by
      rw [List.length_append, hl, List.length_take, Nat.min_eq_left (by omega)]
    rw [List.take_append_of_le_length (by rw [e1]; exact Nat.le_refl _), List.take_of_length_le (by rw [e1]; exact Nat.le_refl _)]
    rw [List.drop_append, e1, List.drop_of_length_le (by rw [e1]; omega), List.nil_append, List.drop_drop, List.length_append, hl]
    rw [List.append_assoc, List.append_assoc, List.append_assoc]
    have e2 : pos + x.length + (pos + x.length + ((xs.flatMap Item.values).map cast).length - (pos + x.length)) =
        pos + (x.length + ((xs.flatMap Item.values).map cast).length) := by omega
    rw [e2, List.append_assoc]

/-- **C23 (storing).** Storing any arguments gives an array with exactly their numbers, in order; its length is the total length,
whatever the array held before, with and without assertions. -/
theorem C23_serialize (debug : Bool) (cast : α → β) (fill : List β → Nat → List β) (hf : Resizes fill) (old : List β)
    (args : List (Item α)) :
    streamFrom debug cast fill old args = .ok ((args.flatMap Item.values).map cast) ∧
    ((args.flatMap Item.values).map cast).length = totalLength args := by
  constructor
  · unfold streamFrom resize
    have hl := hf old (totalLength args)
    rw [serializeAt_eq debug cast args _ 0 (by rw [hl]; omega)]
    unfold write
    rw [List.length_map, ← totalLength_eq, List.take_zero, List.nil_append, List.drop_of_length_le (by rw [hl]; omega),
      List.append_nil]
  · rw [List.length_map, totalLength_eq]

theorem deserializeAt_eq (debug : Bool) (lift : β → α) (cast : α → β) : ∀ (xs ys : List (Item α)) (pre post : List β),
    SameShapes xs ys →
    deserializeAt debug lift (pre ++ (xs.flatMap Item.values).map cast ++ post) pre.length ys =
      .ok (xs.map (Item.map fun a => lift (cast a))) := by
  intro xs
  induction xs with
  | nil =>
    intro ys pre post h
    cases ys with
    | nil => rfl
    | cons y ys => exact absurd h (by simp [SameShapes])
  | cons x xs ih =>
    intro ys pre post h
    cases ys with
    | nil => exact absurd h (by simp [SameShapes])
    | cons y ys =>
      obtain ⟨hxy, hrest⟩ := h
      rw [deserializeAt]
      have hone : deserializeOne debug lift (pre ++ ((x :: xs).flatMap Item.values).map cast ++ post) pre.length y =
          .ok (x.map fun a => lift (cast a)) := by
        rw [List.flatMap_cons, List.map_append]
        cases x with
        | scalar a =>
          cases y with
          | array ys => exact absurd hxy (by simp [Item.SameShape])
          | scalar b =>
            unfold deserializeOne
            rw [if_pos (by simp [Item.values])]
            simp [Item.values, Item.map, at!]
        | array vs =>
          cases y with
          | scalar b => exact absurd hxy (by simp [Item.SameShape])
          | array ws =>
            have hxy' : vs.length = ws.length := hxy
            simp only [deserializeOne]
            have hle : (pre ++ (List.map cast (Item.array vs).values ++ List.map cast (List.flatMap Item.values xs)) ++ post).length ≥
                pre.length + ws.length := by
              simp only [Item.values, List.length_append, List.length_map, hxy']; omega
            rw [if_pos hle]
            simp only [Item.values, Item.map]
            rw [List.append_assoc, List.append_assoc, List.drop_left, List.take_append_of_le_length (by simp [hxy']),
              List.take_of_length_le (by simp [hxy']), List.map_map]
            rfl
      rw [hone]
      simp only [Res.bind_ok']
      have hmap : (x.map fun a => lift (cast a)).length = ((x.values.map cast)).length := by
        cases x <;> simp [Item.map, Item.length, Item.values]
      have harr : pre ++ ((x :: xs).flatMap Item.values).map cast ++ post =
          (pre ++ x.values.map cast) ++ (xs.flatMap Item.values).map cast ++ post := by
        rw [List.flatMap_cons, List.map_append]; simp [List.append_assoc]
      rw [harr, hmap, ← List.length_append, ih ys _ post hrest]
      rfl

/-- **C23 (round trip).** Storing arguments and reading them back into objects of the same shapes gives the same numbers, for
arguments of any number and length; `lift (cast a)` is `a` unless the array type loses information. -/
theorem C23_round_trip (debug : Bool) (cast : α → β) (lift : β → α) (fill : List β → Nat → List β) (hf : Resizes fill)
    (old : List β) (args targets : List (Item α)) (h : SameShapes args targets) :
    (streamFrom debug cast fill old args).bind (fun array => streamTo debug lift array targets) =
      .ok (args.map (Item.map fun a => lift (cast a))) := by
  rw [(C23_serialize debug cast fill hf old args).1]
  simp only [Res.bind_ok', streamTo]
  have := deserializeAt_eq debug lift cast args targets [] [] h
  simpa using this

theorem map_id_of (f : α → α) (hf : ∀ a, f a = a) (xs : List (Item α)) : xs.map (Item.map f) = xs := by
  have hf' : f = id := funext hf
  subst hf'
  induction xs with
  | nil => rfl
  | cons x xs ih => cases x <;> simp [Item.map, ih]

theorem deserializeOne_debug (lift : β → α) (array : List β) (pos : Nat) (x : Item α) :
    (∃ x', deserializeOne true lift array pos x = .ok x' ∧ x'.length = x.length ∧ pos + x.length ≤ array.length) ∨
    (deserializeOne true lift array pos x = .throw ∧ array.length < pos + x.length) := by
  cases x with
  | scalar a =>
    unfold deserializeOne
    by_cases h : array.length ≥ pos + 1
    · rw [if_pos h]
      left
      exact ⟨.scalar (lift array[pos]), by rw [at!_of_lt _ _ (by omega)]; rfl, rfl, h⟩
    · rw [if_neg h]; right; exact ⟨rfl, Nat.lt_of_not_le h⟩
  | array xs =>
    simp only [deserializeOne]
    by_cases h : array.length ≥ pos + xs.length
    · rw [if_pos h]
      left
      refine ⟨_, rfl, ?_, h⟩
      simp only [Item.length, List.length_map, List.length_take, List.length_drop]
      omega
    · rw [if_neg h]; right; exact ⟨rfl, Nat.lt_of_not_le h⟩

/-- **C23 (wrong length, with assertions).** With assertions enabled, reading never goes outside the array: it succeeds exactly
when the array is at least as long as the total length of the arguments, and ends the program otherwise. -/
theorem C23_wrong_length_partial (lift : β → α) (array : List β) (targets : List (Item α)) :
    (totalLength targets ≤ array.length → (streamTo true lift array targets).isOk) ∧
    (array.length < totalLength targets → streamTo true lift array targets = .throw) := by
  suffices h : ∀ (xs : List (Item α)) (pos : Nat), pos ≤ array.length →
      (pos + totalLength xs ≤ array.length → (deserializeAt true lift array pos xs).isOk) ∧
      (array.length < pos + totalLength xs → deserializeAt true lift array pos xs = .throw) by
    have := h targets 0 (by omega)
    unfold streamTo
    simpa using this
  intro xs
  induction xs with
  | nil => intro pos _; exact ⟨fun _ => rfl, fun h => by simp [totalLength] at h; omega⟩
  | cons x xs ih =>
    intro pos hp
    rw [deserializeAt, totalLength]
    rcases deserializeOne_debug lift array pos x with ⟨x', h1, h2, h3⟩ | ⟨h1, h2⟩
    · rw [h1]
      simp only [Res.bind_ok', h2]
      obtain ⟨i1, i2⟩ := ih (pos + x.length) h3
      refine ⟨fun h => ?_, fun h => ?_⟩
      · have := i1 (by omega)
        cases hd : deserializeAt true lift array (pos + x.length) xs with
        | ok a => rfl
        | throw => rw [hd] at this; exact absurd this (by simp)
        | ub => rw [hd] at this; exact absurd this (by simp)
      · rw [i2 (by omega)]; rfl
    · rw [h1]
      refine ⟨fun h => by omega, fun _ => rfl⟩

/-- Without assertions an array that is too short is read outside its bounds. -/
theorem C23_short_array_release : streamTo false (id : Nat → Nat) [1, 2] [.scalar 0, .array [0, 0]] = .ub := by
  decide

example : SameShapes [Item.scalar 1, .array [2, 3], .array [], .scalar 4] [.scalar 0, .array [0, 0], .array [], .scalar 0] :=
  ⟨trivial, rfl, rfl, trivial, trivial⟩

example : streamFrom true (id : Nat → Nat) (fun _ n => List.replicate n 7) [9, 9, 9, 9, 9, 9] [.scalar 1, .array [2, 3], .scalar 4] =
    .ok [1, 2, 3, 4] := by decide

/-- The properties have the array lengths given by the constructor (ChemicalProps.cpp:99-122) for a system with `N` species and
`M` phases. -/
structure Props.Sized (N M : Nat) (p : Props α) : Prop where
  perPhase : p.Ts.length = M ∧ p.Ps.length = M ∧ p.nsum.length = M ∧ p.Vex.length = M ∧ p.VexT.length = M ∧ p.VexP.length = M ∧
    p.Gex.length = M ∧ p.Hex.length = M ∧ p.Cpex.length = M ∧ p.Cvex.length = M
  perSpecies : p.n.length = N ∧ p.x.length = N ∧ p.G0.length = N ∧ p.H0.length = N ∧ p.V0.length = N ∧ p.Cp0.length = N ∧
    p.Cv0.length = N ∧ p.ln_g.length = N ∧ p.ln_a.length = N ∧ p.u.length = N

/-- **C24.** Storing the properties of one object in an array and updating another object of the same system from that array gives
an identical object, for every number of species and phases and all values; the array has `2 + 10 M + 10 N` numbers. -/
theorem C24_round_trip (debug : Bool) (cast : α → β) (lift : β → α) (hcl : ∀ a, lift (cast a) = a)
    (fill : List β → Nat → List β) (hf : Resizes fill) (N M : Nat) (p q : Props α) (hp : p.Sized N M) (hq : q.Sized N M) :
    ∃ array, p.serialize debug cast fill = .ok array ∧ array.length = 2 + 10 * M + 10 * N ∧
      q.update debug lift array = .ok p := by
  obtain ⟨h1, h2⟩ := hp
  obtain ⟨h3, h4⟩ := hq
  unfold Props.serialize Props.update
  generalize ha : [Item.scalar p.T, .scalar p.P, .array p.Ts, .array p.Ps, .array p.n, .array p.nsum, .array p.x,
    .array p.G0, .array p.H0, .array p.V0, .array p.Cp0, .array p.Cv0, .array p.Vex, .array p.VexT, .array p.VexP,
    .array p.Gex, .array p.Hex, .array p.Cpex, .array p.Cvex, .array p.ln_g, .array p.ln_a, .array p.u] = args
  generalize hb : [Item.scalar q.T, .scalar q.P, .array q.Ts, .array q.Ps, .array q.n, .array q.nsum, .array q.x,
    .array q.G0, .array q.H0, .array q.V0, .array q.Cp0, .array q.Cv0, .array q.Vex, .array q.VexT, .array q.VexP,
    .array q.Gex, .array q.Hex, .array q.Cpex, .array q.Cvex, .array q.ln_g, .array q.ln_a, .array q.u] = targets
  obtain ⟨a1, a2, a3, a4, a5, a6, a7, a8, a9, a10⟩ := h1
  obtain ⟨b1, b2, b3, b4, b5, b6, b7, b8, b9, b10⟩ := h2
  have hs : SameShapes args targets := by
    rw [← ha, ← hb]
    obtain ⟨c1, c2, c3, c4, c5, c6, c7, c8, c9, c10⟩ := h3
    obtain ⟨d1, d2, d3, d4, d5, d6, d7, d8, d9, d10⟩ := h4
    simp only [SameShapes, Item.SameShape, and_true, true_and]
    exact ⟨a1.trans c1.symm, a2.trans c2.symm, b1.trans d1.symm, a3.trans c3.symm, b2.trans d2.symm, b3.trans d3.symm,
      b4.trans d4.symm, b5.trans d5.symm, b6.trans d6.symm, b7.trans d7.symm, a4.trans c4.symm, a5.trans c5.symm, a6.trans c6.symm,
      a7.trans c7.symm, a8.trans c8.symm, a9.trans c9.symm, a10.trans c10.symm, b8.trans d8.symm, b9.trans d9.symm,
      b10.trans d10.symm⟩
  obtain ⟨hser, hlen⟩ := C23_serialize debug cast fill hf [] args
  refine ⟨_, hser, ?_, ?_⟩
  · rw [hlen, ← ha]
    simp only [totalLength, Item.length, a1, a2, a3, a4, a5, a6, a7, a8, a9, a10, b1, b2, b3, b4, b5, b6, b7, b8, b9, b10]
    clear hs hser hlen ha hb a1 a2 a3 a4 a5 a6 a7 a8 a9 a10 b1 b2 b3 b4 b5 b6 b7 b8 b9 b10 h3 h4
    omega
  · have := C23_round_trip debug cast lift fill hf [] args targets hs
    rw [hser] at this
    simp only [Res.bind_ok'] at this
    rw [this, map_id_of _ hcl, ← ha]
    rfl

example : (⟨1, 2, [3], [4], [5, 6], [7], [8, 9], [10, 11], [12, 13], [14, 15], [16, 17], [18, 19], [20], [21], [22], [23], [24], [25],
    [26], [27, 28], [29, 30], [31, 32]⟩ : Props Nat).Sized 2 1 := by
  constructor <;> decide

end Verif.ArraySerialization
