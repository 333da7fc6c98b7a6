import Verif.Theorems.Registries

/-!
# C54: the registries of critical properties and elements
-/

namespace Verif.Registries

theorem disjoint_iff (s t : Substance) : disjoint s.names t.names = true ↔ ¬ Clash s t := by
  unfold disjoint Clash
  simp only [List.all_eq_true, Bool.not_eq_true', not_exists, not_and]
  constructor
  · intro h n hs ht
    have := h n hs
    rw [(contains_iff t.names n).mpr ht] at this
    cases this
  · intro h n hs
    cases hc : Chem.contains t.names n with
    | false => rfl
    | true => exact absurd ((contains_iff _ _).mp hc) (h n hs)

/-- The names seen through a list of entries. -/
theorem lookup_some {l : List Substance} {n : Str} {s : Substance} (h : lookup l n = some s) : s ∈ l ∧ n ∈ s.names := by
  rw [lookup_eq] at h
  exact ⟨List.mem_of_find?_eq_some h, (contains_iff _ _).mp (by simpa using List.find?_some h)⟩

theorem lookup_none {l : List Substance} {n : Str} : lookup l n = none ↔ ∀ s ∈ l, n ∉ s.names := by
  rw [lookup_eq, List.find?_eq_none]
  exact forall₂_congr fun s _ => by rw [contains_iff]

theorem lookup_cons (s : Substance) (l : List Substance) (n : Str) :
    lookup (s :: l) n = if n ∈ s.names then some s else lookup l n := by
  rw [lookup_eq, lookup_eq]
  by_cases h : n ∈ s.names
  · rw [if_pos h, List.find?_cons_of_pos (by simpa using (contains_iff _ _).mpr h)]
  · rw [if_neg h, List.find?_cons_of_neg (by simpa using fun hc => h ((contains_iff _ _).mp hc))]

theorem lookup_append (l l' : List Substance) (n : Str) :
    lookup (l ++ l') n = (lookup l n).or (lookup l' n) := by
  rw [lookup_eq, lookup_eq, lookup_eq, List.find?_append]

/-- **C54.** A substance is appended if none of its names is taken, and then each of its names resolves to it and the others
resolve as before; otherwise the call is rejected and nothing changes. -/
theorem C54_append (l : List Substance) (s : Substance) :
    ((∃ n ∈ s.names, (lookup l n).isSome) → appendSubstance l s = (l, false)) ∧
    ((¬ ∃ n ∈ s.names, (lookup l n).isSome) → (appendSubstance l s).2 = true ∧
      ∀ n, lookup (appendSubstance l s).1 n = if n ∈ s.names then some s else lookup l n) := by
  have key : l.any (fun cur => !disjoint s.names cur.names) = true ↔ ∃ n ∈ s.names, (lookup l n).isSome := by
    simp only [List.any_eq_true, Bool.not_eq_true', Bool.eq_false_iff, ne_eq, disjoint_iff, not_not]
    constructor
    · rintro ⟨t, ht, n, hs, hn⟩
      refine ⟨n, hs, ?_⟩
      cases hl : lookup l n with
      | some _ => rfl
      | none => exact absurd hn (lookup_none.mp hl t ht)
    · rintro ⟨n, hs, hl⟩
      obtain ⟨t, ht⟩ := Option.isSome_iff_exists.mp hl
      exact ⟨t, (lookup_some ht).1, n, hs, (lookup_some ht).2⟩
  unfold appendSubstance
  constructor
  · intro h
    rw [if_pos (key.mpr h)]
  · intro h
    rw [if_neg (fun h' => h (key.mp h'))]
    refine ⟨rfl, fun n => ?_⟩
    simp only [lookup_append]
    by_cases hn : n ∈ s.names
    · have : lookup l n = none := by
        cases hl : lookup l n with
        | none => rfl
        | some t => exact absurd ⟨n, hn, by simp [hl]⟩ h
      simp [this, lookup_cons, hn]
    · have : lookup [s] n = none := by rw [lookup_cons, if_neg hn]; rfl
      rw [this, if_neg hn]
      simp

theorem lookup_overwrite_own (s : Substance) (l : List Substance) (n : Str) (hn : n ∈ s.names) :
    lookup (overwriteSubstance s l) n = some s := by
  induction l with
  | nil => simp [overwriteSubstance, lookup_cons, hn]
  | cons c rest ih =>
    unfold overwriteSubstance
    by_cases h : disjoint s.names c.names = true
    · rw [h, Bool.not_true, if_neg (by simp), lookup_cons, if_neg, ih]
      intro hc
      exact (disjoint_iff s c).mp h ⟨n, hn, hc⟩
    · rw [Bool.eq_false_iff.mpr h, Bool.not_false, if_pos rfl, lookup_cons, if_pos hn]

/-- **C54.** Right after a registration that is not rejected, every name of the substance resolves to it, whatever the registry
held before. -/
theorem C54_registered (l : List Substance) (s : Substance) (n : Str) (hn : n ∈ s.names) :
    lookup (overwriteSubstance s l) n = some s ∧
    ((appendSubstance l s).2 = true → lookup (appendSubstance l s).1 n = some s) := by
  refine ⟨lookup_overwrite_own s l n hn, fun h => ?_⟩
  by_cases hc : ∃ n ∈ s.names, (lookup l n).isSome
  · rw [(C54_append l s).1 hc] at h; cases h
  · rw [((C54_append l s).2 hc).2 n, if_pos hn]

/-- **C54.** A registration never changes what a name resolves to unless it is a name of the new substance or of an entry that
clashes with it. -/
theorem C54_unrelated (l : List Substance) (op : COp) (n : Str) (s : Substance)
    (hop : op = .append s ∨ op = .overwrite s) (hn : n ∉ s.names) (hc : ∀ t ∈ l, Clash s t → n ∉ t.names) :
    lookup (stepC l op) n = lookup l n := by
  rcases hop with rfl | rfl
  · by_cases h : ∃ n ∈ s.names, (lookup l n).isSome
    · simp only [stepC, (C54_append l s).1 h]
    · simp only [stepC, ((C54_append l s).2 h).2, if_neg hn]
  · simp only [stepC]
    induction l with
    | nil => simp only [overwriteSubstance, lookup_cons, if_neg hn]
    | cons c rest ih =>
      unfold overwriteSubstance
      by_cases h : disjoint s.names c.names = true
      · rw [h, Bool.not_true, if_neg (by simp), lookup_cons, lookup_cons,
          ih fun t ht => hc t (List.mem_cons_of_mem _ ht)]
      · rw [Bool.eq_false_iff.mpr h, Bool.not_false, if_pos rfl, lookup_cons, if_neg hn, lookup_cons, if_neg]
        exact hc c (by simp) (by rw [disjoint_iff, not_not] at h; exact h)

theorem overwrite_mem (s : Substance) (l : List Substance) (t : Substance) (h : t ∈ overwriteSubstance s l) :
    t = s ∨ t ∈ l := by
  induction l with
  | nil => simp only [overwriteSubstance, List.mem_singleton] at h; exact .inl h
  | cons c rest ih =>
    unfold overwriteSubstance at h
    split at h
    · rcases List.mem_cons.mp h with h | h
      · exact .inl h
      · exact .inr (List.mem_cons_of_mem _ h)
    · rcases List.mem_cons.mp h with h | h
      · exact .inr (h ▸ List.mem_cons_self)
      · rcases ih h with h | h
        · exact .inl h
        · exact .inr (List.mem_cons_of_mem _ h)

theorem Clash.symm {s t : Substance} (h : Clash s t) : Clash t s := by
  obtain ⟨n, h1, h2⟩ := h; exact ⟨n, h2, h1⟩

theorem atMostOnce_tail {s c : Substance} {rest : List Substance} (h : ClashesAtMostOnce (c :: rest) (.overwrite s)) :
    ClashesAtMostOnce rest (.overwrite s) := by
  intro i j hi hj h1 h2
  have := h (i + 1) (j + 1) (by simpa using hi) (by simpa using hj) (by simpa using h1) (by simpa using h2)
  omega

theorem atMostOnce_head {s c : Substance} {rest : List Substance} (h : ClashesAtMostOnce (c :: rest) (.overwrite s))
    (hc : Clash s c) : ∀ t ∈ rest, ¬ Clash s t := by
  intro t ht hst
  obtain ⟨i, hi, rfl⟩ := List.getElem_of_mem ht
  have := h 0 (i + 1) (by simp) (by simpa using hi) (by simpa using hc) (by simpa using hst)
  omega

theorem noClash_step (l : List Substance) (op : COp) (hl : NoClash l) (ht : ClashesAtMostOnce l op) :
    NoClash (stepC l op) := by
  cases op with
  | append s =>
    simp only [stepC]
    unfold appendSubstance
    split
    · exact hl
    · rename_i h
      simp only [List.any_eq_true, Bool.not_eq_true', Bool.eq_false_iff, ne_eq, disjoint_iff, not_not, not_exists,
        not_and] at h
      refine List.pairwise_append.mpr ⟨hl, List.pairwise_singleton _ _, ?_⟩
      intro a ha b hb hab
      rw [List.mem_singleton] at hb
      subst hb
      exact h a ha hab.symm
  | overwrite s =>
    simp only [stepC]
    induction l with
    | nil => exact List.pairwise_singleton _ _
    | cons c rest ih =>
      unfold overwriteSubstance
      rw [NoClash, List.pairwise_cons] at hl
      split
      · rename_i h
        simp only [Bool.not_eq_true', Bool.eq_false_iff, ne_eq, disjoint_iff, not_not] at h
        exact List.pairwise_cons.mpr ⟨atMostOnce_head ht h, hl.2⟩
      · rename_i h
        simp only [Bool.not_eq_true', Bool.not_eq_false, disjoint_iff] at h
        refine List.pairwise_cons.mpr ⟨fun t htm hct => ?_, ih hl.2 (atMostOnce_tail ht)⟩
        rcases overwrite_mem s rest t htm with rfl | h2
        · exact h hct.symm
        · exact hl.1 t h2 hct

theorem lookup_of_mem {l : List Substance} (hl : NoClash l) {t : Substance} (ht : t ∈ l) {n : Str} (hn : n ∈ t.names) :
    lookup l n = some t := by
  induction l with
  | nil => cases ht
  | cons c rest ih =>
    rw [NoClash, List.pairwise_cons] at hl
    rw [lookup_cons]
    rcases List.mem_cons.mp ht with rfl | ht
    · rw [if_pos hn]
    · rw [if_neg (fun hc => hl.1 t ht ⟨n, hc, hn⟩)]
      exact ih hl.2 ht

/-- One call on a registry without clashes, through the names. -/
theorem step_names (l : List Substance) (op : COp) (hl : NoClash l) (ht : ClashesAtMostOnce l op) :
    lookup (stepC l op) = stepNames (lookup l) op := by
  funext n
  cases op with
  | append s =>
    simp only [stepC, stepNames, addIn]
    by_cases h : ∃ n ∈ s.names, (lookup l n).isSome
    · rw [if_pos h, (C54_append l s).1 h]
    · rw [if_neg h, ((C54_append l s).2 h).2]
  | overwrite s =>
    simp only [stepC, stepNames, replaceIn]
    by_cases hn : n ∈ s.names
    · rw [if_pos hn, lookup_overwrite_own s l n hn]
    · rw [if_neg hn]
      induction l with
      | nil => simp only [overwriteSubstance, lookup_cons, if_neg hn]; rfl
      | cons c rest ih =>
        have hl' := hl
        rw [NoClash, List.pairwise_cons] at hl
        unfold overwriteSubstance
        split
        · rename_i h
          simp only [Bool.not_eq_true', Bool.eq_false_iff, ne_eq, disjoint_iff, not_not] at h
          rw [lookup_cons, if_neg hn, lookup_cons]
          by_cases hc : n ∈ c.names
          · rw [if_pos hc]
            simp only [if_pos h]
            rw [lookup_none]
            exact fun t htm hnt => hl.1 t htm ⟨n, hc, hnt⟩
          · rw [if_neg hc]
            cases hr : lookup rest n with
            | none => rfl
            | some t => simp only [if_neg (atMostOnce_head ht h t (lookup_some hr).1)]
        · rename_i h
          simp only [Bool.not_eq_true', Bool.not_eq_false, disjoint_iff] at h
          rw [lookup_cons, lookup_cons]
          by_cases hc : n ∈ c.names
          · rw [if_pos hc, if_pos hc]
            simp only [if_neg h]
          · rw [if_neg hc, if_neg hc]
            exact ih hl.2 (atMostOnce_tail ht)

/-- **C54.** Along every history in which each overwriting substance clashes with at most one entry, no two entries ever share a
name and each name resolves as it does in the registry seen as a map from names: to the last substance registered under it, or
to nothing if that substance was replaced by one without the name. The part of C54 that is missing is the history in which a
substance clashes with several entries (`C54_stale`). -/
theorem C54_critical_partial (c0 : List Substance) (h0 : NoClash c0) (ops : List COp) (ht : TameHistory c0 ops) :
    NoClash (runC c0 ops) ∧ lookup (runC c0 ops) = ops.foldl stepNames (lookup c0) := by
  induction ops generalizing c0 with
  | nil => exact ⟨h0, rfl⟩
  | cons op ops ih =>
    have := ih (stepC c0 op) (noClash_step c0 op h0 ht.1) ht.2
    refine ⟨this.1, ?_⟩
    rw [List.foldl_cons, ← step_names c0 op h0 ht.1]
    exact this.2

/-- The default substances as a list. -/
def defaultSubs : List Substance := match defaultSubstances with
  | .ok l => l
  | _ => []

/-- **C54.** The default table is built without exception or undefined behaviour, no two of its entries share a name, and every
critical temperature and pressure in it is positive. -/
theorem C54_default_substances : defaultSubstances = .ok defaultSubs ∧ defaultSubs.length = 91 ∧ NoClash defaultSubs ∧
    ∀ s ∈ defaultSubs, 0 < s.data.Tcr ∧ 0 < s.data.Pcr := by
  have h : (defaultSubstances = .ok defaultSubs ∧ defaultSubs.length = 91) ∧
      defaultSubs.Pairwise (fun s t => disjoint s.names t.names = true) ∧
      (∀ s ∈ defaultSubs, 0 < s.data.Tcr ∧ 0 < s.data.Pcr) := by decide +kernel
  exact ⟨h.1.1, h.1.2, h.2.1.imp fun {s t} hd => (disjoint_iff s t).mp hd, h.2.2⟩

/-- **C54 is false of the code** when a substance clashes with several entries: only the first is replaced. Here a substance named
`CARBON-DIOXIDE` and `WATER` is registered with `overwrite`, and `WATER` resolves to it; then `CARBON-DIOXIDE` is overwritten, and
`WATER` resolves again to the default data, which was registered before. -/
theorem C54_stale : ∃ s t w : Substance, s ≠ w ∧ t ≠ w ∧ c!"WATER" ∈ s.names ∧ w ∈ defaultSubs ∧
    lookup (runC defaultSubs [.overwrite s]) c!"WATER" = some s ∧
    lookup (runC defaultSubs [.overwrite s, .overwrite t]) c!"WATER" = some w ∧
    ¬ NoClash (runC defaultSubs [.overwrite s]) := by
  refine ⟨⟨⟨1, 2, 3⟩, [c!"CARBON-DIOXIDE", c!"WATER"]⟩, ⟨⟨4, 5, 6⟩, [c!"CARBON-DIOXIDE"]⟩,
    ⟨⟨6471 / 10, 22055000, 69 / 200⟩, [c!"WATER", c!"H2O"]⟩, by decide +kernel, by decide +kernel, by decide +kernel,
    by decide +kernel, by decide +kernel, by decide +kernel, ?_⟩
  intro h
  have h1 : (⟨⟨1, 2, 3⟩, [c!"CARBON-DIOXIDE", c!"WATER"]⟩ : Substance) ∈
      runC defaultSubs [.overwrite ⟨⟨1, 2, 3⟩, [c!"CARBON-DIOXIDE", c!"WATER"]⟩] := by decide +kernel
  have h2 : (⟨⟨6471 / 10, 22055000, 69 / 200⟩, [c!"WATER", c!"H2O"]⟩ : Substance) ∈
      runC defaultSubs [.overwrite ⟨⟨1, 2, 3⟩, [c!"CARBON-DIOXIDE", c!"WATER"]⟩] := by decide +kernel
  have e1 := lookup_of_mem h h1 (n := c!"WATER") (by decide +kernel)
  have e2 := lookup_of_mem h h2 (n := c!"WATER") (by decide +kernel)
  rw [e1] at e2
  revert e2
  decide +kernel

/-- **C54.** Overwriting a substance under one of its names removes its other names: after `WATER` is overwritten, `H2O` resolves
to nothing. -/
theorem C54_alias_lost (d : Data) : (lookup defaultSubs c!"H2O").isSome ∧
    lookup (runC defaultSubs [.overwrite ⟨d, [c!"WATER"]⟩]) c!"H2O" = none := by
  refine ⟨by decide +kernel, ?_⟩
  have h : TameHistory defaultSubs [.overwrite ⟨d, [c!"WATER"]⟩] := by
    refine ⟨?_, trivial⟩
    intro i j hi hj h1 h2
    obtain ⟨n, hn, h1⟩ := h1
    obtain ⟨m, hm, h2⟩ := h2
    simp only [List.mem_singleton] at hn hm
    subst hn hm
    have key : ∀ i, i < 91 → c!"WATER" ∈ (defaultSubs[i]?.map (·.names)).getD [] → i = 85 := by decide +kernel
    have hlen := C54_default_substances.2.1
    have k1 := key i (by omega) (by rw [List.getElem?_eq_getElem hi]; exact h1)
    have k2 := key j (by omega) (by rw [List.getElem?_eq_getElem hj]; exact h2)
    omega
  rw [(C54_critical_partial defaultSubs C54_default_substances.2.2.1 _ h).2]
  simp only [List.foldl_cons, List.foldl_nil, stepNames, replaceIn]
  rw [if_neg (by simp)]
  have hw : lookup defaultSubs c!"H2O" = some ⟨⟨6471 / 10, 22055000, 69 / 200⟩, [c!"WATER", c!"H2O"]⟩ := by decide +kernel
  rw [hw]
  simp only
  rw [if_pos]
  exact ⟨c!"WATER", by simp, by simp⟩

/-- **C54.** The gas radon is not found by its formula: `Rn` and `Rn(g)` resolve to nothing, while the symbol of radium resolves to
the data of radon. -/
theorem C54_radon : getSubstance defaultSubs c!"Rn" = .ok none ∧ getSubstance defaultSubs c!"Rn(g)" = .ok none ∧
    getSubstance defaultSubs c!"Ra" = getSubstance defaultSubs c!"radon" ∧
    ∃ s, getSubstance defaultSubs c!"radon" = .ok (some s) := by
  refine ⟨by decide +kernel, by decide +kernel, by decide +kernel, ⟨⟨377, 6280000, 0⟩, [c!"RADON", c!"RA"]⟩, by decide +kernel⟩

/-- **C54.** A list of alternative names resolves to the substance of the first name that resolves, and to nothing only if none
does. -/
theorem C54_alternatives (l : List Substance) (names : List Str) (hn : ∀ n ∈ names, n ≠ []) :
    ∃ o, getSubstanceAny l names = .ok o ∧
      (o = none ↔ ∀ n ∈ names, getSubstance l n = .ok none) ∧
      (∀ s, o = some s → ∃ pre n post, names = pre ++ n :: post ∧ getSubstance l n = .ok (some s) ∧
        ∀ m ∈ pre, getSubstance l m = .ok none) := by
  have hok : ∀ n, n ≠ [] → ∃ o, getSubstance l n = .ok o := by
    intro n hne
    have : ∃ p, ChargeParser.splitSpeciesNameSuffix n = .ok p := by
      unfold ChargeParser.splitSpeciesNameSuffix
      cases hl : n.getLast? with
      | none => exact absurd (List.getLast?_eq_none_iff.mp hl) hne
      | some c =>
        simp only
        split
        · exact ⟨_, rfl⟩
        · split <;> (split <;> exact ⟨_, rfl⟩)
    obtain ⟨p, hp⟩ := this
    exact ⟨_, by unfold getSubstance correctName; rw [hp]; rfl⟩
  induction names with
  | nil => exact ⟨none, rfl, by simp, by simp⟩
  | cons a rest ih =>
    obtain ⟨o, ho⟩ := hok a (hn a (by simp))
    cases o with
    | some s =>
      refine ⟨some s, by simp [getSubstanceAny, ho], ?_, ?_⟩
      · constructor
        · intro h; cases h
        · intro h
          have := h a (by simp)
          rw [ho] at this; cases this
      · intro t ht
        cases ht
        exact ⟨[], a, rest, rfl, ho, by simp⟩
    | none =>
      obtain ⟨o, h1, h2, h3⟩ := ih fun n h => hn n (by simp [h])
      refine ⟨o, by simp [getSubstanceAny, ho, h1], ?_, ?_⟩
      · rw [h2]; simp [ho]
      · intro s hs
        obtain ⟨pre, n, post, he, hg, hp⟩ := h3 s hs
        refine ⟨a :: pre, n, post, by simp [he], hg, ?_⟩
        intro m hm
        rcases List.mem_cons.mp hm with rfl | hm
        · exact ho
        · exact hp m hm

/-- **C54.** Names are looked up without regard to case and to a suffix such as `(g)` or `(aq)`: names that differ only in them
resolve alike. -/
theorem C54_case (l : List Substance) (name name' base base' suffix suffix' : Str)
    (h : ChargeParser.splitSpeciesNameSuffix name = .ok (base, suffix))
    (h' : ChargeParser.splitSpeciesNameSuffix name' = .ok (base', suffix'))
    (hb : base.map toUpper = base'.map toUpper) : getSubstance l name = getSubstance l name' := by
  unfold getSubstance correctName
  rw [h, h']
  simp only [Res.bind_ok']
  have : ∀ b : Str, (b.map fun c => if c = ' ' then '-' else c).map toUpper
      = (b.map toUpper).map fun c => if c = ' ' then '-' else c := by
    intro b
    rw [List.map_map, List.map_map]
    apply List.map_congr_left
    intro c _
    simp only [Function.comp]
    by_cases hc : c = ' '
    · subst hc; decide
    · rw [if_neg hc]
      by_cases hl : c.isLower
      · rw [if_neg]
        have hr : 97 ≤ c.toNat ∧ c.toNat ≤ 122 := by
          simp only [Char.isLower, Bool.and_eq_true, decide_eq_true_eq] at hl
          exact ⟨UInt32.le_iff_toNat_le.mp hl.1, UInt32.le_iff_toNat_le.mp hl.2⟩
        have key : ∀ k, k < 123 → 97 ≤ k → Char.ofNat (k - 32) ≠ ' ' := by decide +kernel
        unfold toUpper
        rw [if_pos hl]
        exact key c.toNat (by omega) hr.1
      · unfold toUpper
        rw [if_neg hl, if_neg hc]
  rw [this, this, hb]

example : getSubstance defaultSubs c!"carbon dioxide" = getSubstance defaultSubs c!"CO2(g)" ∧
    (∃ s, getSubstance defaultSubs c!"co2" = .ok (some s)) ∧ getSubstance defaultSubs c!"unobtainium" = .ok none := by
  refine ⟨by decide +kernel, ⟨⟨⟨1521 / 5, 7383000, 28 / 125⟩, [c!"CARBON-DIOXIDE", c!"CO2"]⟩, by decide +kernel⟩, by decide +kernel⟩

/-- A history that replaces an entry, appends one and has one rejected meets the hypotheses of `C54_critical_partial`. -/
example : TameHistory [⟨⟨1, 1, 1⟩, [c!"A", c!"B"]⟩] [.overwrite ⟨⟨2, 2, 2⟩, [c!"B"]⟩, .append ⟨⟨3, 3, 3⟩, [c!"A"]⟩,
    .append ⟨⟨4, 4, 4⟩, [c!"A"]⟩] ∧
    (lookup (runC [⟨⟨1, 1, 1⟩, [c!"A", c!"B"]⟩] [.overwrite ⟨⟨2, 2, 2⟩, [c!"B"]⟩, .append ⟨⟨3, 3, 3⟩, [c!"A"]⟩,
      .append ⟨⟨4, 4, 4⟩, [c!"A"]⟩]) c!"A") = some ⟨⟨3, 3, 3⟩, [c!"A"]⟩ := by
  refine ⟨⟨?_, trivial, trivial, trivial⟩, by decide +kernel⟩
  intro i j hi hj _ _
  simp only [List.length_cons, List.length_nil] at hi hj
  omega

/-- **C54.** A critical temperature set in any unit is positive in kelvin or the call throws. The pressure is checked before the
conversion instead: with a conversion that keeps the sign of positive values the result is positive as well. -/
theorem C54_set_positive (conv : Rat → Res Rat) (s s' : Substance) (value : Rat) :
    (setTemperatureUnit conv s value = .ok (s', true) → 0 < s'.data.Tcr ∧ s'.names = s.names) ∧
    (setTemperatureUnit conv s value = .ok (s', false) → s' = s) ∧
    ((∀ v w, 0 < v → conv v = .ok w → 0 < w) → setPressureUnit conv s value = .ok (s', true) →
      0 < s'.data.Pcr ∧ s'.names = s.names) := by
  unfold setTemperatureUnit setTemperature setPressureUnit
  refine ⟨?_, ?_, ?_⟩
  · cases hc : conv value with
    | ok v =>
      simp only [Res.bind_ok']
      split
      · intro h; cases h
      · rename_i hv
        intro h
        cases h
        exact ⟨not_le.mp hv, rfl⟩
    | throw => intro h; cases h
    | ub => intro h; cases h
  · cases hc : conv value with
    | ok v =>
      simp only [Res.bind_ok']
      split
      · intro h; cases h; rfl
      · intro h; cases h
    | throw => intro h; cases h
    | ub => intro h; cases h
  · intro hpos
    split
    · intro h; cases h
    · rename_i hv
      cases hc : conv value with
      | ok v =>
        simp only [Res.bind_ok']
        intro h
        cases h
        exact ⟨hpos value v (not_le.mp hv) hc, rfl⟩
      | throw => intro h; cases h
      | ub => intro h; cases h

/-! ## Elements -/

/-- **C54.** An element is found by its symbol after it is appended if the symbol was not known; if it was, the element found is
still the first one and the new one is never found. -/
theorem C54_elements (l : List Chem.Element) (e : Chem.Element) (s : Str) :
    withSymbol (appendElement l e) s = (withSymbol l s).or (if e.symbol = s then some e else none) := by
  have h : ∀ l : List Chem.Element, withSymbol l s = l.find? (fun e => e.symbol = s) := fun l => index_get l _
  rw [h, h, appendElement, List.find?_append]
  congr 1
  by_cases hs : e.symbol = s
  · simp [hs]
  · simp [hs]

/-- **C54.** In the default table every symbol and every name occurs once, so each element is found by its symbol and name. -/
theorem C54_default_elements : (defaultElements.map (·.symbol)).Nodup ∧ (defaultElements.map (·.name)).Nodup ∧
    (∀ e ∈ defaultElements, withSymbol defaultElements e.symbol = some e ∧ withName defaultElements e.name = some e) ∧
    defaultElements.length = 118 := by decide +kernel

/-- **C54.** A critical temperature or pressure in K or Pa is taken if and only if it is positive; otherwise nothing is changed. -/
theorem C54_setters (s : Substance) (value : Rat) :
    setTemperature s value = (if 0 < value then ({ s with data := { s.data with Tcr := value } }, true) else (s, false)) ∧
    setPressure s value = (if 0 < value then ({ s with data := { s.data with Pcr := value } }, true) else (s, false)) := by
  unfold setTemperature setPressure
  by_cases h : 0 < value
  · rw [if_pos h, if_pos h, if_neg (not_le.mpr h), if_neg (not_le.mpr h)]
    exact ⟨rfl, rfl⟩
  · rw [if_neg h, if_neg h, if_pos (not_lt.mp h), if_pos (not_lt.mp h)]
    exact ⟨rfl, rfl⟩

end Verif.Registries
