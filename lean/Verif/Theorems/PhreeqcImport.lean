import Verif.Spec.PhreeqcImport

/-!
# C118 : the amounts and critical properties taken from PHREEQC
-/

namespace Verif.PhreeqcImport

open Registries (Str)

theorem fill_molesX (g : Str) (r : PhaseRec) : (fill g r).molesX = r.molesX := by
  unfold fill
  split
  · rfl
  · dsimp only; split <;> split <;> split <;> rfl

theorem fill_completed (g : Str) (r : PhaseRec) : Completed g r (fill g r) := by
  unfold Completed
  cases h : criticalTable.lookup g with
  | none => simp [fill, h]
  | some x =>
    obtain ⟨t, p, w⟩ := x
    obtain ⟨a, b, c, m⟩ := r
    refine ⟨?_, ?_, ?_, ?_, fun h' => nomatch h'⟩
    · intro h1
      by_cases hb : b = 0 <;> by_cases hc : c = 0 <;> simp_all [fill]
    · intro h1
      by_cases ha : a = 0 <;> by_cases hc : c = 0 <;> simp_all [fill]
    · intro h1
      by_cases ha : a = 0 <;> by_cases hb : b = 0 <;> simp_all [fill]
    · intro t' p' w' h'
      simp only [Option.some.injEq, Prod.mk.injEq] at h'
      obtain ⟨rfl, rfl, rfl⟩ := h'
      by_cases ha : a = 0 <;> by_cases hb : b = 0 <;> by_cases hc : c = 0 <;> simp_all [fill, barToAtm]

theorem fill_fill (g : Str) (r : PhaseRec) : fill g (fill g r) = fill g r := by
  cases h : criticalTable.lookup g with
  | none => simp [fill, h]
  | some x =>
    obtain ⟨t, p, w⟩ := x
    obtain ⟨a, b, c, m⟩ := r
    by_cases ha : a = 0 <;> by_cases hb : b = 0 <;> by_cases hc : c = 0 <;> simp [fill, h, ha, hb, hc] <;>
      (repeat' split) <;> simp_all

theorem initCritical_spec (gases : List Str) (d : Data) :
    (initCritical d gases).moles = d.moles ∧ (initCritical d gases).unknowns = d.unknowns ∧
      (∀ g ∈ gases, (initCritical d gases).phase g = fill g (d.phase g)) ∧
      ∀ p, p ∉ gases → (initCritical d gases).phase p = d.phase p := by
  induction gases generalizing d with
  | nil => simp [initCritical]
  | cons g gs ih =>
    rw [initCritical]
    obtain ⟨h1, h2, h3, h4⟩ := ih { d with phase := fun p => if p = g then fill g (d.phase g) else d.phase p }
    refine ⟨h1, h2, ?_, ?_⟩
    · intro q hq
      by_cases hg : q ∈ gs
      · rw [h3 q hg]
        dsimp only
        split
        · rename_i hqg; subst hqg; exact fill_fill _ _
        · rfl
      · have hqg : q = g := by simpa [hg] using hq
        subst hqg
        rw [h4 q hg]
        simp
    · intro q hq
      simp only [List.mem_cons, not_or] at hq
      rw [h4 q hq.2]
      simp [hq.1]

/-- **C118 (critical properties).** After a script every gas has complete critical properties, and nothing else in PHREEQC is changed by
this. Repeating it changes nothing. -/
theorem C118_critical (d : Data) (gases : List Str) :
    (∀ g ∈ gases, Completed g (d.phase g) ((initCritical d gases).phase g)) ∧
    (∀ p, p ∉ gases → (initCritical d gases).phase p = d.phase p) ∧
    (∀ p, ((initCritical d gases).phase p).molesX = (d.phase p).molesX) ∧
    (initCritical d gases).moles = d.moles ∧ (initCritical d gases).unknowns = d.unknowns ∧
    initCritical (initCritical d gases) gases = initCritical d gases := by
  obtain ⟨h1, h2, h3, h4⟩ := initCritical_spec gases d
  obtain ⟨k1, k2, k3, k4⟩ := initCritical_spec gases (initCritical d gases)
  refine ⟨fun g hg => by rw [h3 g hg]; exact fill_completed _ _, h4, ?_, h1, h2, ?_⟩
  · intro p
    by_cases hp : p ∈ gases
    · rw [h3 p hp, fill_molesX]
    · rw [h4 p hp]
  · have : (initCritical (initCritical d gases) gases).phase = (initCritical d gases).phase := by
      funext p
      by_cases hp : p ∈ gases
      · rw [k3 p hp, h3 p hp, fill_fill]
      · rw [k4 p hp]
    cases h : initCritical (initCritical d gases) gases
    cases h' : initCritical d gases
    rw [h] at k1 k2 this
    rw [h'] at k1 k2 this
    simp_all

/-- The given critical properties are kept, unless zero is given. -/
theorem C118_given_partial (d : Data) (gases : List Str) (g : Str) (hg : g ∈ gases) (tc pc omega : Option Rat)
    (h : d.phase g = given tc pc omega) (h0 : tc ≠ some 0 ∧ pc ≠ some 0 ∧ omega ≠ some 0) :
    (∀ x, tc = some x → ((initCritical d gases).phase g).tc = x) ∧ (∀ x, pc = some x → ((initCritical d gases).phase g).pc = x) ∧
    ∀ x, omega = some x → ((initCritical d gases).phase g).omega = x := by
  obtain ⟨h1, h2, h3, -⟩ := (C118_critical d gases).1 g hg
  rw [h] at h1 h2 h3
  refine ⟨?_, ?_, ?_⟩
  · rintro x rfl; exact h1 (by simpa [given] using h0.1)
  · rintro x rfl; exact h2 (by simpa [given] using h0.2.1)
  · rintro x rfl; exact h3 (by simpa [given] using h0.2.2)

/-- An acentric factor of zero given for carbon dioxide is replaced by the number of the table. -/
theorem C118_given_zero_wrong : ∃ (d : Data) (gases : List Str) (g : Str), g ∈ gases ∧
    d.phase g = given (some 304) (some 73) (some 0) ∧ ((initCritical d gases).phase g).omega = 224 / 1000 :=
  ⟨⟨fun _ => 0, fun _ => given (some 304) (some 73) (some 0), []⟩, [c!"CO2(g)"], c!"CO2(g)", by decide, rfl, by decide +kernel⟩

/-! ### The table and the registry of critical properties -/

/-- The registry has the numbers of the table for a gas, with the pressure in Pa. -/
def agrees (name : Str) (t p w : Rat) : Bool :=
  match Registries.defaultSubstances with
  | .ok l => match Registries.getSubstance l name with
    | .ok (some s) => decide (s.data = ⟨t, p * 100000, w⟩)
    | _ => false
  | _ => false

/-- **C118 (table).** The critical properties of a gas are the ones that `CriticalProps::get` returns for it, except for neon, radon and phenol. -/
theorem C118_table_partial : ∀ row ∈ criticalTable, row.1 ∉ [c!"Ne(g)", c!"Rn(g)", c!"C6H6O(g)"] →
    ∃ l s, Registries.defaultSubstances = .ok l ∧ Registries.getSubstance l row.1 = .ok (some s) ∧
      s.data.Tcr = row.2.1 ∧ s.data.Pcr = row.2.2.1 * 100000 ∧ s.data.omega = row.2.2.2 := by
  have h : ∀ row ∈ criticalTable, row.1 ∉ [c!"Ne(g)", c!"Rn(g)", c!"C6H6O(g)"] → agrees row.1 row.2.1 row.2.2.1 row.2.2.2 = true := by
    decide +kernel
  intro row hrow hn
  have := h row hrow hn
  unfold agrees at this
  split at this
  · rename_i l hl
    split at this
    · rename_i s hs
      have := of_decide_eq_true this
      exact ⟨l, s, hl, hs, by rw [this], by rw [this], by rw [this]⟩
    · cases this
  · cases this

/-- Neon has other critical properties in PHREEQC systems than in the registry, and the registry does not know radon: it has it
under the symbol of radium. -/
theorem C118_table_wrong : ∃ l, Registries.defaultSubstances = .ok l ∧
    criticalTable.lookup c!"Ne(g)" = some (44, 27, 0) ∧
    (∃ s, Registries.getSubstance l c!"Ne(g)" = .ok (some s) ∧ s.data = ⟨444 / 10, 276 * 10000, 0⟩) ∧
    criticalTable.lookup c!"Rn(g)" = some (377, 628 / 10, 0) ∧ Registries.getSubstance l c!"Rn(g)" = .ok none ∧
    ∃ s, Registries.getSubstance l c!"Ra(g)" = .ok (some s) ∧ s.data = ⟨377, 628 * 10000, 0⟩ := by
  cases h : Registries.defaultSubstances with
  | ok l =>
    have key : (match Registries.defaultSubstances with
      | .ok l => decide ((match Registries.getSubstance l c!"Ne(g)" with | .ok (some s) => some s.data | _ => none) = some ⟨444 / 10, 276 * 10000, 0⟩ ∧
          Registries.getSubstance l c!"Rn(g)" = .ok none ∧
          (match Registries.getSubstance l c!"Ra(g)" with | .ok (some s) => some s.data | _ => none) = some ⟨377, 628 * 10000, 0⟩)
      | _ => false) = true := by decide +kernel
    rw [h] at key
    obtain ⟨k1, k2, k3⟩ := of_decide_eq_true key
    refine ⟨l, rfl, by decide +kernel, ?_, by decide +kernel, k2, ?_⟩
    · split at k1
      · rename_i s hs; exact ⟨s, hs, by simpa using k1⟩
      · cases k1
    · split at k3
      · rename_i s hs; exact ⟨s, hs, by simpa using k3⟩
      · cases k3
  | throw =>
    have : (match Registries.defaultSubstances with | .ok _ => true | _ => false) = true := by decide +kernel
    rw [h] at this; cases this
  | ub =>
    have : (match Registries.defaultSubstances with | .ok _ => true | _ => false) = true := by decide +kernel
    rw [h] at this; cases this

/-! ### Amounts -/

theorem phaseAmount_isAmount (d : Data) (p : Str) : IsAmount d p (phaseAmount d p) := by
  unfold phaseAmount
  dsimp only
  split
  · rename_i h
    split
    · rename_i u hu
      obtain ⟨h1, before, after, h2, h3⟩ := List.find?_eq_some_iff_append.1 hu
      refine Or.inr (Or.inl ⟨h, before, after, ?_, ?_⟩)
      · rw [h2]
        have : u = (some p, u.2) := by cases u; simpa using h1
        rw [← this]
      · intro v hv; simpa using h3 v hv
    · rename_i hu
      rw [List.find?_eq_none] at hu
      exact Or.inr (Or.inr ⟨h, fun v hv => by simpa using hu v hv, rfl⟩)
  · rename_i h
    exact Or.inl ⟨Rat.not_le.1 h, rfl⟩

theorem isAmount_unique (d : Data) (p : Str) (x : Rat) (h : IsAmount d p x) : x = phaseAmount d p := by
  unfold phaseAmount
  dsimp only
  rcases h with ⟨h1, rfl⟩ | ⟨h1, before, after, h2, h3⟩ | ⟨h1, h2, rfl⟩
  · rw [if_neg (Rat.not_le.2 h1)]
  · rw [if_pos h1]
    have : d.unknowns.find? (fun u => u.1 = some p) = some (some p, x) := by
      rw [List.find?_eq_some_iff_append]
      exact ⟨by simp, before, after, h2, fun v hv => by simpa using h3 v hv⟩
    rw [this]
  · rw [if_pos h1]
    have : d.unknowns.find? (fun u => u.1 = some p) = none := by
      rw [List.find?_eq_none]; intro v hv; simpa using h2 v hv
    rw [this]

theorem isAmount_congr (d d' : Data) (p : Str) (hm : (d'.phase p).molesX = (d.phase p).molesX) (hu : d'.unknowns = d.unknowns) (x : Rat) :
    IsAmount d' p x ↔ IsAmount d p x := by
  unfold IsAmount; rw [hm, hu]

theorem writeSpecies_spec (l : List (Str × Rat)) (d : Data) :
    (writeSpecies d l).phase = d.phase ∧ (writeSpecies d l).unknowns = d.unknowns ∧
    (∀ s, s ∉ l.map Prod.fst → (writeSpecies d l).moles s = d.moles s) ∧
    ((l.map Prod.fst).Nodup → ∀ q ∈ l, (writeSpecies d l).moles q.1 = q.2) := by
  induction l generalizing d with
  | nil => simp [writeSpecies]
  | cons q l ih =>
    obtain ⟨s, x⟩ := q
    rw [writeSpecies]
    obtain ⟨h1, h2, h3, h4⟩ := ih { d with moles := fun p => if p = s then x else d.moles p }
    refine ⟨h1, h2, ?_, ?_⟩
    · intro p hp
      simp only [List.map_cons, List.mem_cons, not_or] at hp
      rw [h3 p hp.2]; simp [hp.1]
    · intro hn q hq
      rw [List.map_cons, List.nodup_cons] at hn
      rcases List.mem_cons.1 hq with rfl | hq
      · rw [h3 _ hn.1]; simp
      · exact h4 hn.2 q hq

theorem writePhases_spec (l : List (Str × Rat)) (d : Data) :
    (writePhases d l).moles = d.moles ∧ (writePhases d l).unknowns = d.unknowns ∧
    (∀ s, SameCritical (d.phase s) ((writePhases d l).phase s)) ∧
    (∀ s, s ∉ l.map Prod.fst → (writePhases d l).phase s = d.phase s) ∧
    ((l.map Prod.fst).Nodup → ∀ q ∈ l, ((writePhases d l).phase q.1).molesX = q.2) := by
  induction l generalizing d with
  | nil => simp [writePhases, SameCritical]
  | cons q l ih =>
    obtain ⟨s, x⟩ := q
    rw [writePhases]
    obtain ⟨h1, h2, h3, h4, h5⟩ := ih { d with phase := fun p => if p = s then { d.phase s with molesX := x } else d.phase p }
    refine ⟨h1, h2, ?_, ?_, ?_⟩
    · intro p
      have := h3 p
      by_cases hp : p = s
      · subst hp; simpa [SameCritical] using this
      · simpa [SameCritical, hp] using this
    · intro p hp
      simp only [List.map_cons, List.mem_cons, not_or] at hp
      rw [h4 p hp.2]; simp [hp.1]
    · intro hn q hq
      rw [List.map_cons, List.nodup_cons] at hn
      rcases List.mem_cons.1 hq with rfl | hq
      · rw [h4 _ hn.1]; simp
      · exact h5 hn.2 q hq

/-- The amounts of the three lists. -/
theorem set_ok (d : Data) (l : Lists) (na ng nm : List Rat) (h1 : na.length = l.aqueous.length) (h2 : ng.length = l.gaseous.length)
    (h3 : nm.length = l.mineral.length) :
    setSpeciesAmounts d l (na ++ ng ++ nm) =
      .ok (writePhases (writePhases (writeSpecies d (l.aqueous.zip na)) (l.gaseous.zip ng)) (l.mineral.zip nm)) := by
  unfold setSpeciesAmounts
  rw [if_neg (by simp only [List.length_append]; omega)]
  have e1 : (na ++ ng ++ nm).take l.aqueous.length = na := by rw [List.append_assoc, ← h1, List.take_left]
  have e2 : ((na ++ ng ++ nm).drop l.aqueous.length).take l.gaseous.length = ng := by
    rw [List.append_assoc, ← h1, List.drop_left, ← h2, List.take_left]
  have e3 : (na ++ ng ++ nm).drop ((na ++ ng ++ nm).length - l.mineral.length) = nm := by
    rw [show (na ++ ng ++ nm).length - l.mineral.length = (na ++ ng).length by rw [List.length_append, h3]; omega, List.drop_left]
  rw [e1, e2, e3]

/-- **C118 (amounts).** The amounts after a script are those of PHREEQC, in the order of the species: first the aqueous species, then the gases,
then the minerals. Taking them succeeds for all contents of PHREEQC. -/
theorem C118_amounts (d : Data) (l : Lists) :
    ∃ s, execute d l = .ok s ∧ ∃ na ng nm, s.n = na ++ ng ++ nm ∧
      List.Forall₂ (fun p x => x = d.moles p) l.aqueous na ∧ List.Forall₂ (IsAmount d) l.gaseous ng ∧
      List.Forall₂ (IsAmount d) l.mineral nm := by
  obtain ⟨-, -, k1, k2, k3, -⟩ := C118_critical d l.gaseous
  have forall_map : ∀ (R : Str → Rat → Prop) (f : Str → Rat) (l : List Str), (∀ p, R p (f p)) → List.Forall₂ R l (l.map f) := by
    intro R f l h
    induction l with
    | nil => exact .nil
    | cons p l ih => exact .cons (h p) ih
  have hp : ∀ p, IsAmount d p (phaseAmount (initCritical d l.gaseous) p) := fun p =>
    (isAmount_congr d _ p (k1 p) k3 _).1 (phaseAmount_isAmount _ p)
  unfold execute
  dsimp only
  rw [amounts, set_ok _ _ _ _ _ (by simp [speciesAmounts]) (by simp [phaseAmounts]) (by simp [phaseAmounts])]
  exact ⟨_, rfl, _, _, _, rfl, forall_map _ _ _ fun p => by rw [k2], forall_map _ _ _ hp, forall_map _ _ _ hp⟩

theorem zip_spec (R : Str → Rat → Prop) (l : List Str) (n : List Rat) (h : l.length = n.length) (h' : ∀ q ∈ l.zip n, R q.1 q.2) :
    List.Forall₂ R l n := by
  induction l generalizing n with
  | nil => cases n with
    | nil => exact .nil
    | cons _ _ => simp at h
  | cons p l ih => cases n with
    | nil => simp at h
    | cons x n =>
      exact .cons (h' (p, x) (by simp)) (ih n (by simpa using h) fun q hq => h' q (by simp [hq]))

theorem forall₂_length (R : Str → Rat → Prop) (l : List Str) (n : List Rat) (h : List.Forall₂ R l n) : n.length = l.length := by
  induction h with
  | nil => rfl
  | cons _ _ ih => simp [ih]

theorem map_eq_of_forall₂ (f : Str → Rat) (l : List Str) (n : List Rat) (h : List.Forall₂ (fun p x => f p = x) l n) : l.map f = n := by
  induction h with
  | nil => rfl
  | cons h _ ih => rw [List.map_cons, h, ih]

/-- **C118 (writing).** Amounts given by `set` are in PHREEQC afterwards: no species is listed twice, and no phase is both a gas and a mineral. -/
theorem C118_set_partial (s : State) (na ng nm : List Rat) (h1 : na.length = s.l.aqueous.length) (h2 : ng.length = s.l.gaseous.length)
    (h3 : nm.length = s.l.mineral.length) (d1 : s.l.aqueous.Nodup) (d2 : (s.l.gaseous ++ s.l.mineral).Nodup) :
    ∃ s', set s (na ++ ng ++ nm) = .ok s' ∧ s'.n = na ++ ng ++ nm ∧ s'.l = s.l ∧ s'.d.unknowns = s.d.unknowns ∧
      List.Forall₂ (fun p x => s'.d.moles p = x) s.l.aqueous na ∧
      List.Forall₂ (fun p x => (s'.d.phase p).molesX = x) s.l.gaseous ng ∧
      List.Forall₂ (fun p x => (s'.d.phase p).molesX = x) s.l.mineral nm ∧
      (∀ p, SameCritical (s.d.phase p) (s'.d.phase p)) ∧
      ∀ p, p ∉ s.l.gaseous → p ∉ s.l.mineral → s'.d.phase p = s.d.phase p := by
  rw [set, set_ok _ _ _ _ _ h1 h2 h3]
  refine ⟨_, rfl, rfl, rfl, ?_⟩
  have f1 : (s.l.aqueous.zip na).map Prod.fst = s.l.aqueous := List.map_fst_zip (by omega)
  have f2 : (s.l.gaseous.zip ng).map Prod.fst = s.l.gaseous := List.map_fst_zip (by omega)
  have f3 : (s.l.mineral.zip nm).map Prod.fst = s.l.mineral := List.map_fst_zip (by omega)
  obtain ⟨n2, n3, dj⟩ := List.nodup_append.1 d2
  generalize hA : writeSpecies s.d (s.l.aqueous.zip na) = A
  generalize hB : writePhases A (s.l.gaseous.zip ng) = B
  generalize hC : writePhases B (s.l.mineral.zip nm) = C
  obtain ⟨a1, a2, a3, a4⟩ := writeSpecies_spec (s.l.aqueous.zip na) s.d
  obtain ⟨b1, b2, b3, b4, b5⟩ := writePhases_spec (s.l.gaseous.zip ng) A
  obtain ⟨c1, c2, c3, c4, c5⟩ := writePhases_spec (s.l.mineral.zip nm) B
  rw [hA, f1] at *
  rw [hB, f2] at *
  rw [hC, f3] at *
  refine ⟨by rw [c2, b2, a2], ?_, ?_, ?_, ?_, ?_⟩
  · refine zip_spec _ _ _ h1.symm fun q hq => ?_
    rw [c1, b1]; exact a4 d1 q hq
  · refine zip_spec _ _ _ h2.symm fun q hq => ?_
    have hq1 : q.1 ∈ s.l.gaseous := (List.of_mem_zip hq).1
    rw [c4 q.1 (fun h => dj q.1 hq1 q.1 h rfl)]
    exact b5 n2 q hq
  · exact zip_spec _ _ _ h3.symm fun q hq => c5 n3 q hq
  · intro p
    have e1 := b3 p; have e2 := c3 p
    rw [← a1]
    exact ⟨e2.1.trans e1.1, e2.2.1.trans e1.2.1, e2.2.2.trans e1.2.2⟩
  · intro p hp1 hp2
    rw [c4 p hp2, b4 p hp1, a1]

/-- **C118 (reading again).** The amounts after a script are those that PHREEQC has then: no species is listed twice, and no phase is both a gas and a
mineral. -/
theorem C118_reread_partial (d : Data) (l : Lists) (d1 : l.aqueous.Nodup) (d2 : (l.gaseous ++ l.mineral).Nodup) :
    ∃ s, execute d l = .ok s ∧ amounts s.d l = s.n := by
  obtain ⟨-, -, k1, k2, k3, -⟩ := C118_critical d l.gaseous
  generalize hd : initCritical d l.gaseous = d' at *
  obtain ⟨s', hs, hn, hl, hu, ha, hg, hm, -⟩ := C118_set_partial ⟨d', l, []⟩ (speciesAmounts d' l.aqueous) (phaseAmounts d' l.gaseous)
    (phaseAmounts d' l.mineral) (by simp [speciesAmounts]) (by simp [phaseAmounts]) (by simp [phaseAmounts]) d1 d2
  refine ⟨s', ?_, ?_⟩
  · unfold execute
    rw [hd]
    exact hs
  · rw [hn, amounts]
    have hphase : ∀ ps : List Str, List.Forall₂ (fun p x => (s'.d.phase p).molesX = x) ps (phaseAmounts d' ps) →
        phaseAmounts s'.d ps = phaseAmounts d' ps := by
      intro ps h
      unfold phaseAmounts at h ⊢
      induction ps with
      | nil => rfl
      | cons p ps ih =>
        rw [List.map_cons, List.map_cons] at *
        cases h with
        | cons h1 h2 =>
          rw [ih h2]
          congr 1
          rw [phaseAmount]
          rw [h1, hu]
          unfold phaseAmount
          dsimp only
          generalize d'.unknowns.find? _ = o
          cases o <;> by_cases h3 : (d'.phase p).molesX ≤ 0 <;> simp [h3]
    rw [hphase _ hg, hphase _ hm]
    congr 2
    exact map_eq_of_forall₂ _ _ _ ha

/-- Gypsum and carbon dioxide in PHREEQC: 2 mol of gypsum, as an unknown, and 1 mol of carbon dioxide in a gas phase. -/
def demo : Data where
  moles := fun p => if p = c!"H2O" then 55 else 0
  phase := fun p => if p = c!"CO2(g)" then ⟨0, 0, 0, 1⟩ else ⟨0, 0, 0, 0⟩
  unknowns := [(none, 7), (some c!"Gypsum", 2)]

/-- Its species. -/
def demoLists : Lists := ⟨[c!"H2O"], [c!"CO2(g)"], [c!"Gypsum"]⟩

/-- The hypotheses of the theorems above are met, and the amounts are 55, 1 and 2 mol. -/
example : demoLists.aqueous.Nodup ∧ (demoLists.gaseous ++ demoLists.mineral).Nodup ∧
    (∃ s, execute demo demoLists = .ok s ∧ s.n = [55, 1, 2] ∧ (s.d.phase c!"CO2(g)").tc = 3042 / 10 ∧ (s.d.phase c!"Gypsum").molesX = 2) ∧
    (∀ g ∈ demoLists.gaseous, demo.phase g ≠ given none none none) ∧ criticalTable.lookup c!"CO2(g)" ≠ none := by
  refine ⟨by decide, by decide, ⟨_, rfl, by decide +kernel, by decide +kernel, by decide +kernel⟩, by decide +kernel, by decide +kernel⟩

/-- After a first script the amounts of minerals are in PHREEQC, and they are taken again after a second one even if the unknowns of the second
script have other amounts: PHREEQC computes 3 mol of gypsum and 2 mol are reported. -/
theorem C118_second_script_wrong : ∃ (d : Data) (l : Lists) (run : Data → Data) (s s' : State),
    execute d l = .ok s ∧ (∀ d, (run d).phase = d.phase ∧ (run d).moles = d.moles) ∧
    execute (run s.d) l = .ok s' ∧ (run s.d).unknowns = [(none, 7), (some c!"Gypsum", 3)] ∧ l.mineral = [c!"Gypsum"] ∧ s'.n = [55, 1, 2] :=
  ⟨demo, demoLists, fun d => { d with unknowns := [(none, 7), (some c!"Gypsum", 3)] }, _, _, rfl, fun _ => ⟨rfl, rfl⟩, rfl, rfl, rfl,
    by decide +kernel⟩

/-- If PHREEQC leaves no amount in its minerals, which are unknowns, the reported amounts are those of the unknowns, after any history. -/
theorem C118_unknowns_partial (s : State) (run : Data → Data) (l : Lists) (p : Str) (hp : p ∈ l.mineral) (x : Rat)
    (hx : (some p, x) ∈ (run s.d).unknowns) (h1 : ∀ u ∈ (run s.d).unknowns, u.1 = some p → u.2 = x) (h0 : ((run s.d).phase p).molesX = 0) :
    ∃ s', step s (.execute run l) = .ok s' ∧
      ∃ na ng nm, s'.n = na ++ ng ++ nm ∧ na.length = l.aqueous.length ∧ ng.length = l.gaseous.length ∧ (p, x) ∈ l.mineral.zip nm := by
  obtain ⟨s', hs, na, ng, nm, hn, ha, hg, hm⟩ := C118_amounts (run s.d) l
  refine ⟨s', hs, na, ng, nm, hn, forall₂_length _ _ _ ha, forall₂_length _ _ _ hg, ?_⟩
  clear hn ha hg hs
  generalize l.mineral = ms at hp hm
  induction hm with
  | nil => cases hp
  | @cons q y ps nm hq hrest ih =>
    rcases List.mem_cons.1 hp with rfl | hp
    · have : y = x := by
        rcases hq with ⟨h2, -⟩ | ⟨-, before, after, h2, -⟩ | ⟨-, h2, -⟩
        · rw [h0] at h2; exact absurd h2 (by decide)
        · exact h1 (some p, y) (by rw [h2]; simp) rfl
        · exact absurd rfl (h2 _ hx)
      rw [this]; simp
    · exact List.mem_cons_of_mem _ (ih hp)

example : c!"Gypsum" ∈ demoLists.mineral ∧ (some c!"Gypsum", 2) ∈ demo.unknowns ∧ (demo.phase c!"Gypsum").molesX = 0 ∧
    (∀ u ∈ demo.unknowns, u.1 = some c!"Gypsum" → u.2 = 2) := by
  refine ⟨by decide, by decide, by decide, by decide⟩

/-- A phase that is both in a gas phase and in the equilibrium phases is two species of the system, and both have the amount of the gas: 1 mol of gas
and 10 mol as an unknown are reported as 1 mol and 1 mol. -/
theorem C118_both_wrong : ∃ (d : Data) (l : Lists) (s : State), execute d l = .ok s ∧ l = ⟨[c!"H2O"], [c!"CO2(g)"], [c!"CO2(g)"]⟩ ∧
    (d.phase c!"CO2(g)").molesX = 1 ∧ d.unknowns = [(some c!"CO2(g)", 10)] ∧ s.n = [55, 1, 1] :=
  ⟨{ demo with unknowns := [(some c!"CO2(g)", 10)] }, ⟨[c!"H2O"], [c!"CO2(g)"], [c!"CO2(g)"]⟩, _, rfl, rfl, rfl, rfl, by decide +kernel⟩

/-! ### Critical properties after any history -/

theorem sameCritical_trans {a b c : PhaseRec} (h : SameCritical a b) (h' : SameCritical b c) : SameCritical a c :=
  ⟨h'.1.trans h.1, h'.2.1.trans h.2.1, h'.2.2.trans h.2.2⟩

theorem completed_congr (p : Str) (a b c : PhaseRec) (h : Completed p a b) (h' : SameCritical b c) : Completed p a c := by
  unfold Completed at h ⊢
  rw [h'.1, h'.2.1, h'.2.2]; exact h

theorem fill_same (p : Str) (a b : PhaseRec) (h : SameCritical a b) : SameCritical (fill p a) (fill p b) := by
  obtain ⟨a1, a2, a3, a4⟩ := a
  obtain ⟨b1, b2, b3, b4⟩ := b
  obtain ⟨h1, h2, h3⟩ := h
  simp only at h1 h2 h3
  subst h1; subst h2; subst h3
  cases h : criticalTable.lookup p with
  | none => simp [SameCritical, fill, h]
  | some x =>
    obtain ⟨t, q, w⟩ := x
    by_cases ha : b1 = 0 <;> by_cases hb : b2 = 0 <;> by_cases hc : b3 = 0 <;> simp [SameCritical, fill, h, ha, hb, hc] <;>
      (repeat' split) <;> simp_all

theorem write_same (d d' : Data) (l : Lists) (n : List Rat) (h : setSpeciesAmounts d l n = .ok d') (p : Str) :
    SameCritical (d.phase p) (d'.phase p) := by
  unfold setSpeciesAmounts at h
  split at h
  · cases h
  · dsimp only at h
    cases h
    refine sameCritical_trans ?_ ((writePhases_spec _ _).2.2.1 p)
    have := (writePhases_spec (l.gaseous.zip ((n.drop l.aqueous.length).take l.gaseous.length))
      (writeSpecies d (l.aqueous.zip (n.take l.aqueous.length)))).2.2.1 p
    rw [(writeSpecies_spec _ d).1] at this
    exact this

/-- The gases of the script of a call. -/
def Op.gases : Op → List Str
  | .execute _ l => l.gaseous
  | .set _ => []

/-- PHREEQC does not change critical properties while it runs the script. -/
def Op.keeps : Op → Prop
  | .execute run _ => ∀ d p, SameCritical (d.phase p) ((run d).phase p)
  | .set _ => True

theorem step_same (s s' : State) (o : Op) (h : step s o = .ok s') (hk : o.keeps) (p : Str) :
    SameCritical (if p ∈ o.gases then fill p (s.d.phase p) else s.d.phase p) (s'.d.phase p) := by
  cases o with
  | set n =>
    simp only [Op.gases, List.not_mem_nil, if_false]
    simp only [step, set] at h
    cases hd : setSpeciesAmounts s.d s.l n with
    | ok d => rw [hd] at h; cases h; exact write_same _ _ _ _ hd p
    | throw => rw [hd] at h; cases h
    | ub => rw [hd] at h; cases h
  | execute run l =>
    simp only [step, execute] at h
    cases hd : setSpeciesAmounts (initCritical (run s.d) l.gaseous) l (amounts (initCritical (run s.d) l.gaseous) l) with
    | ok d =>
      rw [hd] at h; cases h
      refine sameCritical_trans ?_ (write_same _ _ _ _ hd p)
      obtain ⟨-, -, h3, h4⟩ := initCritical_spec l.gaseous (run s.d)
      by_cases hp : p ∈ l.gaseous
      · rw [if_pos (show p ∈ (Op.execute run l).gases from hp), h3 p hp]
        exact fill_same _ _ _ (hk s.d p)
      · rw [if_neg (show p ∉ (Op.execute run l).gases from hp), h4 p hp]
        exact hk s.d p
    | throw => rw [hd] at h; cases h
    | ub => rw [hd] at h; cases h

/-- **C118 (history).** After any sequence of scripts and new amounts, the critical properties of a phase that was a gas in some script are the ones it
had before, completed once from the table; those of other phases are the ones they had. -/
theorem C118_history (s s' : State) (ops : List Op) (h : runAll s ops = .ok s') (hk : ∀ o ∈ ops, o.keeps) (p : Str) :
    ((∃ o ∈ ops, p ∈ o.gases) → Completed p (s.d.phase p) (s'.d.phase p)) ∧
    ((∀ o ∈ ops, p ∉ o.gases) → SameCritical (s.d.phase p) (s'.d.phase p)) := by
  have key : ∀ (ops : List Op) (s : State), runAll s ops = .ok s' → (∀ o ∈ ops, o.keeps) →
      SameCritical (if ∃ o ∈ ops, p ∈ o.gases then fill p (s.d.phase p) else s.d.phase p) (s'.d.phase p) := by
    intro ops
    induction ops with
    | nil => intro s h _; cases h; simp [SameCritical]
    | cons o os ih =>
      intro s h hk
      rw [runAll] at h
      cases ho : step s o with
      | throw => rw [ho] at h; cases h
      | ub => rw [ho] at h; cases h
      | ok s1 =>
        rw [ho, Res.bind_ok'] at h
        have h1 := step_same s s1 o ho (hk o (by simp)) p
        have h2 := ih s1 h fun o ho => hk o (by simp [ho])
        by_cases a : p ∈ o.gases <;> by_cases b : ∃ o ∈ os, p ∈ o.gases
        · rw [if_pos a] at h1; rw [if_pos b] at h2; rw [if_pos ⟨o, by simp, a⟩]
          have := fill_same p _ _ h1
          rw [fill_fill] at this
          exact sameCritical_trans this h2
        · rw [if_pos a] at h1; rw [if_neg b] at h2; rw [if_pos ⟨o, by simp, a⟩]
          exact sameCritical_trans h1 h2
        · rw [if_neg a] at h1; rw [if_pos b] at h2
          rw [if_pos (by obtain ⟨o', h3, h4⟩ := b; exact ⟨o', by simp [h3], h4⟩)]
          exact sameCritical_trans (fill_same p _ _ h1) h2
        · rw [if_neg a] at h1; rw [if_neg b] at h2
          rw [if_neg (by rintro ⟨o', h3, h4⟩; rcases List.mem_cons.1 h3 with rfl | h3; exacts [a h4, b ⟨o', h3, h4⟩])]
          exact sameCritical_trans h1 h2
  have := key ops s h hk
  constructor
  · intro he; rw [if_pos he] at this; exact completed_congr _ _ _ _ (fill_completed _ _) this
  · intro he
    rw [if_neg (by rintro ⟨o, h1, h2⟩; exact he o h1 h2)] at this
    exact this

/-- A history of two scripts and new amounts. -/
example : ∃ s', runAll ⟨demo, demoLists, []⟩ [.execute id demoLists, .set [50, 2, 1], .execute id demoLists] = .ok s' ∧ s'.n = [50, 2, 1] ∧
    (s'.d.phase c!"CO2(g)").omega = 224 / 1000 ∧ Op.keeps (.execute id demoLists) :=
  ⟨_, rfl, by decide +kernel, by decide +kernel, fun _ _ => ⟨rfl, rfl, rfl⟩⟩

end Verif.PhreeqcImport
