import Verif.Model.AqueousParams
import Verif.Spec.AqueousParams
import Verif.Theorems.Lists
import Verif.Theorems.NamingUtils
import Verif.Theorems.Bilinear
import Mathlib.Data.Rat.Cast.Order
import Mathlib.Tactic.NormNum
import Mathlib.Tactic.Linarith
import Mathlib.Tactic.FieldSimp

/-!
# C101: the parameters of the aqueous activity models
-/

namespace Verif.AqueousParams

open Lists

/-! ### Look-ups in maps -/

/-- The rows of a map whose keys are formulas. -/
def Rows (m : List (Str × Rat)) (rows : List Row) : Prop :=
  List.Forall₂ (fun q (r : Row) => ∃ g, Formula.ofString q.1 = .ok g ∧ r = ⟨g.elements, g.charge, q.2⟩) m rows

theorem get_first (f : Formula) (hf : f.symbols.Nodup) (d : Rat) : ∀ (m : List (Str × Rat)) (rows : List Row), Rows m rows →
    ∃ v, get f m d = .ok v ∧ ((∃ pre r post, rows = pre ++ r :: post ∧ (∀ s ∈ pre, ¬ s.Is f.elements f.charge) ∧
      r.Is f.elements f.charge ∧ v = r.value) ∨ ((∀ r ∈ rows, ¬ r.Is f.elements f.charge) ∧ v = d)) := by
  intro m rows h
  induction h with
  | nil => exact ⟨d, rfl, .inr ⟨by simp, rfl⟩⟩
  | @cons q r m rows hqr _ ih =>
    obtain ⟨g, hg, rfl⟩ := hqr
    have hiff : f.equivalent g = true ↔ Row.Is ⟨g.elements, g.charge, q.2⟩ f.elements f.charge :=
      C98_formulas_partial f g hf (ofString_nodup _ _ hg)
    obtain ⟨k, value⟩ := q
    simp only at hg
    by_cases he : f.equivalent g = true
    · refine ⟨value, ?_, .inl ⟨[], _, rows, rfl, by simp, hiff.1 he, rfl⟩⟩
      simp [get, hg, Res.bind_ok', he]
    · obtain ⟨v, hv, hcase⟩ := ih
      refine ⟨v, ?_, ?_⟩
      · simp only [get, hg, Res.bind_ok']
        rw [if_neg he, hv]
      · rcases hcase with ⟨pre, r, post, rfl, h1, h2, h3⟩ | ⟨h1, h2⟩
        · refine .inl ⟨_ :: pre, r, post, rfl, ?_, h2, h3⟩
          intro s hs
          rcases List.mem_cons.1 hs with rfl | hs
          · exact fun hh => he (hiff.2 hh)
          · exact h1 s hs
        · refine .inr ⟨?_, h2⟩
          intro s hs
          rcases List.mem_cons.1 hs with rfl | hs
          · exact fun hh => he (hiff.2 hh)
          · exact h1 s hs

/-- No two rows of a table are for the same substance. -/
def Distinct (rows : List Row) : Prop := rows.Pairwise fun a b => ¬ (SameComposition a.elements b.elements ∧ a.charge = b.charge)

theorem distinct_of (rows : List Row)
    (h : rows.Pairwise fun a b =>
      (a.elements.all (fun p => b.elements.contains p) && b.elements.all (fun p => a.elements.contains p) && a.charge == b.charge) = false) :
    Distinct rows := by
  refine h.imp fun {a b} hab hh => ?_
  have : a.elements.all (fun p => b.elements.contains p) = true := by
    rw [List.all_eq_true]
    intro p hp
    exact List.contains_iff_mem.2 ((hh.1 p.1 p.2).1 hp)
  have h' : b.elements.all (fun p => a.elements.contains p) = true := by
    rw [List.all_eq_true]
    intro p hp
    exact List.contains_iff_mem.2 ((hh.1 p.1 p.2).2 hp)
  rw [this, h', hh.2] at hab
  simp at hab

theorem Row.Is.unique {table : List Row} (ht : Distinct table) {r s : Row} (hr : r ∈ table) (hs : s ∈ table)
    {e : List (List Char × Rat)} {z : Rat} (h1 : r.Is e z) (h2 : s.Is e z) : r = s := by
  by_contra hne
  have hsym : Std.Symm fun a b : Row => ¬ (SameComposition a.elements b.elements ∧ a.charge = b.charge) :=
    ⟨fun a b hab hba => hab ⟨fun e c => (hba.1 e c).symm, hba.2.symm⟩⟩
  exact ht.forall hr hs hne ⟨fun x c => ((h1.1 x c).symm.trans (h2.1 x c)), h1.2.symm.trans h2.2⟩

/-- **C101**, look-ups: for all maps of a user whose keys are formulas, and all formulas without repeated elements, the value is that of
the first entry with the same composition and charge, or the default; if no two keys are the same substance, it does not depend on the order. -/
theorem C101_lookup (f : Formula) (hf : f.symbols.Nodup) (m : List (Str × Rat)) (rows : List Row) (h : Rows m rows) (d : Rat) :
    ∃ v, get f m d = .ok v ∧ Tabulated rows d f.elements f.charge v ∧
      (Distinct rows → (∀ w, Tabulated rows d f.elements f.charge w → w = v) ∧ ∀ m', m'.Perm m → get f m' d = .ok v) := by
  obtain ⟨v, hv, hc⟩ := get_first f hf d m rows h
  have htab : Tabulated rows d f.elements f.charge v := by
    rcases hc with ⟨pre, r, post, rfl, _, h2, h3⟩ | h1
    · exact .inl ⟨r, by simp, h2, h3⟩
    · exact .inr h1
  have huniq : Distinct rows → ∀ w, Tabulated rows d f.elements f.charge w → w = v := by
    intro hd w hw
    rcases htab with ⟨r, hr, hi, rfl⟩ | ⟨hn, rfl⟩
    · rcases hw with ⟨s, hs, hi', rfl⟩ | ⟨hn, _⟩
      · rw [Row.Is.unique hd hs hr hi' hi]
      · exact absurd hi (hn r hr)
    · rcases hw with ⟨s, hs, hi', _⟩ | ⟨_, rfl⟩
      · exact absurd hi' (hn s hs)
      · rfl
  refine ⟨v, hv, htab, fun hd => ⟨huniq hd, ?_⟩⟩
  intro m' hm'
  obtain ⟨rows', h', hperm⟩ : ∃ rows', Rows m' rows' ∧ rows'.Perm rows := by
    have := (List.perm_comp_forall₂ hm' h)
    obtain ⟨c, hc1, hc2⟩ := this
    exact ⟨c, hc1, hc2⟩
  obtain ⟨v', hv', hc'⟩ := get_first f hf d m' rows' h'
  have htab' : Tabulated rows d f.elements f.charge v' := by
    rcases hc' with ⟨pre, r, post, rfl, _, h2, h3⟩ | ⟨h1, h2⟩
    · exact .inl ⟨r, hperm.subset (by simp), h2, h3⟩
    · exact .inr ⟨fun r hr => h1 r (hperm.symm.subset hr), h2⟩
  rw [hv', huniq hd v' htab']

/-- **C101**, spelling: two ways of writing a substance get the same value from every map whose keys are formulas. -/
theorem C101_spelling (x y : Str) (f g : Formula) (hf : Formula.ofString x = .ok f) (hg : Formula.ofString y = .ok g)
    (he : SameComposition f.elements g.elements) (hz : f.charge = g.charge) (m : List (Str × Rat)) (rows : List Row) (h : Rows m rows) (d : Rat) :
    get f m d = get g m d := by
  induction h with
  | nil => rfl
  | @cons q r m rows hqr _ ih =>
    obtain ⟨k, hk, rfl⟩ := hqr
    obtain ⟨q1, q2⟩ := q
    simp only at hk
    have nf := ofString_nodup _ _ hf
    have ng := ofString_nodup _ _ hg
    have nk := ofString_nodup _ _ hk
    have : f.equivalent k = g.equivalent k := by
      rw [Bool.eq_iff_iff, C98_formulas_partial f k nf nk, C98_formulas_partial g k ng nk, hz]
      constructor
      · exact fun hh => ⟨fun e c => (he e c).symm.trans (hh.1 e c), hh.2⟩
      · exact fun hh => ⟨fun e c => (he e c).trans (hh.1 e c), hh.2⟩
    simp only [get, hk, Res.bind_ok', this, ih]

/-- **C101**, keys that are not formulas: the look-up throws exactly if no entry before the first such key matches. -/
theorem C101_unreadable (f : Formula) (hf : f.symbols.Nodup) (m m' : List (Str × Rat)) (rows : List Row) (h : Rows m rows) (k : Str)
    (v d : Rat) (hk : Formula.ofString k = .throw) :
    get f (m ++ (k, v) :: m') d = .throw ↔ ∀ r ∈ rows, ¬ r.Is f.elements f.charge := by
  induction h with
  | nil => simp [get, hk, Res.bind_throw']
  | @cons q r m rows hqr _ ih =>
    obtain ⟨g, hg, rfl⟩ := hqr
    obtain ⟨q1, q2⟩ := q
    simp only at hg
    have hiff : f.equivalent g = true ↔ Row.Is ⟨g.elements, g.charge, q2⟩ f.elements f.charge :=
      C98_formulas_partial f g hf (ofString_nodup _ _ hg)
    simp only [List.cons_append, get, hg, Res.bind_ok', List.mem_cons, forall_eq_or_imp]
    by_cases he : f.equivalent g = true
    · rw [if_pos he]
      constructor
      · exact fun hh => by cases hh
      · exact fun hh => absurd (hiff.1 he) hh.1
    · rw [if_neg he, ih]
      exact ⟨fun hh => ⟨fun h2 => he (hiff.2 h2), hh⟩, fun hh => hh.2⟩

/-! ### Tables of the Debye-Hückel model -/

/-- Rows computed from a map. -/
def rowsOf : List (Str × Rat) → Res (List Row)
  | [] => .ok []
  | (k, v) :: rest => (Formula.ofString k).bind fun g => (rowsOf rest).bind fun l => .ok (⟨g.elements, g.charge, v⟩ :: l)

theorem rows_of (m : List (Str × Rat)) : ∀ rows, rowsOf m = .ok rows → Rows m rows := by
  induction m with
  | nil => intro rows h; cases h; exact .nil
  | cons q m ih =>
    intro rows h
    obtain ⟨k, v⟩ := q
    rw [rowsOf] at h
    cases hg : Formula.ofString k with
    | throw => rw [hg] at h; cases h
    | ub => rw [hg] at h; cases h
    | ok g =>
      rw [hg, Res.bind_ok'] at h
      cases hl : rowsOf m with
      | throw => rw [hl] at h; cases h
      | ub => rw [hl] at h; cases h
      | ok l =>
        rw [hl] at h
        cases h
        exact .cons ⟨g, hg, rfl⟩ (ih l hl)

theorem rows_phreeqcSize : Rows (mapOf aions_phreeqc) phreeqcSize := rows_of _ _ (by decide +kernel)
theorem rows_phreeqcB : Rows (mapOf bions_phreeqc) phreeqcB := rows_of _ _ (by decide +kernel)
theorem rows_wateqSize : Rows (mapOf aions_wateq4f) wateqSize := rows_of _ _ (by decide +kernel)
theorem rows_wateqB : Rows (mapOf bions_wateq4f) wateqB := rows_of _ _ (by decide +kernel)

/-- The published table with the misprint of the code. -/
def kiellandCode : List Row := kiellandSize.map fun r => if r.elements = [(c!"Zr", 1)] then { r with elements := [(c!"Zn", 1)] } else r
theorem rows_kielland : Rows (mapOf aions_kielland) kiellandCode := rows_of _ _ (by decide +kernel)

theorem distinct_tables : Distinct phreeqcSize ∧ Distinct phreeqcB ∧ Distinct wateqSize ∧ Distinct wateqB ∧ Distinct kiellandSize :=
  ⟨distinct_of _ (by decide +kernel), distinct_of _ (by decide +kernel), distinct_of _ (by decide +kernel), distinct_of _ (by decide +kernel),
    distinct_of _ (by decide +kernel)⟩

theorem tabulated (f : Formula) (hf : f.symbols.Nodup) {m : List (Str × Rat)} {rows : List Row} (h : Rows m rows) (d : Rat) :
    ∃ v, get f m d = .ok v ∧ Tabulated rows d f.elements f.charge v := by
  obtain ⟨v, h1, h2, _⟩ := C101_lookup f hf m rows h d
  exact ⟨v, h1, h2⟩

/-- **C101**, published tables: each of them gives one value for every composition and charge. -/
theorem C101_published (table : List Row) (ht : table ∈ [phreeqcSize, phreeqcB, wateqSize, wateqB, kiellandSize]) (d : Rat)
    (e : List (List Char × Rat)) (z v w : Rat) (hv : Tabulated table d e z v) (hw : Tabulated table d e z w) : v = w := by
  have hd : Distinct table := by
    obtain ⟨h1, h2, h3, h4, h5⟩ := distinct_tables
    simp only [List.mem_cons, List.not_mem_nil, or_false] at ht
    rcases ht with rfl | rfl | rfl | rfl | rfl <;> assumption
  rcases hv with ⟨r, hr, hi, rfl⟩ | ⟨hn, rfl⟩
  · rcases hw with ⟨s, hs, hi', rfl⟩ | ⟨hn, _⟩
    · rw [Row.Is.unique hd hr hs hi hi']
    · exact absurd hi (hn r hr)
  · rcases hw with ⟨s, hs, hi', _⟩ | ⟨_, rfl⟩
    · exact absurd hi' (hn s hs)
    · rfl

/-- **C101**, PHREEQC: `ActivityModelDebyeHuckel` and `ActivityModelDebyeHuckelPHREEQC` use the published values, zero for other ions, and
0.1 for neutral species. -/
theorem C101_phreeqc (p : Preset) (hp : p = .plain ∨ p = .phreeqc) (f : Formula) (hf : f.symbols.Nodup) :
    ∃ a b, p.params.aion f = .ok a ∧ p.params.bion f = .ok b ∧ p.params.bneutral f = .ok (1 / 10) ∧
      Tabulated phreeqcSize 0 f.elements f.charge a ∧ Tabulated phreeqcB 0 f.elements f.charge b := by
  obtain ⟨a, ha, hta⟩ := tabulated f hf rows_phreeqcSize 0
  obtain ⟨b, hb, htb⟩ := tabulated f hf rows_phreeqcB 0
  rcases hp with rfl | rfl <;> exact ⟨a, b, ha, hb, rfl, hta, htb⟩

/-- **C101**, WATEQ4F. -/
theorem C101_wateq4f (f : Formula) (hf : f.symbols.Nodup) :
    ∃ a b, Preset.wateq4f.params.aion f = .ok a ∧ Preset.wateq4f.params.bion f = .ok b ∧ Preset.wateq4f.params.bneutral f = .ok (1 / 10) ∧
      Tabulated wateqSize 0 f.elements f.charge a ∧ Tabulated wateqB 0 f.elements f.charge b := by
  obtain ⟨a, ha, hta⟩ := tabulated f hf rows_wateqSize 0
  obtain ⟨b, hb, htb⟩ := tabulated f hf rows_wateqB 0
  exact ⟨a, b, ha, hb, rfl, hta, htb⟩

/-- **C101**, limiting law: `å` and `b` of all ions are zero. -/
theorem C101_limiting_law (f : Formula) :
    Preset.limitingLaw.params.aion f = .ok 0 ∧ Preset.limitingLaw.params.bion f = .ok 0 := ⟨rfl, rfl⟩

/-- **C101**, Kielland, for all substances but zirconium(IV), and zinc with the charge four. -/
theorem C101_kielland_partial (f : Formula) (hf : f.symbols.Nodup)
    (h : ¬ SameComposition f.elements [(c!"Zr", 1)] ∧ ¬ SameComposition f.elements [(c!"Zn", 1)] ∨ f.charge ≠ 4) :
    ∃ a, Preset.kielland.params.aion f = .ok a ∧ Preset.kielland.params.bion f = .ok 0 ∧
      Tabulated kiellandSize 0 f.elements f.charge a := by
  obtain ⟨a, ha, hta⟩ := tabulated f hf rows_kielland 0
  refine ⟨a, ha, rfl, ?_⟩
  have hz4 : ∀ r ∈ kiellandSize, r.elements = [(c!"Zr", 1)] → r.charge = 4 := by decide +kernel
  rcases hta with ⟨r, hr, hi, rfl⟩ | ⟨hn, rfl⟩
  · obtain ⟨s, hs, rfl⟩ := List.mem_map.1 hr
    by_cases hzr : s.elements = [(c!"Zr", 1)]
    · rw [if_pos hzr] at hi
      have h4 := hz4 s hs hzr
      rcases h with h | h
      · exact absurd hi.1 h.2
      · exact absurd (hi.2.trans h4) h
    · rw [if_neg hzr] at hi ⊢
      exact .inl ⟨s, hs, hi, rfl⟩
  · refine .inr ⟨fun s hs hi => ?_, rfl⟩
    by_cases hzr : s.elements = [(c!"Zr", 1)]
    · rcases h with h | h
      · exact h.1 (hzr ▸ hi.1)
      · exact h (hi.2.trans (hz4 s hs hzr))
    · refine hn _ (List.mem_map.2 ⟨s, hs, rfl⟩) ?_
      rw [if_neg hzr]
      exact hi

/-- Zirconium(IV) has size 11 Å in the publication and 0 in the code, which has the row under the name of zinc. -/
theorem C101_kielland_wrong :
    Tabulated kiellandSize 0 [(c!"Zr", 1)] 4 11 ∧
      (∃ f, Formula.ofString c!"Zr++++" = .ok f ∧ f.elements = [(c!"Zr", 1)] ∧ f.charge = 4 ∧ Preset.kielland.params.aion f = .ok 0) ∧
      ∃ f, Formula.ofString c!"Zn++++" = .ok f ∧ Preset.kielland.params.aion f = .ok 11 := by
  refine ⟨.inl ⟨⟨[(c!"Zr", 1)], 4, 11⟩, by decide +kernel, ⟨fun e c => Iff.rfl, rfl⟩, rfl⟩,
    ⟨⟨c!"Zr++++", [(c!"Zr", 1)], 4⟩, by decide +kernel, rfl, rfl, by decide +kernel⟩,
    ⟨⟨c!"Zn++++", [(c!"Zn", 1)], 4⟩, by decide +kernel, by decide +kernel⟩⟩

/-- **C101**, sizes: no model has an ion with a negative size, so that `1 + å B √I` is at least one. -/
theorem C101_sizes (p : Preset) (f : Formula) (hf : f.symbols.Nodup) : ∃ a, p.params.aion f = .ok a ∧ 0 ≤ a := by
  have key : ∀ {m : List (Str × Rat)} {rows : List Row}, Rows m rows → (∀ r ∈ rows, 0 ≤ r.value) → ∃ a, get f m 0 = .ok a ∧ 0 ≤ a := by
    intro m rows h hr
    obtain ⟨a, ha, hta⟩ := tabulated f hf h 0
    refine ⟨a, ha, ?_⟩
    rcases hta with ⟨r, hm, _, rfl⟩ | ⟨_, rfl⟩
    · exact hr r hm
    · exact le_refl _
  cases p with
  | plain => exact key rows_phreeqcSize (by decide +kernel)
  | phreeqc => exact key rows_phreeqcSize (by decide +kernel)
  | limitingLaw => exact ⟨0, rfl, le_refl _⟩
  | kielland => exact key rows_kielland (by decide +kernel)
  | wateq4f => exact key rows_wateqSize (by decide +kernel)

/-- **C101**, ions of a phase: the parameters collected for a list of ions are those of each of them. -/
theorem C101_collect (p : Params) (ra rb : List Row) (ha : Rows p.aions ra) (hb : Rows p.bions rb) (fs : List Formula)
    (hf : ∀ f ∈ fs, f.symbols.Nodup) :
    ∃ l, p.collect fs = .ok l ∧ List.Forall₂ (fun f q => Tabulated ra p.aiondefault f.elements f.charge q.1 ∧
      Tabulated rb p.biondefault f.elements f.charge q.2) fs l := by
  induction fs with
  | nil => exact ⟨[], rfl, .nil⟩
  | cons f fs ih =>
    obtain ⟨l, hl, hall⟩ := ih fun g hg => hf g (List.mem_cons_of_mem _ hg)
    obtain ⟨a, h1, h2⟩ := tabulated f (hf f (by simp)) ha p.aiondefault
    obtain ⟨b, h3, h4⟩ := tabulated f (hf f (by simp)) hb p.biondefault
    refine ⟨(a, b) :: l, ?_, .cons ⟨h2, h4⟩ hall⟩
    rw [Params.collect, Params.aion, Params.bion, h1, h3, hl]
    rfl

/-! ### Histories of setters -/

/-- The default of `å`, and of `b`, after a history: the last one assigned, or zero since the last `setLimitingLaw` or `setKielland`. -/
def lastA (ops : List Op) : Rat :=
  ops.foldl (fun d o => match o with | .aiondefault v => v | .setLimitingLaw => 0 | .setKielland => 0 | _ => d) 0
def lastB (ops : List Op) : Rat :=
  ops.foldl (fun d o => match o with | .biondefault v => v | .setLimitingLaw => 0 | .setKielland => 0 | _ => d) 0
/-- The default of `b` for neutral species: the last one assigned, or 0.1 since the last `setPHREEQC`. -/
def lastN (ops : List Op) : Rat :=
  ops.foldl (fun d o => match o with | .bneutraldefault v => v | .setPHREEQC => 1 / 10 | _ => d) (1 / 10)

theorem run_defaults (ops : List Op) (p : Params) :
    (ops.foldl Params.run p).aiondefault =
      ops.foldl (fun d o => match o with | .aiondefault v => v | .setLimitingLaw => 0 | .setKielland => 0 | _ => d) p.aiondefault ∧
    (ops.foldl Params.run p).biondefault =
      ops.foldl (fun d o => match o with | .biondefault v => v | .setLimitingLaw => 0 | .setKielland => 0 | _ => d) p.biondefault ∧
    (ops.foldl Params.run p).bneutraldefault =
      ops.foldl (fun d o => match o with | .bneutraldefault v => v | .setPHREEQC => 1 / 10 | _ => d) p.bneutraldefault := by
  induction ops generalizing p with
  | nil => exact ⟨rfl, rfl, rfl⟩
  | cons o ops ih =>
    simp only [List.foldl_cons]
    obtain ⟨h1, h2, h3⟩ := ih (p.run o)
    rw [h1, h2, h3]
    cases o <;> exact ⟨rfl, rfl, rfl⟩

/-- **C101**, histories: whatever was done before with the parameters, `setKielland` and `setLimitingLaw` give the values of the models of
the same name; `setPHREEQC` and `setWATEQ4F` give the published values, and the last default to all other ions. -/
theorem C101_histories (ops : List Op) (f : Formula) (hf : f.symbols.Nodup) :
    (let p : Params := (ops ++ [Op.setKielland]).foldl Params.run {}; p.aion f = Preset.kielland.params.aion f ∧ p.bion f = .ok 0) ∧
    (let p : Params := (ops ++ [Op.setLimitingLaw]).foldl Params.run {}; p.aion f = .ok 0 ∧ p.bion f = .ok 0) ∧
    (let p : Params := (ops ++ [Op.setPHREEQC]).foldl Params.run {}; ∃ a b, p.aion f = .ok a ∧ p.bion f = .ok b ∧ p.bneutraldefault = 1 / 10 ∧
      Tabulated phreeqcSize (lastA ops) f.elements f.charge a ∧ Tabulated phreeqcB (lastB ops) f.elements f.charge b) ∧
    (let p : Params := (ops ++ [Op.setWATEQ4F]).foldl Params.run {}; ∃ a b, p.aion f = .ok a ∧ p.bion f = .ok b ∧ p.bneutraldefault = lastN ops ∧
      Tabulated wateqSize (lastA ops) f.elements f.charge a ∧ Tabulated wateqB (lastB ops) f.elements f.charge b) := by
  obtain ⟨h1, h2, h3⟩ := run_defaults ops {}
  simp only [List.foldl_append, List.foldl_cons, List.foldl_nil]
  refine ⟨⟨rfl, rfl⟩, ⟨rfl, rfl⟩, ?_, ?_⟩
  · obtain ⟨a, ha, hta⟩ := tabulated f hf rows_phreeqcSize (lastA ops)
    obtain ⟨b, hb, htb⟩ := tabulated f hf rows_phreeqcB (lastB ops)
    refine ⟨a, b, ?_, ?_, rfl, hta, htb⟩
    · show get f _ (ops.foldl Params.run {}).aiondefault = _
      rw [h1]; exact ha
    · show get f _ (ops.foldl Params.run {}).biondefault = _
      rw [h2]; exact hb
  · obtain ⟨a, ha, hta⟩ := tabulated f hf rows_wateqSize (lastA ops)
    obtain ⟨b, hb, htb⟩ := tabulated f hf rows_wateqB (lastB ops)
    refine ⟨a, b, ?_, ?_, h3, hta, htb⟩
    · show get f _ (ops.foldl Params.run {}).aiondefault = _
      rw [h1]; exact ha
    · show get f _ (ops.foldl Params.run {}).biondefault = _
      rw [h2]; exact hb

/-- **C101**, neutral species: the setters never change the parameters that a user gave to single neutral species. -/
theorem C101_neutrals (p : Params) (o : Op) (ho : ∀ k v, o ≠ .bneutral k v) : (p.run o).bneutrals = p.bneutrals := by
  cases o with
  | bneutral k v => exact absurd rfl (ho k v)
  | _ => rfl

/-! ### Radii of the HKF model -/

/-- `name` is one of the announced names of the ion, or a name that the user added for it. -/
def Called (ops : List Naming.Op) (base : Str) (z : Int) (name : Str) : Prop :=
  name ∈ Naming.announced base z ∨ name ∈ Naming.addedCharged base z ops

theorem alt_fst (s : Naming.Maps) (trial name : Str) : (s.isAlternativeCharged trial name).1 = s.run (.charged name) := by
  show _ = (s.chargedAlternatives name).1
  unfold Naming.Maps.isAlternativeCharged
  rcases s.chargedAlternatives name with ⟨s', r⟩
  cases r <;> rfl

theorem called_charged (ops : List Naming.Op) (base : Str) (z : Int) (n name : Str) :
    Called (ops ++ [.charged n]) base z name ↔ Called ops base z name := by
  unfold Called Naming.addedCharged
  rw [List.filterMap_append]
  simp

/-- A key of the table of radii is the name of the ion with as many signs as its charge. -/
def KeyOf (q : Str × Rat) (e : Str × Int × Rat) : Prop :=
  Naming.PlainBase e.1 ∧ Naming.Charge e.2.1 ∧ q.1 = e.1 ++ List.replicate e.2.1.natAbs (Naming.sgn e.2.1) ∧ q.2 = e.2.2

theorem search_spec (name : Str) : ∀ (l : List (Str × Rat)) (entries : List (Str × Int × Rat)) (ops : List Naming.Op),
    List.Forall₂ KeyOf l entries →
    (∃ e ∈ entries, Called ops e.1 e.2.1 name ∧ (searchRadius name (ops.foldl Naming.Maps.run Naming.Maps.new) l).2 = .ok (some e.2.2)) ∨
    ((∀ e ∈ entries, ¬ Called ops e.1 e.2.1 name) ∧ (searchRadius name (ops.foldl Naming.Maps.run Naming.Maps.new) l).2 = .ok none) := by
  intro l entries ops h
  induction h generalizing ops with
  | nil => exact .inr ⟨by simp, rfl⟩
  | @cons q e l entries hq _ ih =>
    obtain ⟨key, value⟩ := q
    obtain ⟨base, z, v⟩ := e
    obtain ⟨h1, h2, h3, h4⟩ := hq
    simp only at h1 h2 h3 h4
    subst h4
    obtain ⟨b, hb, hiff⟩ := Naming.C86_alternative ops base z key name h1 h2 (h3 ▸ .signs)
    have hfst := alt_fst (ops.foldl Naming.Maps.run Naming.Maps.new) name key
    rw [searchRadius]
    revert hb hfst
    generalize hgen : (ops.foldl Naming.Maps.run Naming.Maps.new).isAlternativeCharged name key = w
    obtain ⟨s', r⟩ := w
    intro hb hfst
    simp only at hb hfst
    subst hb
    cases b with
    | true => exact .inl ⟨(base, z, value), by simp, hiff.1 rfl, rfl⟩
    | false =>
      have hs : s' = (ops ++ [Naming.Op.charged key]).foldl Naming.Maps.run Naming.Maps.new := by
        rw [List.foldl_append]; exact hfst
      have hn : ¬ Called ops base z name := fun hh => by simpa using hiff.2 hh
      dsimp only
      rw [hs]
      rcases ih (ops ++ [.charged key]) with ⟨e, he, hc, hr⟩ | ⟨hn', hr⟩
      · exact .inl ⟨e, List.mem_cons_of_mem _ he, (called_charged ..).1 hc, hr⟩
      · refine .inr ⟨?_, hr⟩
        intro e he
        rcases List.mem_cons.1 he with rfl | he
        · exact hn
        · exact fun hh => hn' e he ((called_charged ..).2 hh)

/-- The entries of the map of the code. -/
def entriesOf (m : List (Str × Rat)) : List (Str × Int × Rat) :=
  m.map fun q => (q.1.filter (fun c => c ≠ '+' ∧ c ≠ '-'), (q.1.count '+' : Int) - q.1.count '-', q.2)

instance (base : Str) : Decidable (Naming.PlainBase base) := by unfold Naming.PlainBase; infer_instance
instance (z : Int) : Decidable (Naming.Charge z) := by unfold Naming.Charge; infer_instance
instance (q : Str × Rat) (e : Str × Int × Rat) : Decidable (KeyOf q e) := by unfold KeyOf; infer_instance

/-- The published table with the misprint of the code. -/
def codeRadii : List (Str × Int × Rat) := publishedRadii.map fun e => if e.1 = c!"Ga" then (c!"Ca", e.2) else e

theorem entries_keys : List.Forall₂ KeyOf (mapOf effective_radii) (entriesOf (mapOf effective_radii)) := by decide +kernel
theorem entries_code : ∀ e, e ∈ entriesOf (mapOf effective_radii) ↔ e ∈ codeRadii := by
  have h1 : ∀ e ∈ entriesOf (mapOf effective_radii), e ∈ codeRadii := by decide +kernel
  have h2 : ∀ e ∈ codeRadii, e ∈ entriesOf (mapOf effective_radii) := by decide +kernel
  exact fun e => ⟨h1 e, h2 e⟩

theorem estimate_eq (z : Int) : estimate z = estimatedRadius z := by
  unfold estimatedRadius
  split
  all_goals first | (norm_num [estimate]; done) | skip
  rename_i h1 h2 h3 h4 h5 h6 h7
  have c : ∀ n : Int, z ≠ n → (z : Rat) ≠ (n : Rat) := fun n hn => by exact_mod_cast hn
  unfold estimate
  rw [if_neg (by exact_mod_cast c (-1) h1), if_neg (by exact_mod_cast c (-2) h2), if_neg (by exact_mod_cast c (-3) h3),
    if_neg (by exact_mod_cast c 1 h4), if_neg (by exact_mod_cast c 2 h5), if_neg (by exact_mod_cast c 3 h6), if_neg (by exact_mod_cast c 4 h7)]
  have hiff : ((z : Rat) < -3) ↔ z < 0 := by
    constructor
    · intro h; have : z < -3 := by exact_mod_cast h
      omega
    · intro h
      have d1 : z ≠ -1 := h1
      have d2 : z ≠ -2 := h2
      have d3 : z ≠ -3 := h3
      have : z < -3 := by omega
      exact_mod_cast this
  by_cases hz : z < 0
  · rw [if_pos (hiff.2 hz), if_pos hz]
    have : ((z.natAbs : Nat) : Rat) = -(z : Rat) := by
      have h' : ((z.natAbs : Nat) : Int) = -z := by omega
      rw [← Int.cast_natCast, h', Int.cast_neg]
    rw [this]; ring
  · rw [if_neg (fun h => hz (hiff.1 h)), if_neg hz]
    have : ((z.natAbs : Nat) : Rat) = (z : Rat) := by
      have h' : ((z.natAbs : Nat) : Int) = z := by omega
      rw [← Int.cast_natCast, h']
    rw [this]; ring

theorem radius_code (ops : List Naming.Op) (name : Str) (z : Rat) :
    (∃ e ∈ codeRadii, Called ops e.1 e.2.1 name ∧
      (effectiveIonicRadius (ops.foldl Naming.Maps.run Naming.Maps.new) name z).2 = .ok e.2.2) ∨
    ((∀ e ∈ codeRadii, ¬ Called ops e.1 e.2.1 name) ∧
      (effectiveIonicRadius (ops.foldl Naming.Maps.run Naming.Maps.new) name z).2 = .ok (estimate z)) := by
  have h := search_spec name _ _ ops entries_keys
  unfold effectiveIonicRadius
  revert h
  generalize searchRadius name (ops.foldl Naming.Maps.run Naming.Maps.new) (mapOf effective_radii) = w
  obtain ⟨s', r⟩ := w
  rintro (⟨e, he, hc, hr⟩ | ⟨hn, hr⟩)
  · simp only at hr
    subst hr
    exact .inl ⟨e, (entries_code e).1 he, hc, rfl⟩
  · simp only at hr
    subst hr
    exact .inr ⟨fun e he => hn e ((entries_code e).2 he), rfl⟩

/-- **C101**, radii: after any use of the functions for alternative names, an ion called by one of the names of an ion of the published table,
or by a name that the user added for it, has the published radius, and all other ions have the radius estimated from their charge. Except for
the names of gallium(III), and of calcium with the charge three. -/
theorem C101_radius_partial (ops : List Naming.Op) (name : Str) (z : Int) (hga : ¬ Called ops c!"Ga" 3 name) (hca : ¬ Called ops c!"Ca" 3 name) :
    ∃ r, (effectiveIonicRadius (ops.foldl Naming.Maps.run Naming.Maps.new) name z).2 = .ok r ∧
      ((∃ e ∈ publishedRadii, Called ops e.1 e.2.1 name ∧ r = e.2.2) ∨
        ((∀ e ∈ publishedRadii, ¬ Called ops e.1 e.2.1 name) ∧ r = estimatedRadius z)) := by
  have hga3 : ∀ e ∈ publishedRadii, e.1 = c!"Ga" → e.2.1 = 3 := by decide +kernel
  rcases radius_code ops name z with ⟨e, he, hc, hr⟩ | ⟨hn, hr⟩
  · refine ⟨_, hr, .inl ?_⟩
    obtain ⟨e', he', rfl⟩ := List.mem_map.1 he
    by_cases hg : e'.1 = c!"Ga"
    · rw [if_pos hg] at hc
      simp only [hga3 e' he' hg] at hc
      exact absurd hc hca
    · rw [if_neg hg] at hc ⊢
      exact ⟨e', he', hc, rfl⟩
  · refine ⟨_, hr, .inr ⟨fun e he hc => ?_, estimate_eq z⟩⟩
    by_cases hg : e.1 = c!"Ga"
    · rw [hg, hga3 e he hg] at hc
      exact hga hc
    · refine hn e (List.mem_map.2 ⟨e, he, ?_⟩) hc
      rw [if_neg hg]

/-- **C101**, radii: no name is announced for two ions of the published table, so that without names added by users the radius is determined. -/
theorem C101_radius_unique (e e' : Str × Int × Rat) (he : e ∈ publishedRadii) (he' : e' ∈ publishedRadii) (name : Str)
    (h : name ∈ Naming.announced e.1 e.2.1) (h' : name ∈ Naming.announced e'.1 e'.2.1) : e = e' := by
  have : ∀ e ∈ publishedRadii, ∀ e' ∈ publishedRadii, ∀ name ∈ Naming.announced e.1 e.2.1, name ∈ Naming.announced e'.1 e'.2.1 → e = e' := by
    decide +kernel
  exact this e he e' he' name h h'

/-- **C101**, radii: the radius of every ion with a whole charge is positive, so that the Born coefficient is defined. -/
theorem C101_radius_positive (ops : List Naming.Op) (name : Str) (z : Int) (hz : z ≠ 0) :
    ∃ r, (effectiveIonicRadius (ops.foldl Naming.Maps.run Naming.Maps.new) name z).2 = .ok r ∧ 0 < r := by
  rcases radius_code ops name z with ⟨e, he, _, hr⟩ | ⟨_, hr⟩
  · have : ∀ e ∈ codeRadii, 0 < e.2.2 := by decide +kernel
    exact ⟨_, hr, this e he⟩
  · refine ⟨_, hr, ?_⟩
    rw [estimate_eq]
    unfold estimatedRadius
    have hp : (0 : Rat) < z.natAbs := by exact_mod_cast Int.natAbs_pos.2 hz
    split
    all_goals first | (norm_num; done) | skip
    split <;> linarith

/-- Gallium(III) has the radius 3.44 Å in the publication, and that of an unknown ion in the code, which has the row under the name of
calcium; an ion with a charge between -1 and 0 gets a negative radius. -/
theorem C101_radius_wrong :
    (c!"Ga", (3 : Int), (344 / 100 : Rat)) ∈ publishedRadii ∧
      (effectiveIonicRadius Naming.Maps.new c!"Ga+++" 3).2 = .ok (36 / 10) ∧ (effectiveIonicRadius Naming.Maps.new c!"Ca+++" 3).2 = .ok (344 / 100) ∧
      ∀ (name : Str) (z : Rat), (∀ e ∈ codeRadii, ¬ Called [] e.1 e.2.1 name) → -1 < z → z < 0 →
        ∃ r, (effectiveIonicRadius Naming.Maps.new name z).2 = .ok r ∧ r < 0 := by
  have hcalled : ∀ (b : Str) (z : Int) (n : Str), Called [] b z n ↔ n ∈ Naming.announced b z := fun b z n => by
    unfold Called Naming.addedCharged; simp
  refine ⟨by decide +kernel, ?_, ?_, ?_⟩
  · rcases radius_code [] c!"Ga+++" 3 with ⟨e, he, hc, _⟩ | ⟨_, hr⟩
    · rw [hcalled] at hc
      have : ∀ e ∈ codeRadii, c!"Ga+++" ∉ Naming.announced e.1 e.2.1 := by decide +kernel
      exact absurd hc (this e he)
    · exact hr.trans (by norm_num [estimate])
  · rcases radius_code [] c!"Ca+++" 3 with ⟨e, he, hc, hr⟩ | ⟨hn, _⟩
    · rw [hcalled] at hc
      have : ∀ e ∈ codeRadii, c!"Ca+++" ∈ Naming.announced e.1 e.2.1 → e.2.2 = 344 / 100 := by decide +kernel
      rw [← this e he hc]
      exact hr
    · have h1 : ∃ e ∈ codeRadii, c!"Ca+++" ∈ Naming.announced e.1 e.2.1 := by decide +kernel
      obtain ⟨e, he, hh⟩ := h1
      exact absurd ((hcalled _ _ _).2 hh) (hn e he)
  · intro name z hn h1 h2
    rcases radius_code [] name z with ⟨e, he, hc, _⟩ | ⟨_, hr⟩
    · exact absurd hc (hn e he)
    · refine ⟨_, hr, ?_⟩
      unfold estimate
      split_ifs <;> linarith

/-! ### Interpolated parameters of the HKF model -/

section
variable {K : Type} [Field K] [LinearOrder K] [IsStrictOrderedRing K]

theorem regular (data : List Rat) (h : data.length = 210) : Bilinear.Regular (interpolator data : Bilinear.Interpolator K) := by
  have hx : pressure_range.Pairwise (· < ·) := by decide +kernel
  have hy : temperature_range.Pairwise (· < ·) := by decide +kernel
  refine ⟨by simp [interpolator, pressure_range, scaled], by simp [interpolator, temperature_range, scaled], ?_, ?_, ?_⟩
  · exact List.pairwise_map.2 (hx.imp fun {a b} hab => by exact_mod_cast hab)
  · exact List.pairwise_map.2 (hy.imp fun {a b} hab => by exact_mod_cast hab)
  · simp [interpolator, h, pressure_range, temperature_range, scaled]

/-- The range of the tables: 0 to 500 °C and 1 to 5000 bar. -/
def InRange (T P : K) : Prop := 27315 / 100 ≤ T ∧ T ≤ 77315 / 100 ∧ 100000 ≤ P ∧ P ≤ 500000000

theorem covers_iff (data : List Rat) (T P : K) :
    (interpolator data : Bilinear.Interpolator K).Covers (P * (1 / 100000)) (T - 27315 / 100) ↔ InRange T P := by
  have e1 : (interpolator data : Bilinear.Interpolator K).X 0 = 1 := by
    norm_num [Bilinear.Interpolator.X, interpolator, pressure_range, scaled]
  have e2 : (interpolator data : Bilinear.Interpolator K).X ((interpolator data : Bilinear.Interpolator K).xs.length - 1) = 5000 := by
    norm_num [Bilinear.Interpolator.X, interpolator, pressure_range, scaled]
  have e3 : (interpolator data : Bilinear.Interpolator K).Y 0 = 0 := by
    norm_num [Bilinear.Interpolator.Y, interpolator, temperature_range, scaled]
  have e4 : (interpolator data : Bilinear.Interpolator K).Y ((interpolator data : Bilinear.Interpolator K).ys.length - 1) = 500 := by
    norm_num [Bilinear.Interpolator.Y, interpolator, temperature_range, scaled]
  unfold Bilinear.Interpolator.Covers InRange
  rw [e1, e2, e3, e4]
  constructor
  · rintro ⟨h1, h2, h3, h4⟩
    exact ⟨by linarith, by linarith, by linarith, by linarith⟩
  · rintro ⟨h1, h2, h3, h4⟩
    exact ⟨by linarith, by linarith, by linarith, by linarith⟩

theorem interpolate_bounds (data : List Rat) (hlen : data.length = 210) (lo hi : Rat) (hd : ∀ q ∈ data, lo ≤ q ∧ q ≤ hi) (T P : K)
    (h : InRange T P) : ∃ v, interpolate data T P = .ok v ∧ (lo : K) ≤ v ∧ v ≤ (hi : K) := by
  have hr := regular (K := K) data hlen
  obtain ⟨i, j, v, hi', hj', _, _, _, _, hv, h1, h2⟩ := Bilinear.C18_between _ hr _ _ ((covers_iff data T P).2 h)
  have hx : (interpolator data : Bilinear.Interpolator K).xs.length = 10 := by simp [interpolator, pressure_range, scaled]
  have hy : (interpolator data : Bilinear.Interpolator K).ys.length = 21 := by simp [interpolator, temperature_range, scaled]
  rw [hx] at hi'
  rw [hy] at hj'
  have hz : ∀ a b, a < 10 → b < 21 → (lo : K) ≤ (interpolator data : Bilinear.Interpolator K).Z a b ∧
      (interpolator data : Bilinear.Interpolator K).Z a b ≤ (hi : K) := by
    intro a b ha hb
    unfold Bilinear.Interpolator.Z
    rw [hx]
    have hlt : a + b * 10 < data.length := by omega
    have : (interpolator data : Bilinear.Interpolator K).data.getD (a + b * 10) 0 = ((data[a + b * 10] : Rat) : K) := by
      simp [interpolator, List.getD_eq_getElem?_getD, List.getElem?_eq_getElem hlt]
    rw [this]
    obtain ⟨g1, g2⟩ := hd _ (List.getElem_mem hlt)
    exact ⟨by exact_mod_cast g1, by exact_mod_cast g2⟩
  refine ⟨v, hv, le_trans ?_ h1, le_trans h2 ?_⟩
  · exact le_min (le_min (hz _ _ (by omega) (by omega)).1 (hz _ _ (by omega) (by omega)).1)
      (le_min (hz _ _ (by omega) (by omega)).1 (hz _ _ (by omega) (by omega)).1)
  · exact max_le (max_le (hz _ _ (by omega) (by omega)).2 (hz _ _ (by omega) (by omega)).2)
      (max_le (hz _ _ (by omega) (by omega)).2 (hz _ _ (by omega) (by omega)).2)

/-- **C101**, parameters of the HKF model: between 0 and 500 °C and between 1 and 5000 bar, and only there, `A`, `B` and the parameters of
sodium chloride have values; `A` and `B` are positive and all of them lie in the range of their tables. -/
theorem C101_hkf_range (T P : K) :
    (InRange T P → ∃ A B b b', paramA T P = .ok A ∧ paramB T P = .ok B ∧ paramNaCl T P = .ok b ∧ paramNapClm T P = .ok b' ∧
      0.4266 ≤ A ∧ A ≤ 6.0949 ∧ 0.3248 ≤ B ∧ B ≤ 0.4780 ∧ -143.76e-7 ≤ b ∧ b ≤ 24.548e-7 ∧ -0.21789 ≤ b' ∧ b' ≤ 0.25964) ∧
    (¬ InRange T P → paramA T P = .throw ∧ paramB T P = .throw ∧ paramNaCl T P = .throw ∧ paramNapClm T P = .throw) := by
  have l1 : Agamma_data.length = 210 := by decide +kernel
  have l2 : Bgamma_data.length = 210 := by decide +kernel
  have l3 : bNaCl_data.length = 210 := by decide +kernel
  have l4 : bNapClm_data.length = 210 := by decide +kernel
  constructor
  · intro h
    obtain ⟨A, hA, hA1, hA2⟩ := interpolate_bounds Agamma_data l1 (4266 / 10000) (60949 / 10000) (by decide +kernel) T P h
    obtain ⟨B, hB, hB1, hB2⟩ := interpolate_bounds Bgamma_data l2 (3248 / 10000) (4780 / 10000) (by decide +kernel) T P h
    obtain ⟨b, hb, hb1, hb2⟩ := interpolate_bounds bNaCl_data l3 (-14376 / 100) (24548 / 1000) (by decide +kernel) T P h
    obtain ⟨b', hb', hb1', hb2'⟩ := interpolate_bounds bNapClm_data l4 (-21789 / 1000) (25964 / 1000) (by decide +kernel) T P h
    refine ⟨A, B, 1 / 10000000 * b, 1 / 100 * b', hA, hB, by rw [paramNaCl, hb]; rfl, by rw [paramNapClm, hb']; rfl, ?_⟩
    push_cast at *
    refine ⟨?_, ?_, ?_, ?_, ?_, ?_, ?_, ?_⟩ <;> norm_num at * <;> linarith
  · intro h
    have ht : ∀ data : List Rat, data.length = 210 → interpolate data T P = .throw := fun data hl =>
      Bilinear.C18_outside_throws _ (regular data hl) _ _ (fun hc => h ((covers_iff data T P).1 hc))
    refine ⟨ht _ l1, ht _ l2, ?_, ?_⟩
    · rw [paramNaCl, ht _ l3]; rfl
    · rw [paramNapClm, ht _ l4]; rfl

/-- **C101**, parameters of the HKF model at the conditions of the tables, each 25 °C from 0 to 500 °C and ten pressures from 1 to 5000 bar: the tabulated
values; rows are temperatures and columns are pressures. -/
theorem C101_hkf_nodes (i j : Nat) (hi : i < 10) (hj : j < 21) :
    let T : K := 25 * (j : K) + 27315 / 100
    let P : K := (([1, 250, 500, 750, 1000, 1500, 2000, 3000, 4000, 5000] : List Rat).getD i 0 : Rat) * 100000
    paramA T P = .ok ((Agamma_data.getD (10 * j + i) 0 : Rat) : K) ∧ paramB T P = .ok ((Bgamma_data.getD (10 * j + i) 0 : Rat) : K) ∧
      paramNaCl T P = .ok ((bNaCl_data.getD (10 * j + i) 0 : Rat) / 10000000 : K) ∧
      paramNapClm T P = .ok ((bNapClm_data.getD (10 * j + i) 0 : Rat) / 100 : K) := by
  intro T P
  have l1 : Agamma_data.length = 210 := by decide +kernel
  have l2 : Bgamma_data.length = 210 := by decide +kernel
  have l3 : bNaCl_data.length = 210 := by decide +kernel
  have l4 : bNapClm_data.length = 210 := by decide +kernel
  have lx : pressure_range.length = 10 := by decide +kernel
  have ly : temperature_range.length = 21 := by decide +kernel
  have hT : ∀ j < 21, temperature_range.getD j 0 = 25 * (j : Rat) := by decide +kernel
  have hP : pressure_range = [1, 250, 500, 750, 1000, 1500, 2000, 3000, 4000, 5000] := by decide +kernel
  have hcast : ∀ (l : List Rat) (n : Nat), (l.map (fun (q : Rat) => (q : K))).getD n 0 = ((l.getD n 0 : Rat) : K) := by
    intro l n
    rw [List.getD_eq_getElem?_getD, List.getD_eq_getElem?_getD, List.getElem?_map]
    cases l[n]? <;> simp
  have key : ∀ data : List Rat, data.length = 210 → interpolate data T P = .ok ((data.getD (10 * j + i) 0 : Rat) : K) := by
    intro data hl
    have := Bilinear.C18_grid_points (interpolator data : Bilinear.Interpolator K) (regular data hl) i j
      (by simp [interpolator, lx, hi]) (by simp [interpolator, ly, hj])
    unfold interpolate
    have hx : P * (1 / 100000) = (interpolator data : Bilinear.Interpolator K).X i := by
      show _ = (pressure_range.map _).getD i 0
      rw [hcast, hP]
      simp only [P]
      ring
    have hy : T - 27315 / 100 = (interpolator data : Bilinear.Interpolator K).Y j := by
      show _ = (temperature_range.map _).getD j 0
      rw [hcast, hT j hj]
      simp only [T]
      push_cast
      ring
    have hz : (interpolator data : Bilinear.Interpolator K).Z i j = ((data.getD (10 * j + i) 0 : Rat) : K) := by
      show (data.map _).getD (i + j * (pressure_range.map _).length) 0 = _
      rw [hcast, List.length_map, lx]
      congr 2
      ring
    rw [hx, hy, this, hz]
  refine ⟨key _ l1, key _ l2, ?_, ?_⟩
  · rw [paramNaCl, key _ l3, Res.bind_ok']
    congr 1
    ring
  · rw [paramNapClm, key _ l4, Res.bind_ok']
    congr 1
    ring

end

/-! ### Examples -/

/-- Two spellings of bicarbonate; a map of a user; names of sodium and a name added by a user; 25 °C and 1 bar. -/
example :
    (∃ f g, Formula.ofString c!"HCO3-" = .ok f ∧ Formula.ofString c!"CO2OH-" = .ok g ∧ f.symbols.Nodup ∧ Preset.phreeqc.params.aion f = .ok (54 / 10) ∧
      Preset.wateq4f.params.aion g = .ok (54 / 10) ∧ Preset.kielland.params.aion g = .ok 4) ∧
    Rows [(c!"Na+", 4), (c!"Cl-", 3)] [⟨[(c!"Na", 1)], 1, 4⟩, ⟨[(c!"Cl", 1)], -1, 3⟩] ∧
    Formula.ofString c!"Na+x" = .throw ∧
    Called [] c!"Na" 1 c!"Na[+]" ∧ ¬ Called [] c!"Ga" 3 c!"Na[+]" ∧ Called [.addCharged c!"Na+" c!"sodium"] c!"Na" 1 c!"sodium" ∧
    InRange (29815 / 100 : Rat) 100000 ∧ (paramA (29815 / 100) 100000 : Res Rat) = .ok (5114 / 10000) := by
  refine ⟨⟨⟨c!"HCO3-", [(c!"H", 1), (c!"C", 1), (c!"O", 3)], -1⟩, ⟨c!"CO2OH-", [(c!"C", 1), (c!"O", 3), (c!"H", 1)], -1⟩, by decide +kernel,
    by decide +kernel, by decide +kernel, by decide +kernel, by decide +kernel, by decide +kernel⟩, rows_of _ _ (by decide +kernel),
    by decide +kernel, .inl (by decide +kernel), ?_, .inr (by decide +kernel), by norm_num [InRange], by decide +kernel⟩
  rintro (h | h)
  · revert h; decide +kernel
  · cases h

end Verif.AqueousParams
