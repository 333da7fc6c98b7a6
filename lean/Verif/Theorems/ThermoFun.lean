import Verif.Spec.ThermoFun
import Verif.Lemmas.Database
import Verif.Theorems.ValueObjects
import Mathlib.Analysis.Calculus.Deriv.Add
import Mathlib.Analysis.Calculus.Deriv.Mul

/-!
# C97: ThermoFun databases
-/

namespace Verif.ThermoFun

open Chem Database ValueObjects

theorem createElement_ok (e : TfElement) (h : 0 ≤ e.molarMass) : createElement e = .ok ⟨e.symbol, e.molarMass * (1 / 1000), e.name, []⟩ := by
  have : ¬ e.molarMass * (1 / 1000) < 0 := not_lt.2 (mul_nonneg h (by norm_num))
  simp only [createElement, createElement.changed, elementClass, Res.bind_ok', if_neg this]

theorem createElementsLoop_ok (l : List (TfElement × Rat)) (h : ∀ q ∈ l, 0 ≤ q.1.molarMass) :
    ∃ els, createElementsLoop l = .ok els ∧ Composition l els := by
  induction l with
  | nil => exact ⟨[], rfl, .nil⟩
  | cons p l ih =>
    obtain ⟨e, c⟩ := p
    obtain ⟨els, h1, h2⟩ := ih fun q hq => h q (List.mem_cons_of_mem _ hq)
    by_cases hz : e.symbol = c!"Zz"
    · refine ⟨els, by simp only [createElementsLoop, if_pos hz, h1], ?_⟩
      unfold Composition
      rw [List.filter_cons_of_neg (by simpa using hz)]
      exact h2
    · have he := createElement_ok e (h (e, c) (List.mem_cons_self ..))
      refine ⟨_, by simp only [createElementsLoop, if_neg hz, he, Res.bind_ok', h1]; rfl, ?_⟩
      unfold Composition
      rw [List.filter_cons_of_pos (by simpa using hz)]
      refine .cons ⟨rfl, rfl, ?_, rfl, rfl⟩ h2
      show e.molarMass * (1 / 1000) = e.molarMass / 1000
      ring

/-- The object that is made for a substance. -/
def objectOf (s : Substance) (els : List (Element × Rat)) : Object :=
  { name := s.symbol, formula := s.formula, substance := s.name, elements := els, charge := s.charge, model := some s.symbol, data := some s }

theorem createSpecies_ok (file : File) (s : Substance) (found : List (TfElement × Rat)) (hf : file.parse s.formula = .ok found)
    (hm : ∀ q ∈ found, 0 ≤ q.1.molarMass) : ∃ els, createSpecies file s = .ok (objectOf s els) ∧ Composition found els := by
  obtain ⟨els, h1, h2⟩ := createElementsLoop_ok found hm
  refine ⟨els, ?_, h2⟩
  simp only [createSpecies, changed, speciesClass, Res.bind_ok', createElements, hf, h1]
  rfl

/-- C97 is false as the code stands: for every file with a substance, loading reads aggregate states that were never initialised. -/
theorem C97_state_wrong (file : File) (hg : file.Good) (hne : file.substances ≠ []) : fromFile file (fun _ => none) = .ub := by
  obtain ⟨⟨k, s⟩, rest, hl⟩ := List.exists_cons_of_ne_nil hne
  obtain ⟨found, h1, h2⟩ := hg (k, s) (by rw [hl]; exact List.mem_cons_self ..)
  obtain ⟨els, h3, -⟩ := createSpecies_ok file s found h1 h2
  unfold fromFile
  rw [hl]
  simp only [addAll, h3, Res.bind_ok', stored, objectOf, Option.or_none, Res.bind_ub']

theorem addAll_ok (file : File) (mem : Str → Option State) (l : List (Str × Substance))
    (hg : ∀ p ∈ l, ∃ found, file.parse p.2.formula = .ok found ∧ ∀ q ∈ found, 0 ≤ q.1.molarMass)
    (hm : ∀ p ∈ l, ∃ st, mem p.2.symbol = some st ∧ st ≠ .Undefined) (db : Db) (os : List Object) (acc : List Species) (hi : Inv db acc) :
    ∃ (db' : Db) (sps : List Species) (objs : List Object), addAll file mem (db, os) l = .ok (db', os ++ objs) ∧ Inv db' (acc ++ sps) ∧
      List.Forall₂ (fun p sp => ∃ st, mem p.2.symbol = some st ∧ Describes file p.2 st sp) l sps ∧
      List.Forall₂ (fun p o => ∃ els, o = objectOf p.2 els) l objs := by
  induction l generalizing db os acc with
  | nil => exact ⟨db, [], [], by simp [addAll], by simpa using hi, .nil, .nil⟩
  | cons p l ih =>
    obtain ⟨k, s⟩ := p
    obtain ⟨found, h1, h2⟩ := hg (k, s) (List.mem_cons_self ..)
    obtain ⟨st, h5, h6⟩ := hm (k, s) (List.mem_cons_self ..)
    obtain ⟨els, h3, h4⟩ := createSpecies_ok file s found h1 h2
    let sp : Species := ⟨s.symbol, s.formula, els, s.charge, st, [], [], s.name⟩
    have hsp : stored (mem s.symbol) (objectOf s els) = .ok sp := by
      simp only at h5
      simp only [stored, objectOf, h5, Option.none_or]
      rfl
    obtain ⟨db1, hdb1⟩ := addSpecies_ok db sp h6
    obtain ⟨db', sps, objs, k1, k2, k3, k4⟩ := ih (fun q hq => hg q (List.mem_cons_of_mem _ hq)) (fun q hq => hm q (List.mem_cons_of_mem _ hq))
      db1 (os ++ [objectOf s els]) (acc ++ [sp]) (addSpecies_inv db db1 acc sp hi hdb1)
    refine ⟨db', sp :: sps, objectOf s els :: objs, ?_, ?_, .cons ⟨st, h5, rfl, rfl, rfl, rfl, rfl, rfl, rfl, found, h1, h4⟩ k3, .cons ⟨els, rfl⟩ k4⟩
    · simp only [addAll, h3, Res.bind_ok', hsp, hdb1, k1, List.append_assoc, List.singleton_append]
    · simpa using k2

/-- C97, what holds on a machine where uninitialised memory happens to hold an aggregate state: loading succeeds, and there is exactly one species for each substance, in the
order of ThermoFun, with its symbol as name (renamed only if taken), its formula, its charge and the composition that ThermoFun finds; the object has the model and
the data of its own substance. The aggregate state is what was in memory. -/
theorem C97_contents_partial (file : File) (mem : Str → Option State) (hg : file.Good)
    (hm : ∀ p ∈ file.substances, ∃ st, mem p.2.symbol = some st ∧ st ≠ .Undefined) :
    ∃ (db : Db) (sps : List Species) (objs : List Object), fromFile file mem = .ok (db, objs) ∧
      List.Forall₂ (fun p sp => ∃ st, mem p.2.symbol = some st ∧ Describes file p.2 st sp) file.substances sps ∧
      sps.length = db.species.length ∧
      (∀ i (h : i < sps.length) (h' : i < db.species.length), StoredAs ((db.species.take i).map Species.name) sps[i] db.species[i]) ∧
      (db.species.map Species.name).Nodup ∧ (db.elements.map (·.symbol)).Nodup ∧
      List.Forall₂ (fun p o => o.getModel = some p.2.symbol ∧ o.getData = some p.2 ∧ (p.2.name ≠ [] → o.getSubstance = .ok p.2.name))
        file.substances objs := by
  obtain ⟨db, sps, objs, h1, h2, h3, h4⟩ := addAll_ok file mem file.substances hg hm {} [] [] inv_empty
  rw [List.nil_append] at h1 h2
  refine ⟨db, sps, objs, h1, h3, h2.len, h2.stored, h2.names, h2.el.nodup, ?_⟩
  refine h4.imp fun p o ho => ?_
  obtain ⟨els, rfl⟩ := ho
  refine ⟨rfl, rfl, fun hn => ?_⟩
  simp [Impl.getSubstance, objectOf, hn]

/-- A file with two substances. -/
def salt : File where
  substances := [(c!"H2O@", ⟨c!"H2O@", c!"H2O@", c!"Water HGK", 0⟩), (c!"Na+", ⟨c!"Na+", c!"Na|1|+", c!"Na+", 1⟩)]
  parse f := .ok (if f = c!"H2O@" then [(⟨c!"H", c!"Hydrogen", 1⟩, 2), (⟨c!"O", c!"Oxygen", 16⟩, 1)]
    else [(⟨c!"Na", c!"Sodium", 23⟩, 1), (⟨c!"Zz", c!"Charge", 0⟩, 1)])

/-- The hypotheses of `C97_state_wrong` are met. -/
theorem salt_good : salt.Good ∧ salt.substances ≠ [] := by
  refine ⟨?_, by simp [salt]⟩
  intro p hp
  refine ⟨_, rfl, ?_⟩
  split
  · intro q hq
    simp only [List.mem_cons, List.not_mem_nil, or_false] at hq
    rcases hq with rfl | rfl <;> norm_num
  · intro q hq
    simp only [List.mem_cons, List.not_mem_nil, or_false] at hq
    rcases hq with rfl | rfl <;> norm_num

/-- C97 is false: what is in the database depends on the contents of memory. The same file gives an aqueous solution or a collection of solids. -/
theorem C97_memory_wrong :
    (fromFile salt (fun _ => some .Aqueous)).bind (fun r => .ok ((speciesWithAggregateState r.1 .Aqueous).map Species.name)) = .ok [c!"H2O@", c!"Na+"] ∧
    (fromFile salt (fun _ => some .Solid)).bind (fun r => .ok ((speciesWithAggregateState r.1 .Aqueous).map Species.name)) = .ok [] := by
  constructor <;> decide +kernel

/-- The hypotheses of `C97_contents_partial` are met, and the charge is left out of the composition. -/
example : (fromFile salt (fun _ => some .Aqueous)).bind (fun r => .ok (r.1.species.map fun s => (s.name, s.elements.map fun p => (p.1.symbol, p.1.molarMass, p.2)))) =
    .ok [(c!"H2O@", [(c!"H", 1 / 1000, 2), (c!"O", 16 / 1000, 1)]), (c!"Na+", [(c!"Na", 23 / 1000, 1)])] := by decide +kernel

/-! ### Standard properties -/

/-- C97: the values of the standard properties are those of ThermoFun in SI units (a volume in J/bar is `1e-5` m³), and an unknown species is an error. -/
theorem C97_props (file : File) (thermo : Str → ℝ → ℝ → TfProps) (T P : Dual) (species : Str) :
    ((∃ s, (species, s) ∈ file.substances) → ∃ x, props file thermo T P species = .ok x ∧
      x.G0.val = (thermo species T.val P.val).gibbs ∧ x.H0.val = (thermo species T.val P.val).enthalpy ∧
      x.V0.val * 100000 = (thermo species T.val P.val).volume ∧ x.Cp0.val = (thermo species T.val P.val).cp ∧
      x.Cv0.val = (thermo species T.val P.val).cv) ∧
    ((∀ s, (species, s) ∉ file.substances) → props file thermo T P species = .throw) := by
  constructor
  · rintro ⟨s, hs⟩
    refine ⟨_, if_pos ?_, rfl, rfl, ?_, rfl, rfl⟩
    · rw [List.any_eq_true]
      exact ⟨_, hs, by simp⟩
    · simp only [convertProps, Dual.const]
      ring
  · intro h
    refine if_neg ?_
    rw [List.any_eq_true]
    rintro ⟨⟨k, s⟩, hs, hk⟩
    simp only [decide_eq_true_eq] at hk
    subst hk
    exact h s hs

/-- C97 is false for derivatives: whatever ThermoFun computes, the temperature derivative that is returned is zero, so it is wrong wherever the derivative of the
Gibbs energy is not zero. -/
theorem C97_derivatives_wrong (file : File) (thermo : Str → ℝ → ℝ → TfProps) (T P : ℝ) (species : Str) (s : Substance)
    (hs : (species, s) ∈ file.substances) (S : ℝ) (hS : S ≠ 0) (hd : HasDerivAt (fun t => (thermo species t P).gibbs) (-S) T) :
    ∃ x, props file thermo ⟨T, 1⟩ ⟨P, 0⟩ species = .ok x ∧ x.G0.val = (thermo species T P).gibbs ∧
      ¬ HasDerivAt (fun t => (thermo species t P).gibbs) x.G0.der T := by
  obtain ⟨x, h1, h2, -⟩ := (C97_props file thermo ⟨T, 1⟩ ⟨P, 0⟩ species).1 ⟨s, hs⟩
  refine ⟨x, h1, h2, ?_⟩
  have : x.G0.der = 0 := by
    unfold props at h1
    split at h1
    · cases h1; rfl
    · cases h1
  rw [this]
  intro h0
  have := h0.unique hd
  exact hS (by linarith)

/-- The hypotheses of `C97_derivatives_wrong` are met. -/
example : HasDerivAt (fun t => ((fun (_ : Str) (t _p : ℝ) => (⟨-70 * t, 0, 1, 0, 0⟩ : TfProps)) c!"Na+" t 100000).gibbs) (-70) 300 ∧
    (c!"Na+", (⟨c!"Na+", c!"Na|1|+", c!"Na+", 1⟩ : Substance)) ∈ salt.substances := by
  constructor
  · simpa using (hasDerivAt_id (300 : ℝ)).const_mul (-70)
  · simp [salt]

end Verif.ThermoFun
