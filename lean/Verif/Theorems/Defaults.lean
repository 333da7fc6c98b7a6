import Verif.Theorems.SupcrtDatabase
import Verif.Theorems.PhreeqcImport

/-!
# More of C82 and C118

In which locale the numbers of a database are read, and what stands for critical properties that a script does not give.
-/

namespace Verif.SupcrtDb

/-- **C82, locale.** Only how numbers are written in the "C" locale matters: two processes with the same files, in which text is read as the same numbers in
the "C" locale, load the same databases, whatever their locales are and however numbers are read in them. -/
theorem C82_numbers (env env' : Env) (locale locale' : Str) (hr : env.resource = env'.resource) (hp : env.parse = env'.parse) (hf : env.file = env'.file)
    (he : env.elementOf = env'.elementOf) (hc : env.reader c!"C" = env'.reader c!"C") (name : Str) :
    (withName env name locale).2 = (withName env' name locale').2 ∧ (fromFile env name locale).2 = (fromFile env' name locale').2 := by
  constructor
  · simp only [withName, changeLocale, content, hr, hp, he, hc]
  · simp only [fromFile, changeLocale, hf, he, hc]

/-- Two processes that differ in how numbers are read in the locale "de". -/
example : ∃ env env' : Env, env.resource = env'.resource ∧ env.parse = env'.parse ∧ env.file = env'.file ∧ env.elementOf = env'.elementOf ∧
    env.reader c!"C" = env'.reader c!"C" ∧ (env.reader c!"de").atof c!"1,5" ≠ (env'.reader c!"de").atof c!"1,5" :=
  ⟨⟨fun _ => ⟨fun _ => 0, fun _ => 0, fun _ => 1⟩, fun _ => none, fun _ => none, fun _ => none, fun _ => none⟩,
   ⟨fun l => ⟨fun _ => 0, fun _ => 0, fun _ => if l = c!"de" then 3 / 2 else 1⟩, fun _ => none, fun _ => none, fun _ => none, fun _ => none⟩,
   rfl, rfl, rfl, rfl, by simp, by norm_num⟩

end Verif.SupcrtDb

namespace Verif.PhreeqcImport

open Registries (Str)

/-- **C118 (critical properties).** What a script does not give for a gas is that of the table, with the pressure in atm, and zero for a gas that is not in the
table. -/
theorem C118_not_given (d : Data) (gases : List Str) (g : Str) (hg : g ∈ gases) (tc pc omega : Option Rat) (h : d.phase g = given tc pc omega) :
    (∀ t p w, (g, t, p, w) ∈ criticalTable →
      (tc = none → ((initCritical d gases).phase g).tc = t) ∧ (pc = none → ((initCritical d gases).phase g).pc = p * (986923267 / 1000000000)) ∧
      (omega = none → ((initCritical d gases).phase g).omega = w)) ∧
    (g ∉ criticalTable.map (·.1) →
      (tc = none → ((initCritical d gases).phase g).tc = 0) ∧ (pc = none → ((initCritical d gases).phase g).pc = 0) ∧
      (omega = none → ((initCritical d gases).phase g).omega = 0)) := by
  obtain ⟨-, -, -, h4, h5⟩ := (C118_critical d gases).1 g hg
  rw [h] at h4 h5
  have key : ∀ q ∈ criticalTable, criticalTable.lookup q.1 = some q.2 := by decide +kernel
  constructor
  · intro t p w hm
    obtain ⟨a, b, c⟩ := h4 t p w (key _ hm)
    exact ⟨fun e => a (by subst e; rfl), fun e => b (by subst e; rfl), fun e => c (by subst e; rfl)⟩
  · intro hn
    obtain ⟨a, b, c⟩ := h5 (by
      rw [List.lookup_eq_none_iff]
      intro q hq
      have : q.1 ≠ g := fun e => hn (e ▸ List.mem_map_of_mem hq)
      simpa using fun e => this e.symm)
    exact ⟨fun e => by rw [a]; subst e; rfl, fun e => by rw [b]; subst e; rfl, fun e => by rw [c]; subst e; rfl⟩

example : (∃ t p w, (c!"CO2(g)", t, p, w) ∈ criticalTable) ∧ c!"Xx(g)" ∉ criticalTable.map (·.1) := by
  constructor
  · obtain ⟨⟨_, t, p, w⟩, hq, rfl⟩ := List.mem_map.1 (by decide +kernel : c!"CO2(g)" ∈ criticalTable.map (·.1))
    exact ⟨t, p, w, hq⟩
  · decide +kernel

end Verif.PhreeqcImport
