import Verif.Theorems.Memoization
import Verif.Theorems.Phreeqc
import Verif.Theorems.ModelsYAML

/-!
# More of C03, C71 and C75

What is evaluated by a memoized function that is never switched off, where a load that throws has stopped, and which function a model read from YAML is.
-/

namespace Verif.Memo

/-- The program has a call of `a` whose observed result is `r`. -/
def Observed {A : Type u} {R : Type v} (ops : List (Op A)) (outs : List (Option (Res R))) (a : A) (r : Res R) : Prop :=
  ∃ (k i : Nat), ops[k]? = some (.call i a) ∧ outs[k]? = some (some r)

theorem observed_cons {A : Type u} {R : Type v} (op : Op A) (ops : List (Op A)) (o : Option (Res R)) (outs : List (Option (Res R))) (a : A) (r : Res R) :
    Observed (op :: ops) (o :: outs) a r ↔ ((∃ i, op = .call i a) ∧ o = some r) ∨ Observed ops outs a r := by
  constructor
  · rintro ⟨k, i, h1, h2⟩
    cases k with
    | zero => simp only [List.getElem?_cons_zero, Option.some.injEq] at h1 h2; exact .inl ⟨⟨i, h1⟩, h2⟩
    | succ k => simp only [List.getElem?_cons_succ] at h1 h2; exact .inr ⟨k, i, h1, h2⟩
  · rintro (⟨⟨i, h1⟩, h2⟩ | ⟨k, i, h1, h2⟩)
    · exact ⟨0, i, by simp [h1], by simp [h2]⟩
    · exact ⟨k + 1, i, by simpa using h1, by simpa using h2⟩

theorem runMap_log {A : Type u} {R : Type v} [DecidableEq A] (f : A → Res R) (ops : List (Op A)) :
    ∀ w : MapWorld A R, w.enabled = true → Op.disable ∉ ops → (∀ a r, w.cache.lookup a = some r → a ∈ w.log) →
      ∀ a, a ∈ (runMap f w ops).1.log ↔ a ∈ w.log ∨ ∃ r, Observed ops (runMap f w ops).2 a (.ok r) := by
  induction ops with
  | nil => intro w _ _ _ a; simp [runMap, Observed]
  | cons op ops ih =>
    intro w he hd hc a
    have hd' : Op.disable ∉ ops := fun h => hd (List.mem_cons_of_mem _ h)
    simp only [runMap, observed_cons]
    cases op with
    | enable =>
      have := ih { w with enabled := true } rfl hd' hc a
      simpa [stepMap] using this
    | disable => exact absurd List.mem_cons_self hd
    | copy i =>
      by_cases hi : i < w.copies
      · have := ih { w with copies := w.copies + 1 } he hd' hc a
        simpa [stepMap, hi] using this
      · have := ih w he hd' hc a
        simpa [stepMap, hi] using this
    | call i b =>
      by_cases hi : i < w.copies
      · simp only [stepMap, hi, if_true, callMap, he, Bool.true_eq_false, if_false]
        cases hl : w.cache.lookup b with
        | some r =>
          simp only
          rw [ih w he hd' hc a]
          constructor
          · rintro (h | ⟨r', h⟩)
            · exact .inl h
            · exact .inr ⟨r', .inr h⟩
          · rintro (h | ⟨r', ⟨⟨j, hj⟩, -⟩ | h⟩)
            · exact .inl h
            · cases hj; exact .inl (hc _ _ hl)
            · exact .inr ⟨r', h⟩
        | none =>
          cases hf : f b with
          | ok r =>
            simp only
            rw [ih { enabled := true, cache := (b, r) :: w.cache, copies := w.copies, log := b :: w.log } rfl hd' (by
              intro a' r' h
              simp only [List.lookup_cons] at h
              by_cases hab : a' = b
              · exact hab ▸ List.mem_cons_self
              · rw [show (a' == b) = false from by simpa using hab] at h
                exact List.mem_cons_of_mem _ (hc _ _ h)) a]
            simp only [List.mem_cons]
            constructor
            · rintro ((rfl | h) | ⟨r', h⟩)
              · exact .inr ⟨r, .inl ⟨⟨i, rfl⟩, rfl⟩⟩
              · exact .inl h
              · exact .inr ⟨r', .inr h⟩
            · rintro (h | ⟨r', ⟨⟨j, hj⟩, -⟩ | h⟩)
              · exact .inl (.inr h)
              · cases hj; exact .inl (.inl rfl)
              · exact .inr ⟨r', h⟩
          | throw =>
            simp only
            rw [ih w he hd' hc a]
            simp
          | ub =>
            simp only
            rw [ih w he hd' hc a]
            simp
      · have := ih w he hd' hc a
        simpa [stepMap, hi] using this

/-- **C03.** In a program that never switches memoization off, the arguments at which `f` is evaluated with success are those of the calls that return:
by `C03_memoize_evaluates_once`, each of them once. -/
theorem C03_memoize_evaluations {A : Type u} {R : Type v} [DecidableEq A] (f : A → Res R) (ops : List (Op A)) (h : Op.disable ∉ ops) (a : A) :
    a ∈ (runMap f MapWorld.init ops).1.log ↔ ∃ r, Observed ops (plain f 1 ops) a (.ok r) := by
  have := runMap_log f ops MapWorld.init rfl h (by simp [MapWorld.init]) a
  rw [C03_memoize_invisible] at this
  simpa [MapWorld.init] using this

example : (2 : Nat) ∈ (runMap (fun n : Nat => if n = 1 then Res.throw else Res.ok (n + 10)) MapWorld.init [.call 0 2, .call 0 1, .call 0 2]).1.log ∧
    (1 : Nat) ∉ (runMap (fun n : Nat => if n = 1 then Res.throw else Res.ok (n + 10)) MapWorld.init [.call 0 2, .call 0 1, .call 0 2]).1.log := by
  decide

end Verif.Memo

namespace Verif.Phreeqc

open Verif.Chem

theorem addAll_partway (l : List Species) : ∀ (db new : Database.Db) (flag : Bool), addAll db l = .ok (flag, new) →
    ∃ k ≤ l.length, Database.run db ((l.take k).map Database.Op.addSpecies) = .ok (List.replicate k true, new) ∧
      (flag = true → k = l.length) ∧ (flag = false → ∃ s, l[k]? = some s ∧ Database.addSpecies new s = .throw) := by
  induction l with
  | nil =>
    intro db new flag h
    cases h
    exact ⟨0, Nat.le_refl _, rfl, fun _ => rfl, fun h => by cases h⟩
  | cons s l ih =>
    intro db new flag h
    rw [addAll] at h
    cases hs : Database.addSpecies db s with
    | ub => rw [hs] at h; cases h
    | throw =>
      rw [hs] at h
      cases h
      exact ⟨0, Nat.zero_le _, rfl, (fun h => by cases h), fun _ => ⟨s, rfl, hs⟩⟩
    | ok db1 =>
      rw [hs] at h
      obtain ⟨k, h1, h2, h3, h4⟩ := ih db1 new flag h
      refine ⟨k + 1, by simpa using h1, ?_, fun hf => by simp [h3 hf], fun hf => by simpa using h4 hf⟩
      simp only [List.take_succ_cons, List.map_cons, Database.run, Database.step, hs, Res.bind_ok', h2, List.replicate_succ]

/-- **C75, loading.** Once the species are made, the database is cleared and they are added in their order. If `load` returns normally all of them are there; if
it throws, the database has the species before the first one that it does not accept. -/
theorem C75_load_partway (shuffle : List (Str × Rat) → List (Str × Rat)) (fuel : Nat) (db : Phreeqc) (old new : Database.Db) (l : List Entry) (flag : Bool)
    (hb : build shuffle fuel db = .ok l) (h : load shuffle fuel db old = .ok (flag, new)) :
    ∃ k ≤ l.length, Database.run {} ((l.take k).map fun e => Database.Op.addSpecies e.species) = .ok (List.replicate k true, new) ∧
      (flag = true → k = l.length) ∧ (flag = false → ∃ e, l[k]? = some e ∧ Database.addSpecies new e.species = .throw) := by
  unfold load at h
  rw [hb] at h
  obtain ⟨k, h1, h2, h3, h4⟩ := addAll_partway _ _ _ _ h
  refine ⟨k, by simpa using h1, by simpa [List.map_take, Function.comp_def] using h2, fun hf => by simpa using h3 hf, fun hf => ?_⟩
  obtain ⟨s, a, b⟩ := h4 hf
  rw [List.getElem?_map, Option.map_eq_some_iff] at a
  obtain ⟨e, a1, rfl⟩ := a
  exact ⟨e, a1, b⟩

/-- Two species, of which the second is of no known state and has a name that is not that of an ion. -/
def exStop : Phreeqc := ⟨[⟨c!"H", some c!"H+", 1⟩], [⟨c!"H+", .hplus, 1, [(c!"H", 1)], some [(0, -1)], fun _ => 0, fun _ => 0⟩,
  ⟨c!"H+x", .solid, 0, [(c!"H", 1)], some [(1, -1)], fun _ => 0, fun _ => 0⟩], []⟩

/-- It stops the load. -/
example : ((build id 3 exStop).bind fun l => .ok (l.map (·.species.name))) = .ok [c!"H+", c!"H+x"] ∧
    ((load id 3 exStop {}).bind fun q => .ok (q.1, q.2.species.map Species.name)) = .ok (false, [c!"H+"]) := by
  decide +kernel

end Verif.Phreeqc

namespace Verif.ModelsYAML

/-- **C71 (standard models).** The function of a model read from a node is that of the formula named by the node, at the given temperature and pressure. -/
theorem C71_standard_function (node : Node) (m : StdModel) (h : loadStandard node = .ok m) : ∃ (k : Str) (params : Node), node = .map [(k, params)] ∧
    ((k = c!"Constant" ∧ ∃ p, decodeConstant params = .ok p ∧ ∀ T P, m.eval T P = StandardModels.constant p T P) ∨
     (k = c!"HKF" ∧ ∃ p, HKFParams.decode params = .ok p ∧ ∀ T P, m.eval T P = HKF.standardHKF p.toParams T P) ∨
     (k = c!"HollandPowell" ∧ ∃ p, HollandPowellParams.decode params = .ok p ∧ ∀ T P, m.eval T P = StandardModels.hollandPowell p.toHollandPowell T P) ∨
     (k = c!"MaierKelley" ∧ ∃ p, MaierKelleyParams.decode params = .ok p ∧ ∀ T P, m.eval T P = StandardModels.maierKelley p.toMaierKelley T P) ∨
     (k = c!"MineralHKF" ∧ ∃ p, MineralParams.decode params = .ok p ∧ ∀ T P, m.eval T P = StandardModels.mineral p.toMineral T P) ∨
     (k = c!"WaterHKF" ∧ ∃ p, decodeWater params = .ok p ∧ ∀ T P, m.eval T P = HKF.standardWaterHKF p T P)) := by
  unfold loadStandard at h
  split at h
  · rename_i k params
    refine ⟨k, params, rfl, ?_⟩
    split at h
    · rename_i hk
      obtain ⟨p, hd, he⟩ := Res.bind_eq_ok.1 h
      cases he; exact .inl ⟨hk, p, hd, fun _ _ => rfl⟩
    · refine .inr ?_
      split at h
      · rename_i hk
        obtain ⟨p, hd, he⟩ := Res.bind_eq_ok.1 h
        cases he; exact .inl ⟨hk, p, hd, fun _ _ => rfl⟩
      · refine .inr ?_
        split at h
        · rename_i hk
          obtain ⟨p, hd, he⟩ := Res.bind_eq_ok.1 h
          cases he; exact .inl ⟨hk, p, hd, fun _ _ => rfl⟩
        · refine .inr ?_
          split at h
          · rename_i hk
            obtain ⟨p, hd, he⟩ := Res.bind_eq_ok.1 h
            cases he; exact .inl ⟨hk, p, hd, fun _ _ => rfl⟩
          · refine .inr ?_
            split at h
            · rename_i hk
              obtain ⟨p, hd, he⟩ := Res.bind_eq_ok.1 h
              cases he; exact .inl ⟨hk, p, hd, fun _ _ => rfl⟩
            · refine .inr ?_
              split at h
              · rename_i hk
                obtain ⟨p, hd, he⟩ := Res.bind_eq_ok.1 h
                cases he; exact ⟨hk, p, hd, fun _ _ => rfl⟩
              · cases h
  · cases h

example : ∃ m, loadStandard (.map [(c!"Constant", .map [(c!"G0", .num 5)])]) = .ok m ∧ ∀ T P, ∃ q, m.eval T P = .ok q ∧ q.G0 = 5 :=
  ⟨.constant ⟨5, 0, 0, 0, 0⟩, by simp [loadStandard, decodeConstant, reqNum, optNum, at', child, asNum], fun _ _ => ⟨_, rfl, rfl⟩⟩

end Verif.ModelsYAML
