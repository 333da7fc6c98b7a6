import Verif.Lemmas.PhaseBuilders
import Verif.Theorems.Phases

/-!
# Theorems C102: the classes that define phases
-/

namespace Verif.PhaseBuilders

open Chem

variable {M F : Type}

/-- **C102 (definitions).** After any calls of setters, each attribute of a definition has the value last set or, if none was, the one its class
stands for; the names, element symbols and tags are those given to the constructor, with hydrogen and oxygen in an aqueous phase. -/
theorem C102_definition (id : Ideals M) (c : Ctor) (b : Builder M) (h : construct id c = .ok b) (calls : List (Setter M)) :
    ∃ name matter state model, Preset id c name matter state model ∧
      LastSet Setter.name? name calls (calls.foldl Builder.call b).phasename ∧
      LastSet Setter.matter? matter calls (calls.foldl Builder.call b).matter ∧
      LastSet Setter.state? state calls (calls.foldl Builder.call b).aggregatestate ∧
      LastSet Setter.model? model calls (calls.foldl Builder.call b).model ∧
      LastSet Setter.ideal? model calls (calls.foldl Builder.call b).ideal ∧
      (calls.foldl Builder.call b).names = givenNames c ∧ (calls.foldl Builder.call b).excludetags = givenTags c ∧
      ∀ x, x ∈ (calls.foldl Builder.call b).symbols ↔ Restricted c x := by
  have L1 := lastSet_foldl (M := M) Setter.name? (·.phasename) (by intro b s v hs; cases s <;> simp_all [Setter.name?, Builder.call])
    (by intro b s hs; cases s <;> simp_all [Setter.name?, Builder.call]) b calls
  have L2 := lastSet_foldl (M := M) Setter.matter? (·.matter) (by intro b s v hs; cases s <;> simp_all [Setter.matter?, Builder.call])
    (by intro b s hs; cases s <;> simp_all [Setter.matter?, Builder.call]) b calls
  have L3 := lastSet_foldl (M := M) Setter.state? (·.aggregatestate) (by intro b s v hs; cases s <;> simp_all [Setter.state?, Builder.call])
    (by intro b s hs; cases s <;> simp_all [Setter.state?, Builder.call]) b calls
  have L4 := lastSet_foldl (M := M) Setter.model? (·.model) (by intro b s v hs; cases s <;> simp_all [Setter.model?, Builder.call])
    (by intro b s hs; cases s <;> simp_all [Setter.model?, Builder.call]) b calls
  have L5 := lastSet_foldl (M := M) Setter.ideal? (·.ideal) (by intro b s v hs; cases s <;> simp_all [Setter.ideal?, Builder.call])
    (by intro b s hs; cases s <;> simp_all [Setter.ideal?, Builder.call]) b calls
  obtain ⟨N1, N2, N3⟩ := names_foldl calls b
  rw [N1, N2, N3]
  cases c with
  | generic a =>
    simp only [construct, Res.ok.injEq] at h; subst h
    cases a <;> exact ⟨_, _, _, _, .generic _, L1, L2, L3, L4, L5, rfl, rfl, fun x => by simp [generic, Restricted]⟩
  | aqueous a =>
    simp only [construct, Res.ok.injEq] at h; subst h
    cases a <;> exact ⟨_, _, _, _, .aqueous _, L1, L2, L3, L4, L5, rfl, rfl, fun x => by
      first
      | (simp [generic, aqueousArg, plus, Restricted, Phases.mem_merge]; done)
      | (have e : Strings.stringList c!"H O" ' ' = [c!"H", c!"O"] := by decide +kernel
         simp [generic, aqueousArg, Restricted, e])⟩
  | gaseous a =>
    simp only [construct, Res.ok.injEq] at h; subst h
    cases a <;> exact ⟨_, _, _, _, .gaseous _, L1, L2, L3, L4, L5, rfl, rfl, fun x => by simp [generic, Restricted]⟩
  | liquid a =>
    simp only [construct, Res.ok.injEq] at h; subst h
    cases a <;> exact ⟨_, _, _, _, .liquid _, L1, L2, L3, L4, L5, rfl, rfl, fun x => by simp [generic, Restricted]⟩
  | solid l =>
    simp only [construct, Res.ok.injEq] at h; subst h
    exact ⟨_, _, _, _, .solid _, L1, L2, L3, L4, L5, rfl, rfl, fun x => by simp [generic, Restricted]⟩
  | mineral t =>
    simp only [construct] at h
    cases h0 : at! (generic (.species (Strings.stringList t ' ')) : Builder M).names 0 <;> rw [h0] at h <;>
      simp only [Res.bind_ok', Res.bind_throw', Res.bind_ub', reduceCtorEq, Res.ok.injEq] at h
    subst h
    rename_i n
    have hl : ∃ rest, Strings.stringList t ' ' = n :: rest := by
      rw [at!_ok] at h0
      simp only [generic] at h0
      match hs : Strings.stringList t ' ', h0 with
      | x :: rest, h0 => exact ⟨rest, by simpa using h0⟩
    obtain ⟨rest, hl⟩ := hl
    exact ⟨_, _, _, _, .mineral _ _ _ hl, L1, L2, L3, L4, L5, rfl, rfl, fun x => by simp [generic, Restricted]⟩

/-- **C102 (constructors).** Every constructor call succeeds except that of a mineral phase with a blank text, whose first name is read although there
is none. -/
theorem C102_construct (id : Ideals M) (c : Ctor) :
    (∃ b, construct id c = .ok b) ∨ ∃ text, c = .mineral text ∧ Strings.stringList text ' ' = [] ∧ construct id c = .ub := by
  cases c with
  | mineral t =>
    match hs : Strings.stringList t ' ' with
    | [] => right; exact ⟨t, rfl, hs, by simp [construct, generic, hs, at!, Res.bind]⟩
    | n :: rest => left; exact ⟨_, by simp [construct, generic, hs, at!, Res.bind]; rfl⟩
  | _ => left; exact ⟨_, rfl⟩

example : Strings.stringList c!"   " ' ' = [] := by decide

/-- The invariant of programs. -/
structure Inv (id : Ideals M) (db : Database.Db) (calls : List (Call M)) (p : Program M) : Prop where
  len : p.vars.length = (ctorsOf calls).length
  lenGen : p.gens.length = (genCtorsOf calls).length
  vars : ∀ i c, (ctorsOf calls)[i]? = some c → ∃ b, construct id c = .ok b ∧ p.vars[i]? = some ((settersOf i calls).foldl Builder.call b)
  gens : ∀ i c, (genCtorsOf calls)[i]? = some c → p.gens[i]? = some ((settersOfGen i calls).foldl Builder.call (constructGen id c))
  fresh : ∀ i, (ctorsOf calls).length ≤ i → settersOf i calls = []
  freshGen : ∀ i, (genCtorsOf calls).length ≤ i → settersOfGen i calls = []
  db : p.collection.db = db
  count : p.collection.phases.length = addsOf calls
  countGen : p.collection.generators.length = genAddsOf calls
  added : ∀ before i after, calls = before ++ .add i :: after → ∃ c b, (ctorsOf before)[i]? = some c ∧ construct id c = .ok b ∧
    p.collection.phases[addsOf before]? = some ((settersOf i before).foldl Builder.call b)
  addedGen : ∀ before i after, calls = before ++ .addGen i :: after → ∃ c, (genCtorsOf before)[i]? = some c ∧
    p.collection.generators[genAddsOf before]? = some ((settersOfGen i before).foldl Builder.call (constructGen id c))

theorem split_snoc {α : Type} {cs : List α} {c : α} {before : List α} {x : α} {after : List α} (h : cs ++ [c] = before ++ x :: after) :
    (∃ after', after = after' ++ [c] ∧ cs = before ++ x :: after') ∨ (after = [] ∧ c = x ∧ cs = before) := by
  rcases List.eq_nil_or_concat after with rfl | ⟨after', y, rfl⟩
  · right
    obtain ⟨h1, h2⟩ := List.append_inj' h rfl
    simp only [List.cons.injEq, and_true] at h2
    exact ⟨rfl, h2, h1⟩
  · left
    rw [List.concat_eq_append, show before ++ x :: (after' ++ [y]) = (before ++ x :: after') ++ [y] by simp] at h
    obtain ⟨h1, h2⟩ := List.append_inj' h rfl
    simp only [List.cons.injEq, and_true] at h2
    exact ⟨after', by rw [h2, List.concat_eq_append], h1⟩

theorem inv_run (id : Ideals M) (db : Database.Db) (calls : List (Call M)) (p : Program M)
    (h : Program.run id { collection := { db := db } } calls = .ok p) : Inv id db calls p := by
  induction calls using List.reverseRecOn generalizing p with
  | nil =>
    simp only [Program.run, Res.ok.injEq] at h
    subst h
    constructor <;> simp [ctorsOf, genCtorsOf, settersOf, settersOfGen, addsOf, genAddsOf]
  | append_singleton cs c ih =>
    rw [run_snoc] at h
    cases hq : Program.run id { collection := { db := db } } cs with
    | throw => rw [hq] at h; cases h
    | ub => rw [hq] at h; cases h
    | ok q =>
      rw [hq] at h
      simp only [Res.bind_ok'] at h
      have I := ih q hq
      have hadd : ∀ before i after, cs ++ [c] = before ++ .add i :: after → (∀ j, c ≠ .add j) →
          q.collection.phases = p.collection.phases → ∃ c b, (ctorsOf before)[i]? = some c ∧ construct id c = .ok b ∧
          p.collection.phases[addsOf before]? = some ((settersOf i before).foldl Builder.call b) := by
        intro before i after e hne hp
        rcases split_snoc e with ⟨after', -, e⟩ | ⟨-, e, -⟩
        · rw [← hp]; exact I.added before i after' e
        · exact absurd e (hne i)
      have haddGen : ∀ before i after, cs ++ [c] = before ++ .addGen i :: after → (∀ j, c ≠ .addGen j) →
          q.collection.generators = p.collection.generators → ∃ c, (genCtorsOf before)[i]? = some c ∧
          p.collection.generators[genAddsOf before]? = some ((settersOfGen i before).foldl Builder.call (constructGen id c)) := by
        intro before i after e hne hp
        rcases split_snoc e with ⟨after', -, e⟩ | ⟨-, e, -⟩
        · rw [← hp]; exact I.addedGen before i after' e
        · exact absurd e (hne i)
      cases c with
      | make k =>
        simp only [Program.step] at h
        cases hk : construct id k with
        | throw => rw [hk] at h; cases h
        | ub => rw [hk] at h; cases h
        | ok b =>
          rw [hk] at h
          simp only [Res.bind_ok', Res.ok.injEq] at h
          subst h
          have e1 : ctorsOf (cs ++ [.make k]) = ctorsOf cs ++ [k] := by simp [ctorsOf]
          have e2 : ∀ i, settersOf i (cs ++ [.make k]) = settersOf i cs := by simp [settersOf]
          have e3 : genCtorsOf (cs ++ [.make k]) = genCtorsOf cs := by simp [genCtorsOf]
          have e4 : ∀ i, settersOfGen i (cs ++ [.make k]) = settersOfGen i cs := by simp [settersOfGen]
          have e5 : addsOf (cs ++ [.make k]) = addsOf cs := by simp [addsOf]
          have e6 : genAddsOf (cs ++ [.make k]) = genAddsOf cs := by simp [genAddsOf]
          refine ⟨?_, ?_, ?_, ?_, ?_, ?_, I.db, ?_, ?_, fun _ _ _ e => hadd _ _ _ e (by simp) rfl, fun _ _ _ e => haddGen _ _ _ e (by simp) rfl⟩
          · simp [e1, I.len]
          · rw [e3]; exact I.lenGen
          · intro i c hc
            rw [e1] at hc
            rw [e2]
            by_cases hi : i < (ctorsOf cs).length
            · rw [List.getElem?_append_left hi] at hc
              obtain ⟨b', h1, h2⟩ := I.vars i c hc
              exact ⟨b', h1, by rw [List.getElem?_append_left (by rw [I.len]; exact hi)]; exact h2⟩
            · have hi' : i = (ctorsOf cs).length := by
                have := (List.getElem?_eq_some_iff.1 hc).1
                simp at this; omega
              subst hi'
              simp only [List.getElem?_concat_length, Option.some.injEq] at hc
              subst hc
              refine ⟨b, hk, ?_⟩
              rw [← I.len, List.getElem?_concat_length, I.fresh _ (by rw [I.len])]
              rfl
          · intro i c hc; rw [e3] at hc; rw [e4]; exact I.gens i c hc
          · intro i hi; rw [e1, List.length_append] at hi; rw [e2]; exact I.fresh i (by omega)
          · intro i hi; rw [e3] at hi; rw [e4]; exact I.freshGen i hi
          · rw [e5]; exact I.count
          · rw [e6]; exact I.countGen
      | makeGen k =>
        simp only [Program.step, Res.ok.injEq] at h
        subst h
        have e1 : genCtorsOf (cs ++ [.makeGen k]) = genCtorsOf cs ++ [k] := by simp [genCtorsOf]
        have e2 : ∀ i, settersOf i (cs ++ [.makeGen k]) = settersOf i cs := by simp [settersOf]
        have e3 : ctorsOf (cs ++ [.makeGen k]) = ctorsOf cs := by simp [ctorsOf]
        have e4 : ∀ i, settersOfGen i (cs ++ [.makeGen k]) = settersOfGen i cs := by simp [settersOfGen]
        have e5 : addsOf (cs ++ [.makeGen k]) = addsOf cs := by simp [addsOf]
        have e6 : genAddsOf (cs ++ [.makeGen k]) = genAddsOf cs := by simp [genAddsOf]
        refine ⟨?_, ?_, ?_, ?_, ?_, ?_, I.db, ?_, ?_, fun _ _ _ e => hadd _ _ _ e (by simp) rfl, fun _ _ _ e => haddGen _ _ _ e (by simp) rfl⟩
        · rw [e3]; exact I.len
        · simp [e1, I.lenGen]
        · intro i c hc; rw [e3] at hc; rw [e2]; exact I.vars i c hc
        · intro i c hc
          rw [e1] at hc
          rw [e4]
          by_cases hi : i < (genCtorsOf cs).length
          · rw [List.getElem?_append_left hi] at hc
            rw [List.getElem?_append_left (by rw [I.lenGen]; exact hi)]
            exact I.gens i c hc
          · have hi' : i = (genCtorsOf cs).length := by
              have := (List.getElem?_eq_some_iff.1 hc).1
              simp at this; omega
            subst hi'
            simp only [List.getElem?_concat_length, Option.some.injEq] at hc
            subst hc
            rw [← I.lenGen, List.getElem?_concat_length, I.freshGen _ (by rw [I.lenGen])]
            rfl
        · intro i hi; rw [e3] at hi; rw [e2]; exact I.fresh i hi
        · intro i hi; rw [e1, List.length_append] at hi; rw [e4]; exact I.freshGen i (by omega)
        · rw [e5]; exact I.count
        · rw [e6]; exact I.countGen
      | set j s =>
        simp only [Program.step] at h
        cases hj : at! q.vars j with
        | throw => rw [hj] at h; cases h
        | ub => rw [hj] at h; cases h
        | ok b =>
          rw [hj] at h
          simp only [Res.bind_ok', Res.ok.injEq] at h
          subst h
          rw [at!_ok] at hj
          have hlt := (List.getElem?_eq_some_iff.1 hj).1
          have e1 : ctorsOf (cs ++ [.set j s]) = ctorsOf cs := by simp [ctorsOf]
          have e2 : ∀ i, settersOf i (cs ++ [.set j s]) = settersOf i cs ++ if j = i then [s] else [] := by
            intro i
            simp only [settersOf, List.filterMap_append]
            congr 1
            by_cases hji : j = i <;> simp [hji]
          have e3 : genCtorsOf (cs ++ [.set j s]) = genCtorsOf cs := by simp [genCtorsOf]
          have e4 : ∀ i, settersOfGen i (cs ++ [.set j s]) = settersOfGen i cs := by simp [settersOfGen]
          have e5 : addsOf (cs ++ [.set j s]) = addsOf cs := by simp [addsOf]
          have e6 : genAddsOf (cs ++ [.set j s]) = genAddsOf cs := by simp [genAddsOf]
          refine ⟨?_, ?_, ?_, ?_, ?_, ?_, I.db, ?_, ?_, fun _ _ _ e => hadd _ _ _ e (by simp) rfl, fun _ _ _ e => haddGen _ _ _ e (by simp) rfl⟩
          · rw [e1]; simp [I.len]
          · rw [e3]; exact I.lenGen
          · intro i c hc
            rw [e1] at hc
            obtain ⟨b', h1, h2⟩ := I.vars i c hc
            refine ⟨b', h1, ?_⟩
            rw [e2]
            by_cases hji : j = i
            · subst hji
              rw [h2] at hj
              cases hj
              simp [hlt]
            · rw [List.getElem?_set_ne hji, h2]; simp [hji]
          · intro i c hc; rw [e3] at hc; rw [e4]; exact I.gens i c hc
          · intro i hi
            rw [e1] at hi
            rw [e2, I.fresh i hi, if_neg (by rw [← I.len] at hi; omega)]
            rfl
          · intro i hi; rw [e3] at hi; rw [e4]; exact I.freshGen i hi
          · rw [e5]; exact I.count
          · rw [e6]; exact I.countGen
      | setGen j s =>
        simp only [Program.step] at h
        cases hj : at! q.gens j with
        | throw => rw [hj] at h; cases h
        | ub => rw [hj] at h; cases h
        | ok b =>
          rw [hj] at h
          simp only [Res.bind_ok', Res.ok.injEq] at h
          subst h
          rw [at!_ok] at hj
          have hlt := (List.getElem?_eq_some_iff.1 hj).1
          have e1 : genCtorsOf (cs ++ [.setGen j s]) = genCtorsOf cs := by simp [genCtorsOf]
          have e2 : ∀ i, settersOfGen i (cs ++ [.setGen j s]) = settersOfGen i cs ++ if j = i then [s] else [] := by
            intro i
            simp only [settersOfGen, List.filterMap_append]
            congr 1
            by_cases hji : j = i <;> simp [hji]
          have e3 : ctorsOf (cs ++ [.setGen j s]) = ctorsOf cs := by simp [ctorsOf]
          have e4 : ∀ i, settersOf i (cs ++ [.setGen j s]) = settersOf i cs := by simp [settersOf]
          have e5 : addsOf (cs ++ [.setGen j s]) = addsOf cs := by simp [addsOf]
          have e6 : genAddsOf (cs ++ [.setGen j s]) = genAddsOf cs := by simp [genAddsOf]
          refine ⟨?_, ?_, ?_, ?_, ?_, ?_, I.db, ?_, ?_, fun _ _ _ e => hadd _ _ _ e (by simp) rfl, fun _ _ _ e => haddGen _ _ _ e (by simp) rfl⟩
          · rw [e3]; exact I.len
          · rw [e1]; simp [I.lenGen]
          · intro i c hc; rw [e3] at hc; rw [e4]; exact I.vars i c hc
          · intro i c hc
            rw [e1] at hc
            have h2 := I.gens i c hc
            rw [e2]
            by_cases hji : j = i
            · subst hji
              rw [h2] at hj
              cases hj
              simp [hlt]
            · rw [List.getElem?_set_ne hji, h2]; simp [hji]
          · intro i hi; rw [e3] at hi; rw [e4]; exact I.fresh i hi
          · intro i hi
            rw [e1] at hi
            rw [e2, I.freshGen i hi, if_neg (by rw [← I.lenGen] at hi; omega)]
            rfl
          · rw [e5]; exact I.count
          · rw [e6]; exact I.countGen
      | add j =>
        simp only [Program.step] at h
        cases hj : at! q.vars j with
        | throw => rw [hj] at h; cases h
        | ub => rw [hj] at h; cases h
        | ok b =>
          rw [hj] at h
          simp only [Res.bind_ok', Res.ok.injEq] at h
          subst h
          rw [at!_ok] at hj
          have hlt := (List.getElem?_eq_some_iff.1 hj).1
          have e1 : ctorsOf (cs ++ [.add j]) = ctorsOf cs := by simp [ctorsOf]
          have e2 : ∀ i, settersOf i (cs ++ [.add j]) = settersOf i cs := by simp [settersOf]
          have e3 : genCtorsOf (cs ++ [.add j]) = genCtorsOf cs := by simp [genCtorsOf]
          have e4 : ∀ i, settersOfGen i (cs ++ [.add j]) = settersOfGen i cs := by simp [settersOfGen]
          have e5 : addsOf (cs ++ [.add j]) = addsOf cs + 1 := by simp [addsOf]
          have e6 : genAddsOf (cs ++ [.add j]) = genAddsOf cs := by simp [genAddsOf]
          refine ⟨?_, ?_, ?_, ?_, ?_, ?_, I.db, ?_, ?_, ?_, fun _ _ _ e => haddGen _ _ _ e (by simp) rfl⟩
          · rw [e1]; exact I.len
          · rw [e3]; exact I.lenGen
          · intro i c hc; rw [e1] at hc; rw [e2]; exact I.vars i c hc
          · intro i c hc; rw [e3] at hc; rw [e4]; exact I.gens i c hc
          · intro i hi; rw [e1] at hi; rw [e2]; exact I.fresh i hi
          · intro i hi; rw [e3] at hi; rw [e4]; exact I.freshGen i hi
          · rw [e5]; simp [I.count]
          · rw [e6]; exact I.countGen
          · intro before i after e
            rcases split_snoc e with ⟨after', -, e⟩ | ⟨-, e, e'⟩
            · obtain ⟨c, b', h1, h2, h3⟩ := I.added before i after' e
              exact ⟨c, b', h1, h2, by rw [List.getElem?_append_left (List.getElem?_eq_some_iff.1 h3).1]; exact h3⟩
            · cases e
              subst e'
              have hc : j < (ctorsOf cs).length := by rw [← I.len]; exact hlt
              obtain ⟨b', h1, h2⟩ := I.vars j _ (List.getElem?_eq_getElem hc)
              refine ⟨_, b', List.getElem?_eq_getElem hc, h1, ?_⟩
              rw [h2] at hj
              cases hj
              rw [← I.count, List.getElem?_concat_length]
      | addGen j =>
        simp only [Program.step] at h
        cases hj : at! q.gens j with
        | throw => rw [hj] at h; cases h
        | ub => rw [hj] at h; cases h
        | ok b =>
          rw [hj] at h
          simp only [Res.bind_ok', Res.ok.injEq] at h
          subst h
          rw [at!_ok] at hj
          have hlt := (List.getElem?_eq_some_iff.1 hj).1
          have e1 : ctorsOf (cs ++ [.addGen j]) = ctorsOf cs := by simp [ctorsOf]
          have e2 : ∀ i, settersOf i (cs ++ [.addGen j]) = settersOf i cs := by simp [settersOf]
          have e3 : genCtorsOf (cs ++ [.addGen j]) = genCtorsOf cs := by simp [genCtorsOf]
          have e4 : ∀ i, settersOfGen i (cs ++ [.addGen j]) = settersOfGen i cs := by simp [settersOfGen]
          have e5 : addsOf (cs ++ [.addGen j]) = addsOf cs := by simp [addsOf]
          have e6 : genAddsOf (cs ++ [.addGen j]) = genAddsOf cs + 1 := by simp [genAddsOf]
          refine ⟨?_, ?_, ?_, ?_, ?_, ?_, I.db, ?_, ?_, fun _ _ _ e => hadd _ _ _ e (by simp) rfl, ?_⟩
          · rw [e1]; exact I.len
          · rw [e3]; exact I.lenGen
          · intro i c hc; rw [e1] at hc; rw [e2]; exact I.vars i c hc
          · intro i c hc; rw [e3] at hc; rw [e4]; exact I.gens i c hc
          · intro i hi; rw [e1] at hi; rw [e2]; exact I.fresh i hi
          · intro i hi; rw [e3] at hi; rw [e4]; exact I.freshGen i hi
          · rw [e5]; exact I.count
          · rw [e6]; simp [I.countGen]
          · intro before i after e
            rcases split_snoc e with ⟨after', -, e⟩ | ⟨-, e, e'⟩
            · obtain ⟨c, h1, h3⟩ := I.addedGen before i after' e
              exact ⟨c, h1, by rw [List.getElem?_append_left (List.getElem?_eq_some_iff.1 h3).1]; exact h3⟩
            · cases e
              subst e'
              have hc : j < (genCtorsOf cs).length := by rw [← I.lenGen]; exact hlt
              have h2 := I.gens j _ (List.getElem?_eq_getElem hc)
              refine ⟨_, List.getElem?_eq_getElem hc, ?_⟩
              rw [h2] at hj
              cases hj
              rw [← I.countGen, List.getElem?_concat_length]

/-- **C102 (programs).** After any calls that construct definitions and generators, change them and add them, the container has one definition for each call
that added one, in that order, with the attributes it had in that moment: those made by its constructor and the setters called on it before; later
calls do not change it. The same for generators. The database is the given one. -/
theorem C102_program (id : Ideals M) (db : Database.Db) (calls : List (Call M)) (p : Program M)
    (h : Program.run id { collection := { db := db } } calls = .ok p) :
    p.collection.db = db ∧ p.collection.phases.length = addsOf calls ∧ p.collection.generators.length = genAddsOf calls ∧
    (∀ before i after, calls = before ++ .add i :: after → ∃ c b, (ctorsOf before)[i]? = some c ∧ construct id c = .ok b ∧
      p.collection.phases[addsOf before]? = some ((settersOf i before).foldl Builder.call b)) ∧
    ∀ before i after, calls = before ++ .addGen i :: after → ∃ c, (genCtorsOf before)[i]? = some c ∧
      p.collection.generators[genAddsOf before]? = some ((settersOfGen i before).foldl Builder.call (constructGen id c)) :=
  have I := inv_run id db calls p h
  ⟨I.db, I.count, I.countGen, I.added, I.addedGen⟩

/-- Position `k` of the added definitions is reached by some call. -/
theorem exists_add (calls : List (Call M)) (k : Nat) (h : k < addsOf calls) :
    ∃ before i after, calls = before ++ .add i :: after ∧ addsOf before = k := by
  induction calls using List.reverseRecOn with
  | nil => simp [addsOf] at h
  | append_singleton cs c ih =>
    by_cases hk : k < addsOf cs
    · obtain ⟨before, i, after, e, hb⟩ := ih hk
      exact ⟨before, i, after ++ [c], by rw [e]; simp, hb⟩
    · cases c with
      | add i =>
        have e5 : addsOf (cs ++ [.add i]) = addsOf cs + 1 := by simp [addsOf]
        exact ⟨cs, i, [], rfl, by omega⟩
      | _ => simp only [addsOf, List.filter_append] at h hk; simp at h; omega

theorem exists_addGen (calls : List (Call M)) (k : Nat) (h : k < genAddsOf calls) :
    ∃ before i after, calls = before ++ .addGen i :: after ∧ genAddsOf before = k := by
  induction calls using List.reverseRecOn with
  | nil => simp [genAddsOf] at h
  | append_singleton cs c ih =>
    by_cases hk : k < genAddsOf cs
    · obtain ⟨before, i, after, e, hb⟩ := ih hk
      exact ⟨before, i, after ++ [c], by rw [e]; simp, hb⟩
    · cases c with
      | addGen i =>
        have e5 : genAddsOf (cs ++ [.addGen i]) = genAddsOf cs + 1 := by simp [genAddsOf]
        exact ⟨cs, i, [], rfl, by omega⟩
      | _ => simp only [genAddsOf, List.filter_append] at h hk; simp at h; omega

theorem constructible_call (calls : List (Setter M)) (b : Builder M) (h : Phases.Constructible b.toGenericPhase) :
    Phases.Constructible (calls.foldl Builder.call b).toGenericPhase := by
  obtain ⟨h1, -, h3⟩ := names_foldl calls b
  intro hn
  rw [h3]
  exact h (by rw [← h1]; exact hn)

theorem program_constructible (id : Ideals M) (db : Database.Db) (calls : List (Call M)) (p : Program M)
    (h : Program.run id { collection := { db := db } } calls = .ok p) :
    (∀ b ∈ p.collection.phases, Phases.Constructible b.toGenericPhase) ∧ ∀ b ∈ p.collection.generators, Phases.Constructible b.toGenericPhase := by
  obtain ⟨-, hc, hg, ha, hag⟩ := C102_program id db calls p h
  constructor
  · intro b hb
    obtain ⟨k, hk, rfl⟩ := List.getElem_of_mem hb
    obtain ⟨before, i, after, e, hb'⟩ := exists_add calls k (by rw [← hc]; exact hk)
    obtain ⟨c, b0, -, h2, h3⟩ := ha before i after e
    rw [hb', List.getElem?_eq_getElem hk, Option.some.injEq] at h3
    rw [h3]
    exact constructible_call _ _ (constructible id c b0 h2)
  · intro b hb
    obtain ⟨k, hk, rfl⟩ := List.getElem_of_mem hb
    obtain ⟨before, i, after, e, hb'⟩ := exists_addGen calls k (by rw [← hg]; exact hk)
    obtain ⟨c, -, h3⟩ := hag before i after e
    rw [hb', List.getElem?_eq_getElem hk, Option.some.injEq] at h3
    rw [h3]
    exact constructible_call _ _ (constructibleGen id c)

theorem map_toGeneric_setName (b : Builder M) (n : Str) :
    (b.call (.setName n)).toGenericPhase = { b.toGenericPhase with phasename := n } := rfl

/-- **C102 (conversion, partial).** If the phases defined in a program are converted, there is first one phase for each definition, in the order in which
they were added, with the species it requests (C30), its state of matter, and the functions that its two activity models give for exactly these species;
then one phase for each species requested by each generator, with the attributes of the generator. The names are those of the definitions and species,
possibly followed by exclamation marks. Missing as in C30: names with white space in generators, and several excluded tags. -/
theorem C102_convert_partial (apply : M → List Species → Res F) (ops : List Database.Op) (flags : List Bool) (db : Database.Db)
    (hdb : Database.run {} ops = .ok (flags, db)) (hsp : ∀ s ∈ db.species, Phases.NoSpace s.name) (id : Ideals M) (calls : List (Call M))
    (p : Program M) (h : Program.run id { collection := { db := db } } calls = .ok p) (result : List (Full F))
    (hr : p.collection.convert apply = .ok result) :
    let all := Phases.Mentioned db ((p.collection.phases ++ p.collection.generators).map (·.toGenericPhase))
    ∃ (first rest : List (Full F)) (sel : List (List Species)), result = first ++ rest ∧
      List.Forall₂ (fun b q => Phases.Requested (Phases.HasAllTags b.excludetags) db all b.toGenericPhase q.species ∧
        q.matter = b.matter ∧ FunctionsOf apply b q) p.collection.phases first ∧
      List.Forall₂ (fun b l => Phases.Requested (Phases.HasAllTags b.excludetags) db all b.toGenericPhase l) p.collection.generators sel ∧
      List.Forall₂ (fun bs q => q.species = [bs.2] ∧ q.matter = bs.1.matter ∧ FunctionsOf apply bs.1 q)
        ((p.collection.generators.zip sel).flatMap fun x => x.2.map fun s => (x.1, s)) rest ∧
      List.Forall₂ (fun n q => ∃ k, q.name = n ++ List.replicate k '!')
        (p.collection.phases.map (·.phasename) ++ sel.flatten.map Species.name) result := by
  intro all
  have hok := Phases.dbOk ops flags db hdb
  obtain ⟨hcp, hcg⟩ := program_constructible id db calls p h
  have hpdb : p.collection.db = db := (C102_program id db calls p h).1
  unfold Collection.convert at hr
  rw [hpdb] at hr
  rcases Phases.collectAll_cases db hok (p.collection.phases.map (·.toGenericPhase) ++ p.collection.generators.map (·.toGenericPhase)) []
    with ⟨symbols, h1, h2⟩ | ⟨-, h1⟩
  swap
  · rw [h1] at hr; cases hr
  rw [h1] at hr
  simp only [Res.bind_ok'] at hr
  have hsym : ∀ x, x ∈ symbols ↔ all x := by intro x; rw [h2]; simp [all]
  cases hc : collectPhases db symbols p.collection.phases p.collection.generators <;> rw [hc] at hr <;>
    simp only [Res.bind_ok', Res.bind_throw', Res.bind_ub', reduceCtorEq] at hr
  rename_i every
  obtain ⟨sel, h3, h4⟩ := collectPhases_ok db hok symbols _ hcg _ _ hc
  have h5 := convertAll_ok apply db symbols _ _ hr
  have h6 := fixNames_forall every
  have hrep : ∀ k, Strings.repeated ['!'] k = List.replicate k '!' := by
    intro k
    induction k with
    | zero => rfl
    | succ k ih => rw [Strings.repeated, ih]; exact (List.replicate_succ' (n := k) (a := '!')).symm
  have h7 : List.Forall₂ (fun b q => (∃ k, q.name = b.phasename ++ List.replicate k '!') ∧ q.matter = b.matter ∧ FunctionsOf apply b q ∧
      ∃ n, Phases.GenericPhase.convert db symbols { b.toGenericPhase with phasename := n } = .ok q.toPhase) every result := by
    rw [List.forall₂_iff_get] at h5 h6 ⊢
    refine ⟨h6.1.trans h5.1, ?_⟩
    intro i a b
    have hi : i < (fixNames every).length := by rw [← h6.1]; exact a
    obtain ⟨⟨k, hk⟩, he⟩ := h6.2 i a hi
    obtain ⟨c1, c2, c3⟩ := convert_full apply db symbols _ _ (h5.2 i hi b)
    have hgen : ((fixNames every).get ⟨i, hi⟩).toGenericPhase =
        { (every.get ⟨i, a⟩).toGenericPhase with phasename := ((fixNames every).get ⟨i, hi⟩).phasename } :=
      congrArg Builder.toGenericPhase he
    refine ⟨⟨k, ?_⟩, ?_, ?_, ((fixNames every).get ⟨i, hi⟩).phasename, ?_⟩
    · have hnm : (result.get ⟨i, b⟩).name = ((fixNames every).get ⟨i, hi⟩).phasename := by
        have hcv' := c1
        unfold Phases.GenericPhase.convert at hcv'
        split_ifs at hcv'
        cases hs : Phases.select db ((fixNames every).get ⟨i, hi⟩).toGenericPhase symbols <;> rw [hs] at hcv' <;>
          simp only [Res.bind_ok', Res.bind_throw', Res.bind_ub', reduceCtorEq] at hcv'
        unfold Phases.Phase.withSpecies at hcv'
        rename_i sp
        cases h0 : at! sp 0 <;> rw [h0] at hcv' <;>
          simp only [Res.bind_ok', Res.bind_throw', Res.bind_ub', reduceCtorEq] at hcv'
        rename_i s0
        cases h0' : s0.aggregateState <;> rw [h0'] at hcv' <;>
          simp only [Res.bind_ok', Res.bind_throw', Res.bind_ub', reduceCtorEq] at hcv'
        rename_i st0
        cases h0'' : Phases.checkStates st0 sp <;> rw [h0''] at hcv' <;>
          simp only [Res.bind_ok', Res.bind_throw', Res.bind_ub', reduceCtorEq, Res.ok.injEq] at hcv'
        rw [← hcv']
      rw [hnm, hk, hrep]
    · rw [c2, he]; rfl
    · rw [he] at c3; exact c3
    · rw [← hgen]; exact c1
  rw [h4] at h7
  obtain ⟨first, rest, rfl, h8, h9⟩ := Phases.forall₂_append_left h7
  refine ⟨first, rest, sel, rfl, ?_, ?_, ?_, ?_⟩
  · rw [List.forall₂_iff_get] at h8 ⊢
    refine ⟨h8.1, fun i a b => ?_⟩
    obtain ⟨-, c2, c3, n, hcv⟩ := h8.2 i a b
    have hg' := hcp (p.collection.phases.get ⟨i, a⟩) (List.get_mem _ _)
    exact ⟨Phases.requested_mono db _ _ _ hsym _ _
      (Phases.convert_ok db hok { (p.collection.phases.get ⟨i, a⟩).toGenericPhase with phasename := n } hg' symbols _ hcv).2.2, c2, c3⟩
  · exact h3.imp (fun g l hgl => Phases.requested_mono db _ _ _ hsym _ _ hgl.1)
  · rw [generated_flatten, List.forall₂_map_left_iff] at h9
    have hmem : ∀ x ∈ ((p.collection.generators.zip sel).flatMap fun x => x.2.map fun s => (x.1, s)), x.2 ∈ db.species := by
      intro x hx
      obtain ⟨y, hy, hxy⟩ := List.mem_flatMap.1 hx
      obtain ⟨s, hs, rfl⟩ := List.mem_map.1 hxy
      obtain ⟨i, hi, rfl⟩ := List.getElem_of_mem hy
      rw [List.forall₂_iff_get] at h3
      simp only [List.length_zip, Nat.lt_min] at hi
      have := (h3.2 i hi.1 hi.2).2
      simp only [List.getElem_zip] at hs ⊢
      exact this s hs
    rw [List.forall₂_iff_get] at h9 ⊢
    refine ⟨h9.1, fun i a b => ?_⟩
    obtain ⟨-, c2, c3, n, hcv⟩ := h9.2 i a b
    have hm := hmem _ (List.get_mem _ ⟨i, a⟩)
    exact ⟨Phases.generated_convert db hok symbols _ _ hm (hsp _ hm) n _ hcv, c2, c3⟩
  · have h10 : (p.collection.phases ++ (List.zipWith generated p.collection.generators sel).flatten).map (·.phasename) =
        p.collection.phases.map (·.phasename) ++ sel.flatten.map Species.name := by
      rw [List.map_append]
      congr 1
      have hlen := h3.length_eq
      clear hr hc h4 h5 h6 h7 h8 h9 h1 h2 hsym h3
      generalize p.collection.generators = gens at hlen
      induction gens generalizing sel with
      | nil => cases sel with
        | nil => rfl
        | cons _ _ => simp at hlen
      | cons g gens ih =>
        cases sel with
        | nil => simp at hlen
        | cons l sel =>
          rw [List.zipWith_cons_cons, List.flatten_cons, List.map_append, ih sel (by simpa using hlen), List.flatten_cons, List.map_append]
          congr 1
          simp [generated, Function.comp_def]
    rw [← h10, List.forall₂_map_left_iff]
    exact h7.imp (fun g q hq => hq.1)

theorem convert_exists (apply : M → List Species → Res F) (happly : ∀ m l, l ≠ [] → ∃ f, apply m l = .ok f) (db : Database.Db)
    (hdb : Phases.DbOk db) (symbols : List Str) (b : Builder M) (hc : Phases.Constructible b.toGenericPhase)
    (hst : b.aggregatestate ≠ .Undefined) (hn : ∀ n ∈ b.names, ∃ s ∈ db.species, s.name = n ∧ s.aggregateState = .ok b.aggregatestate)
    (hm : b.model ≠ none) (hi : b.ideal ≠ none)
    (hne : ∀ l, Phases.Requested (Phases.HasAllTags b.excludetags) db (· ∈ symbols) b.toGenericPhase l → l ≠ []) :
    ∃ q, b.convert apply db symbols = .ok q := by
  rcases Phases.select_cases db hdb b.toGenericPhase hc symbols with ⟨r, h1, h2, h3⟩ | ⟨⟨n, hn1, hn2⟩, -⟩
  · have hr := hne r h2
    have hconv : b.toGenericPhase.convert db symbols = .ok ⟨b.phasename, r⟩ := by
      unfold Phases.GenericPhase.convert
      rw [if_neg hst, h1]
      simp only [Res.bind_ok']
      rw [Phases.withSpecies_ok _ b.aggregatestate r (fun s hs => (h3 s hs).2) hr]
    obtain ⟨m, hm⟩ := Option.ne_none_iff_exists'.1 hm
    obtain ⟨m', hi⟩ := Option.ne_none_iff_exists'.1 hi
    obtain ⟨f, hf⟩ := happly m r hr
    obtain ⟨f', hf'⟩ := happly m' r hr
    exact ⟨_, by unfold Builder.convert; rw [hconv]; simp only [Res.bind_ok', hm, hi, callModel, hf, hf']; rfl⟩
  · obtain ⟨s, hs, e, hss⟩ := hn n hn1
    exact absurd e (hn2 s hs hss)

theorem convertAll_exists (apply : M → List Species → Res F) (db : Database.Db) (symbols : List Str) (gs : List (Builder M))
    (h : ∀ g ∈ gs, ∃ q, g.convert apply db symbols = .ok q) : ∃ r, convertAll apply db symbols gs = .ok r := by
  induction gs with
  | nil => exact ⟨[], rfl⟩
  | cons g gs ih =>
    obtain ⟨q, hq⟩ := h g List.mem_cons_self
    obtain ⟨r, hr⟩ := ih (fun g hg => h g (List.mem_cons_of_mem _ hg))
    exact ⟨q :: r, by simp only [convertAll, hq, hr, Res.bind_ok']⟩

theorem collectPhases_exists (db : Database.Db) (hdb : Phases.DbOk db) (symbols : List Str) (gens acc : List (Builder M))
    (hc : ∀ b ∈ gens, Phases.Constructible b.toGenericPhase) (hst : ∀ b ∈ gens, b.aggregatestate ≠ .Undefined)
    (hn : ∀ b ∈ gens, ∀ n ∈ b.names, ∃ s ∈ db.species, s.name = n ∧ s.aggregateState = .ok b.aggregatestate) :
    ∃ r, collectPhases db symbols acc gens = .ok r ∧
      ∀ x ∈ r, x ∈ acc ∨ ∃ b ∈ gens, ∃ s ∈ db.species, s.aggregateState = .ok b.aggregatestate ∧
        x = { phasename := s.name, aggregatestate := b.aggregatestate, names := Strings.stringList s.name ' ',
              matter := b.matter, model := b.model, ideal := b.ideal } := by
  induction gens generalizing acc with
  | nil => exact ⟨acc, rfl, fun x hx => Or.inl hx⟩
  | cons g gens ih =>
    rcases Phases.select_cases db hdb g.toGenericPhase (hc g List.mem_cons_self) symbols with ⟨r, h1, h2, h3⟩ | ⟨⟨n, hn1, hn2⟩, -⟩
    · have hgen : g.generate db symbols = .ok (generated g r) := by
        unfold Builder.generate Phases.generate
        rw [if_neg (hst g List.mem_cons_self), h1]
        simp [Res.bind, generated]
      obtain ⟨r', h4, h5⟩ := ih (acc ++ generated g r) (fun b hb => hc b (List.mem_cons_of_mem _ hb))
        (fun b hb => hst b (List.mem_cons_of_mem _ hb)) (fun b hb => hn b (List.mem_cons_of_mem _ hb))
      refine ⟨r', by simp only [collectPhases, hgen, Res.bind_ok']; exact h4, ?_⟩
      intro x hx
      rcases h5 x hx with hx | ⟨b, hb, hx⟩
      · rcases List.mem_append.1 hx with hx | hx
        · exact Or.inl hx
        · obtain ⟨s, hs, rfl⟩ := List.mem_map.1 hx
          exact Or.inr ⟨g, List.mem_cons_self, s, (h3 s hs).1, (h3 s hs).2, rfl⟩
      · exact Or.inr ⟨b, List.mem_cons_of_mem _ hb, hx⟩
    · obtain ⟨s, hs, e, hss⟩ := hn g List.mem_cons_self n hn1
      exact absurd e (hn2 s hs hss)

/-- **C102 (success, partial).** The conversion succeeds if all definitions and generators have an aggregate state and activity models that accept every non-empty
list of species, if the named species are in the database with that aggregate state, and if each definition requests at least one species. Missing:
names with white space in the database. -/
theorem C102_succeeds_partial (apply : M → List Species → Res F) (happly : ∀ m l, l ≠ [] → ∃ f, apply m l = .ok f)
    (ops : List Database.Op) (flags : List Bool) (db : Database.Db)
    (hdb : Database.run {} ops = .ok (flags, db)) (hsp : ∀ s ∈ db.species, Phases.NoSpace s.name) (id : Ideals M) (calls : List (Call M))
    (p : Program M) (h : Program.run id { collection := { db := db } } calls = .ok p)
    (hst : ∀ b ∈ p.collection.phases ++ p.collection.generators, b.aggregatestate ≠ .Undefined ∧ b.model ≠ none ∧ b.ideal ≠ none ∧
      ∀ n ∈ b.names, ∃ s ∈ db.species, s.name = n ∧ s.aggregateState = .ok b.aggregatestate)
    (hne : ∀ b ∈ p.collection.phases, ∀ l, Phases.Requested (Phases.HasAllTags b.excludetags) db
      (Phases.Mentioned db ((p.collection.phases ++ p.collection.generators).map (·.toGenericPhase))) b.toGenericPhase l → l ≠ []) :
    ∃ result, p.collection.convert apply = .ok result := by
  have hok := Phases.dbOk ops flags db hdb
  obtain ⟨hcp, hcg⟩ := program_constructible id db calls p h
  have hpdb : p.collection.db = db := (C102_program id db calls p h).1
  unfold Collection.convert
  rw [hpdb]
  rcases Phases.collectAll_cases db hok (p.collection.phases.map (·.toGenericPhase) ++ p.collection.generators.map (·.toGenericPhase)) []
    with ⟨symbols, h1, h2⟩ | ⟨⟨g, hg, n, hn, hmiss⟩, -⟩
  swap
  · rw [← List.map_append] at hg
    obtain ⟨b, hb, rfl⟩ := List.mem_map.1 hg
    obtain ⟨s, hs, e, -⟩ := (hst b hb).2.2.2 n hn
    exact absurd e (hmiss s hs)
  rw [h1]
  simp only [Res.bind_ok']
  obtain ⟨every, h3, h4⟩ := collectPhases_exists db hok symbols p.collection.generators p.collection.phases hcg
    (fun b hb => (hst b (List.mem_append_right _ hb)).1) (fun b hb => (hst b (List.mem_append_right _ hb)).2.2.2)
  rw [h3]
  simp only [Res.bind_ok']
  apply convertAll_exists
  intro g hg
  have h6 := fixNames_forall every
  obtain ⟨i, hi, rfl⟩ := List.getElem_of_mem hg
  rw [List.forall₂_iff_get] at h6
  have hi' : i < every.length := by rw [h6.1]; exact hi
  obtain ⟨-, he⟩ := h6.2 i hi' hi
  simp only [List.get_eq_getElem] at he
  rw [he]
  have hsym : ∀ x, x ∈ symbols ↔ Phases.Mentioned db ((p.collection.phases ++ p.collection.generators).map (·.toGenericPhase)) x := by
    intro x; rw [h2]; simp
  rcases h4 every[i] (List.getElem_mem hi') with hx | ⟨b, hb, s, hs, hss, hx⟩
  · have hx' := hst _ (List.mem_append_left _ hx)
    refine convert_exists apply happly db hok symbols _ (hcp every[i] hx) hx'.1 hx'.2.2.2 hx'.2.1 hx'.2.2.1 (fun l hl => ?_)
    exact hne _ hx l (Phases.requested_mono db _ _ _ hsym { every[i].toGenericPhase with phasename := (fixNames every)[i].phasename } l hl)
  · have hx' := hst _ (List.mem_append_right _ hb)
    rw [hx]
    refine convert_exists apply happly db hok symbols _ (fun _ => rfl) hx'.1 ?_ hx'.2.1 hx'.2.2.1 ?_
    · intro n hn
      have hn' : n ∈ Strings.stringList s.name ' ' := hn
      rw [Phases.stringList_noSpace _ (hsp s hs)] at hn'
      exact ⟨s, hs, (List.mem_singleton.1 hn').symm, hss⟩
    · intro l hl e
      subst e
      have hnm : Strings.stringList s.name ' ' = [s.name] := Phases.stringList_noSpace _ (hsp s hs)
      have := (hl.1 (by change Strings.stringList s.name ' ' ≠ []; rw [hnm]; simp)).1
      have e : [] = Strings.stringList s.name ' ' := this
      rw [hnm] at e
      cases e

/-- **C102 (no model).** A definition or generator for which no activity model was set, or no ideal one, is not converted: the conversion of the phases fails
whatever else was defined. -/
theorem C102_no_model (apply : M → List Species → Res F) (c : Collection M) (b : Builder M) (hb : b ∈ c.phases)
    (hm : b.model = none ∨ b.ideal = none) (result : List (Full F)) : c.convert apply ≠ .ok result := by
  intro h
  unfold Collection.convert at h
  cases h1 : Phases.collectAll c.db [] (c.phases.map (·.toGenericPhase) ++ c.generators.map (·.toGenericPhase)) <;> rw [h1] at h <;>
    simp only [Res.bind_ok', Res.bind_throw', Res.bind_ub', reduceCtorEq] at h
  rename_i symbols
  cases h2 : collectPhases c.db symbols c.phases c.generators <;> rw [h2] at h <;>
    simp only [Res.bind_ok', Res.bind_throw', Res.bind_ub', reduceCtorEq] at h
  rename_i every
  have hmem : b ∈ every := by
    have key : ∀ (gens acc r : List (Builder M)), collectPhases c.db symbols acc gens = .ok r → b ∈ acc → b ∈ r := by
      intro gens
      induction gens with
      | nil => intro acc r hr hb; simp only [collectPhases, Res.ok.injEq] at hr; rw [← hr]; exact hb
      | cons g gens ih =>
        intro acc r hr hb
        simp only [collectPhases] at hr
        cases hg : g.generate c.db symbols <;> rw [hg] at hr <;>
          simp only [Res.bind_ok', Res.bind_throw', Res.bind_ub', reduceCtorEq] at hr
        exact ih _ _ hr (List.mem_append_left _ hb)
    exact key _ _ _ h2 hb
  have h5 := convertAll_ok apply c.db symbols _ _ h
  have h6 := fixNames_forall every
  obtain ⟨i, hi, rfl⟩ := List.getElem_of_mem hmem
  rw [List.forall₂_iff_get] at h5 h6
  have hi' : i < (fixNames every).length := by rw [← h6.1]; exact hi
  obtain ⟨-, he⟩ := h6.2 i hi hi'
  obtain ⟨-, -, ⟨m, hm1, -⟩, m', hm2, -⟩ := convert_full apply c.db symbols _ _ (h5.2 i hi' (by rw [← h5.1]; exact hi'))
  simp only [List.get_eq_getElem] at he hm1 hm2
  rw [he] at hm1 hm2
  rcases hm with hm | hm
  · exact absurd (hm.symm.trans hm1) (by simp)
  · exact absurd (hm.symm.trans hm2) (by simp)

/-- **C102 (aqueous phases with excluded tags).** An aqueous phase defined only by tags to be excluded has species of hydrogen and oxygen only, whatever
elements the other phases have; phases of the other classes are not restricted in this way. -/
theorem C102_aqueous_exclude (id : Ideals M) (tags : List Str) (b : Builder M) (h : construct id (.aqueous (.exclude tags)) = .ok b)
    (calls : List (Setter M)) (db : Database.Db) (all : Str → Prop) (species : List Species)
    (hr : Phases.Requested (Phases.HasAllTags tags) db all (calls.foldl Builder.call b).toGenericPhase species) :
    ∀ s ∈ species, ∀ e ∈ s.elements, e.1.symbol = c!"H" ∨ e.1.symbol = c!"O" := by
  obtain ⟨n, m, st, mo, -, -, -, -, -, -, h1, -, h3⟩ := C102_definition id _ b h calls
  intro s hs e he
  have h1' : (calls.foldl Builder.call b).names = [] := h1
  have hmem := ((hr.2 h1').2 s).1 hs
  rcases hmem.2.2.2 with ⟨-, ha⟩ | ⟨h0, -⟩
  · exact (h3 _).1 (ha e he)
  · have : c!"H" ∈ (calls.foldl Builder.call b).symbols := (h3 _).2 (Or.inl rfl)
    rw [h0] at this
    cases this

/-- **C102 (mineral phases, partial).** A mineral phase with a name without white space is named after the mineral and requests this species only. Missing: names with
white space, see `C102_mineral_wrong`. -/
theorem C102_mineral_partial (id : Ideals M) (name : Str) (h : Phases.NoSpace name) :
    ∃ b, construct id (.mineral name) = .ok b ∧ b.phasename = name ∧ b.names = [name] ∧ b.symbols = [] ∧ b.excludetags = [] := by
  have e := Phases.stringList_noSpace name h
  refine ⟨_, by simp [construct, generic, e, at!, Res.bind]; rfl, rfl, rfl, rfl, rfl⟩

/-- **C102 is false of the code for mineral names with a space.** The phase of the pure mineral `Green rust` is named `Green` and requests the two species
`Green` and `rust`. -/
theorem C102_mineral_wrong (id : Ideals M) : ∃ b, construct id (.mineral c!"Green rust") = .ok b ∧ b.phasename = c!"Green" ∧
    b.names = [c!"Green", c!"rust"] := by
  have e : Strings.stringList c!"Green rust" ' ' = [c!"Green", c!"rust"] := by decide +kernel
  refine ⟨_, by simp only [construct, generic, e, at!, Res.bind_ok', List.getElem?_cons_zero]; rfl, rfl, rfl⟩

/-! ### Examples -/

/-- The ideal models of the examples. -/
def exIdeals : Ideals Str := ⟨c!"aq", c!"gas", c!"sol"⟩
/-- A model of the examples: the text of the model with the number of species. -/
def exApply (m : Str) (l : List Species) : Res (Str × Nat) := .ok (m, l.length)
/-- An aqueous species of the examples. -/
def aq (name : Str) (symbols : List Str) : Species := ⟨name, name, symbols.map (fun s => (Phases.el s, 1)), 0, .Aqueous, [], [], []⟩
/-- The database of the examples. -/
def exOps : List Database.Op :=
  [.addSpecies (aq c!"H2O" [c!"H", c!"O"]), .addSpecies (aq c!"Ca" [c!"Ca"]), .addSpecies (Phases.mineral c!"Lime" [c!"Ca", c!"O"] []),
   .addSpecies (Phases.mineral c!"Quartz" [c!"Si", c!"O"] [])]
/-- The calls of the examples: the name of the aqueous phase is changed after it was added. -/
def exCalls : List (Call Str) :=
  [.make (.aqueous .default), .set 0 (.setModel (some c!"hkf")), .add 0, .set 0 (.named c!"Brine"), .makeGen (.minerals (.species [c!"Lime"])),
   .addGen 0, .make (.solid [c!"Quartz"]), .add 1, .make (.aqueous (.exclude [c!"x"])), .add 2, .make (.solid [c!"Quartz", c!"Lime"]), .add 3]

/-- The observable parts of a program. -/
def exRun (ops : List Database.Op) (calls : List (Call Str)) : Res (List ((Str × Matter) × List Str × List Str)) :=
  (Database.run {} ops).bind fun r => (Program.run exIdeals { collection := { db := r.2 } } calls).bind fun p =>
  (p.collection.convert exApply).bind fun ps => .ok (ps.map fun q => ((q.name, q.matter), q.species.map Species.name, [q.fn.1, q.idealFn.1]))

/-- The hypotheses of the theorems are met, and there are two aqueous phases that differ in the species of calcium. -/
example : exRun exOps exCalls = .ok [((c!"AqueousPhase", .Liquid), [c!"H2O", c!"Ca"], [c!"hkf", c!"aq"]),
    ((c!"SolidPhase", .Solid), [c!"Quartz"], [c!"sol", c!"sol"]), ((c!"AqueousPhase!", .Liquid), [c!"H2O"], [c!"aq", c!"aq"]),
    ((c!"SolidPhase!", .Solid), [c!"Quartz", c!"Lime"], [c!"sol", c!"sol"]), ((c!"Lime", .Solid), [c!"Lime"], [c!"sol", c!"sol"])] := by
  decide +kernel

end Verif.PhaseBuilders
