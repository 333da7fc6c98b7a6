import Verif.Spec.PhaseBuilders
import Verif.Lemmas.Phases

/-!
# Lemmas for C102
-/

namespace Verif.PhaseBuilders

open Chem

variable {M F : Type}

theorem lastSet_foldl {α : Type} (attr : Setter M → Option α) (get : Builder M → α)
    (h1 : ∀ (b : Builder M) s v, attr s = some v → get (b.call s) = v) (h2 : ∀ (b : Builder M) s, attr s = none → get (b.call s) = get b) (b : Builder M)
    (calls : List (Setter M)) : LastSet attr (get b) calls (get (calls.foldl Builder.call b)) := by
  induction calls generalizing b with
  | nil => right; exact ⟨by simp, rfl⟩
  | cons s calls ih =>
    rw [List.foldl_cons]
    rcases ih (b.call s) with ⟨pre, t, post, e, ht, hp⟩ | ⟨hn, e⟩
    · left; exact ⟨s :: pre, t, post, by rw [e]; rfl, ht, hp⟩
    · cases hs : attr s with
      | none =>
        right
        refine ⟨?_, by rw [e, h2 b s hs]⟩
        intro t ht
        rcases List.mem_cons.1 ht with rfl | ht
        · exact hs
        · exact hn t ht
      | some v =>
        left
        exact ⟨[], s, calls, rfl, by rw [e, h1 b s v hs]; exact hs, hn⟩

theorem names_foldl (calls : List (Setter M)) (b : Builder M) : (calls.foldl Builder.call b).names = b.names ∧
    (calls.foldl Builder.call b).symbols = b.symbols ∧ (calls.foldl Builder.call b).excludetags = b.excludetags := by
  induction calls generalizing b with
  | nil => exact ⟨rfl, rfl, rfl⟩
  | cons s calls ih =>
    rw [List.foldl_cons]
    obtain ⟨h1, h2, h3⟩ := ih (b.call s)
    rw [h1, h2, h3]
    cases s <;> exact ⟨rfl, rfl, rfl⟩

theorem run_snoc (id : Ideals M) (p : Program M) (cs : List (Call M)) (c : Call M) :
    p.run id (cs ++ [c]) = (p.run id cs).bind fun p => p.step id c := by
  induction cs generalizing p with
  | nil =>
    simp only [List.nil_append, Program.run, Res.bind_ok']
    cases p.step id c <;> rfl
  | cons d cs ih =>
    simp only [List.cons_append, Program.run]
    cases p.step id d <;> simp [Res.bind, ih]

theorem at!_ok {α : Type} (l : List α) (i : Nat) (x : α) : at! l i = .ok x ↔ l[i]? = some x := by
  unfold at!
  cases l[i]? <;> simp

theorem convert_full (apply : M → List Species → Res F) (db : Database.Db) (symbols : List Str) (b : Builder M) (p : Full F)
    (h : b.convert apply db symbols = .ok p) :
    b.toGenericPhase.convert db symbols = .ok p.toPhase ∧ p.matter = b.matter ∧ FunctionsOf apply b p := by
  unfold Builder.convert at h
  cases hc : b.toGenericPhase.convert db symbols with
  | throw => rw [hc] at h; cases h
  | ub => rw [hc] at h; cases h
  | ok q =>
    rw [hc] at h
    simp only [Res.bind_ok'] at h
    cases h1 : callModel apply b.model q.species with
    | throw => rw [h1] at h; cases h
    | ub => rw [h1] at h; cases h
    | ok f =>
      rw [h1] at h
      simp only [Res.bind_ok'] at h
      cases h2 : callModel apply b.ideal q.species with
      | throw => rw [h2] at h; cases h
      | ub => rw [h2] at h; cases h
      | ok g =>
        rw [h2] at h
        simp only [Res.bind_ok', Res.ok.injEq] at h
        subst h
        refine ⟨rfl, rfl, ?_, ?_⟩
        · unfold callModel at h1
          split at h1
          · cases h1
          · rename_i m hm
            exact ⟨m, hm, h1⟩
        · unfold callModel at h2
          split at h2
          · cases h2
          · rename_i m hm
            exact ⟨m, hm, h2⟩

theorem convertAll_ok (apply : M → List Species → Res F) (db : Database.Db) (symbols : List Str) (gs : List (Builder M)) (ps : List (Full F))
    (h : convertAll apply db symbols gs = .ok ps) : List.Forall₂ (fun g p => g.convert apply db symbols = .ok p) gs ps := by
  induction gs generalizing ps with
  | nil => simp only [convertAll, Res.ok.injEq] at h; rw [← h]; exact .nil
  | cons g gs ih =>
    simp only [convertAll] at h
    cases h1 : g.convert apply db symbols <;> rw [h1] at h <;>
      simp only [Res.bind_ok', Res.bind_throw', Res.bind_ub', reduceCtorEq] at h
    cases h2 : convertAll apply db symbols gs <;> rw [h2] at h <;>
      simp only [Res.bind_ok', Res.bind_throw', Res.bind_ub', reduceCtorEq] at h
    cases h
    exact .cons h1 (ih _ h2)

theorem fixNames_forall (gs : List (Builder M)) :
    List.Forall₂ (fun g g' => (∃ k, g'.phasename = g.phasename ++ Strings.repeated ['!'] k) ∧
      g' = g.call (.setName g'.phasename)) gs (fixNames gs) := by
  rw [List.forall₂_iff_get]
  have hl : (fixNames gs).length = gs.length := by simp [fixNames, Strings.makeunique_length]
  refine ⟨hl.symm, ?_⟩
  intro i h1 h2
  obtain ⟨k, hk⟩ := Strings.makeunique_extends ['!'] (gs.map (·.phasename)) i (by simpa using h1)
  simp only [List.getElem_map] at hk
  have : (fixNames gs)[i] = gs[i].call (.setName ((gs[i]).phasename ++ Strings.repeated ['!'] k)) := by
    simp only [fixNames, List.getElem_zipWith, hk]
  simp only [List.get_eq_getElem, this]
  exact ⟨⟨k, rfl⟩, rfl⟩

/-- The definitions generated for some species. -/
def generated (b : Builder M) (species : List Species) : List (Builder M) :=
  species.map fun s => { phasename := s.name, aggregatestate := b.aggregatestate, names := Strings.stringList s.name ' ',
                         matter := b.matter, model := b.model, ideal := b.ideal }

theorem generate_ok (db : Database.Db) (hdb : Phases.DbOk db) (b : Builder M) (hg : Phases.Constructible b.toGenericPhase)
    (symbols : List Str) (r : List (Builder M)) (h : b.generate db symbols = .ok r) :
    ∃ species, r = generated b species ∧ Phases.Requested (Phases.HasAllTags b.excludetags) db (· ∈ symbols) b.toGenericPhase species ∧
      ∀ s ∈ species, s ∈ db.species := by
  unfold Builder.generate at h
  cases hc : Phases.generate db symbols b.toGenericPhase <;> rw [hc] at h <;>
    simp only [Res.bind_ok', Res.bind_throw', Res.bind_ub', reduceCtorEq, Res.ok.injEq] at h
  obtain ⟨species, h1, h2, h3⟩ := Phases.generate_ok db hdb _ hg symbols _ hc
  refine ⟨species, ?_, h2, h3⟩
  rw [← h, h1]
  simp [generated, Phases.generated]

theorem collectPhases_ok (db : Database.Db) (hdb : Phases.DbOk db) (symbols : List Str) (gens : List (Builder M))
    (hg : ∀ g ∈ gens, Phases.Constructible g.toGenericPhase) (acc all : List (Builder M))
    (h : collectPhases db symbols acc gens = .ok all) :
    ∃ sel : List (List Species),
      List.Forall₂ (fun g l => Phases.Requested (Phases.HasAllTags g.excludetags) db (· ∈ symbols) g.toGenericPhase l ∧
        ∀ s ∈ l, s ∈ db.species) gens sel ∧
      all = acc ++ (List.zipWith generated gens sel).flatten := by
  induction gens generalizing acc with
  | nil =>
    simp only [collectPhases, Res.ok.injEq] at h
    exact ⟨[], .nil, by simp [h]⟩
  | cons g gens ih =>
    simp only [collectPhases] at h
    cases hgen : g.generate db symbols <;> rw [hgen] at h <;>
      simp only [Res.bind_ok', Res.bind_throw', Res.bind_ub', reduceCtorEq] at h
    obtain ⟨l, h1, h2, h3⟩ := generate_ok db hdb g (hg g List.mem_cons_self) symbols _ hgen
    obtain ⟨sel, h4, h5⟩ := ih (fun g hg' => hg g (List.mem_cons_of_mem _ hg')) _ h
    exact ⟨l :: sel, .cons ⟨h2, h3⟩ h4, by rw [h5, h1]; simp⟩

/-- The pairs of a generator and a species for which a phase is generated. -/
theorem generated_flatten (gens : List (Builder M)) (sel : List (List Species)) :
    (List.zipWith generated gens sel).flatten =
      ((gens.zip sel).flatMap fun x => x.2.map fun s => (x.1, s)).map fun x =>
        { phasename := x.2.name, aggregatestate := x.1.aggregatestate, names := Strings.stringList x.2.name ' ',
          matter := x.1.matter, model := x.1.model, ideal := x.1.ideal } := by
  induction gens generalizing sel with
  | nil => simp
  | cons g gens ih =>
    cases sel with
    | nil => simp
    | cons l sel =>
      simp only [List.zipWith_cons_cons, List.flatten_cons, List.zip_cons_cons, List.flatMap_cons, List.map_append, ih]
      congr 1
      simp [generated]

/-- Every definition a constructor call makes gives names or tags, not both, and the setters do not change this. -/
theorem constructible (id : Ideals M) (c : Ctor) (b : Builder M) (h : construct id c = .ok b) : Phases.Constructible b.toGenericPhase := by
  have hgen : ∀ a : Arg, Phases.Constructible (generic a : Builder M).toGenericPhase := by
    intro a; cases a <;> intro hn <;> first | rfl | exact absurd rfl hn
  cases c with
  | generic a => simp only [construct, Res.ok.injEq] at h; subst h; exact hgen a
  | aqueous a => simp only [construct, Res.ok.injEq] at h; subst h; exact hgen (aqueousArg a)
  | gaseous a => simp only [construct, Res.ok.injEq] at h; subst h; exact hgen a
  | liquid a => simp only [construct, Res.ok.injEq] at h; subst h; exact hgen a
  | solid l => simp only [construct, Res.ok.injEq] at h; subst h; exact fun _ => rfl
  | mineral t =>
    simp only [construct] at h
    cases h0 : at! (generic (.species (Strings.stringList t ' ')) : Builder M).names 0 <;> rw [h0] at h <;>
      simp only [Res.bind_ok', Res.bind_throw', Res.bind_ub', reduceCtorEq, Res.ok.injEq] at h
    subst h
    exact fun _ => rfl

theorem constructibleGen (id : Ideals M) (c : GenCtor) : Phases.Constructible (constructGen id c).toGenericPhase := by
  cases c with
  | generic a => cases a <;> intro hn <;> first | rfl | exact absurd rfl hn
  | minerals a => cases a <;> intro hn <;> first | rfl | exact absurd rfl hn

end Verif.PhaseBuilders
