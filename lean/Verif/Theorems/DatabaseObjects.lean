import Verif.Spec.DatabaseObjects
import Verif.Lemmas.Database

/-!
# C119: databases as objects, and the data their species point to
-/

namespace Verif.DatabaseObjects

open Verif.Database (uniqueName uniqueName_ok uniqueName_spec)

/-! ## Adding species -/

theorem addOne_ok (db : Db) (s : Sp) : ∃ name, addOne db s = .ok { db with species := db.species ++ [{ s with name := name }] } ∧
    (s.name ∉ db.species.map (·.name) → name = s.name) := by
  obtain ⟨u, hu⟩ := uniqueName_ok (db.species.map (·.name)) s.name
  rw [List.length_map] at hu
  refine ⟨u, ?_, (uniqueName_spec _ _ _ _ hu).2.2⟩
  unfold addOne
  rw [hu, Res.bind_ok']

theorem addAll_ok (l : List Sp) : ∀ db : Db, ∃ l', addAll db l = .ok { db with species := db.species ++ l' } ∧ l'.map (·.source) = l.map (·.source) ∧
    ((db.species.map (·.name) ++ l.map (·.name)).Nodup → l' = l) := by
  induction l with
  | nil => intro db; exact ⟨[], by simp [addAll], rfl, fun _ => rfl⟩
  | cons s l ih =>
    intro db
    obtain ⟨u, h1, h2⟩ := addOne_ok db s
    obtain ⟨l', h3, h4, h5⟩ := ih { db with species := db.species ++ [{ s with name := u }] }
    refine ⟨{ s with name := u } :: l', ?_, by simp [h4], ?_⟩
    · simp only [addAll, h1, Res.bind_ok', h3]
      simp
    · intro hn
      have hs : s.name ∉ db.species.map (·.name) := by
        rw [List.map_cons, List.nodup_append] at hn
        exact fun hm => hn.2.2 _ hm _ List.mem_cons_self rfl
      rw [h2 hs] at h5 ⊢
      rw [h5]
      simpa using hn

theorem helper_eq (w : World) (arg : Str) (id : Nat) : (∃ l, w.phreeqc (source w arg) = .ok l ∧ helper w arg id = .ok (l.map fun n => ⟨n, some id⟩)) ∨
    (w.phreeqc (source w arg) = .throw ∧ helper w arg id = .throw) ∨ (w.phreeqc (source w arg) = .ub ∧ helper w arg id = .ub) := by
  unfold helper
  cases h : w.phreeqc (source w arg) with
  | ok l => exact .inl ⟨l, rfl, rfl⟩
  | throw => exact .inr (.inl ⟨rfl, rfl⟩)
  | ub => exact .inr (.inr ⟨rfl, rfl⟩)

/-- What a database of PHREEQC contains. -/
def Made (w : World) (arg : Str) (id : Nat) (r : Res Db) : Prop :=
  (∃ l db, w.phreeqc (source w arg) = .ok l ∧ r = .ok db ∧ db.attached = some (.phreeqc id) ∧ (∀ s ∈ db.species, s.source = some id) ∧
    db.species.length = l.length ∧ (l.Nodup → db.species = l.map fun n => ⟨n, some id⟩)) ∨
  (w.phreeqc (source w arg) = .throw ∧ r = .throw) ∨ (w.phreeqc (source w arg) = .ub ∧ r = .ub)

theorem fromFile_made (w : World) (arg : Str) (id : Nat) : Made w arg id (fromFile w arg id) := by
  unfold fromFile
  rcases helper_eq w arg id with ⟨l, h1, h2⟩ | ⟨h1, h2⟩ | ⟨h1, h2⟩
  · left
    obtain ⟨l', h3, h4, h5⟩ := addAll_ok (l.map fun n => (⟨n, some id⟩ : Sp)) {}
    refine ⟨l, { species := l', attached := some (.phreeqc id) }, h1, ?_, rfl, ?_, ?_, ?_⟩
    · rw [h2, Res.bind_ok', h3]
      simp
    · intro s hs
      have : s.source ∈ l'.map (·.source) := List.mem_map_of_mem hs
      rw [h4] at this
      simp only [List.map_map, List.mem_map, Function.comp] at this
      obtain ⟨_, -, e⟩ := this
      exact e.symm
    · have := congrArg List.length h4
      simpa using this
    · intro hn
      refine h5 ?_
      have e : (l.map fun n => (⟨n, some id⟩ : Sp)).map (·.name) = l := by rw [List.map_map]; exact List.map_id l
      rw [e]
      simpa using hn
  · exact .inr (.inl ⟨h1, by rw [h2]; rfl⟩)
  · exact .inr (.inr ⟨h1, by rw [h2]; rfl⟩)

theorem fromFile_holds (w : World) (arg : Str) (id : Nat) (db : Db) (h : fromFile w arg id = .ok db) : Holds db := by
  rcases fromFile_made w arg id with ⟨l, db', -, h1, h2, h3, -⟩ | ⟨-, h1⟩ | ⟨-, h1⟩
  · rw [h1] at h
    cases h
    exact fun s hs => ⟨id, h3 s hs, h2⟩
  · rw [h1] at h; cases h
  · rw [h1] at h; cases h

theorem fromFile_ne_ub (w : World) (hw : ∀ t, w.phreeqc t ≠ .ub) (arg : Str) (id : Nat) : fromFile w arg id ≠ .ub := by
  intro h
  rcases fromFile_made w arg id with ⟨l, db', -, h1, -⟩ | ⟨-, h1⟩ | ⟨h1, -⟩
  · rw [h1] at h; cases h
  · rw [h1] at h; cases h
  · exact hw _ h1

theorem withName_eq (w : World) (name : Str) (id : Nat) : withName w name id = (contents w name).bind fun text => fromFile w text id := by
  rfl

theorem load_eq (w : World) (db : Db) (arg : Str) (id : Nat) : load w db arg id = fromFile w arg id := by
  rfl

theorem contents_ne_ub (w : World) (name : Str) : contents w name ≠ .ub := by
  unfold contents
  split
  · split <;> simp
  · simp

theorem withName_holds (w : World) (name : Str) (id : Nat) (db : Db) (h : withName w name id = .ok db) : Holds db := by
  rw [withName_eq] at h
  cases hc : contents w name with
  | ok t => rw [hc, Res.bind_ok'] at h; exact fromFile_holds w t id db h
  | throw => rw [hc] at h; cases h
  | ub => rw [hc] at h; cases h

theorem withName_ne_ub (w : World) (hw : ∀ t, w.phreeqc t ≠ .ub) (name : Str) (id : Nat) : withName w name id ≠ .ub := by
  rw [withName_eq]
  intro h
  cases hc : contents w name with
  | ok t => rw [hc, Res.bind_ok'] at h; exact fromFile_ne_ub w hw t id h
  | throw => rw [hc] at h; cases h
  | ub => exact contents_ne_ub w name hc

/-! ## The variables -/

theorem db_some {p : Prog} {v : Nat} {db : Db} (h : p.db v = some db) : p.dbs[v]? = some (some db) := by
  unfold Prog.db at h
  exact Option.join_eq_some_iff.1 h

theorem sys_some {p : Prog} {s : Nat} {q : Sys} (h : p.sys s = some q) : p.systems[s]? = some (some q) := by
  unfold Prog.sys at h
  exact Option.join_eq_some_iff.1 h

theorem mem_databases (p : Prog) (db : Db) : db ∈ p.databases ↔ some db ∈ p.dbs ∨ ∃ q, some q ∈ p.systems ∧ q.db = db := by
  unfold Prog.databases
  simp [List.mem_append, List.mem_filterMap]

theorem alive_of (p : Prog) (db : Db) (id : Nat) (h : db ∈ p.databases) (ha : db.attached = some (.phreeqc id)) : p.alive id = true := by
  unfold Prog.alive
  rw [List.any_eq_true]
  exact ⟨db, h, by simpa using ha⟩

/-- The invariant of ordinary programs. -/
structure Sound (p : Prog) : Prop where
  dbs : ∀ db, some db ∈ p.dbs → Holds db
  systems : ∀ q, some q ∈ p.systems → Holds q.db ∧ ∀ s ∈ q.species, s ∈ q.db.species

theorem sound_newDb (p : Prog) (hp : Sound p) (r : Res Db) (hr : ∀ db, r = .ok db → Holds db) (o : Out) (p' : Prog) (h : newDb p r = .ok (o, p')) : Sound p' := by
  unfold newDb at h
  split at h
  · cases h
    refine ⟨?_, hp.systems⟩
    intro db hdb
    rcases List.mem_append.1 hdb with h1 | h1
    · exact hp.dbs db h1
    · simp only [List.mem_singleton, Option.some.injEq] at h1
      subst h1
      exact hr _ rfl
  · cases h
    exact ⟨hp.dbs, hp.systems⟩
  · cases h

theorem sound_change (p : Prog) (hp : Sound p) (v : Nat) (r : Res Db) (hr : ∀ db, r = .ok db → Holds db) (o : Out) (p' : Prog) (h : change p v r = .ok (o, p')) : Sound p' := by
  unfold change at h
  split at h
  · cases h
    refine ⟨?_, hp.systems⟩
    intro db hdb
    rcases List.mem_or_eq_of_mem_set hdb with h1 | h1
    · exact hp.dbs db h1
    · simp only [Option.some.injEq] at h1
      subst h1
      exact hr _ rfl
  · cases h
    exact ⟨hp.dbs, hp.systems⟩
  · cases h

theorem newDb_ne_ub (p : Prog) (r : Res Db) (h : r ≠ .ub) : newDb p r ≠ .ub := by
  unfold newDb
  split
  · simp
  · simp
  · exact absurd rfl h

theorem change_ne_ub (p : Prog) (v : Nat) (r : Res Db) (h : r ≠ .ub) : change p v r ≠ .ub := by
  unfold change
  split
  · simp
  · simp
  · exact absurd rfl h

theorem holds_empty : Holds {} := fun _ hs => by cases hs

theorem use_sound (p : Prog) (s : Option Sp) (h : ∀ x, s = some x → ∃ db ∈ p.databases, ∃ id, x.source = some id ∧ db.attached = some (.phreeqc id)) :
    ∃ o, use p s = .ok (o, p) := by
  unfold use
  split
  · exact ⟨_, rfl⟩
  · rename_i x
    obtain ⟨db, h1, id, h2, h3⟩ := h x rfl
    simp only [h2, alive_of p db id h1 h3, if_true]
    exact ⟨_, rfl⟩

theorem db_sound {p : Prog} (hp : Sound p) {v : Nat} {db : Db} (h : p.db v = some db) : Holds db :=
  hp.dbs db (List.mem_of_getElem? (db_some h))

theorem step_sound (w : World) (hw : ∀ t, w.phreeqc t ≠ .ub) (p : Prog) (hp : Sound p) (op : Op) (ho : Ordinary op) :
    ∃ o p', step w p op = .ok (o, p') ∧ Sound p' := by
  have new : ∀ r : Res Db, r ≠ .ub → (∀ db, r = .ok db → Holds db) → ∃ o p', newDb p r = .ok (o, p') ∧ Sound p' := by
    intro r h1 h2
    cases h : newDb p r with
    | ok x => exact ⟨x.1, x.2, rfl, sound_newDb p hp r h2 x.1 x.2 h⟩
    | throw => unfold newDb at h; split at h <;> cases h
    | ub => exact absurd h (newDb_ne_ub p r h1)
  have chg : ∀ (v : Nat) (r : Res Db), r ≠ .ub → (∀ db, r = .ok db → Holds db) → ∃ o p', change p v r = .ok (o, p') ∧ Sound p' := by
    intro v r h1 h2
    cases h : change p v r with
    | ok x => exact ⟨x.1, x.2, rfl, sound_change p hp v r h2 x.1 x.2 h⟩
    | throw => unfold change at h; split at h <;> cases h
    | ub => exact absurd h (change_ne_ub p v r h1)
  cases op with
  | withName name => exact new _ (withName_ne_ub w hw name _) fun db h => withName_holds w name _ db h
  | fromFile path => exact new _ (fromFile_ne_ub w hw path _) fun db h => fromFile_holds w path _ db h
  | ofSpecies l => cases ho
  | copy v =>
    simp only [step]
    cases h : p.db v with
    | none => exact ⟨_, _, rfl, hp⟩
    | some db => exact new _ (by simp) fun d hd => by cases hd; exact db_sound hp h
  | assign v u =>
    simp only [step]
    cases h : p.db v with
    | none => exact ⟨_, _, rfl, hp⟩
    | some db =>
      cases h' : p.db u with
      | none => exact ⟨_, _, rfl, hp⟩
      | some db' => exact chg v _ (by simp) fun d hd => by cases hd; exact db_sound hp h'
  | load v arg =>
    simp only [step]
    cases h : p.db v with
    | none => exact ⟨_, _, rfl, hp⟩
    | some db => exact chg v _ (by rw [load_eq]; exact fromFile_ne_ub w hw arg _) fun d hd => fromFile_holds w arg _ d hd
  | clear v =>
    simp only [step]
    cases h : p.db v with
    | none => exact ⟨_, _, rfl, hp⟩
    | some db => exact chg v _ (by simp) fun d hd => by cases hd; exact holds_empty
  | attach v => cases ho
  | add v l i => cases ho
  | destroy v =>
    refine ⟨_, _, rfl, ?_, hp.systems⟩
    intro db hdb
    rcases List.mem_or_eq_of_mem_set hdb with h1 | h1
    · exact hp.dbs db h1
    · cases h1
  | keep v =>
    simp only [step]
    cases h : p.db v with
    | none => exact ⟨_, _, rfl, hp⟩
    | some db => exact ⟨_, _, rfl, hp.dbs, hp.systems⟩
  | system v sel =>
    simp only [step]
    cases h : p.db v with
    | none => exact ⟨_, _, rfl, hp⟩
    | some db =>
      refine ⟨_, _, rfl, hp.dbs, ?_⟩
      intro q hq
      rcases List.mem_append.1 hq with h1 | h1
      · exact hp.systems q h1
      · simp only [List.mem_singleton, Option.some.injEq] at h1
        subst h1
        exact ⟨db_sound hp h, fun s hs => (List.mem_filter.1 hs).1⟩
  | systemOf v l => cases ho
  | destroySystem s =>
    refine ⟨_, _, rfl, hp.dbs, ?_⟩
    intro q hq
    rcases List.mem_or_eq_of_mem_set hq with h1 | h1
    · exact hp.systems q h1
    · cases h1
  | keepSystem s =>
    simp only [step]
    cases h : p.sys s with
    | none => exact ⟨_, _, rfl, hp⟩
    | some q => exact ⟨_, _, rfl, hp.dbs, hp.systems⟩
  | databaseOf s =>
    simp only [step]
    cases h : p.sys s with
    | none => exact ⟨_, _, rfl, hp⟩
    | some q => exact new _ (by simp) fun d hd => by cases hd; exact (hp.systems q (List.mem_of_getElem? (sys_some h))).1
  | useDb v i =>
    obtain ⟨o, h⟩ := use_sound p ((p.db v).bind fun db => db.species[i]?) (by
      intro x hx
      obtain ⟨db, h1, h2⟩ := Option.bind_eq_some_iff.1 hx
      have hm := List.mem_of_getElem? (db_some h1)
      obtain ⟨id, h3, h4⟩ := hp.dbs db hm x (List.mem_of_getElem? h2)
      exact ⟨db, (mem_databases p db).2 (.inl hm), id, h3, h4⟩)
    exact ⟨o, p, h, hp⟩
  | useSystem s i =>
    obtain ⟨o, h⟩ := use_sound p ((p.sys s).bind fun q => q.species[i]?) (by
      intro x hx
      obtain ⟨q, h1, h2⟩ := Option.bind_eq_some_iff.1 hx
      have hm := List.mem_of_getElem? (sys_some h1)
      obtain ⟨h5, h6⟩ := hp.systems q hm
      obtain ⟨id, h3, h4⟩ := h5 x (h6 x (List.mem_of_getElem? h2))
      exact ⟨q.db, (mem_databases p q.db).2 (.inr ⟨q, hm, rfl⟩), id, h3, h4⟩)
    exact ⟨o, p, h, hp⟩
  | useList l i => cases ho

theorem run_sound (w : World) (hw : ∀ t, w.phreeqc t ≠ .ub) (ops : List Op) : ∀ p : Prog, Sound p → (∀ op ∈ ops, Ordinary op) →
    ∃ outs p', run w p ops = .ok (outs, p') ∧ Sound p' := by
  induction ops with
  | nil => intro p hp _; exact ⟨_, _, rfl, hp⟩
  | cons op ops ih =>
    intro p hp h
    obtain ⟨o, p1, h1, h2⟩ := step_sound w hw p hp op (h op List.mem_cons_self)
    obtain ⟨outs, p2, h3, h4⟩ := ih p1 h2 fun q hq => h q (List.mem_cons_of_mem _ hq)
    exact ⟨o :: outs, p2, by simp [run, h1, h3], h4⟩

theorem sound_empty : Sound {} := ⟨(fun _ h => by cases h), (fun _ h => by cases h)⟩

/-! ## Claims -/

/-- **C119 (life of the data).** In every program that gets its databases from names, files, `load` and copies, makes its systems from phases of a
database, and uses species through them, no use reads data of PHREEQC that have been deleted, whatever else is loaded, copied, cleared or destroyed. -/
theorem C119_usable_partial (w : World) (hw : ∀ t, w.phreeqc t ≠ .ub) (ops : List Op) (h : ∀ op ∈ ops, Ordinary op) : run w {} ops ≠ .ub := by
  obtain ⟨outs, p, h1, -⟩ := run_sound w hw ops {} sound_empty h
  rw [h1]
  simp

/-- **C119 (independence).** An operation changes or destroys at most the variables it names, and if it throws it changes nothing. -/
theorem C119_independent (w : World) (p p' : Prog) (op : Op) (o : Out) (h : step w p op = .ok (o, p')) :
    (∀ v, v < p.dbs.length → Leaves v op → p'.db v = p.db v) ∧ (∀ s, s < p.systems.length → op ≠ .destroySystem s → p'.sys s = p.sys s) ∧
    (∀ l, l < p.lists.length → p'.lists[l]? = p.lists[l]?) ∧
    (o = .thrown → p'.dbs = p.dbs ∧ p'.systems = p.systems ∧ p'.lists = p.lists) := by
  have new : ∀ r : Res Db, newDb p r = .ok (o, p') → (∀ v, v < p.dbs.length → p'.db v = p.db v) ∧ p'.systems = p.systems ∧ p'.lists = p.lists ∧
      (o = .thrown → p'.dbs = p.dbs) := by
    intro r h
    unfold newDb at h
    split at h
    · cases h
      refine ⟨fun v hv => ?_, rfl, rfl, fun e => by cases e⟩
      simp [Prog.db, List.getElem?_append_left hv]
    · cases h
      exact ⟨fun _ _ => rfl, rfl, rfl, fun _ => rfl⟩
    · cases h
  have chg : ∀ (u : Nat) (r : Res Db), change p u r = .ok (o, p') → (∀ v, u ≠ v → p'.db v = p.db v) ∧ p'.systems = p.systems ∧ p'.lists = p.lists ∧
      (o = .thrown → p'.dbs = p.dbs) := by
    intro u r h
    unfold change at h
    split at h
    · cases h
      refine ⟨fun v hv => ?_, rfl, rfl, fun e => by cases e⟩
      simp [Prog.db, List.getElem?_set_ne hv]
    · cases h
      exact ⟨fun _ _ => rfl, rfl, rfl, fun _ => rfl⟩
    · cases h
  have fin : ∀ (c : Prop), ((∀ v, v < p.dbs.length → p'.db v = p.db v) ∧ p'.systems = p.systems ∧ p'.lists = p.lists ∧ (o = .thrown → p'.dbs = p.dbs)) →
      (∀ v, v < p.dbs.length → Leaves v op → p'.db v = p.db v) ∧ (∀ s, s < p.systems.length → op ≠ .destroySystem s → p'.sys s = p.sys s) ∧
      (∀ l, l < p.lists.length → p'.lists[l]? = p.lists[l]?) ∧
      (o = .thrown → p'.dbs = p.dbs ∧ p'.systems = p.systems ∧ p'.lists = p.lists) := by
    rintro - ⟨h1, h2, h3, h4⟩
    exact ⟨fun v hv _ => h1 v hv, fun s _ _ => by simp [Prog.sys, h2], fun l _ => by rw [h3], fun e => ⟨h4 e, h2, h3⟩⟩
  have finc : ∀ u, (∀ v, Leaves v op → u ≠ v) → ((∀ v, u ≠ v → p'.db v = p.db v) ∧ p'.systems = p.systems ∧ p'.lists = p.lists ∧ (o = .thrown → p'.dbs = p.dbs)) →
      (∀ v, v < p.dbs.length → Leaves v op → p'.db v = p.db v) ∧ (∀ s, s < p.systems.length → op ≠ .destroySystem s → p'.sys s = p.sys s) ∧
      (∀ l, l < p.lists.length → p'.lists[l]? = p.lists[l]?) ∧
      (o = .thrown → p'.dbs = p.dbs ∧ p'.systems = p.systems ∧ p'.lists = p.lists) := by
    rintro u hu ⟨h1, h2, h3, h4⟩
    exact ⟨fun v _ hv => h1 v (hu v hv), fun s _ _ => by simp [Prog.sys, h2], fun l _ => by rw [h3], fun e => ⟨h4 e, h2, h3⟩⟩
  have same : p' = p → (∀ v, v < p.dbs.length → Leaves v op → p'.db v = p.db v) ∧ (∀ s, s < p.systems.length → op ≠ .destroySystem s → p'.sys s = p.sys s) ∧
      (∀ l, l < p.lists.length → p'.lists[l]? = p.lists[l]?) ∧
      (o = .thrown → p'.dbs = p.dbs ∧ p'.systems = p.systems ∧ p'.lists = p.lists) := by
    rintro rfl
    exact ⟨fun _ _ _ => rfl, fun _ _ _ => rfl, fun _ _ => rfl, fun _ => ⟨rfl, rfl, rfl⟩⟩
  have used : ∀ s, use p s = .ok (o, p') → p' = p := by
    intro s h
    unfold use at h
    split at h
    · cases h; rfl
    · split at h
      · cases h; rfl
      · split at h
        · cases h; rfl
        · cases h
  cases op with
  | withName name => exact fin True (new _ h)
  | fromFile path => exact fin True (new _ h)
  | ofSpecies l => exact fin True (new _ h)
  | copy v =>
    simp only [step] at h
    split at h
    · exact fin True (new _ h)
    · cases h; exact same rfl
  | assign v u =>
    simp only [step] at h
    split at h
    · exact finc v (fun _ hv => hv) (chg v _ h)
    · cases h; exact same rfl
  | load v arg =>
    simp only [step] at h
    split at h
    · exact finc v (fun _ hv => hv) (chg v _ h)
    · cases h; exact same rfl
  | clear v =>
    simp only [step] at h
    split at h
    · exact finc v (fun _ hv => hv) (chg v _ h)
    · cases h; exact same rfl
  | attach v =>
    simp only [step] at h
    split at h
    · exact finc v (fun _ hv => hv) (chg v _ h)
    · cases h; exact same rfl
  | add v l i =>
    simp only [step] at h
    split at h
    · exact finc v (fun _ hv => hv) (chg v _ h)
    · cases h; exact same rfl
  | destroy u =>
    cases h
    refine ⟨fun v _ hv => ?_, fun _ _ _ => rfl, fun _ _ => rfl, fun e => by cases e⟩
    simp [Prog.db, List.getElem?_set_ne (show u ≠ v from hv)]
  | keep v =>
    simp only [step] at h
    split at h
    · cases h
      exact ⟨fun _ _ _ => rfl, fun _ _ _ => rfl, fun l hl => by simp [List.getElem?_append_left hl], fun e => by cases e⟩
    · cases h; exact same rfl
  | system v sel =>
    simp only [step] at h
    split at h
    · cases h
      exact ⟨fun _ _ _ => rfl, fun s hs _ => by simp [Prog.sys, List.getElem?_append_left hs], fun _ _ => rfl, fun e => by cases e⟩
    · cases h; exact same rfl
  | systemOf v l =>
    simp only [step] at h
    split at h
    · cases h
      exact ⟨fun _ _ _ => rfl, fun s hs _ => by simp [Prog.sys, List.getElem?_append_left hs], fun _ _ => rfl, fun e => by cases e⟩
    · cases h; exact same rfl
  | destroySystem t =>
    cases h
    refine ⟨fun _ _ _ => rfl, fun s _ hs => ?_, fun _ _ => rfl, fun e => by cases e⟩
    simp [Prog.sys, List.getElem?_set_ne (show t ≠ s from fun e => hs (by rw [e]))]
  | keepSystem s =>
    simp only [step] at h
    split at h
    · cases h
      exact ⟨fun _ _ _ => rfl, fun _ _ _ => rfl, fun l hl => by simp [List.getElem?_append_left hl], fun e => by cases e⟩
    · cases h; exact same rfl
  | databaseOf s =>
    simp only [step] at h
    split at h
    · exact fin True (new _ h)
    · cases h; exact same rfl
  | useDb v i => exact same (used _ h)
  | useSystem s i => exact same (used _ h)
  | useList l i => exact same (used _ h)

/-- **C119 (values).** A copy, the target of an assignment and the database taken from a system are equal to the original; a system has the selected species of its database in their
order and a list those of the database or system; a new database and the target of `load` are what the file gives, and after `clear` a database is empty. -/
theorem C119_values (w : World) (p : Prog) :
    (∀ v db, p.db v = some db → ∃ p', step w p (.copy v) = .ok (.done, p') ∧ p'.db p.dbs.length = some db) ∧
    (∀ v u db db', p.db v = some db → p.db u = some db' → ∃ p', step w p (.assign v u) = .ok (.done, p') ∧ p'.db v = some db') ∧
    (∀ s q, p.sys s = some q → ∃ p', step w p (.databaseOf s) = .ok (.done, p') ∧ p'.db p.dbs.length = some q.db) ∧
    (∀ v db sel, p.db v = some db → ∃ p', step w p (.system v sel) = .ok (.done, p') ∧
      p'.sys p.systems.length = some ⟨db, db.species.filter fun s => s.name ∈ sel⟩) ∧
    (∀ v db, p.db v = some db → ∃ p', step w p (.keep v) = .ok (.done, p') ∧ p'.lists[p.lists.length]? = some db.species) ∧
    (∀ s q, p.sys s = some q → ∃ p', step w p (.keepSystem s) = .ok (.done, p') ∧ p'.lists[p.lists.length]? = some q.species) ∧
    (∀ arg db, fromFile w arg p.next = .ok db → ∃ p', step w p (.fromFile arg) = .ok (.done, p') ∧ p'.db p.dbs.length = some db) ∧
    (∀ name db, withName w name p.next = .ok db → ∃ p', step w p (.withName name) = .ok (.done, p') ∧ p'.db p.dbs.length = some db) ∧
    (∀ v arg db db', p.db v = some db → load w db arg p.next = .ok db' → ∃ p', step w p (.load v arg) = .ok (.done, p') ∧ p'.db v = some db') ∧
    (∀ v db, p.db v = some db → ∃ p', step w p (.clear v) = .ok (.done, p') ∧ p'.db v = some {}) := by
  have lt : ∀ {v db}, p.db v = some db → v < p.dbs.length := fun h => (List.getElem?_eq_some_iff.1 (db_some h)).1
  refine ⟨?_, ?_, ?_, ?_, ?_, ?_, ?_, ?_, ?_, ?_⟩
  · intro v db h
    refine ⟨_, by simp only [step, h, newDb]; rfl, ?_⟩
    simp [Prog.db]
  · intro v u db db' h h'
    refine ⟨_, by simp only [step, h, h', change]; rfl, ?_⟩
    simp [Prog.db, lt h]
  · intro s q h
    refine ⟨_, by simp only [step, h, newDb]; rfl, ?_⟩
    simp [Prog.db]
  · intro v db sel h
    refine ⟨_, by simp only [step, h]; rfl, ?_⟩
    simp [Prog.sys]
  · intro v db h
    refine ⟨_, by simp only [step, h]; rfl, ?_⟩
    simp
  · intro s q h
    refine ⟨_, by simp only [step, h]; rfl, ?_⟩
    simp
  · intro arg db h
    refine ⟨_, by simp only [step, h, newDb]; rfl, ?_⟩
    simp [Prog.db]
  · intro name db h
    refine ⟨_, by simp only [step, h, newDb]; rfl, ?_⟩
    simp [Prog.db]
  · intro v arg db db' h h'
    refine ⟨_, by simp only [step, h, h', change]; rfl, ?_⟩
    simp [Prog.db, lt h]
  · intro v db h
    refine ⟨_, by simp only [step, h, change]; rfl, ?_⟩
    simp [Prog.db, lt h]

/-! ### Species kept apart from their database -/

theorem run_append (w : World) (a b : List Op) : ∀ p, run w p (a ++ b) = (run w p a).bind fun r => (run w r.2 b).bind fun q => .ok (r.1 ++ q.1, q.2) := by
  induction a with
  | nil =>
    intro p
    simp only [List.nil_append, run, Res.bind_ok']
    cases run w p b <;> rfl
  | cons op ops ih =>
    intro p
    simp only [List.cons_append, run]
    cases step w p op with
    | ok r =>
      simp only [Res.bind_ok', ih]
      cases run w r.2 ops with
      | ok q =>
        simp only [Res.bind_ok']
        cases run w q.2 b <;> rfl
      | throw => rfl
      | ub => rfl
    | throw => rfl
    | ub => rfl

theorem length_le (w : World) (p p' : Prog) (op : Op) (o : Out) (h : step w p op = .ok (o, p')) :
    p.dbs.length ≤ p'.dbs.length ∧ p.lists.length ≤ p'.lists.length := by
  have new : ∀ r, newDb p r = .ok (o, p') → p.dbs.length ≤ p'.dbs.length ∧ p.lists.length ≤ p'.lists.length := by
    intro r h
    unfold newDb at h
    split at h <;> cases h <;> simp
  have chg : ∀ u r, change p u r = .ok (o, p') → p.dbs.length ≤ p'.dbs.length ∧ p.lists.length ≤ p'.lists.length := by
    intro u r h
    unfold change at h
    split at h <;> cases h <;> simp
  have used : ∀ s, use p s = .ok (o, p') → p.dbs.length ≤ p'.dbs.length ∧ p.lists.length ≤ p'.lists.length := by
    intro s h
    unfold use at h
    split at h
    · cases h; simp
    · split at h
      · cases h; simp
      · split at h
        · cases h; simp
        · cases h
  cases op <;> simp only [step] at h
  case withName => exact new _ h
  case fromFile => exact new _ h
  case ofSpecies => exact new _ h
  case useDb => exact used _ h
  case useSystem => exact used _ h
  case useList => exact used _ h
  case destroy => cases h; simp
  case destroySystem => cases h; simp
  all_goals split at h
  all_goals first
    | exact new _ h
    | exact chg _ _ h
    | (cases h; simp)

theorem leaves_run (w : World) (v l : Nat) (ops : List Op) : ∀ (p p' : Prog) (outs : List Out), v < p.dbs.length → l < p.lists.length →
    (∀ op ∈ ops, Leaves v op) → run w p ops = .ok (outs, p') → p'.db v = p.db v ∧ p'.lists[l]? = p.lists[l]? := by
  induction ops with
  | nil =>
    intro p p' outs _ _ _ h
    cases h
    exact ⟨rfl, rfl⟩
  | cons op ops ih =>
    intro p p' outs hv hl hops h
    simp only [run] at h
    cases h1 : step w p op with
    | ok r =>
      rw [h1, Res.bind_ok'] at h
      cases h2 : run w r.2 ops with
      | ok q =>
        rw [h2, Res.bind_ok'] at h
        cases h
        obtain ⟨a1, a2, a3, -⟩ := C119_independent w p r.2 op r.1 h1
        obtain ⟨b1, b2⟩ := length_le w p r.2 op r.1 h1
        obtain ⟨c1, c2⟩ := ih r.2 q.2 q.1 (by omega) (by omega) (fun o ho => hops o (List.mem_cons_of_mem _ ho)) h2
        exact ⟨c1.trans (a1 v hv (hops op List.mem_cons_self)), c2.trans (a3 l hl)⟩
      | throw => rw [h2] at h; cases h
      | ub => rw [h2] at h; cases h
    | throw => rw [h1] at h; cases h
    | ub => rw [h1] at h; cases h

/-- **C119 (species kept in a list).** A list of species taken from a database can be used as long as that database variable is not changed or
destroyed: whatever else the program does in between, each species of the list gives its properties. -/
theorem C119_kept_partial (w : World) (hw : ∀ t, w.phreeqc t ≠ .ub) (before after : List Op) (h : ∀ op ∈ before, Ordinary op) (v : Nat) (p : Prog)
    (outs : List Out) (hb : run w {} before = .ok (outs, p)) (db : Db) (hv : p.db v = some db) (ha : ∀ op ∈ after, Leaves v op) (outs' : List Out)
    (p' : Prog) (hr : run w {} (before ++ .keep v :: after) = .ok (outs', p')) (i : Nat) (hi : i < db.species.length) :
    step w p' (.useList p.lists.length i) = .ok (.props db.species[i], p') := by
  obtain ⟨outs1, p1, h1, hs⟩ := run_sound w hw before {} sound_empty h
  rw [hb] at h1
  cases h1
  rw [run_append, hb, Res.bind_ok'] at hr
  simp only [run, step, hv, Res.bind_ok'] at hr
  have hvl : v < p.dbs.length := by
    have := db_some hv
    exact (List.getElem?_eq_some_iff.1 this).1
  cases h2 : run w { p with lists := p.lists ++ [db.species] } after with
  | ok q =>
    rw [h2] at hr
    simp only [Res.bind_ok'] at hr
    cases hr
    obtain ⟨c1, c2⟩ := leaves_run w v p.lists.length after { p with lists := p.lists ++ [db.species] } q.2 q.1 hvl (by simp) ha h2
    have c3 : q.2.db v = some db := c1.trans hv
    have c4 : q.2.lists.getD p.lists.length [] = db.species := by
      rw [List.getD_eq_getElem?_getD, c2]
      simp
    obtain ⟨id, d1, d2⟩ := db_sound hs hv db.species[i] (List.getElem_mem hi)
    have al : q.2.alive id = true := alive_of q.2 db id ((mem_databases q.2 db).2 (.inl (List.mem_of_getElem? (db_some c3)))) d2
    simp only [step, c4, List.getElem?_eq_getElem hi, use, d1, al, if_true]
  | throw => rw [h2] at hr; cases hr
  | ub => rw [h2] at hr; cases hr

/-- The file of a database with at least one species, and the state after it is loaded. -/
theorem loaded (w : World) (arg : Str) (l : List Str) (h : w.phreeqc (source w arg) = .ok l) (hl : l ≠ []) (id : Nat) :
    ∃ s rest, s.source = some id ∧ fromFile w arg id = .ok ⟨s :: rest, some (.phreeqc id)⟩ := by
  rcases fromFile_made w arg id with ⟨l', db, h1, h2, h3, h4, h5, -⟩ | ⟨h1, -⟩ | ⟨h1, -⟩
  · rw [h] at h1
    cases h1
    obtain ⟨sp, att⟩ := db
    cases sp with
    | nil => exact absurd (List.length_eq_zero_iff.1 h5.symm) hl
    | cons s rest =>
      refine ⟨s, rest, h4 s List.mem_cons_self, ?_⟩
      rw [h2]
      simp only at h3
      rw [h3]
  · rw [h] at h1; cases h1
  · rw [h] at h1; cases h1

/-- **C119 (false of the code, species that outlive their database).** For every file with a species: the species kept in a list read deleted data
once the database variable has been destroyed, cleared or loaded anew; so do those of a database made of them, and those of a database to which other
data are attached. -/
theorem C119_kept_wrong (w : World) (arg : Str) (l : List Str) (h : w.phreeqc (source w arg) = .ok l) (hl : l ≠ []) :
    run w {} [.fromFile arg, .keep 0, .destroy 0, .useList 0 0] = .ub ∧
    run w {} [.fromFile arg, .keep 0, .clear 0, .useList 0 0] = .ub ∧
    run w {} [.fromFile arg, .keep 0, .load 0 arg, .useList 0 0] = .ub ∧
    run w {} [.fromFile arg, .keep 0, .ofSpecies 0, .destroy 0, .useDb 1 0] = .ub ∧
    run w {} [.fromFile arg, .system 0 l, .keep 0, .destroy 0, .destroySystem 0, .useList 0 0] = .ub ∧
    run w {} [.fromFile arg, .attach 0, .useDb 0 0] = .ub := by
  obtain ⟨s, rest, hs, h0⟩ := loaded w arg l h hl 0
  obtain ⟨s1, rest1, hs1, h1⟩ := loaded w arg l h hl 1
  refine ⟨?_, ?_, ?_, ?_, ?_, ?_⟩
  · simp [run, step, h0, newDb, Prog.db, use, hs, Prog.alive, Prog.databases]
  · simp [run, step, h0, newDb, change, Prog.db, use, hs, Prog.alive, Prog.databases]
  · simp [run, step, h0, load_eq, h1, newDb, change, Prog.db, use, hs, Prog.alive, Prog.databases]
  · obtain ⟨l', a1, a2, -⟩ := addAll_ok (s :: rest) {}
    cases l' with
    | nil => simp at a2
    | cons t l' =>
      have ht : t.source = some 0 := by simpa [hs] using (List.cons.inj a2).1
      simp [run, step, h0, newDb, Prog.db, a1, use, ht, Prog.alive, Prog.databases]
  · simp [run, step, h0, newDb, Prog.db, use, hs, Prog.alive, Prog.databases]
  · simp [run, step, h0, newDb, change, Prog.db, use, hs, Prog.alive, Prog.databases]

/-- **C119 (false of the code, phases with species of another database).** A chemical system made of one database and of phases with the species of another
reads deleted data once the other one is destroyed. -/
theorem C119_system_wrong (w : World) (arg arg' : Str) (l l' : List Str) (h : w.phreeqc (source w arg) = .ok l) (hl : l ≠ [])
    (h' : w.phreeqc (source w arg') = .ok l') (hl' : l' ≠ []) :
    run w {} [.fromFile arg, .fromFile arg', .keep 1, .systemOf 0 0, .destroy 1, .useSystem 0 0] = .ub := by
  obtain ⟨s, rest, hs, h0⟩ := loaded w arg l h hl 0
  obtain ⟨s1, rest1, hs1, h1⟩ := loaded w arg' l' h' hl' 1
  simp [run, step, h0, h1, newDb, Prog.db, Prog.sys, use, hs1, Prog.alive, Prog.databases]

/-! ### Sources -/

/-- **C119 (loading).** A database read from a file has the species that PHREEQC gives, in their order; `load` gives the same database as a new object would
get, whatever the variable contained; and a call throws exactly if PHREEQC rejects the text. -/
theorem C119_load (w : World) (db : Db) (arg : Str) (id : Nat) :
    (∀ l, w.phreeqc (source w arg) = .ok l → l.Nodup →
      fromFile w arg id = .ok ⟨l.map fun n => ⟨n, some id⟩, some (.phreeqc id)⟩ ∧ load w db arg id = .ok ⟨l.map fun n => ⟨n, some id⟩, some (.phreeqc id)⟩) ∧
    (fromFile w arg id = .throw ↔ w.phreeqc (source w arg) = .throw) ∧ (load w db arg id = .throw ↔ w.phreeqc (source w arg) = .throw) := by
  rw [load_eq]
  refine ⟨?_, ?_⟩
  · intro l hl hn
    rcases fromFile_made w arg id with ⟨l', db', h1, h2, h3, -, -, h6⟩ | ⟨h1, -⟩ | ⟨h1, -⟩
    · rw [hl] at h1
      cases h1
      obtain ⟨sp, att⟩ := db'
      simp only at h3 h6
      rw [h6 hn, h3] at h2
      exact ⟨h2, h2⟩
    · rw [hl] at h1; cases h1
    · rw [hl] at h1; cases h1
  · rw [and_self_iff]
    rcases fromFile_made w arg id with ⟨l', db', h1, h2, -⟩ | ⟨h1, h2⟩ | ⟨h1, h2⟩
    · simp [h1, h2]
    · simp [h1, h2]
    · simp [h1, h2]

/-- **C119 (false of the documentation, `load` extends).** No species that the variable had before is left by `load`, unless the new text has a species of
that name. -/
theorem C119_load_extends_wrong (w : World) (db db' : Db) (arg : Str) (id : Nat) (l : List Str) (hl : w.phreeqc (source w arg) = .ok l) (hn : l.Nodup)
    (h : load w db arg id = .ok db') : ∀ s ∈ db.species, s.name ∉ l → s.name ∉ db'.species.map (·.name) := by
  intro s _ hs
  rw [((C119_load w db arg id).1 l hl hn).2] at h
  cases h
  simpa using hs

/-- **C119 (texts and paths).** A text of several lines is loaded as it is, and gives the same as the path of a file with that text. -/
theorem C119_text (w : World) (path text : Str) (hp : '\n' ∉ path) (hf : w.files path = some text) (ht : '\n' ∈ text) (id : Nat) :
    fromFile w text id = fromFile w path id := by
  have e : source w text = source w path := by simp [source, hp, ht, hf]
  simp [fromFile, helper, e]

/-- **C119 (false of the code, texts of one line and files that do not exist).** A text without a newline, and the path of a file that does not exist, are
read as an empty text: an exception is thrown only if PHREEQC rejects an empty database. -/
theorem C119_missing_wrong (w : World) (arg : Str) (hp : '\n' ∉ arg) (hf : w.files arg = none) (id : Nat) :
    (fromFile w arg id = .throw ↔ w.phreeqc [] = .throw) ∧ (w.phreeqc [] = .ok [] → fromFile w arg id = .ok ⟨[], some (.phreeqc id)⟩) := by
  have e : source w arg = [] := by simp [source, hp, hf]
  refine ⟨by rw [(C119_load w {} arg id).2.1, e], fun h => ?_⟩
  have := (C119_load w {} arg id).1 [] (by rw [e]; exact h) List.nodup_nil
  exact this.1

theorem mem_names (name : Str) : name ∈ names ↔ Documented name := by
  simp only [names, Documented, List.mem_cons, List.not_mem_nil, or_false]

/-- **C119 (embedded databases).** With the embedded files present and of several lines, a database is made by name exactly for the ten names of the documentation (an exception
is thrown for every other string), and it is the one that its contents give when loaded as a text. -/
theorem C119_names (w : World) (he : ∀ n, Documented n → ∃ t, w.embedded n = some t ∧ '\n' ∈ t ∧ ∃ l, w.phreeqc t = .ok l) (name : Str) (id : Nat) :
    (withName w name id = .throw ↔ ¬ Documented name) ∧ (contents w name = .throw ↔ ¬ Documented name) ∧
    (∀ text, contents w name = .ok text → w.embedded name = some text ∧ withName w name id = fromFile w text id) := by
  rw [← mem_names]
  by_cases hn : name ∈ names
  · obtain ⟨t, h1, h2, l, h3⟩ := he name ((mem_names name).1 hn)
    have hc : contents w name = .ok t := by simp [contents, hn, h1]
    have hw : withName w name id = fromFile w t id := by rw [withName_eq, hc, Res.bind_ok']
    refine ⟨?_, by simp [hc, hn], ?_⟩
    · rw [hw, (C119_load w {} t id).2.1]
      simp [source, h2, h3, hn]
    · intro text ht
      rw [hc] at ht
      cases ht
      exact ⟨h1, hw⟩
  · have hc : contents w name = .throw := by simp [contents, hn]
    exact ⟨by simp [withName_eq, hc, hn, Res.bind], by simp [hc, hn], fun text ht => by rw [hc] at ht; cases ht⟩

/-! ### The hypotheses are met -/

/-- A world with one file of two lines, whose species are `H+` and `OH-`; every other text is rejected. -/
def exampleWorld : World where
  files := fun p => if p = c!"a.dat" then some c!"A\nB" else none
  embedded := fun _ => some c!"A\nB"
  phreeqc := fun t => if t = c!"A\nB" then .ok [c!"H+", c!"OH-"] else .throw

example : ∀ t, exampleWorld.phreeqc t ≠ .ub := by
  intro t
  simp only [exampleWorld]
  split <;> simp

example : exampleWorld.phreeqc (source exampleWorld c!"a.dat") = .ok [c!"H+", c!"OH-"] := by decide +kernel

example : run exampleWorld {} [.fromFile c!"a.dat", .system 0 [c!"OH-"], .load 0 c!"b.dat", .destroy 0, .useSystem 0 0, .databaseOf 0, .destroySystem 0, .useDb 1 0] =
    .ok ([.done, .done, .thrown, .done, .props ⟨c!"OH-", some 0⟩, .done, .done, .props ⟨c!"H+", some 0⟩],
      { next := 3, dbs := [none, some ⟨[⟨c!"H+", some 0⟩, ⟨c!"OH-", some 0⟩], some (.phreeqc 0)⟩], systems := [none], lists := [] }) := by decide +kernel

example : ∀ op ∈ [Op.fromFile c!"a.dat", .system 0 [c!"OH-"], .load 0 c!"b.dat", .destroy 0, .useSystem 0 0], Ordinary op := by
  simp [Ordinary]

example : ∃ outs p, run exampleWorld {} ([.fromFile c!"a.dat"] ++ .keep 0 :: [.fromFile c!"a.dat", .destroy 1, .load 1 c!"a.dat"]) = .ok (outs, p) ∧
    p.db 0 = some ⟨[⟨c!"H+", some 0⟩, ⟨c!"OH-", some 0⟩], some (.phreeqc 0)⟩ :=
  ⟨[.done, .done, .done, .done, .done],
   { next := 2, dbs := [some ⟨[⟨c!"H+", some 0⟩, ⟨c!"OH-", some 0⟩], some (.phreeqc 0)⟩, none], systems := [],
     lists := [[⟨c!"H+", some 0⟩, ⟨c!"OH-", some 0⟩]] }, by decide +kernel, by decide +kernel⟩

example : ∀ n, Documented n → ∃ t, exampleWorld.embedded n = some t ∧ '\n' ∈ t ∧ ∃ l, exampleWorld.phreeqc t = .ok l :=
  fun _ _ => ⟨c!"A\nB", rfl, by decide +kernel, [c!"H+", c!"OH-"], by decide +kernel⟩

end Verif.DatabaseObjects
