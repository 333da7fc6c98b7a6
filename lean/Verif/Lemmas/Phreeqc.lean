import Verif.Spec.Phreeqc
import Mathlib.Tactic.SplitIfs
import Mathlib.Tactic.ByContra
import Mathlib.Data.List.Nodup

/-!
# Lemmas for C75
-/

namespace Verif.Phreeqc

open Chem

abbrev names (l : List Entry) : List Str := l.map (·.species.name)

/-- Reactants as indices, of a species or phase. -/
def srcReactants (db : Phreeqc) : Src → Res (List (Nat × Rat))
  | .species i => (at! db.species i).bind fun s => speciesReactants db s
  | .phase i => (at! db.phases i).bind fun p => phaseReactants p

/-- What is known of an entry appended to a list. -/
structure Fact (db : Phreeqc) (elements : List Element) (shuffle : List (Str × Rat) → List (Str × Rat)) (kind : Src → Prop)
    (l : List Entry) (e : Entry) : Prop where
  kind : kind e.src
  data : match e.src with
    | .species i => ∃ s es, db.species[i]? = some s ∧ createElements elements (shuffle (firsts [] s.elts)) = .ok es ∧
        e.species = mkSpecies s.name s.name es s.z (speciesState s) e.species.reactants
    | .phase i => ∃ p es, db.phases[i]? = some p ∧ createElements elements (shuffle (firsts [] p.elts)) = .ok es ∧
        e.species = mkSpecies p.name p.formula es 0 (phaseState p) e.species.reactants
  reactants : ∃ rs, srcReactants db e.src = .ok rs ∧ e.species.reactants.map (·.2) = rs.map (·.2) ∧
    ∀ r ∈ rs, ∃ s, db.species[r.1]? = some s ∧ s.name ∈ names l

/-- The list grows by entries with known facts. -/
inductive Grows (db : Phreeqc) (elements : List Element) (shuffle : List (Str × Rat) → List (Str × Rat)) (kind : Src → Prop)
    (l : List Entry) : List Entry → Prop
  | refl : Grows db elements shuffle kind l l
  | snoc {l1 : List Entry} {e : Entry} : Grows db elements shuffle kind l l1 → Fact db elements shuffle kind l1 e → Grows db elements shuffle kind l (l1 ++ [e])

section

variable {db : Phreeqc} {elements : List Element} {shuffle : List (Str × Rat) → List (Str × Rat)} {kind : Src → Prop}

theorem Grows.trans {a b c : List Entry} (h1 : Grows db elements shuffle kind a b) (h2 : Grows db elements shuffle kind b c) :
    Grows db elements shuffle kind a c := by
  induction h2 with
  | refl => exact h1
  | snoc _ hf ih => exact ih.snoc hf

theorem Grows.prefix {a b : List Entry} (h : Grows db elements shuffle kind a b) : ∃ new, b = a ++ new := by
  induction h with
  | refl => exact ⟨[], by simp⟩
  | @snoc b e _ _ ih =>
    obtain ⟨new, rfl⟩ := ih
    exact ⟨new ++ [e], by simp⟩

theorem Grows.mem {a b : List Entry} (h : Grows db elements shuffle kind a b) {n : Str} (hn : n ∈ names a) : n ∈ names b := by
  obtain ⟨new, rfl⟩ := h.prefix
  simp only [names, List.map_append, List.mem_append]
  exact Or.inl hn

theorem find_lt_iff (l : List Entry) (n : Str) : find l n < l.length ↔ n ∈ names l := by
  unfold find names
  rw [List.findIdx_lt_length]
  simp

theorem find_spec (l : List Entry) (n : Str) (h : n ∈ names l) : ∃ e, l[find l n]? = some e ∧ e.species.name = n := by
  have hlt := (find_lt_iff l n).2 h
  refine ⟨l[find l n], by simp [hlt], ?_⟩
  have := List.findIdx_getElem (p := fun e : Entry => e.species.name = n) (xs := l) (w := hlt)
  exact of_decide_eq_true this

theorem find_eq_length (l : List Entry) (n : Str) (h : n ∉ names l) : find l n = l.length := by
  have h1 := (find_lt_iff l n).not.2 h
  have h2 : find l n ≤ l.length := List.findIdx_le_length
  omega

theorem mkSpecies_name (n f : Str) (es : List (Element × Rat)) (z : Rat) (st : State) (rs : List (Str × Rat)) (hn : n ≠ [] ∨ f = n) :
    (mkSpecies n f es z st rs).name = n := by
  unfold Species.name mkSpecies
  dsimp only
  split_ifs with h
  · subst h
    rcases hn with h | h
    · exact absurd rfl h
    · exact h
  · rfl

/-- What `createReactants` does, given what `add` does. -/
theorem createReactants_grows (add : PSpecies → Nat → List Entry → Res (List Entry))
    (hadd : ∀ s i l l1, db.species[i]? = some s → add s i l = .ok l1 → Grows db elements shuffle kind l l1 ∧ s.name ∈ names l1)
    (rs : List (Nat × Rat)) (l : List Entry) (q : List Entry × List (Str × Rat)) (h : createReactants db add rs l = .ok q) :
    Grows db elements shuffle kind l q.1 ∧ q.2.map (·.2) = rs.map (·.2) ∧ ∀ r ∈ rs, ∃ s, db.species[r.1]? = some s ∧ s.name ∈ names q.1 := by
  induction rs generalizing l q with
  | nil => cases h; exact ⟨.refl, rfl, by simp⟩
  | cons a rest ih =>
    obtain ⟨r, c⟩ := a
    rw [createReactants] at h
    cases hr : db.species[r]? with
    | none => simp [at!, hr] at h
    | some s =>
      simp only [at!, hr, Res.bind_ok'] at h
      have key : ∃ l1, (if find l s.name = l.length then add s r l else .ok l) = .ok l1 ∧ Grows db elements shuffle kind l l1 ∧ s.name ∈ names l1 := by
        split_ifs at h ⊢ with hc
        · cases ha : add s r l with
          | ok l1 => exact ⟨l1, rfl, hadd s r l l1 hr ha⟩
          | throw => rw [ha] at h; cases h
          | ub => rw [ha] at h; cases h
        · refine ⟨l, rfl, .refl, ?_⟩
          by_contra hn
          exact hc (find_eq_length l s.name hn)
      obtain ⟨l1, e1, g1, m1⟩ := key
      rw [e1] at h
      simp only [Res.bind_ok'] at h
      cases he : l1[find l s.name]? with
      | none => rw [he] at h; cases h
      | some e =>
        rw [he] at h
        simp only [Res.bind_ok'] at h
        cases hq : createReactants db add rest l1 with
        | throw => rw [hq] at h; cases h
        | ub => rw [hq] at h; cases h
        | ok q' =>
          rw [hq] at h
          cases h
          obtain ⟨i1, i2, i3⟩ := ih l1 q' hq
          refine ⟨g1.trans i1, by simp [i2], ?_⟩
          intro x hx
          rcases List.mem_cons.1 hx with rfl | hx
          · exact ⟨s, hr, i1.mem m1⟩
          · exact i3 x hx

theorem addSpecies_grows (hk : ∀ i, kind (.species i)) (fuel : Nat) (s : PSpecies) (i : Nat) (l l1 : List Entry) (hs : db.species[i]? = some s)
    (h : addSpecies db elements shuffle fuel s i l = .ok l1) : Grows db elements shuffle kind l l1 ∧ s.name ∈ names l1 := by
  induction fuel generalizing s i l l1 with
  | zero => cases h
  | succ fuel ih =>
    rw [addSpecies] at h
    split_ifs at h with hin
    · cases h; exact ⟨.refl, hin⟩
    · cases hr : speciesReactants db s with
      | throw => rw [hr] at h; cases h
      | ub => rw [hr] at h; cases h
      | ok rs =>
        rw [hr] at h
        simp only [Res.bind_ok'] at h
        cases he : createElements elements (shuffle (firsts [] s.elts)) with
        | throw => rw [he] at h; cases h
        | ub => rw [he] at h; cases h
        | ok es =>
          rw [he] at h
          simp only [Res.bind_ok'] at h
          cases hq : createReactants db (addSpecies db elements shuffle fuel) rs l with
          | throw => rw [hq] at h; cases h
          | ub => rw [hq] at h; cases h
          | ok q =>
            rw [hq] at h
            cases h
            obtain ⟨g, c, m⟩ := createReactants_grows _ ih rs l q hq
            refine ⟨g.snoc ⟨hk i, ⟨s, es, hs, he, rfl⟩, ⟨rs, ?_, c, m⟩⟩, ?_⟩
            · simp [srcReactants, at!, hs, hr]
            · simp [mkSpecies_name]

theorem addPhase_grows (hk : ∀ i, kind (.species i)) (hk' : ∀ i, kind (.phase i)) (fuel : Nat) (p : PPhase) (i : Nat) (l l1 : List Entry) (hp : db.phases[i]? = some p) (hne : p.name ≠ [])
    (h : addPhase db elements shuffle fuel p i l = .ok l1) : Grows db elements shuffle kind l l1 ∧ p.name ∈ names l1 := by
  unfold addPhase at h
  split_ifs at h with hin
  · cases h; exact ⟨.refl, hin⟩
  · cases hr : phaseReactants p with
    | throw => rw [hr] at h; cases h
    | ub => rw [hr] at h; cases h
    | ok rs =>
      rw [hr] at h
      simp only [Res.bind_ok'] at h
      cases he : createElements elements (shuffle (firsts [] p.elts)) with
      | throw => rw [he] at h; cases h
      | ub => rw [he] at h; cases h
      | ok es =>
        rw [he] at h
        simp only [Res.bind_ok'] at h
        cases hq : createReactants db (addSpecies db elements shuffle fuel) rs l with
        | throw => rw [hq] at h; cases h
        | ub => rw [hq] at h; cases h
        | ok q =>
          rw [hq] at h
          cases h
          obtain ⟨g, c, m⟩ := createReactants_grows _ (addSpecies_grows hk fuel) rs l q hq
          refine ⟨g.snoc ⟨hk' i, ⟨p, es, hp, he, rfl⟩, ⟨rs, ?_, c, m⟩⟩, ?_⟩
          · simp [srcReactants, at!, hp, hr]
          · simp [mkSpecies_name, hne]

theorem speciesLoop_grows (hk : ∀ i, kind (.species i)) (fuel : Nat) (done rest : List PSpecies) (hd : db.species = done ++ rest) (l l1 : List Entry)
    (h : speciesLoop (addSpecies db elements shuffle fuel) rest done.length l = .ok l1) :
    Grows db elements shuffle kind l l1 ∧ ∀ s ∈ rest, s.name ∈ names l1 := by
  induction rest generalizing done l with
  | nil => cases h; exact ⟨.refl, by simp⟩
  | cons s rest ih =>
    rw [speciesLoop] at h
    cases ha : addSpecies db elements shuffle fuel s done.length l with
    | throw => rw [ha] at h; cases h
    | ub => rw [ha] at h; cases h
    | ok l2 =>
      rw [ha] at h
      simp only [Res.bind_ok'] at h
      obtain ⟨g, m⟩ := addSpecies_grows hk fuel s done.length l l2 (by rw [hd]; simp) ha
      have hi := ih (done ++ [s]) (by rw [hd]; simp) l2 (by simpa using h)
      refine ⟨g.trans hi.1, ?_⟩
      intro x hx
      rcases List.mem_cons.1 hx with rfl | hx
      · exact hi.1.mem m
      · exact hi.2 x hx

theorem phaseLoop_grows (hk : ∀ i, kind (.species i)) (hk' : ∀ i, kind (.phase i)) (fuel : Nat) (done rest : List PPhase)
    (hd : db.phases = done ++ rest) (hne : ∀ p ∈ rest, p.name ≠ []) (l l1 : List Entry)
    (h : phaseLoop (addPhase db elements shuffle fuel) rest done.length l = .ok l1) :
    Grows db elements shuffle kind l l1 ∧ ∀ s ∈ rest, s.name ∈ names l1 := by
  induction rest generalizing done l with
  | nil => cases h; exact ⟨.refl, by simp⟩
  | cons s rest ih =>
    rw [phaseLoop] at h
    cases ha : addPhase db elements shuffle fuel s done.length l with
    | throw => rw [ha] at h; cases h
    | ub => rw [ha] at h; cases h
    | ok l2 =>
      rw [ha] at h
      simp only [Res.bind_ok'] at h
      obtain ⟨g, m⟩ := addPhase_grows hk hk' fuel s done.length l l2 (by rw [hd]; simp) (hne s List.mem_cons_self) ha
      have hi := ih (done ++ [s]) (by rw [hd]; simp) (fun p hp => hne p (List.mem_cons_of_mem _ hp)) l2 (by simpa using h)
      refine ⟨g.trans hi.1, ?_⟩
      intro x hx
      rcases List.mem_cons.1 hx with rfl | hx
      · exact hi.1.mem m
      · exact hi.2 x hx

/-- The facts about each entry. -/
theorem Grows.fact {l : List Entry} (h : Grows db elements shuffle kind [] l) (k : Nat) (e : Entry) (he : l[k]? = some e) :
    Fact db elements shuffle kind (l.take k) e := by
  induction h with
  | refl => simp at he
  | @snoc l1 e1 _ hf ih =>
    by_cases hk : k < l1.length
    · rw [List.getElem?_append_left hk] at he
      rw [List.take_append_of_le_length hk.le]
      exact ih he
    · rw [List.getElem?_append_right (by omega)] at he
      have hkl : k = l1.length := by
        by_contra hne
        rw [List.getElem?_eq_none (by simp; omega)] at he
        cases he
      subst hkl
      simp only [Nat.sub_self, List.getElem?_cons_zero, Option.some.injEq] at he
      subst he
      simpa using hf

theorem Fact.species_name {l : List Entry} {e : Entry} (h : Fact db elements shuffle kind l e) (i : Nat) (hi : e.src = .species i) :
    ∃ s, db.species[i]? = some s ∧ e.species.name = s.name := by
  have := h.data
  rw [hi] at this
  obtain ⟨s, es, h1, -, h3⟩ := this
  refine ⟨s, h1, ?_⟩
  rw [h3, mkSpecies_name _ _ _ _ _ _ (.inr rfl)]

/-- If the species can be built, the reactions have no cycles: `find` gives a rank. -/
theorem rank_of_grows (hN : (db.species.map (·.name)).Nodup) {l : List Entry}
    (h : Grows db elements shuffle (fun src => ∃ i, src = .species i) [] l) (hall : ∀ s ∈ db.species, s.name ∈ names l)
    (i : Nat) (s : PSpecies) (hs : db.species[i]? = some s) (rs : List (Nat × Rat)) (hr : speciesReactants db s = .ok rs)
    (r : Nat × Rat) (hrm : r ∈ rs) (s' : PSpecies) (hs' : db.species[r.1]? = some s') : find l s'.name < find l s.name := by
  obtain ⟨e, he, hen⟩ := find_spec l s.name (hall s (List.mem_of_getElem? hs))
  have hf := h.fact _ e he
  obtain ⟨j, hj⟩ := hf.kind
  obtain ⟨s2, h2, hn2⟩ := hf.species_name j hj
  have hij : j = i := by
    have e1 : (db.species.map (·.name))[j]? = some s.name := by rw [List.getElem?_map, h2, ← hen, hn2]; rfl
    have e2 : (db.species.map (·.name))[i]? = some s.name := by rw [List.getElem?_map, hs]; rfl
    have hlt : j < (db.species.map (·.name)).length := (List.getElem?_eq_some_iff.1 e1).1
    exact (List.getElem?_inj hlt hN).1 (e1.trans e2.symm)
  subst hij
  obtain ⟨rs', h1, -, h3⟩ := hf.reactants
  rw [hj] at h1
  simp only [srcReactants, at!, hs, Res.bind_ok'] at h1
  rw [hr] at h1
  cases h1
  obtain ⟨s3, g1, g2⟩ := h3 r hrm
  rw [hs'] at g1
  cases g1
  have hlt : find (l.take (find l s.name)) s'.name < (l.take (find l s.name)).length := (find_lt_iff _ _).2 g2
  have hle : (l.take (find l s.name)).length ≤ find l s.name := by rw [List.length_take]; omega
  have heq : find l s'.name = find (l.take (find l s.name)) s'.name := by
    conv_lhs => rw [← List.take_append_drop (find l s.name) l]
    unfold find at *
    rw [List.findIdx_append, if_pos hlt]
  omega

/-- With a rank, each name is added once. -/
theorem createReactants_nodup (rk : Str → Nat) (B : Nat) (add : PSpecies → Nat → List Entry → Res (List Entry))
    (hadd : ∀ s i l l1, db.species[i]? = some s → add s i l = .ok l1 → (names l).Nodup →
      (names l1).Nodup ∧ ∀ n ∈ names l1, n ∈ names l ∨ rk n ≤ rk s.name)
    (rs : List (Nat × Rat)) (hrs : ∀ r ∈ rs, ∀ s, db.species[r.1]? = some s → rk s.name < B)
    (l : List Entry) (q : List Entry × List (Str × Rat)) (h : createReactants db add rs l = .ok q) (hl : (names l).Nodup) :
    (names q.1).Nodup ∧ ∀ n ∈ names q.1, n ∈ names l ∨ rk n < B := by
  induction rs generalizing l q with
  | nil => cases h; exact ⟨hl, fun n hn => .inl hn⟩
  | cons a rest ih =>
    obtain ⟨r, c⟩ := a
    rw [createReactants] at h
    cases hr : db.species[r]? with
    | none => simp [at!, hr] at h
    | some s =>
      simp only [at!, hr, Res.bind_ok'] at h
      have hB := hrs (r, c) List.mem_cons_self s hr
      have key : ∃ l1, (if find l s.name = l.length then add s r l else .ok l) = .ok l1 ∧ (names l1).Nodup ∧
          ∀ n ∈ names l1, n ∈ names l ∨ rk n < B := by
        split_ifs at h ⊢ with hc
        · cases ha : add s r l with
          | ok l1 =>
            obtain ⟨a1, a2⟩ := hadd s r l l1 hr ha hl
            refine ⟨l1, rfl, a1, fun n hn => ?_⟩
            rcases a2 n hn with h | h
            · exact .inl h
            · exact .inr (by omega)
          | throw => rw [ha] at h; cases h
          | ub => rw [ha] at h; cases h
        · exact ⟨l, rfl, hl, fun n hn => .inl hn⟩
      obtain ⟨l1, e1, g1, m1⟩ := key
      rw [e1] at h
      simp only [Res.bind_ok'] at h
      cases he : l1[find l s.name]? with
      | none => rw [he] at h; cases h
      | some e =>
        rw [he] at h
        simp only [Res.bind_ok'] at h
        cases hq : createReactants db add rest l1 with
        | throw => rw [hq] at h; cases h
        | ub => rw [hq] at h; cases h
        | ok q' =>
          rw [hq] at h
          cases h
          obtain ⟨i1, i2⟩ := ih (fun r hr => hrs r (List.mem_cons_of_mem _ hr)) l1 q' hq g1
          refine ⟨i1, fun n hn => ?_⟩
          rcases i2 n hn with h | h
          · exact m1 n h
          · exact .inr h

theorem addSpecies_nodup (rk : Str → Nat)
    (hrk : ∀ (i : Nat) s rs, db.species[i]? = some s → speciesReactants db s = .ok rs → ∀ r ∈ rs, ∀ s', db.species[r.1]? = some s' → rk s'.name < rk s.name)
    (fuel : Nat) (s : PSpecies) (i : Nat) (l l1 : List Entry) (hs : db.species[i]? = some s)
    (h : addSpecies db elements shuffle fuel s i l = .ok l1) (hl : (names l).Nodup) :
    (names l1).Nodup ∧ ∀ n ∈ names l1, n ∈ names l ∨ rk n ≤ rk s.name := by
  induction fuel generalizing s i l l1 with
  | zero => cases h
  | succ fuel ih =>
    rw [addSpecies] at h
    split_ifs at h with hin
    · cases h; exact ⟨hl, fun n hn => .inl hn⟩
    · cases hr : speciesReactants db s with
      | throw => rw [hr] at h; cases h
      | ub => rw [hr] at h; cases h
      | ok rs =>
        rw [hr] at h
        simp only [Res.bind_ok'] at h
        cases he : createElements elements (shuffle (firsts [] s.elts)) with
        | throw => rw [he] at h; cases h
        | ub => rw [he] at h; cases h
        | ok es =>
          rw [he] at h
          simp only [Res.bind_ok'] at h
          cases hq : createReactants db (addSpecies db elements shuffle fuel) rs l with
          | throw => rw [hq] at h; cases h
          | ub => rw [hq] at h; cases h
          | ok q =>
            rw [hq] at h
            cases h
            obtain ⟨g, m⟩ := createReactants_nodup rk (rk s.name) _ ih rs (hrk i s rs hs hr) l q hq hl
            simp only [names, List.map_append, List.map_cons, List.map_nil, mkSpecies_name _ _ _ _ _ _ (.inr (rfl : s.name = s.name))]
            constructor
            · rw [List.nodup_append]
              refine ⟨g, by simp, ?_⟩
              intro a ha b hb
              simp only [List.mem_cons, List.not_mem_nil, or_false] at hb
              subst hb
              rintro rfl
              rcases m _ ha with h | h
              · exact hin h
              · omega
            · intro n hn
              rcases List.mem_append.1 hn with hn | hn
              · rcases m n hn with h | h
                · exact .inl h
                · exact .inr (by omega)
              · simp only [List.mem_cons, List.not_mem_nil, or_false] at hn
                subst hn
                exact .inr (Nat.le_refl _)

theorem speciesLoop_nodup (rk : Str → Nat)
    (hrk : ∀ (i : Nat) s rs, db.species[i]? = some s → speciesReactants db s = .ok rs → ∀ r ∈ rs, ∀ s', db.species[r.1]? = some s' → rk s'.name < rk s.name)
    (fuel : Nat) (done rest : List PSpecies) (hd : db.species = done ++ rest) (l l1 : List Entry)
    (h : speciesLoop (addSpecies db elements shuffle fuel) rest done.length l = .ok l1) (hl : (names l).Nodup) : (names l1).Nodup := by
  induction rest generalizing done l with
  | nil => cases h; exact hl
  | cons s rest ih =>
    rw [speciesLoop] at h
    cases ha : addSpecies db elements shuffle fuel s done.length l with
    | throw => rw [ha] at h; cases h
    | ub => rw [ha] at h; cases h
    | ok l2 =>
      rw [ha] at h
      simp only [Res.bind_ok'] at h
      exact ih (done ++ [s]) (by rw [hd]; simp) l2 (by simpa using h)
        (addSpecies_nodup rk hrk fuel s done.length l l2 (by rw [hd]; simp) ha hl).1

/-- If all species are in the list, `createReactants` only looks them up. -/
theorem createReactants_present (add : PSpecies → Nat → List Entry → Res (List Entry)) (l : List Entry)
    (rs : List (Nat × Rat)) (hrs : ∀ r ∈ rs, ∃ s, db.species[r.1]? = some s ∧ s.name ∈ names l) :
    ∃ ns, createReactants db add rs l = .ok (l, ns) ∧
      List.Forall₂ (fun (r : Nat × Rat) (n : Str × Rat) => ∃ s, db.species[r.1]? = some s ∧ n = (s.name, r.2)) rs ns := by
  induction rs with
  | nil => exact ⟨[], rfl, .nil⟩
  | cons a rest ih =>
    obtain ⟨r, c⟩ := a
    obtain ⟨s, h1, h2⟩ := hrs (r, c) List.mem_cons_self
    obtain ⟨ns, h3, h4⟩ := ih fun r hr => hrs r (List.mem_cons_of_mem _ hr)
    obtain ⟨e, he, hn⟩ := find_spec l s.name h2
    have hlt := (find_lt_iff l s.name).2 h2
    refine ⟨(s.name, c) :: ns, ?_, .cons ⟨s, h1, rfl⟩ h4⟩
    rw [createReactants]
    simp only [at!, h1, Res.bind_ok']
    rw [if_neg (by omega)]
    simp only [Res.bind_ok', he, h3, hn]

theorem addPhase_present (fuel : Nat) (p : PPhase) (i : Nat) (l l1 : List Entry) (hall : ∀ s ∈ db.species, s.name ∈ names l)
    (hne : p.name ≠ []) (h : addPhase db elements shuffle fuel p i l = .ok l1) :
    (p.name ∈ names l ∧ l1 = l) ∨ (p.name ∉ names l ∧ ∃ e, l1 = l ++ [e] ∧ e.src = .phase i ∧ e.species.name = p.name ∧
      ∃ rs, phaseReactants p = .ok rs ∧
        List.Forall₂ (fun (r : Nat × Rat) (n : Str × Rat) => ∃ s, db.species[r.1]? = some s ∧ n = (s.name, r.2)) rs e.species.reactants) := by
  unfold addPhase at h
  split_ifs at h with hin
  · cases h; exact .inl ⟨hin, rfl⟩
  · right
    refine ⟨hin, ?_⟩
    cases hr : phaseReactants p with
    | throw => rw [hr] at h; cases h
    | ub => rw [hr] at h; cases h
    | ok rs =>
      rw [hr] at h
      simp only [Res.bind_ok'] at h
      cases he : createElements elements (shuffle (firsts [] p.elts)) with
      | throw => rw [he] at h; cases h
      | ub => rw [he] at h; cases h
      | ok es =>
        rw [he] at h
        simp only [Res.bind_ok'] at h
        cases hq : createReactants db (addSpecies db elements shuffle fuel) rs l with
        | throw => rw [hq] at h; cases h
        | ub => rw [hq] at h; cases h
        | ok q =>
          have hidx : ∀ r ∈ rs, ∃ s, db.species[r.1]? = some s ∧ s.name ∈ names l := by
            intro r hr
            obtain ⟨-, -, h3⟩ := createReactants_grows (kind := fun _ => True) _ (addSpecies_grows (fun _ => trivial) fuel) rs l q hq
            obtain ⟨s, h1, -⟩ := h3 r hr
            exact ⟨s, h1, hall s (List.mem_of_getElem? h1)⟩
          obtain ⟨ns, h3, h4⟩ := createReactants_present (addSpecies db elements shuffle fuel) l rs hidx
          rw [h3] at h
          cases h
          exact ⟨_, rfl, rfl, by simp [mkSpecies_name, hne], rs, rfl, h4⟩

theorem phaseLoop_present (fuel : Nat) (done rest : List PPhase) (hd : db.phases = done ++ rest) (hne : ∀ p ∈ rest, p.name ≠ [])
    (l l1 : List Entry) (hall : ∀ s ∈ db.species, s.name ∈ names l) (hl : (names l).Nodup)
    (h : phaseLoop (addPhase db elements shuffle fuel) rest done.length l = .ok l1) :
    ∃ new, l1 = l ++ new ∧ (names l1).Nodup ∧ ∀ e ∈ new, ∃ i p, e.src = .phase i ∧ db.phases[i]? = some p ∧ e.species.name = p.name ∧
      p.name ∉ names l ∧ ∃ rs, phaseReactants p = .ok rs ∧
        List.Forall₂ (fun (r : Nat × Rat) (n : Str × Rat) => ∃ s, db.species[r.1]? = some s ∧ n = (s.name, r.2)) rs e.species.reactants := by
  induction rest generalizing done l with
  | nil => cases h; exact ⟨[], by simp, hl, by simp⟩
  | cons p rest ih =>
    rw [phaseLoop] at h
    cases ha : addPhase db elements shuffle fuel p done.length l with
    | throw => rw [ha] at h; cases h
    | ub => rw [ha] at h; cases h
    | ok l2 =>
      rw [ha] at h
      simp only [Res.bind_ok'] at h
      have hih := ih (done ++ [p]) (by rw [hd]; simp) (fun p hp => hne p (List.mem_cons_of_mem _ hp)) l2
      rcases addPhase_present fuel p done.length l l2 hall (hne p List.mem_cons_self) ha with ⟨-, rfl⟩ | ⟨hin, e, rfl, h1, h2, h3⟩
      · exact hih hall hl (by simpa using h)
      · obtain ⟨new, g1, g2, g3⟩ := hih (fun s hs => by simp only [names, List.map_append, List.mem_append]; exact .inl (hall s hs))
          (by
            simp only [names, List.map_append, List.map_cons, List.map_nil]
            rw [List.nodup_append]
            refine ⟨hl, by simp, ?_⟩
            intro a ha b hb
            simp only [List.mem_cons, List.not_mem_nil, or_false] at hb
            subst hb
            rintro rfl
            rw [h2] at ha
            exact hin ha)
          (by simpa using h)
        refine ⟨e :: new, by rw [g1]; simp, g2, ?_⟩
        intro x hx
        rcases List.mem_cons.1 hx with rfl | hx
        · exact ⟨done.length, p, h1, by rw [hd]; simp, h2, hin, h3⟩
        · obtain ⟨i, p', j1, j2, j3, j4, j5⟩ := g3 x hx
          refine ⟨i, p', j1, j2, j3, ?_, j5⟩
          intro hc
          apply j4
          simp only [names, List.map_append, List.mem_append]
          exact .inl hc

/-- The reactants of an entry are those of PHREEQC. -/
def Good (db : Phreeqc) (e : Entry) : Prop :=
  ∀ i s, e.src = .species i → db.species[i]? = some s → ∃ rs, speciesReactants db s = .ok rs ∧
    List.Forall₂ (fun (r : Nat × Rat) (n : Str × Rat) => ∃ s, db.species[r.1]? = some s ∧ n = (s.name, r.2)) rs e.species.reactants

/-- Adding a master species appends it. -/
theorem addSpecies_master (fuel : Nat) (s : PSpecies) (i : Nat) (l l1 : List Entry) (hs : db.species[i]? = some s) (hm : speciesReactants db s = .ok [])
    (hin : s.name ∉ names l) (h : addSpecies db elements shuffle fuel s i l = .ok l1) :
    ∃ e, l1 = l ++ [e] ∧ e.species.name = s.name ∧ Good db e := by
  cases fuel with
  | zero => cases h
  | succ fuel =>
    rw [addSpecies, if_neg hin, hm] at h
    simp only [Res.bind_ok'] at h
    cases he : createElements elements (shuffle (firsts [] s.elts)) with
    | throw => rw [he] at h; cases h
    | ub => rw [he] at h; cases h
    | ok es =>
      rw [he] at h
      simp only [Res.bind_ok', createReactants] at h
      cases h
      refine ⟨_, rfl, mkSpecies_name _ _ _ _ _ _ (.inr rfl), ?_⟩
      intro j s' hj hs'
      cases hj
      rw [hs] at hs'
      cases hs'
      exact ⟨[], hm, .nil⟩

/-- If the reactants are in the list or masters, they are found. -/
theorem createReactants_good (fuel : Nat) (rs : List (Nat × Rat)) (l : List Entry) (q : List Entry × List (Str × Rat))
    (hrs : ∀ r ∈ rs, ∀ s, db.species[r.1]? = some s → s.name ∈ names l ∨ speciesReactants db s = .ok [])
    (h : createReactants db (addSpecies db elements shuffle fuel) rs l = .ok q) :
    (∃ new, q.1 = l ++ new ∧ ∀ e ∈ new, Good db e) ∧
      List.Forall₂ (fun (r : Nat × Rat) (n : Str × Rat) => ∃ s, db.species[r.1]? = some s ∧ n = (s.name, r.2)) rs q.2 := by
  induction rs generalizing l q with
  | nil => cases h; exact ⟨⟨[], by simp, by simp⟩, .nil⟩
  | cons a rest ih =>
    obtain ⟨r, c⟩ := a
    rw [createReactants] at h
    cases hr : db.species[r]? with
    | none => simp [at!, hr] at h
    | some s =>
      simp only [at!, hr, Res.bind_ok'] at h
      have key : ∃ l1 new, (if find l s.name = l.length then addSpecies db elements shuffle fuel s r l else .ok l) = .ok l1 ∧ l1 = l ++ new ∧
          (∀ e ∈ new, Good db e) ∧ ∃ e, l1[find l s.name]? = some e ∧ e.species.name = s.name := by
        by_cases hin : s.name ∈ names l
        · rw [if_neg (by have := (find_lt_iff l s.name).2 hin; omega)] at h ⊢
          exact ⟨l, [], rfl, by simp, by simp, find_spec l s.name hin⟩
        · rw [if_pos (find_eq_length l s.name hin)] at h ⊢
          cases ha : addSpecies db elements shuffle fuel s r l with
          | throw => rw [ha] at h; cases h
          | ub => rw [ha] at h; cases h
          | ok l1 =>
            obtain ⟨e, h1, h2, h3⟩ := addSpecies_master fuel s r l l1 hr ((hrs (r, c) List.mem_cons_self s hr).resolve_left hin) hin ha
            refine ⟨l1, [e], rfl, h1, by simpa using h3, e, ?_, h2⟩
            rw [find_eq_length l s.name hin, h1]; simp
      obtain ⟨l1, new, e1, e2, g1, e, e3, e4⟩ := key
      rw [e1] at h
      simp only [Res.bind_ok', e3] at h
      cases hq : createReactants db (addSpecies db elements shuffle fuel) rest l1 with
      | throw => rw [hq] at h; cases h
      | ub => rw [hq] at h; cases h
      | ok q' =>
        rw [hq] at h
        cases h
        obtain ⟨⟨new', i1, i2⟩, i3⟩ := ih l1 q' (by
          intro r' hr' s' hs'
          rcases hrs r' (List.mem_cons_of_mem _ hr') s' hs' with h | h
          · left; rw [e2]; simp only [names, List.map_append, List.mem_append]; exact .inl h
          · exact .inr h) hq
        refine ⟨⟨new ++ new', by rw [i1, e2]; simp, ?_⟩, .cons ⟨s, hr, by rw [e4]⟩ i3⟩
        intro x hx
        rcases List.mem_append.1 hx with hx | hx
        · exact g1 x hx
        · exact i2 x hx

theorem speciesLoop_good
    (hord : ∀ (i : Nat) s rs, db.species[i]? = some s → speciesReactants db s = .ok rs → ∀ r ∈ rs, ∀ s', db.species[r.1]? = some s' →
      speciesReactants db s' = .ok [] ∨ ∃ j, j < i ∧ db.species[j]? = some s')
    (fuel : Nat) (done rest : List PSpecies) (hd : db.species = done ++ rest) (l l1 : List Entry)
    (hdone : ∀ s ∈ done, s.name ∈ names l) (hl : ∀ e ∈ l, Good db e)
    (h : speciesLoop (addSpecies db elements shuffle fuel) rest done.length l = .ok l1) : ∀ e ∈ l1, Good db e := by
  induction rest generalizing done l with
  | nil => cases h; exact hl
  | cons s rest ih =>
    rw [speciesLoop] at h
    cases ha : addSpecies db elements shuffle fuel s done.length l with
    | throw => rw [ha] at h; cases h
    | ub => rw [ha] at h; cases h
    | ok l2 =>
      rw [ha] at h
      simp only [Res.bind_ok'] at h
      have hs : db.species[done.length]? = some s := by rw [hd]; simp
      obtain ⟨g, m⟩ := addSpecies_grows (kind := fun _ => True) (fun _ => trivial) fuel s done.length l l2 hs ha
      refine ih (done ++ [s]) (by rw [hd]; simp) l2 ?_ ?_ (by simpa using h)
      · intro x hx
        rcases List.mem_append.1 hx with hx | hx
        · exact g.mem (hdone x hx)
        · simp only [List.mem_cons, List.not_mem_nil, or_false] at hx
          subst hx; exact m
      · cases fuel with
        | zero => cases ha
        | succ fuel =>
          rw [addSpecies] at ha
          split_ifs at ha with hin
          · cases ha; exact hl
          · cases hr : speciesReactants db s with
            | throw => rw [hr] at ha; cases ha
            | ub => rw [hr] at ha; cases ha
            | ok rs =>
              rw [hr] at ha
              simp only [Res.bind_ok'] at ha
              cases he : createElements elements (shuffle (firsts [] s.elts)) with
              | throw => rw [he] at ha; cases ha
              | ub => rw [he] at ha; cases ha
              | ok es =>
                rw [he] at ha
                simp only [Res.bind_ok'] at ha
                cases hq : createReactants db (addSpecies db elements shuffle fuel) rs l with
                | throw => rw [hq] at ha; cases ha
                | ub => rw [hq] at ha; cases ha
                | ok q =>
                  rw [hq] at ha
                  cases ha
                  obtain ⟨⟨new, g1, g2⟩, g3⟩ := createReactants_good fuel rs l q (by
                    intro r hrm s' hs'
                    rcases hord done.length s rs hs hr r hrm s' hs' with h | ⟨j, hj, hj'⟩
                    · exact .inr h
                    · left
                      apply hdone
                      rw [hd, List.getElem?_append_left hj] at hj'
                      exact List.mem_of_getElem? hj') hq
                  intro x hx
                  rcases List.mem_append.1 hx with hx | hx
                  · rw [g1] at hx
                    rcases List.mem_append.1 hx with hx | hx
                    · exact hl x hx
                    · exact g2 x hx
                  · simp only [List.mem_cons, List.not_mem_nil, or_false] at hx
                    subst hx
                    intro j s' hj hs'
                    cases hj
                    rw [hs] at hs'
                    cases hs'
                    exact ⟨rs, hr, g3⟩

end

end Verif.Phreeqc
