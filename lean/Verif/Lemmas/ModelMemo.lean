import Verif.Spec.ModelMemo

namespace Verif.ModelMemo

variable {M : Type u} {A : Type v} {R : Type w} {V : Type x}

theorem copyValues_frame (l : List (Nat × Nat)) (h : Nat → V) (x : Nat) (hx : ∀ cd ∈ l, cd.1 ≠ x) :
    copyValues h l x = h x := by
  induction l generalizing h with
  | nil => rfl
  | cons cd rest ih =>
    obtain ⟨c, d⟩ := cd
    simp only [copyValues]
    rw [ih _ (fun cd hcd => hx cd (List.mem_cons_of_mem _ hcd))]
    have := hx (c, d) List.mem_cons_self
    simp only [put]
    rw [if_neg (fun h => this h.symm)]

theorem copyValues_get (l : List (Nat × Nat)) (h : Nat → V)
    (hnd : (l.map Prod.fst).Nodup) (hdis : ∀ cd ∈ l, ∀ cd' ∈ l, cd.1 ≠ cd'.2) :
    ∀ cd ∈ l, copyValues h l cd.1 = h cd.2 := by
  induction l generalizing h with
  | nil => intro cd hcd; simp at hcd
  | cons e rest ih =>
    obtain ⟨c, d⟩ := e
    intro cd hcd
    simp only [List.map_cons, List.nodup_cons] at hnd
    simp only [copyValues]
    rcases List.mem_cons.1 hcd with rfl | hr
    · rw [copyValues_frame]
      · simp [put]
      · intro cd' hcd' heq
        simp only at heq
        rw [← heq] at hnd
        exact hnd.1 (List.mem_map_of_mem hcd')
    · rw [ih _ hnd.2 (fun a ha b hb => hdis a (List.mem_cons_of_mem _ ha) b (List.mem_cons_of_mem _ hb)) cd hr]
      simp only [put]
      rw [if_neg]
      exact fun h => hdis (c, d) List.mem_cons_self cd (List.mem_cons_of_mem _ hr) h.symm

theorem sameCells_iff [DecidableEq V] (h : Nat → V) (l : List (Nat × Nat)) :
    sameCells h l = true ↔ ∀ cd ∈ l, h cd.1 = h cd.2 := by
  induction l with
  | nil => simp [sameCells]
  | cons cd rest ih =>
    obtain ⟨c, d⟩ := cd
    simp only [sameCells]
    by_cases hcd : h c = h d
    · simp [hcd, ih]
    · simp [hcd]

/-- Invariant of one object. -/
structure ObjInv (f : M → A → (Nat → V) → Res R) (decl : M → List Nat) (same : A → A → Bool) (a0 : A) (n0 : Nat)
    (h : Nat → V) (next : Nat) (c : Closure M A R) : Prop where
  range : ∀ x ∈ c.cacheCells, n0 ≤ x ∧ x < next
  nodup : c.cacheCells.Nodup
  fresh : c.first = true → c.cacheCells = [] ∧ c.cacheArg = a0
  len : c.first = false → c.cacheCells.length = (decl c.model).length
  good : c.first = false → ∀ a h', same c.cacheArg a = true →
    (∀ cd ∈ c.cacheCells.zip (decl c.model), h' cd.2 = h cd.1) → f c.model a h' = .ok c.result

theorem zip_mem_left {α : Type u} {β : Type v} {l : List α} {m : List β} {p : α × β} (h : p ∈ l.zip m) : p.1 ∈ l :=
  (List.of_mem_zip h).1

theorem zip_mem_right {α : Type u} {β : Type v} {l : List α} {m : List β} {p : α × β} (h : p ∈ l.zip m) : p.2 ∈ m :=
  (List.of_mem_zip h).2

theorem exists_zip_of_mem_right {α : Type u} {β : Type v} {l : List α} {m : List β} (hl : l.length = m.length) {b : β}
    (hb : b ∈ m) : ∃ a, (a, b) ∈ l.zip m := by
  induction m generalizing l with
  | nil => simp at hb
  | cons y ys ih =>
    cases l with
    | nil => simp at hl
    | cons x xs =>
      simp only [List.length_cons, Nat.add_right_cancel_iff] at hl
      rcases List.mem_cons.1 hb with rfl | hb
      · exact ⟨x, by simp⟩
      · obtain ⟨a, ha⟩ := ih hl hb
        exact ⟨a, by simp [ha]⟩

/-- What a call does to the object called and to the heap. -/
theorem callModel_spec [DecidableEq V] (f : M → A → (Nat → V) → Res R) (decl : M → List Nat) (same : A → A → Bool)
    (a0 : A) (n0 : Nat)
    (hf : ∀ m a h, (f m a h).isOk = true) (honly : OnlyDeclared f decl)
    (hsame : ∀ a b, same a b = true → ∀ m h, f m a h = f m b h)
    (hdecl : ∀ m, ∀ p ∈ decl m, p < n0)
    (w : World M A R V) (hn : n0 ≤ w.next) (c : Closure M A R) (a : A) (ha : same a0 a = false)
    (hc : ObjInv f decl same a0 n0 w.heap w.next c) :
    let res := callModel f decl same w c a
    res.2.2.2 = f c.model a w.heap ∧ w.next ≤ res.2.1 ∧
    ObjInv f decl same a0 n0 res.1 res.2.1 res.2.2.1 ∧
    res.2.2.1.model = c.model ∧
    (∀ x, x < n0 → res.1 x = w.heap x) ∧
    (∀ x, x ∈ res.2.2.1.cacheCells → x ∈ c.cacheCells ∨ w.next ≤ x) ∧
    (∀ x, x < w.next → x ∉ c.cacheCells → res.1 x = w.heap x) := by
  intro res0
  have hres0 : callModel f decl same w c a = res0 := rfl
  clear_value res0
  revert hres0
  generalize res0 = res
  intro hres
  unfold callModel at hres
  by_cases he : w.enabled = false
  · simp only [he, if_true] at hres
    subst hres
    exact ⟨rfl, Nat.le_refl _, hc, rfl, fun _ _ => rfl, fun x hx => Or.inl hx, fun _ _ _ => rfl⟩
  · rw [if_neg he] at hres
    -- sizes never differ when the arguments are the same
    have hsz : (same c.cacheArg a && (c.cacheCells.length != (decl c.model).length)) = false := by
      cases hfst : c.first with
      | true => rw [(hc.fresh hfst).2, ha]; rfl
      | false => rw [hc.len hfst]; simp
    simp only [hsz, Bool.false_eq_true, if_false] at hres
    by_cases hhit : (same c.cacheArg a && sameCells w.heap (c.cacheCells.zip (decl c.model)) && !c.first) = true
    · simp only [hhit, if_true] at hres
      subst hres
      simp only [Bool.and_eq_true, Bool.not_eq_true', sameCells_iff] at hhit
      refine ⟨?_, Nat.le_refl _, hc, rfl, fun _ _ => rfl, fun x hx => Or.inl hx, fun _ _ _ => rfl⟩
      exact (hc.good hhit.2 a w.heap hhit.1.1 (fun cd hcd => (hhit.1.2 cd hcd).symm)).symm
    · simp only [hhit, Bool.false_eq_true, if_false] at hres
      -- shape of the new list of cells
      have hcells : resize c.cacheCells w.next (decl c.model).length =
          (if c.first then List.range' w.next (decl c.model).length else c.cacheCells) := by
        unfold resize
        cases hfst : c.first with
        | true => simp [(hc.fresh hfst).1]
        | false => simp [hc.len hfst, List.take_of_length_le (Nat.le_of_eq (hc.len hfst))]
      have hnext : w.next + ((decl c.model).length - c.cacheCells.length) =
          (if c.first then w.next + (decl c.model).length else w.next) := by
        cases hfst : c.first with
        | true => simp [(hc.fresh hfst).1]
        | false => simp [hc.len hfst]
      rw [hnext] at hres
      rw [hcells] at hres
      generalize hcl : (if c.first then List.range' w.next (decl c.model).length else c.cacheCells) = cells at hres
      generalize hnx : (if c.first then w.next + (decl c.model).length else w.next) = next1 at hres
      have hlen : cells.length = (decl c.model).length := by
        subst hcl
        cases hfst : c.first with
        | true => simp
        | false => simp [hc.len hfst]
      have hle : w.next ≤ next1 := by
        subst hnx; split <;> omega
      have hrange : ∀ x ∈ cells, n0 ≤ x ∧ x < next1 := by
        subst hcl hnx
        cases hfst : c.first with
        | true =>
          intro x hx
          simp only [if_true, List.mem_range'_1] at hx
          simp only [if_true]
          omega
        | false => simpa using hc.range
      have hnd : cells.Nodup := by
        subst hcl
        cases hfst : c.first with
        | true => simpa using List.nodup_range'
        | false => simpa using hc.nodup
      have hmem : ∀ x, x ∈ cells → x ∈ c.cacheCells ∨ w.next ≤ x := by
        subst hcl
        cases hfst : c.first with
        | true =>
          intro x hx
          simp only [if_true, List.mem_range'_1] at hx
          exact Or.inr hx.1
        | false => intro x hx; exact Or.inl (by simpa using hx)
      generalize hh1 : copyValues w.heap (cells.zip (decl c.model)) = h1 at hres
      have hframe : ∀ x, x ∉ cells → h1 x = w.heap x := by
        intro x hx
        subst hh1
        apply copyValues_frame
        intro cd hcd heq
        exact hx (heq ▸ zip_mem_left hcd)
      have huser : ∀ x, x < n0 → h1 x = w.heap x := by
        intro x hx
        apply hframe
        intro hx'
        have := (hrange x hx').1
        omega
      have hget : ∀ cd ∈ cells.zip (decl c.model), h1 cd.1 = w.heap cd.2 := by
        subst hh1
        apply copyValues_get
        · have : (cells.zip (decl c.model)).map Prod.fst = cells := List.map_fst_zip (by omega)
          rw [this]; exact hnd
        · intro cd hcd cd' hcd' heq
          have h1 := (hrange _ (zip_mem_left hcd)).1
          have h2 := hdecl _ _ (zip_mem_right hcd')
          omega
      have hfr : f c.model a h1 = f c.model a w.heap :=
        honly _ _ _ _ (fun p hp => huser p (hdecl _ p hp))
      have hok := hf c.model a h1
      cases hfa : f c.model a h1 with
      | throw => rw [hfa] at hok; simp at hok
      | ub => rw [hfa] at hok; simp at hok
      | ok r =>
        simp only [hfa] at hres
        subst hres
        refine ⟨by rw [← hfr, hfa], hle, ⟨hrange, hnd, by simp, fun _ => hlen, ?_⟩, rfl, huser, hmem, ?_⟩
        · intro _ b h' hb hagree
          simp only at hb hagree ⊢
          rw [← hsame a b hb]
          rw [← hfa]
          apply honly
          intro p hp
          obtain ⟨x, hx⟩ := exists_zip_of_mem_right hlen hp
          have e1 := hagree (x, p) hx
          simp only at e1
          rw [e1, hget (x, p) hx, huser p (hdecl _ p hp)]
        · intro x hx hxc
          apply hframe
          intro hxm
          rcases hmem x hxm with h | h
          · exact hxc h
          · omega

/-- Invariant of the whole program state after the operations `pre`. -/
structure Inv (f : M → A → (Nat → V) → Res R) (decl : M → List Nat) (same : A → A → Bool) (a0 : A) (n0 : Nat)
    (pre : List (Op A V)) (w : World M A R V) : Prop where
  next : n0 ≤ w.next
  objs : ∀ (i : Nat) (hi : i < w.closures.length), ObjInv f decl same a0 n0 w.heap w.next w.closures[i]
  disj : ∀ (i j : Nat) (hi : i < w.closures.length) (hj : j < w.closures.length), i ≠ j →
    ∀ x ∈ w.closures[i].cacheCells, x ∉ w.closures[j].cacheCells
  unused : ∀ (i : Nat) (hi : i < w.closures.length), (∀ a, Op.call i a ∉ pre) → w.closures[i].first = true

theorem ObjInv.frame {f : M → A → (Nat → V) → Res R} {decl : M → List Nat} {same : A → A → Bool} {a0 : A} {n0 : Nat}
    {h h' : Nat → V} {next next' : Nat} {c : Closure M A R} (hc : ObjInv f decl same a0 n0 h next c)
    (hn : next ≤ next') (heq : ∀ x ∈ c.cacheCells, h' x = h x) : ObjInv f decl same a0 n0 h' next' c := by
  refine ⟨fun x hx => ?_, hc.nodup, hc.fresh, hc.len, fun hfst a h'' hs hag => ?_⟩
  · have := hc.range x hx; omega
  · refine hc.good hfst a h'' hs (fun cd hcd => ?_)
    rw [hag cd hcd, heq _ (zip_mem_left hcd)]

/-- A model evaluation is unaffected by values of cells that are not user parameters. -/
theorem run_eq_fresh [DecidableEq V] (f : M → A → (Nat → V) → Res R) (decl : M → List Nat) (same : A → A → Bool)
    (a0 : A) (n0 : Nat)
    (hf : ∀ m a h, (f m a h).isOk = true) (honly : OnlyDeclared f decl)
    (hsame : ∀ a b, same a b = true → ∀ m h, f m a h = f m b h)
    (hdecl : ∀ m, ∀ p ∈ decl m, p < n0)
    (ops : List (Op A V)) :
    ∀ (pre : List (Op A V)) (w : World M A R V) (h : Nat → V),
      CopiesUnused (pre ++ ops) →
      (∀ i a, Op.call i a ∈ ops → same a0 a = false) →
      (∀ p v, Op.set p v ∈ ops → p < n0) →
      Inv f decl same a0 n0 pre w → (∀ x, x < n0 → w.heap x = h x) →
      run f decl same w ops = fresh f h (w.closures.map (·.model)) ops := by
  induction ops with
  | nil => intros; simp [run, fresh]
  | cons op ops ih =>
    intro pre w h hcop hcall hset hinv hheap
    have hcop' : CopiesUnused ((pre ++ [op]) ++ ops) := by simpa using hcop
    have hcall' : ∀ i a, Op.call i a ∈ ops → same a0 a = false := fun i a hm => hcall i a (List.mem_cons_of_mem _ hm)
    have hset' : ∀ p v, Op.set p v ∈ ops → p < n0 := fun p v hm => hset p v (List.mem_cons_of_mem _ hm)
    have unused_mono : ∀ (i : Nat) (hi : i < w.closures.length), (∀ a, Op.call i a ∉ pre ++ [op]) →
        w.closures[i].first = true := by
      intro i hi hno
      apply hinv.unused i hi
      intro a hm
      exact hno a (List.mem_append_left _ hm)
    cases op with
    | enable =>
      simp only [run, step, fresh, List.cons.injEq, true_and]
      exact ih _ { w with enabled := true } h hcop' hcall' hset' ⟨hinv.next, hinv.objs, hinv.disj, unused_mono⟩ hheap
    | disable =>
      simp only [run, step, fresh, List.cons.injEq, true_and]
      exact ih _ { w with enabled := false } h hcop' hcall' hset' ⟨hinv.next, hinv.objs, hinv.disj, unused_mono⟩ hheap
    | set p v =>
      simp only [run, step, fresh, List.cons.injEq, true_and]
      have hp : p < n0 := hset p v List.mem_cons_self
      refine ih _ { w with heap := put w.heap p v } _ hcop' hcall' hset' ⟨hinv.next, ?_, hinv.disj, unused_mono⟩ ?_
      · intro i hi
        refine (hinv.objs i hi).frame (Nat.le_refl _) (fun x hx => ?_)
        have := ((hinv.objs i hi).range x hx).1
        simp only [put]
        rw [if_neg (by omega)]
      · intro x hx
        simp only [put]
        split
        · rfl
        · exact hheap x hx
    | copy i =>
      by_cases hi : i < w.closures.length
      · simp only [run, step, fresh, List.getElem?_eq_getElem hi, List.cons.injEq, true_and]
        have hunused : ∀ a, Op.call i a ∉ pre := hcop pre i ops rfl
        have hfst := hinv.unused i hi hunused
        have hempty := ((hinv.objs i hi).fresh hfst).1
        have hmodels : (w.closures.map (·.model)) ++ ((w.closures.map (·.model))[i]?).toList =
            (w.closures ++ [w.closures[i]]).map (·.model) := by
          simp [hi]
        rw [hmodels]
        refine ih _ { w with closures := w.closures ++ [w.closures[i]] } h hcop' hcall' hset'
          ⟨hinv.next, ?_, ?_, ?_⟩ hheap
        · intro j hj
          simp only [List.length_append, List.length_singleton] at hj
          by_cases hjl : j < w.closures.length
          · simpa [List.getElem_append_left hjl] using hinv.objs j hjl
          · have : j = w.closures.length := by omega
            subst this
            simpa using hinv.objs i hi
        · intro j k hj hk hjk x hx hx'
          simp only [List.length_append, List.length_singleton] at hj hk
          by_cases hjl : j < w.closures.length
          · simp only [List.getElem_append_left hjl] at hx
            by_cases hkl : k < w.closures.length
            · simp only [List.getElem_append_left hkl] at hx'
              exact hinv.disj j k hjl hkl hjk x hx hx'
            · have : k = w.closures.length := by omega
              subst this
              simp [hempty] at hx'
          · have : j = w.closures.length := by omega
            subst this
            simp [hempty] at hx
        · intro j hj hno
          simp only [List.length_append, List.length_singleton] at hj
          by_cases hjl : j < w.closures.length
          · simpa [List.getElem_append_left hjl] using unused_mono j hjl hno
          · have : j = w.closures.length := by omega
            subst this
            simpa using hfst
      · have h0 : w.closures[i]? = none := List.getElem?_eq_none (by omega)
        simp only [run, step, fresh, h0, List.cons.injEq, true_and]
        have : (w.closures.map (·.model))[i]? = none := by simp; omega
        rw [this]
        simp only [Option.toList, List.append_nil]
        exact ih _ w h hcop' hcall' hset' ⟨hinv.next, hinv.objs, hinv.disj, unused_mono⟩ hheap
    | call i a =>
      by_cases hi : i < w.closures.length
      · have hsp := callModel_spec f decl same a0 n0 hf honly hsame hdecl w hinv.next w.closures[i] a
          (hcall i a List.mem_cons_self) (hinv.objs i hi)
        simp only [run, step, fresh, List.getElem?_eq_getElem hi]
        generalize hres : callModel f decl same w w.closures[i] a = res at hsp
        obtain ⟨h1, n1, c1, r1⟩ := res
        simp only at hsp
        obtain ⟨hr, hle, hobj, hmodel, huser, hmem, hframe⟩ := hsp
        have hlen : (w.closures.set i c1).length = w.closures.length := by simp
        have hget : ∀ j (hj : j < (w.closures.set i c1).length),
            (w.closures.set i c1)[j] = if i = j then c1 else w.closures[j]'(by simpa using hj) := by
          intro j hj
          exact List.getElem_set (h := hj)
        have hbelow : ∀ j (hj : j < w.closures.length), j ≠ i → ∀ x ∈ w.closures[j].cacheCells, h1 x = w.heap x := by
          intro j hj hji x hx
          exact hframe x ((hinv.objs j hj).range x hx).2 (fun hx' => hinv.disj j i hj hi hji x hx hx')
        refine List.cons_eq_cons.2 ⟨?_, ?_⟩
        · rw [List.getElem?_map, List.getElem?_eq_getElem hi, Option.map_some, Option.map_some, hr]
          congr 1
          exact honly _ _ _ _ (fun p hp => hheap p (hdecl _ p hp))
        · have hmodels : w.closures.map (·.model) = (w.closures.set i c1).map (·.model) := by
            apply List.ext_getElem
            · simp
            · intro j h1 h2
              simp only [List.getElem_map]
              rw [hget j (by simpa using h2)]
              split
              · subst_vars; exact hmodel.symm
              · rfl
          rw [hmodels]
          refine ih _ { w with heap := h1, next := n1, closures := w.closures.set i c1 } h hcop' hcall' hset'
            ⟨Nat.le_trans hinv.next hle, ?_, ?_, ?_⟩ ?_
          · intro j hj
            have hj0 : j < w.closures.length := by simpa using hj
            simp only
            rw [hget j hj]
            split
            · exact hobj
            · rename_i hij
              exact (hinv.objs j hj0).frame hle (hbelow j hj0 (fun h => hij h.symm))
          · intro j k hj hk hjk x hx hx'
            have hj0 : j < w.closures.length := by simpa using hj
            have hk0 : k < w.closures.length := by simpa using hk
            simp only at hx hx'
            rw [hget j hj] at hx
            rw [hget k hk] at hx'
            by_cases hij : i = j
            · subst hij
              have hik : ¬ i = k := hjk
              simp only [if_true] at hx
              rw [if_neg hik] at hx'
              rcases hmem x hx with h | h
              · exact hinv.disj i k hi hk0 hik x h hx'
              · have := ((hinv.objs k hk0).range x hx').2
                omega
            · rw [if_neg hij] at hx
              by_cases hik : i = k
              · subst hik
                simp only [if_true] at hx'
                rcases hmem x hx' with h | h
                · exact hinv.disj j i hj0 hi hjk x hx h
                · have := ((hinv.objs j hj0).range x hx).2
                  omega
              · rw [if_neg hik] at hx'
                exact hinv.disj j k hj0 hk0 hjk x hx hx'
          · intro j hj hno
            have hj0 : j < w.closures.length := by simpa using hj
            simp only
            rw [hget j hj]
            split
            · rename_i hij
              subst hij
              exact absurd (by simp) (hno a)
            · exact unused_mono j hj0 hno
          · intro x hx
            show h1 x = h x
            rw [huser x hx]
            exact hheap x hx
      · have h0 : w.closures[i]? = none := List.getElem?_eq_none (by omega)
        have h1 : (w.closures.map (·.model))[i]? = none := by simp; omega
        simp only [run, step, fresh, h0, h1, Option.map_none, List.cons.injEq, true_and]
        exact ih _ w h hcop' hcall' hset' ⟨hinv.next, hinv.objs, hinv.disj, unused_mono⟩ hheap

end Verif.ModelMemo
