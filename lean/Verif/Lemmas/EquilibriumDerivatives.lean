import Verif.Spec.EquilibriumDerivatives

/-!
# Lemmas for C100
-/

namespace Verif.EquilibriumDerivatives

open EquilibriumProps (Dual)

noncomputable section

variable {Nn Nq Np Nw Nu : Nat}

/-- The variables when the derivative with respect to one of them is taken: those before have no derivative, those after still have theirs. -/
def seededAt {N : Nat} (x : Fin N → Dual ℝ) (k : Fin N) : Fin N → Dual ℝ :=
  fun j => ⟨(x j).val, if j = k then 1 else if j < k then 0 else (x j).grad⟩

theorem mem_before {N : Nat} {done l : List (Fin N)} {k : Fin N} (h : done ++ k :: l = List.finRange N) (j : Fin N) : j ∈ done ↔ j < k := by
  have hs := List.pairwise_lt_finRange N
  rw [← h, List.pairwise_append] at hs
  refine ⟨fun hj => hs.2.2 j hj k (by simp), fun hj => ?_⟩
  have hm : j ∈ done ++ k :: l := by rw [h]; exact List.mem_finRange j
  rw [List.mem_append, List.mem_cons] at hm
  rcases hm with hm | rfl | hm
  · exact hm
  · exact absurd hj (lt_irrefl _)
  · have := (List.pairwise_cons.1 hs.2.1).1 j hm
    exact absurd (lt_trans hj this) (lt_irrefl _)

open Classical in
theorem jacobian_fold {N m : Nat} {S : Type} (U : S → (Fin N → Dual ℝ) → S) (Φ : (Fin N → Dual ℝ) → Fin m → Dual ℝ) (x : Fin N → Dual ℝ) :
    ∀ (l done : List (Fin N)) (s : S) (J : Fin m → Fin N → ℝ), done ++ l = List.finRange N →
      let step := fun (a : S × (Fin N → Dual ℝ) × (Fin m → Fin N → ℝ)) (j : Fin N) =>
        let x1 := seed a.2.1 j 1
        let r := (U a.1 x1, Φ x1)
        (r.1, seed x1 j 0, fun i => Function.update (a.2.2 i) j (r.2 i).grad)
      let r := l.foldl step (s, (fun j => ⟨(x j).val, if j ∈ done then 0 else (x j).grad⟩), J)
      r.1 = l.foldl (fun s k => U s (seededAt x k)) s ∧ ∀ i k, r.2.2 i k = if k ∈ l then (Φ (seededAt x k) i).grad else J i k := by
  intro l
  induction l with
  | nil => intro done s J _; simp
  | cons k l ih =>
    intro done s J h
    intro step
    have hb := mem_before h
    have hx1 : seed (fun j => (⟨(x j).val, if j ∈ done then 0 else (x j).grad⟩ : Dual ℝ)) k 1 = seededAt x k := by
      funext j
      unfold seed seededAt
      by_cases hj : j = k
      · subst hj; simp
      · rw [Function.update_of_ne hj]
        simp [hj, hb]
    have hx2 : seed (seededAt x k) k 0 = fun j => (⟨(x j).val, if j ∈ done ++ [k] then 0 else (x j).grad⟩ : Dual ℝ) := by
      funext j
      unfold seed seededAt
      by_cases hj : j = k
      · subst hj; simp
      · rw [Function.update_of_ne hj]
        simp [hj, hb]
    have e : step (s, (fun j => ⟨(x j).val, if j ∈ done then 0 else (x j).grad⟩), J) k =
        (U s (seededAt x k), (fun j => ⟨(x j).val, if j ∈ done ++ [k] then 0 else (x j).grad⟩), fun i => Function.update (J i) k (Φ (seededAt x k) i).grad) := by
      show (_, _, _) = _
      dsimp only
      rw [hx1, hx2]
    have := ih (done ++ [k]) (U s (seededAt x k)) (fun i => Function.update (J i) k (Φ (seededAt x k) i).grad) (by simpa using h)
    simp only [List.foldl_cons]
    rw [e]
    refine ⟨this.1, fun i j => ?_⟩
    rw [this.2 i j]
    have hk : k ∉ l := by
      have := List.nodup_finRange N
      rw [← h] at this
      exact (List.nodup_cons.1 (List.nodup_append.1 this).2.1).1
    by_cases hj : j = k
    · subst hj; simp [hk]
    · simp [hj]

theorem jacobian_eq {N m : Nat} {S : Type} (U : S → (Fin N → Dual ℝ) → S) (Φ : (Fin N → Dual ℝ) → Fin m → Dual ℝ) (s : S) (x : Fin N → Dual ℝ) :
    jacobian (fun s x => (U s x, Φ x)) s x =
      ((List.finRange N).foldl (fun s k => U s (seededAt x k)) s, fun i k => (Φ (seededAt x k) i).grad) := by
  obtain ⟨h1, h2⟩ := jacobian_fold U Φ x (List.finRange N) [] s (fun _ _ => 0) rfl
  refine Prod.ext ?_ ?_
  · exact h1
  · funext i k
    have := h2 i k
    rw [if_pos (List.mem_finRange k)] at this
    exact this

/-! ### Evaluation with one derivative -/

/-- What derivatives left in the inputs add. -/
def stale (w : Fin Nw → Dual ℝ) (d : Var Nn Np Nw → ℝ) : ℝ := ∑ l, d (Sum.inr (Sum.inr l)) * (w l).grad

/-- The same for the inputs after one of them. -/
def staleAfter (w : Fin Nw → Dual ℝ) (k : Fin Nw) (d : Var Nn Np Nw → ℝ) : ℝ :=
  ∑ l, if k < l then d (Sum.inr (Sum.inr l)) * (w l).grad else 0

theorem vals_eq (r : Request Nn Nq Np) (w : Fin Nw → Dual ℝ) :
    (fun k => (vars (fun i => plain (r.x i)) (fun i => plain (r.p i)) w k).val) = point (fun k => (w k).val) r := by
  funext k
  rcases k with k | k | k <;> rfl

theorem evalX (F : Fun (Var Nn Np Nw)) (r : Request Nn Nq Np) (w : Fin Nw → Dual ℝ) (k : Fin (Nn + Nq)) :
    (F.eval (vars (seededAt (fun i => plain (r.x i)) k) (fun i => plain (r.p i)) w)).grad =
      Fin.addCases (fun j => F.d (point (fun k => (w k).val) r) (Sum.inl j)) (fun _ => 0) k + stale w (F.d (point (fun k => (w k).val) r)) := by
  have hv : (fun k' => (vars (seededAt (fun i => plain (r.x i)) k) (fun i => plain (r.p i)) w k').val) = point (fun k => (w k).val) r := by
    funext k'; rcases k' with k' | k' | k' <;> rfl
  unfold Fun.eval
  dsimp only
  rw [hv]
  generalize F.d (point (fun k => (w k).val) r) = d
  rw [Fintype.sum_sum_type, Fintype.sum_sum_type]
  have e2 : ∑ i : Fin Np, d (Sum.inr (Sum.inl i)) * (vars (seededAt (fun i => plain (r.x i)) k) (fun i => plain (r.p i)) w (Sum.inr (Sum.inl i))).grad = 0 := by
    refine Finset.sum_eq_zero fun i _ => ?_
    simp [vars, plain]
  rw [e2, zero_add]
  congr 1
  have e1 : ∀ i : Fin Nn, (vars (seededAt (fun i => plain (r.x i)) k) (fun i => plain (r.p i)) w (Sum.inl i)).grad = if Fin.castAdd Nq i = k then 1 else 0 := by
    intro i
    simp only [vars, Sum.elim_inl, seededAt, plain, ite_self]
  refine (Finset.sum_congr rfl fun i _ => by rw [e1 i]).trans ?_
  refine Fin.addCases (fun j => ?_) (fun j => ?_) k
  · simp [Fin.castAdd_inj]
  · rw [Fin.addCases_right]
    refine Finset.sum_eq_zero fun i _ => ?_
    rw [if_neg, mul_zero]
    intro h
    have := congrArg Fin.val h
    simp at this
    omega

theorem evalP (F : Fun (Var Nn Np Nw)) (r : Request Nn Nq Np) (w : Fin Nw → Dual ℝ) (k : Fin Np) :
    (F.eval (vars (fun i => plain (r.x i)) (seededAt (fun i => plain (r.p i)) k) w)).grad =
      F.d (point (fun k => (w k).val) r) (Sum.inr (Sum.inl k)) + stale w (F.d (point (fun k => (w k).val) r)) := by
  have hv : (fun k' => (vars (fun i => plain (r.x i)) (seededAt (fun i => plain (r.p i)) k) w k').val) = point (fun k => (w k).val) r := by
    funext k'; rcases k' with k' | k' | k' <;> rfl
  unfold Fun.eval
  dsimp only
  rw [hv]
  generalize F.d (point (fun k => (w k).val) r) = d
  rw [Fintype.sum_sum_type, Fintype.sum_sum_type]
  have e1 : ∑ i : Fin Nn, d (Sum.inl i) * (vars (fun i => plain (r.x i)) (seededAt (fun i => plain (r.p i)) k) w (Sum.inl i)).grad = 0 := by
    refine Finset.sum_eq_zero fun i _ => ?_
    simp [vars, plain]
  rw [e1, zero_add]
  congr 1
  have e2 : ∀ i : Fin Np, (vars (fun i => plain (r.x i)) (seededAt (fun i => plain (r.p i)) k) w (Sum.inr (Sum.inl i))).grad = if i = k then 1 else 0 := by
    intro i
    simp only [vars, Sum.elim_inr, Sum.elim_inl, seededAt, plain, ite_self]
  refine (Finset.sum_congr rfl fun i _ => by rw [e2 i]).trans ?_
  simp

theorem evalW (F : Fun (Var Nn Np Nw)) (r : Request Nn Nq Np) (w : Fin Nw → Dual ℝ) (k : Fin Nw) :
    (F.eval (vars (fun i => plain (r.x i)) (fun i => plain (r.p i)) (seededAt w k))).grad =
      F.d (point (fun k => (w k).val) r) (Sum.inr (Sum.inr k)) + staleAfter w k (F.d (point (fun k => (w k).val) r)) := by
  have hv : (fun k' => (vars (fun i => plain (r.x i)) (fun i => plain (r.p i)) (seededAt w k) k').val) = point (fun k => (w k).val) r := by
    funext k'; rcases k' with k' | k' | k' <;> rfl
  unfold Fun.eval
  dsimp only
  rw [hv]
  generalize F.d (point (fun k => (w k).val) r) = d
  rw [Fintype.sum_sum_type, Fintype.sum_sum_type]
  have e1 : ∑ i : Fin Nn, d (Sum.inl i) * (vars (fun i => plain (r.x i)) (fun i => plain (r.p i)) (seededAt w k) (Sum.inl i)).grad = 0 := by
    refine Finset.sum_eq_zero fun i _ => ?_
    simp [vars, plain]
  have e2 : ∑ i : Fin Np, d (Sum.inr (Sum.inl i)) * (vars (fun i => plain (r.x i)) (fun i => plain (r.p i)) (seededAt w k) (Sum.inr (Sum.inl i))).grad = 0 := by
    refine Finset.sum_eq_zero fun i _ => ?_
    simp [vars, plain]
  rw [e1, e2, zero_add, zero_add]
  have e3 : d (Sum.inr (Sum.inr k)) = ∑ l, if l = k then d (Sum.inr (Sum.inr l)) else 0 := by simp
  rw [e3, staleAfter, ← Finset.sum_add_distrib]
  refine Finset.sum_congr rfl fun l _ => ?_
  simp only [vars, Sum.elim_inr, seededAt]
  rcases lt_trichotomy l k with h | h | h
  · simp [h, h.ne, h.le.not_gt]
  · subst h; simp
  · simp [h, h.ne', h.le.not_gt]

/-! ### Answers -/

/-- The matrices for arbitrary inputs. -/
def matX {m : Nat} (F : Fin m → Fun (Var Nn Np Nw)) (w : Fin Nw → Dual ℝ) (r : Request Nn Nq Np) : Fin m → Fin (Nn + Nq) → ℝ := fun i k =>
  Fin.addCases (fun j => (F i).d (point (fun k => (w k).val) r) (Sum.inl j)) (fun _ => 0) k + stale w ((F i).d (point (fun k => (w k).val) r))

def matP {m : Nat} (F : Fin m → Fun (Var Nn Np Nw)) (w : Fin Nw → Dual ℝ) (r : Request Nn Nq Np) : Fin m → Fin Np → ℝ := fun i k =>
  (F i).d (point (fun k => (w k).val) r) (Sum.inr (Sum.inl k)) + stale w ((F i).d (point (fun k => (w k).val) r))

def matW {m : Nat} (F : Fin m → Fun (Var Nn Np Nw)) (w : Fin Nw → Dual ℝ) (r : Request Nn Nq Np) : Fin m → Fin Nw → ℝ := fun i k =>
  (F i).d (point (fun k => (w k).val) r) (Sum.inr (Sum.inr k)) + staleAfter w k ((F i).d (point (fun k => (w k).val) r))

/-- The evaluations of a jacobian. -/
def foldX (pb : Problem Nn Nq Np Nw Nu) (w : Fin Nw → Dual ℝ) (r : Request Nn Nq Np) (s : Setup Nn Np Nw Nu) : Setup Nn Np Nw Nu :=
  (List.finRange (Nn + Nq)).foldl (fun s k => update pb s (vars (seededAt (fun i => plain (r.x i)) k) (fun i => plain (r.p i)) w)) s

def foldP (pb : Problem Nn Nq Np Nw Nu) (w : Fin Nw → Dual ℝ) (r : Request Nn Nq Np) (s : Setup Nn Np Nw Nu) : Setup Nn Np Nw Nu :=
  (List.finRange Np).foldl (fun s k => update pb s (vars (fun i => plain (r.x i)) (seededAt (fun i => plain (r.p i)) k) w)) s

def foldW (pb : Problem Nn Nq Np Nw Nu) (w : Fin Nw → Dual ℝ) (r : Request Nn Nq Np) (s : Setup Nn Np Nw Nu) : Setup Nn Np Nw Nu :=
  (List.finRange Nw).foldl (fun s k => update pb s (vars (fun i => plain (r.x i)) (fun i => plain (r.p i)) (seededAt w k))) s

variable (pb : Problem Nn Nq Np Nw Nu) (w : Fin Nw → Dual ℝ) (r : Request Nn Nq Np) (s : Setup Nn Np Nw Nu)

theorem hessianX_eq : hessianX pb s (fun i => plain (r.x i)) (fun i => plain (r.p i)) w = (foldX pb w r s, matX pb.g w r) := by
  unfold hessianX gradX
  rw [jacobian_eq (fun s x => update pb s (vars x (fun i => plain (r.p i)) w)) (fun x i => (pb.g i).eval (vars x (fun i => plain (r.p i)) w))]
  refine Prod.ext rfl ?_
  funext i k
  exact evalX _ _ _ _

theorem hessianP_eq : hessianP pb s (fun i => plain (r.x i)) (fun i => plain (r.p i)) w = (foldP pb w r s, matP pb.g w r) := by
  unfold hessianP gradX
  rw [jacobian_eq (fun s p => update pb s (vars (fun i => plain (r.x i)) p w)) (fun p i => (pb.g i).eval (vars (fun i => plain (r.x i)) p w))]
  refine Prod.ext rfl ?_
  funext i k
  exact evalP _ _ _ _

theorem hessianW_eq : hessianW pb s (fun i => plain (r.x i)) (fun i => plain (r.p i)) w = (foldW pb w r s, matW pb.g w r) := by
  unfold hessianW gradX
  rw [jacobian_eq (fun s w => update pb s (vars (fun i => plain (r.x i)) (fun i => plain (r.p i)) w))
    (fun w i => (pb.g i).eval (vars (fun i => plain (r.x i)) (fun i => plain (r.p i)) w))]
  refine Prod.ext rfl ?_
  funext i k
  exact evalW _ _ _ _

theorem constraintsX_eq : constraintsX pb s (fun i => plain (r.x i)) (fun i => plain (r.p i)) w = (foldX pb w r s, matX pb.v w r) := by
  unfold constraintsX constraints
  rw [jacobian_eq (fun s x => update pb s (vars x (fun i => plain (r.p i)) w)) (fun x i => (pb.v i).eval (vars x (fun i => plain (r.p i)) w))]
  refine Prod.ext rfl ?_
  funext i k
  exact evalX _ _ _ _

theorem constraintsP_eq : constraintsP pb s (fun i => plain (r.x i)) (fun i => plain (r.p i)) w = (foldP pb w r s, matP pb.v w r) := by
  unfold constraintsP constraints
  rw [jacobian_eq (fun s p => update pb s (vars (fun i => plain (r.x i)) p w)) (fun p i => (pb.v i).eval (vars (fun i => plain (r.x i)) p w))]
  refine Prod.ext rfl ?_
  funext i k
  exact evalP _ _ _ _

theorem constraintsW_eq : constraintsW pb s (fun i => plain (r.x i)) (fun i => plain (r.p i)) w = (foldW pb w r s, matW pb.v w r) := by
  unfold constraintsW constraints
  rw [jacobian_eq (fun s w => update pb s (vars (fun i => plain (r.x i)) (fun i => plain (r.p i)) w))
    (fun w i => (pb.v i).eval (vars (fun i => plain (r.x i)) (fun i => plain (r.p i)) w))]
  refine Prod.ext rfl ?_
  funext i k
  exact evalW _ _ _ _

/-- The set-up after the derivatives. -/
def derivs (s : Setup Nn Np Nw Nu) : Setup Nn Np Nw Nu :=
  let s := if r.dx then foldX pb w r s else s
  let s := if r.dp then foldP pb w r s else s
  if r.dw then foldW pb w r s else s

theorem answer_eq : answer pb w s r =
    let s0 := update pb s (vars (fun i => plain (r.x i)) (fun i => plain (r.p i)) w)
    if r.objective then
      let s1 := update pb s0 (vars (fun i => plain (r.x i)) (fun i => plain (r.p i)) w)
      let s2 := derivs pb w r (if r.dw then { s1 with recording := true } else s1)
      (if r.dw then { s2 with recording := false } else s2,
        .objective (pb.f (point (fun k => (w k).val) r)) (fun i => (pb.g i).f (point (fun k => (w k).val) r))
          (if r.dx then some (matX pb.g w r) else none) (if r.dp then some (matP pb.g w r) else none) (if r.dw then some (matW pb.g w r) else none))
    else (derivs pb w r s0,
      .constraints (fun i => (pb.v i).f (point (fun k => (w k).val) r))
        (if r.dx then some (matX pb.v w r) else none) (if r.dp then some (matP pb.v w r) else none) (if r.dw then some (matW pb.v w r) else none)) := by
  unfold answer derivs
  cases r.objective <;> cases hx : r.dx <;> cases hp : r.dp <;> cases hw : r.dw <;>
    simp [when, hessianX_eq, hessianP_eq, hessianW_eq, constraintsX_eq, constraintsP_eq, constraintsW_eq, gradX, constraints, Fun.eval, vals_eq]

/-! ### Temperature and pressure after an answer -/

theorem update_T (v : Var Nn Np Nw → Dual ℝ) : (update pb s v).T = v (Sum.inr pb.iT) := by
  unfold update
  dsimp only
  split
  · split <;> rfl
  · rfl

theorem update_P (v : Var Nn Np Nw → Dual ℝ) : (update pb s v).P = v (Sum.inr pb.iP) := by
  unfold update
  dsimp only
  split
  · split <;> rfl
  · rfl

theorem update_rec (v : Var Nn Np Nw → Dual ℝ) : (update pb s v).recording = s.recording := by
  unfold update
  dsimp only
  split
  · split <;> rfl
  · rfl

/-- The variable at the end of a fold of updates. -/
theorem fold_last {N : Nat} (V : Fin N → Var Nn Np Nw → Dual ℝ) :
    ((List.finRange N).foldl (fun s k => update pb s (V k)) s).T = (if h : 0 < N then V ⟨N - 1, by omega⟩ (Sum.inr pb.iT) else s.T) ∧
      ((List.finRange N).foldl (fun s k => update pb s (V k)) s).P = if h : 0 < N then V ⟨N - 1, by omega⟩ (Sum.inr pb.iP) else s.P := by
  cases N with
  | zero => simp
  | succ N =>
    rw [List.finRange_succ_last, List.foldl_append]
    simp only [List.foldl_cons, List.foldl_nil, update_T, update_P]
    simp [Fin.last]

end
end Verif.EquilibriumDerivatives
