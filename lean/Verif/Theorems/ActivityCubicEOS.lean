import Verif.Spec.ActivityCubicEOS
import Verif.Theorems.CubicEOSFugacity
import Verif.Theorems.CubicEOSPhase
import Verif.Theorems.CriticalProps

/-!
# C92: fluids with cubic equations of state
-/

namespace Verif.ActivityCubicEOS

open CubicEOS Registries Filter Topology

/-! ## Construction -/

theorem lookup_firstWith {registry : List Substance} {c : Str} {s : Substance} (h : lookup registry c = some s) :
    ∃ pre post, registry = pre ++ s :: post ∧ c ∈ s.names ∧ ∀ t ∈ pre, c ∉ t.names := by
  induction registry with
  | nil => rw [lookup_eq] at h; cases h
  | cons t l ih =>
    rw [lookup_cons] at h
    split_ifs at h with ht
    · injection h with h
      subst h
      exact ⟨[], l, rfl, ht, by simp⟩
    · obtain ⟨pre, post, h1, h2, h3⟩ := ih h
      refine ⟨t :: pre, post, by rw [h1]; rfl, h2, fun u hu => ?_⟩
      rcases List.mem_cons.1 hu with rfl | hu
      · exact ht
      · exact h3 u hu

theorem get_cases {registry : List Substance} {name : Str} {o : Option Substance} (h : getSubstance registry name = .ok o) :
    (∃ s, o = some s ∧ FirstWith registry name s) ∨ (o = none ∧ NoneWith registry name) := by
  unfold getSubstance at h
  cases hc : correctName name with
  | throw => rw [hc] at h; cases h
  | ub => rw [hc] at h; cases h
  | ok c =>
    rw [hc] at h
    injection h with h
    cases o with
    | some s =>
      obtain ⟨pre, post, h1, h2, h3⟩ := lookup_firstWith h
      exact Or.inl ⟨s, rfl, c, pre, post, hc, h1, h2, h3⟩
    | none => exact Or.inr ⟨rfl, c, hc, lookup_none.1 h⟩

theorem critical_spec {registry : List Substance} {s : Sp} {d : Data} (h : critical registry s = .ok d) : CriticalOf registry s d := by
  unfold critical getSubstanceAny getSubstanceAny getSubstanceAny getSubstanceAny at h
  cases h1 : getSubstance registry s.substance with
  | throw => rw [h1] at h; cases h
  | ub => rw [h1] at h; cases h
  | ok o1 =>
    rw [h1] at h
    rcases get_cases h1 with ⟨c, rfl, f1⟩ | ⟨rfl, n1⟩
    · injection h with h
      exact ⟨c, h, Or.inl f1⟩
    · cases h2 : getSubstance registry s.formula with
      | throw => rw [h2] at h; cases h
      | ub => rw [h2] at h; cases h
      | ok o2 =>
        rw [h2] at h
        rcases get_cases h2 with ⟨c, rfl, f2⟩ | ⟨rfl, n2⟩
        · injection h with h
          exact ⟨c, h, Or.inr ⟨n1, Or.inl f2⟩⟩
        · cases h3 : getSubstance registry s.name with
          | throw => rw [h3] at h; cases h
          | ub => rw [h3] at h; cases h
          | ok o3 =>
            rw [h3] at h
            rcases get_cases h3 with ⟨c, rfl, f3⟩ | ⟨rfl, n3⟩
            · injection h with h
              exact ⟨c, h, Or.inr ⟨n1, Or.inr ⟨n2, f3⟩⟩⟩
            · cases h

theorem mapM_ok {α β : Type} {f : α → Res β} {l : List α} {r : List β} (h : l.mapM (m := Res) f = .ok r) :
    r.length = l.length ∧ ∀ i (hi : i < l.length) (hr : i < r.length), f l[i] = .ok r[i] := by
  induction l generalizing r with
  | nil =>
    rw [List.mapM_nil] at h
    injection h with h
    subst h
    exact ⟨rfl, fun i hi => absurd hi (by simp)⟩
  | cons a l ih =>
    rw [List.mapM_cons] at h
    obtain ⟨b, hb, h⟩ := Res.bind_eq_ok.1 h
    obtain ⟨bs, hbs, h⟩ := Res.bind_eq_ok.1 h
    injection h with h
    subst h
    obtain ⟨h1, h2⟩ := ih hbs
    refine ⟨by simp [h1], fun i hi hr => ?_⟩
    cases i with
    | zero => exact hb
    | succ i => exact h2 i (by simpa using hi) (by simpa using hr)

/-- **C92 (construction).** When the model is built, the critical properties of every species are those registered for its substance, else for its formula,
else for its name; the first species is a gas and the fluid a vapor, or a liquid and the fluid a liquid; and the equation of state, the method of
identification and the interaction parameters are those given. -/
theorem C92_build (registry : List Substance) (kind : Kind) (method : Method) (species : List Sp) (ip : ℝ → Ip species.length)
    (e : Eos species.length) (h : build registry kind method species ip = .ok e) :
    (∀ i : Fin species.length, ∃ d : Data, CriticalOf registry species[i] d ∧ e.Tcr i = d.Tcr ∧ e.Pcr i = d.Pcr ∧ e.omega i = d.omega) ∧
    (∃ s rest, species = s :: rest ∧ (s.aggregate = .gas ∧ e.fluidtype = .vapor ∨ s.aggregate = .liquid ∧ e.fluidtype = .liquid)) ∧
    e.model = kind ∧ e.method = method ∧ e.interaction = ip := by
  unfold build at h
  cases hd : species.mapM (m := Res) (critical registry) with
  | throw => rw [hd] at h; cases h
  | ub => rw [hd] at h; cases h
  | ok data =>
    rw [hd] at h
    obtain ⟨h1, h2⟩ := mapM_ok hd
    cases hf : fluidOf species with
    | throw => rw [hf] at h; cases h
    | ub => rw [hf] at h; cases h
    | ok fluid =>
      rw [hf] at h
      injection h with h
      subst h
      refine ⟨fun i => ?_, ?_, rfl, rfl, rfl⟩
      · have hi : (i : Nat) < data.length := by rw [h1]; exact i.isLt
        have hg : data.getD i ⟨0, 0, 0⟩ = data[(i : Nat)] := by simp [List.getD, List.getElem?_eq_getElem hi]
        refine ⟨data[(i : Nat)], critical_spec (h2 i i.isLt hi), ?_, ?_, ?_⟩ <;> simp only [hg]
      · unfold fluidOf at hf
        split at hf
        · cases hf
        · next s rest =>
          refine ⟨s, rest, rfl, ?_⟩
          split at hf
          · next hs => injection hf with hf; exact Or.inl ⟨hs, hf.symm⟩
          · next hs => injection hf with hf; exact Or.inr ⟨hs, hf.symm⟩
          · cases hf

theorem mapM_throws {α β : Type} {f : α → Res β} {pre post : List α} {a : α} (hpre : ∀ b ∈ pre, ∃ r, f b = .ok r) (ha : f a = .throw) :
    (pre ++ a :: post).mapM (m := Res) f = .throw := by
  induction pre with
  | nil => rw [List.nil_append, List.mapM_cons, ha]; rfl
  | cons b pre ih =>
    obtain ⟨r, hr⟩ := hpre b (by simp)
    rw [List.cons_append, List.mapM_cons, hr, Res.ok_bind, ih fun c hc => hpre c (by simp [hc])]
    rfl

theorem get_none {registry : List Substance} {name : Str} (h : NoneWith registry name) : getSubstance registry name = .ok none := by
  obtain ⟨c, h1, h2⟩ := h
  unfold getSubstance
  rw [h1, Res.bind_ok', lookup_none.2 h2]

/-- **C92 (missing data).** A species for which nothing is registered is refused. -/
theorem C92_missing (registry : List Substance) (kind : Kind) (method : Method) (pre post : List Sp) (s : Sp)
    (ip : ℝ → Ip (pre ++ s :: post).length) (hpre : ∀ t ∈ pre, ∃ d, critical registry t = .ok d)
    (h1 : NoneWith registry s.substance) (h2 : NoneWith registry s.formula) (h3 : NoneWith registry s.name) :
    build registry kind method (pre ++ s :: post) ip = .throw := by
  have hc : critical registry s = .throw := by
    unfold critical getSubstanceAny getSubstanceAny getSubstanceAny getSubstanceAny
    rw [get_none h1, get_none h2, get_none h3]
    rfl
  unfold build
  rw [mapM_throws hpre hc]
  rfl

/-- **C92 fails** for phases of mixed species: only the aggregate state of the first species is looked at, so that any others are accepted after a gas. -/
theorem C92_mixed_wrong (registry : List Substance) (kind : Kind) (method : Method) (s : Sp) (rest : List Sp) (hs : s.aggregate = .gas)
    (hc : ∀ t ∈ s :: rest, ∃ d, critical registry t = .ok d) (states : Sp → Aggregate) (ip : ℝ → Ip (s :: rest.map fun t => { t with aggregate := states t }).length) :
    ∃ e, build registry kind method (s :: rest.map fun t => { t with aggregate := states t }) ip = .ok e ∧ e.fluidtype = .vapor := by
  have key : ∀ l : List Sp, (∀ t ∈ l, ∃ d, critical registry t = .ok d) → ∃ data, l.mapM (m := Res) (critical registry) = .ok data := by
    intro l hl
    induction l with
    | nil => exact ⟨[], rfl⟩
    | cons t l ih =>
      obtain ⟨d, hd⟩ := hl t (by simp)
      obtain ⟨ds, hds⟩ := ih fun u hu => hl u (by simp [hu])
      exact ⟨d :: ds, by rw [List.mapM_cons, hd, Res.ok_bind, hds]; rfl⟩
  obtain ⟨data, hdata⟩ := key (s :: rest.map fun t => { t with aggregate := states t }) (by
    intro t ht
    rcases List.mem_cons.1 ht with rfl | ht
    · exact hc _ (by simp)
    · obtain ⟨u, hu, rfl⟩ := List.mem_map.1 ht
      exact hc u (by simp [hu]))
  have hf : fluidOf (s :: rest.map fun t => { t with aggregate := states t }) = .ok .vapor := by
    simp only [fluidOf, hs]
  unfold build
  rw [hdata, hf]
  exact ⟨_, rfl, rfl⟩

/-- No species at all: the first one is read nevertheless. -/
theorem C92_empty_wrong (registry : List Substance) (kind : Kind) (method : Method) (ip : ℝ → Ip 0) :
    build registry kind method [] ip = .ub := rfl

/-! ## Evaluation -/

theorem sum_total {n m : Nat} (f : Fin m → Fin n) (x : Fin m → ℝ) (F : Fin n → ℝ) : ∑ j, total f x j * F j = ∑ i, x i * F (f i) := by
  unfold total
  simp only [Finset.sum_mul, ite_mul, zero_mul]
  rw [Finset.sum_comm]
  exact Finset.sum_congr rfl fun i _ => by simp

section Relabel

variable {n m : Nat} (f : Fin m → Fin n) (e : Eos n) (T P : ℝ) (x : Fin m → ℝ)

theorem r_relabel (i j : Fin m) : r (relabel f e) T i j = r e T (f i) (f j) := by
  unfold r relabel
  dsimp only
  cases (e.interaction T).k <;> rfl

theorem rT_relabel (i j : Fin m) : rT (relabel f e) T i j = rT e T (f i) (f j) := by
  unfold rT relabel
  dsimp only
  cases (e.interaction T).kT <;> rfl

theorem rTT_relabel (i j : Fin m) : rTT (relabel f e) T i j = rTT e T (f i) (f j) := by
  unfold rTT relabel
  dsimp only
  cases (e.interaction T).kTT <;> rfl

theorem aij_relabel (i j : Fin m) : aij (relabel f e) T i j = aij e T (f i) (f j) := by
  unfold aij; rw [r_relabel]; rfl

theorem aijT_relabel (i j : Fin m) : aijT (relabel f e) T i j = aijT e T (f i) (f j) := by
  unfold aijT; rw [r_relabel, rT_relabel]; rfl

theorem aijTT_relabel (i j : Fin m) : aijTT (relabel f e) T i j = aijTT e T (f i) (f j) := by
  unfold aijTT; rw [r_relabel, rT_relabel, rTT_relabel]; rfl

theorem double_sum (F : Fin n → Fin n → ℝ) :
    ∑ i, ∑ j, x i * x j * F (f i) (f j) = ∑ i, ∑ j, total f x i * total f x j * F i j := by
  have h1 : ∀ i, ∑ j, x i * x j * F (f i) (f j) = x i * ∑ j, total f x j * F (f i) j := by
    intro i
    rw [sum_total f x fun j => F (f i) j, Finset.mul_sum]
    exact Finset.sum_congr rfl fun j _ => by ring
  have h2 : ∀ i, ∑ j, total f x i * total f x j * F i j = total f x i * ∑ j, total f x j * F i j := by
    intro i
    rw [Finset.mul_sum]
    exact Finset.sum_congr rfl fun j _ => by ring
  simp only [h1, h2]
  rw [sum_total f x fun i => ∑ j, total f x j * F i j]

theorem amix_relabel : amix (relabel f e) T x = amix e T (total f x) := by
  unfold amix; simp only [aij_relabel]; exact double_sum f x (aij e T)

theorem amixT_relabel : amixT (relabel f e) T x = amixT e T (total f x) := by
  unfold amixT; simp only [aijT_relabel]; exact double_sum f x (aijT e T)

theorem amixTT_relabel : amixTT (relabel f e) T x = amixTT e T (total f x) := by
  unfold amixTT; simp only [aijTT_relabel]; exact double_sum f x (aijTT e T)

theorem abar_relabel (i : Fin m) : abar (relabel f e) T x i = abar e T (total f x) (f i) := by
  unfold abar
  rw [amix_relabel]
  simp only [aij_relabel]
  have h1 : ∑ j, 2 * x j * aij e T (f i) (f j) = ∑ j, x j * (2 * aij e T (f i) (f j)) :=
    Finset.sum_congr rfl fun j _ => by ring
  have h2 : ∑ j, 2 * total f x j * aij e T (f i) j = ∑ j, total f x j * (2 * aij e T (f i) j) :=
    Finset.sum_congr rfl fun j _ => by ring
  rw [h1, h2, sum_total f x fun j => 2 * aij e T (f i) j]

theorem bmix_relabel : bmix (relabel f e) x = bmix e (total f x) := by
  unfold bmix
  rw [sum_total f x (bbar e)]
  rfl

theorem beta_relabel : beta (relabel f e) T P x = beta e T P (total f x) := by
  unfold beta; rw [bmix_relabel]

theorem q_relabel : q (relabel f e) T x = q e T (total f x) := by
  unfold q; rw [bmix_relabel, amix_relabel]

theorem qT_relabel : qT (relabel f e) T x = qT e T (total f x) := by
  unfold qT; rw [q_relabel, amix_relabel, amixT_relabel]

theorem qTT_relabel : qTT (relabel f e) T x = qTT e T (total f x) := by
  unfold qTT; rw [q_relabel, qT_relabel, amix_relabel, amixT_relabel, amixTT_relabel]

theorem evaluate_relabel (props : Props n) (Z : ℝ) :
    evaluate (relabel f e) (relabelProps f props) T P x Z = relabelProps f (evaluate e props T P (total f x) Z) := by
  unfold evaluate betaT betaP relabelProps
  simp only [beta_relabel, q_relabel, qT_relabel, qTT_relabel, amix_relabel, bmix_relabel, abar_relabel]
  rfl

theorem identify_relabel (solve4 : List ℝ → List ℝ) (roots : List ℝ) :
    identify solve4 (relabel f e) T P x roots = identify solve4 e T P (total f x) roots := by
  unfold identify
  simp only [amix_relabel, bmix_relabel]
  rfl

theorem total_nonpos (hx : ∀ i, 0 ≤ x i) : (∀ i, x i ≤ 0) ↔ ∀ j, total f x j ≤ 0 := by
  constructor
  · intro h j
    refine Finset.sum_nonpos fun i _ => ?_
    split_ifs
    · exact h i
    · exact le_rfl
  · intro h i
    refine le_trans ?_ (h (f i))
    unfold total
    have := Finset.single_le_sum (f := fun k => if f k = f i then x k else 0) (s := Finset.univ)
      (fun k _ => by split_ifs; exacts [hx k, le_rfl]) (Finset.mem_univ i)
    simpa using this

theorem compute_relabel (solve3 : ℝ → ℝ → ℝ → List ℝ) (solve4 : List ℝ → List ℝ) (props : Props n) (hx : ∀ i, 0 ≤ x i) :
    compute solve3 solve4 (relabel f e) (relabelProps f props) T P x =
      (compute solve3 solve4 e props T P (total f x)).bind fun r => .ok (relabelProps f r) := by
  unfold compute
  by_cases h0 : ∀ i, x i ≤ 0
  · rw [if_pos h0, if_pos ((total_nonpos f x hx).1 h0)]; rfl
  · rw [if_neg h0, if_neg (fun h => h0 ((total_nonpos f x hx).2 h))]
    have h1 : (relabel f e).model = e.model := rfl
    have h2 : (relabel f e).fluidtype = e.fluidtype := rfl
    simp only [h1, h2, beta_relabel, q_relabel, identify_relabel, evaluate_relabel]
    split_ifs with hl
    · split
      · split_ifs <;> rfl
      · rfl
      · rfl
    · rfl

end Relabel

/-- **C92 (names and counting of species).** The properties do not depend on the order of the species, nor on whether species of the same kind are counted
together or separately: when species `i` of one fluid is species `f i` of another, and the fractions add up, both models return the same properties, species
`i` has the activity coefficient of species `f i`, and the sequence of later evaluations starts from the same state. This holds for all four equations of state
and all methods of identification of phases. -/
theorem C92_relabel {n m : Nat} (f : Fin m → Fin n) (e : Eos n) (solve3 : ℝ → ℝ → ℝ → List ℝ) (solve4 : List ℝ → List ℝ) (res : Props n)
    (T P : ℝ) (x : Fin m → ℝ) (hx : ∀ i, 0 ≤ x i) (res' : Props n) (y : Activity n)
    (h : eval solve3 solve4 e res T P (total f x) = .ok (res', y)) :
    ∃ z, eval solve3 solve4 (relabel f e) (relabelProps f res) T P x = .ok (relabelProps f res', z) ∧
      z.Vex = y.Vex ∧ z.VexT = y.VexT ∧ z.VexP = y.VexP ∧ z.Gex = y.Gex ∧ z.Hex = y.Hex ∧ z.Cpex = y.Cpex ∧ z.Cvex = y.Cvex ∧
      (∀ i, z.ln_g i = y.ln_g (f i)) ∧
      ∀ i, z.ln_a i - Real.log (x i) = y.ln_a (f i) - Real.log (total f x (f i)) := by
  unfold eval at h ⊢
  rw [compute_relabel f e T P x solve3 solve4 res hx]
  cases hc : compute solve3 solve4 e res T P (total f x) with
  | throw => rw [hc] at h; cases h
  | ub => rw [hc] at h; cases h
  | ok r =>
    rw [hc] at h
    injection h with h
    injection h with h1 h2
    subst h1 h2
    refine ⟨_, rfl, rfl, rfl, rfl, rfl, rfl, rfl, rfl, fun i => rfl, fun i => ?_⟩
    simp only [relabelProps]
    ring

/-- **C92 (fugacities).** The activity of a species that is present is its fugacity (fugacity coefficient times fraction times pressure) in bar. -/
theorem C92_fugacity {n : Nat} (e : Eos n) (solve3 : ℝ → ℝ → ℝ → List ℝ) (solve4 : List ℝ → List ℝ) (res : Props n)
    (T P : ℝ) (x : Fin n → ℝ) (hP : 0 < P) (i : Fin n) (hx : 0 < x i) (res' : Props n) (y : Activity n)
    (h : eval solve3 solve4 e res T P x = .ok (res', y)) :
    Real.exp (y.ln_a i) * 100000 = Real.exp (y.ln_g i) * x i * P := by
  unfold eval at h
  cases hc : compute solve3 solve4 e res T P x with
  | throw => rw [hc] at h; cases h
  | ub => rw [hc] at h; cases h
  | ok r =>
    rw [hc] at h
    injection h with h
    injection h with h1 h2
    subst h1 h2
    simp only
    rw [Real.exp_add, Real.exp_add, Real.exp_log hx, Real.exp_log (by positivity)]
    norm_num
    ring

/-- **C92 (excess properties).** In a state with the phase of the fluid, and along the roots of the equation of state that continue the one that is used, the excess
Gibbs energy and enthalpy meet the Gibbs-Helmholtz equation, the excess heat capacity is the derivative of the excess enthalpy, the heat capacity at constant
volume follows from the derivatives `VT`, `VP` of the volume, and the excess volume and its derivatives are those of the volume, less what the previous evaluation
left (which should be the ideal gas, see C48). -/
theorem C92_excess {n : Nat} (e : Eos n) (solve3 : ℝ → ℝ → ℝ → List ℝ) (solve4 : List ℝ → List ℝ) (res : Props n) (T P : ℝ) (x : Fin n → ℝ) (roots : List ℝ)
    (h : Accepted solve3 solve4 e T P x roots) (Z Z2 : ℝ → ℝ) (hZ : Z T = selectZ e.fluidtype roots) (hZ2 : Z2 P = selectZ e.fluidtype roots)
    (hA : Admissible e T) (hreg : Regular e T P x (Z T)) (hcT : ContinuousAt Z T) (hrootT : ∀ᶠ T in 𝓝 T, poly e T P x (Z T) = 0)
    (hcP : ContinuousAt Z2 P) (hrootP : ∀ᶠ P in 𝓝 P, poly e T P x (Z2 P) = 0) (hD : Simple e T P x (Z T)) :
    ∃ (res' : Props n) (y : Activity n) (G H : ℝ → ℝ) (VT VP : ℝ), eval solve3 solve4 e res T P x = .ok (res', y) ∧
      HasDerivAt (fun T => volume T P (Z T)) VT T ∧ HasDerivAt (fun P => volume T P (Z2 P)) VP P ∧
      y.Vex = volume T P (Z T) - res.Vres ∧ y.VexT = VT - res.VresT ∧ y.VexP = VP - res.VresP ∧
      y.Gex = G T ∧ y.Hex = H T ∧ HasDerivAt (fun T => G T / T) (-H T / T ^ 2) T ∧ HasDerivAt H y.Cpex T ∧
      y.Cvex = y.Cpex + R + T * VT ^ 2 / VP := by
  obtain ⟨g1, g2⟩ := C57_enthalpy e res T P x Z hA hreg hcT hrootT hD
  have dT := (C46_Z_derivatives e T P x hA hreg.P0 hreg.a hreg.b Z).1 hcT hrootT hD
  have dP := (C46_Z_derivatives e T P x hA hreg.P0 hreg.a hreg.b Z2).2 hcP hrootP (by rw [hZ2, ← hZ]; exact hD)
  have hT := hreg.T0
  have hP := hreg.P0
  have h1 : HasDerivAt (fun T => volume T P (Z T)) _ T := ((dT.mul_const R).mul (hasDerivAt_id T)).div_const P
  have h2 : HasDerivAt (fun P => volume T P (Z2 P)) _ P := ((dP.mul_const R).mul_const T).div (hasDerivAt_id P) hP
  rw [hZ2, ← hZ] at h2
  have e1 : ∀ ZT, ZT * (R * T / P) + Z T * (R * T / P / T) = (ZT * R * T + Z T * R * 1) / P := by intro ZT; field_simp
  have e2 : ∀ ZP, ZP * (R * T / P) + Z T * (-(R * T / P) / P) = (ZP * R * T * P - Z T * R * T * 1) / P ^ 2 := by intro ZP; field_simp; ring
  unfold eval
  rw [compute_accepted h res, ← hZ, Res.bind_ok']
  refine ⟨_, _, fun T => (evaluate e res T P x (Z T)).Gres, fun T => (evaluate e res T P x (Z T)).Hres, _, _, rfl, h1, h2, ?_, ?_, ?_, rfl, rfl, g1, g2, ?_⟩
  · show Z T * (R * T / P) - res.Vres = _
    unfold volume
    ring
  · show _ + Z T * (R * T / P / T) - res.VresT = _
    rw [e1]; rfl
  · show _ + Z T * (-(R * T / P) / P) - res.VresP = _
    rw [e2]
  · show (evaluate e res T P x (Z T)).Cpres + R + T * (_ + Z T * (R * T / P / T)) * (_ + Z T * (R * T / P / T)) / (_ + Z T * (-(R * T / P) / P)) = _
    rw [e1, e2]
    simp only [id]
    ring

/-- The hypotheses of `C92_excess` are met by a mixture of two species. -/
example : ∃ Z Z2 : ℝ → ℝ, Accepted (fun _ _ _ => [Ex.Z]) (fun _ => []) Ex.mix Ex.T Ex.P Ex.x [Ex.Z] ∧ Z Ex.T = selectZ Ex.mix.fluidtype [Ex.Z] ∧
    Z2 Ex.P = selectZ Ex.mix.fluidtype [Ex.Z] ∧ Admissible Ex.mix Ex.T ∧ Regular Ex.mix Ex.T Ex.P Ex.x (Z Ex.T) ∧
    ContinuousAt Z Ex.T ∧ (∀ᶠ T in 𝓝 Ex.T, poly Ex.mix T Ex.P Ex.x (Z T) = 0) ∧
    ContinuousAt Z2 Ex.P ∧ (∀ᶠ P in 𝓝 Ex.P, poly Ex.mix Ex.T P Ex.x (Z2 P) = 0) ∧ Simple Ex.mix Ex.T Ex.P Ex.x (Z Ex.T) := by
  obtain ⟨⟨Z, a1, a2, a3⟩, Z2, b1, b2, b3⟩ := C46_branch Ex.mix Ex.T Ex.P Ex.x (Ex.admissible _ Ex.T_pos) Ex.P_pos.ne' Ex.regular.a Ex.regular.b Ex.Z Ex.root Ex.simple
  have hs : selectZ Ex.mix.fluidtype [Ex.Z] = Ex.Z := by
    unfold selectZ maxOf minOf
    cases Ex.mix.fluidtype <;> simp
  refine ⟨Z, Z2, ⟨⟨0, by norm_num [Ex.x]⟩, rfl, .inl rfl, rfl⟩, a1.trans hs.symm, b1.trans hs.symm, Ex.admissible _ Ex.T_pos, ?_, a2, a3, b2, b3, ?_⟩
  · rw [a1]; exact Ex.regular
  · rw [a1]; exact Ex.simple

/-- **C92 fails** for a phase without any substance: the first evaluation returns as activity coefficients whatever was in the memory of the array. -/
theorem C92_uninitialised_wrong {n : Nat} (e : Eos n) (solve3 : ℝ → ℝ → ℝ → List ℝ) (solve4 : List ℝ → List ℝ) (memory : Fin n → ℝ) (T P : ℝ) :
    ∃ y res', eval solve3 solve4 e { ln_phi := memory } T P (fun _ => 0) = .ok (res', y) ∧ y.ln_g = memory := by
  unfold eval compute
  rw [if_pos fun _ => le_rfl]
  exact ⟨_, _, rfl, rfl⟩

/-! ## The ideal gas at low pressure -/

theorem eps_sigma (k : Kind) : |epsilon k + sigma k - 1| ≤ 1 ∧ |epsilon k * sigma k - epsilon k - sigma k| ≤ 3.01 ∧ |epsilon k + sigma k| ≤ 2 ∧
    |epsilon k * sigma k| ≤ 1.01 := by
  cases k <;> refine ⟨?_, ?_, ?_, ?_⟩ <;> rw [abs_le] <;> constructor <;> norm_num [epsilon, sigma]

/-- Bounds on the coefficients of the polynomial at low pressure. -/
theorem coefficients_small (k : Kind) {β q : ℝ} (hβ : 0 ≤ β) (hq : 0 ≤ q) (hs : β * (1 + q) ≤ 1 / 64) :
    |cA (epsilon k) (sigma k) β + 1| ≤ β * (1 + q) ∧ |cB (epsilon k) (sigma k) β q| ≤ 6 * (β * (1 + q)) ∧
      |cC (epsilon k) (sigma k) β q| ≤ 3 * (β * (1 + q)) := by
  obtain ⟨h1, h2, h3, h4⟩ := eps_sigma k
  have hβq : 0 ≤ β * q := mul_nonneg hβ hq
  have hβ1 : β ≤ 1 / 64 := by nlinarith
  have hββ : β * β ≤ β := by nlinarith
  have hββ0 : 0 ≤ β * β := mul_nonneg hβ hβ
  refine ⟨?_, ?_, ?_⟩
  · have : cA (epsilon k) (sigma k) β + 1 = (epsilon k + sigma k - 1) * β := by unfold cA; ring
    rw [this, abs_mul, abs_of_nonneg hβ]
    nlinarith
  · have : cB (epsilon k) (sigma k) β q = (epsilon k * sigma k - epsilon k - sigma k) * (β * β) - (epsilon k + sigma k) * β + q * β := by
      unfold cB; ring
    rw [this]
    refine (abs_add_le _ _).trans ?_
    refine (add_le_add_left (abs_sub _ _) _).trans ?_
    rw [abs_mul _ (β * β), abs_of_nonneg hββ0, abs_mul _ β, abs_of_nonneg hβ, abs_of_nonneg (mul_nonneg hq hβ)]
    nlinarith
  · have : cC (epsilon k) (sigma k) β q = -(epsilon k * sigma k * (β * β * β) + epsilon k * sigma k * (β * β) + q * β * β) := by
      unfold cC; ring
    rw [this, abs_neg]
    refine (abs_add_le _ _).trans ?_
    refine (add_le_add_left (abs_add_le _ _) _).trans ?_
    have h0 : 0 ≤ β * β * β := mul_nonneg hββ0 hβ
    rw [abs_mul _ (β * β * β), abs_mul _ (β * β), abs_of_nonneg h0, abs_of_nonneg hββ0, abs_of_nonneg (mul_nonneg (mul_nonneg hq hβ) hβ)]
    have : β * β * β ≤ β := by nlinarith
    have : q * β * β ≤ β * q := by nlinarith
    nlinarith

/-- The largest root is close to one at low pressure. -/
theorem largest_near_one (k : Kind) {β q Z : ℝ} (hβ : 0 ≤ β) (hq : 0 ≤ q) (hs : β * (1 + q) ≤ 1 / 64)
    (hZ : Z ^ 3 + cA (epsilon k) (sigma k) β * Z ^ 2 + cB (epsilon k) (sigma k) β q * Z + cC (epsilon k) (sigma k) β q = 0)
    (hmax : ∀ z, z ^ 3 + cA (epsilon k) (sigma k) β * z ^ 2 + cB (epsilon k) (sigma k) β q * z + cC (epsilon k) (sigma k) β q = 0 → z ≤ Z) :
    1 / 2 ≤ Z ∧ |Z - 1| ≤ 25 * (β * (1 + q)) := by
  obtain ⟨h1, h2, h3⟩ := coefficients_small k hβ hq hs
  generalize cA (epsilon k) (sigma k) β = A at *
  generalize cB (epsilon k) (sigma k) β q = B at *
  generalize cC (epsilon k) (sigma k) β q = C at *
  generalize β * (1 + q) = s at *
  have g1 := abs_le.1 h1
  have g2 := abs_le.1 h2
  have g3 := abs_le.1 h3
  have hhalf : 1 / 2 ≤ Z := by
    have hc : Continuous fun z : ℝ => z ^ 3 + A * z ^ 2 + B * z + C := by fun_prop
    obtain ⟨z, ⟨hz1, -⟩, hz⟩ := intermediate_value_Icc (by norm_num : (1 / 2 : ℝ) ≤ 2) hc.continuousOn
      (show (0 : ℝ) ∈ Set.Icc _ _ from ⟨by norm_num; linarith, by norm_num; linarith⟩)
    exact hz1.trans (hmax z hz)
  refine ⟨hhalf, ?_⟩
  have e : Z ^ 2 * (Z - 1) = -((A + 1) * Z ^ 2 + B * Z + C) := by linarith
  have hZ2 : 0 < Z ^ 2 := by positivity
  have e2 : Z ^ 2 * |Z - 1| ≤ |A + 1| * Z ^ 2 + |B| * Z + |C| := by
    have : |Z ^ 2 * (Z - 1)| = Z ^ 2 * |Z - 1| := by rw [abs_mul, abs_of_pos hZ2]
    rw [← this, e, abs_neg]
    refine (abs_add_le _ _).trans ?_
    refine (add_le_add_left (abs_add_le _ _) _).trans ?_
    rw [abs_mul, abs_mul, abs_of_pos hZ2, abs_of_nonneg (by linarith : 0 ≤ Z)]
  have hb : |B| * Z ≤ 12 * s * Z ^ 2 := by
    have : |B| * Z ≤ 6 * s * Z := mul_le_mul_of_nonneg_right h2 (by linarith)
    have hs0 : 0 ≤ s := (abs_nonneg _).trans h1
    nlinarith [mul_nonneg hs0 (by linarith : 0 ≤ Z)]
  have hc : |C| ≤ 12 * s * Z ^ 2 := by
    have hs0 : 0 ≤ s := (abs_nonneg _).trans h1
    nlinarith [mul_nonneg hs0 (by nlinarith : 0 ≤ 4 * Z ^ 2 - 1)]
  have ha : |A + 1| * Z ^ 2 ≤ s * Z ^ 2 := mul_le_mul_of_nonneg_right h1 hZ2.le
  have : Z ^ 2 * |Z - 1| ≤ Z ^ 2 * (25 * s) := by nlinarith
  exact le_of_mul_le_mul_left this hZ2

/-- **C92 (low pressure).** When the pressure tends to zero, a vapor becomes an ideal gas: for all four equations of state, the logarithms of the activity
coefficients, the excess Gibbs energy and the excess enthalpy tend to zero. -/
theorem C92_ideal_gas {n : Nat} (e : Eos n) (solve3 : ℝ → ℝ → ℝ → List ℝ) (solve4 : List ℝ → List ℝ) (hsol : Exact solve3) (res : Props n)
    (hv : e.fluidtype = .vapor) (hm : e.method = .none) (hTc : ∀ i, e.Tcr i ≠ 0) (hPc : ∀ i, e.Pcr i ≠ 0)
    (T : ℝ) (hT : 0 < T) (x : Fin n → ℝ) (hx : ∃ i, 0 < x i) (hb : 0 < bmix e x) (ha : 0 < amix e T x) :
    ∃ y : ℝ → Activity n, (∀ P, 0 < P → ∃ res', eval solve3 solve4 e res T P x = .ok (res', y P)) ∧
      (∀ i, Tendsto (fun P => (y P).ln_g i) (𝓝[>] 0) (𝓝 0)) ∧
      Tendsto (fun P => (y P).Gex) (𝓝[>] 0) (𝓝 0) ∧ Tendsto (fun P => (y P).Hex) (𝓝[>] 0) (𝓝 0) := by
  have hR := R_pos
  have hq : 0 ≤ q e T x := div_nonneg ha.le (mul_pos (mul_pos hb R_pos) hT).le
  let roots : ℝ → List ℝ := fun P => solve3 (cA (epsilon e.model) (sigma e.model) (beta e T P x))
    (cB (epsilon e.model) (sigma e.model) (beta e T P x) (q e T x)) (cC (epsilon e.model) (sigma e.model) (beta e T P x) (q e T x))
  let Z : ℝ → ℝ := fun P => selectZ .vapor (roots P)
  have hne : ∀ P, roots P ≠ [] := by
    intro P h
    rcases (hsol (cA (epsilon e.model) (sigma e.model) (beta e T P x))
      (cB (epsilon e.model) (sigma e.model) (beta e T P x) (q e T x)) (cC (epsilon e.model) (sigma e.model) (beta e T P x) (q e T x))).1 with h' | h'
    · have h'' : (roots P).length = 1 := h'
      rw [h] at h''; cases h''
    · have h'' : (roots P).length = 3 := h'
      rw [h] at h''; cases h''
  have hroot : ∀ P, poly e T P x (Z P) = 0 := fun P => ((hsol _ _ _).2 _).1 (maxOf_spec _ (hne P)).1
  have hlarge : ∀ P z, poly e T P x z = 0 → z ≤ Z P := fun P z hz => (maxOf_spec _ (hne P)).2 z (((hsol _ _ _).2 z).2 hz)
  have hacc : ∀ P, Accepted solve3 solve4 e T P x (roots P) := by
    intro P
    refine ⟨hx, rfl, (hsol _ _ _).1, ?_⟩
    unfold identify
    simp only [hm]
  have hβ : Tendsto (fun P => beta e T P x) (𝓝[>] 0) (𝓝 0) := by
    have : Continuous fun P => beta e T P x := by unfold beta; fun_prop
    have h0 := this.tendsto 0
    have e0 : beta e T 0 x = 0 := by simp [beta]
    rw [e0] at h0
    exact h0.mono_left nhdsWithin_le_nhds
  have hsmall : ∀ᶠ P in 𝓝[>] (0 : ℝ), beta e T P x * (1 + q e T x) ≤ 1 / 64 := by
    have : Tendsto (fun P => beta e T P x * (1 + q e T x)) (𝓝[>] 0) (𝓝 (0 * (1 + q e T x))) := hβ.mul_const _
    rw [zero_mul] at this
    exact (this.eventually (gt_mem_nhds (by norm_num : (0 : ℝ) < 1 / 64))).mono fun P h => le_of_lt h
  have hpos : ∀ᶠ P in 𝓝[>] (0 : ℝ), 0 < P := eventually_mem_nhdsWithin
  have hnear : ∀ᶠ P in 𝓝[>] (0 : ℝ), 1 / 2 ≤ Z P ∧ |Z P - 1| ≤ 25 * (beta e T P x * (1 + q e T x)) := by
    filter_upwards [hsmall, hpos] with P h1 h2
    have hβ0 : 0 ≤ beta e T P x := (div_pos (mul_pos h2 hb) (mul_pos R_pos hT)).le
    exact largest_near_one e.model hβ0 hq h1 (hroot P) (hlarge P)
  have hZ : Tendsto Z (𝓝[>] 0) (𝓝 1) := by
    rw [tendsto_iff_dist_tendsto_zero]
    have hup : Tendsto (fun P => 25 * (beta e T P x * (1 + q e T x))) (𝓝[>] 0) (𝓝 0) := by
      have := (hβ.mul_const (1 + q e T x)).const_mul 25
      simpa using this
    refine squeeze_zero' (Eventually.of_forall fun P => dist_nonneg) ?_ hup
    filter_upwards [hnear] with P h
    rw [Real.dist_eq]
    exact h.2
  have hI : Tendsto (fun P => cI (epsilon e.model) (sigma e.model) (beta e T P x) (Z P)) (𝓝[>] 0) (𝓝 0) := by
    have hs : ∀ c : ℝ, Tendsto (fun P => Z P + c * beta e T P x) (𝓝[>] 0) (𝓝 1) := by
      intro c
      have := hZ.add (hβ.const_mul c)
      simpa using this
    unfold cI
    split_ifs with h
    · have h1 := (hs (sigma e.model)).div (hs (epsilon e.model)) one_ne_zero
      rw [div_one] at h1
      have h2 := (h1.log one_ne_zero).div_const (sigma e.model - epsilon e.model)
      simpa using h2
    · have := hβ.div (hs (epsilon e.model)) one_ne_zero
      rw [zero_div] at this
      exact this
  have hlog : Tendsto (fun P => Real.log (Z P - beta e T P x)) (𝓝[>] 0) (𝓝 0) := by
    have h1 := (hZ.sub hβ)
    rw [sub_zero] at h1
    have := h1.log one_ne_zero
    simpa using this
  have hreg : ∀ᶠ P in 𝓝[>] (0 : ℝ), Regular e T P x (Z P) := by
    filter_upwards [hsmall, hpos, hnear] with P h1 h2 h3
    have hβ0 : 0 ≤ beta e T P x := (div_pos (mul_pos h2 hb) (mul_pos R_pos hT)).le
    exact ⟨hT, h2, ha.ne', hb, by nlinarith [h3.1]⟩
  refine ⟨fun P => _, fun P _ => ⟨_, by
    unfold eval
    rw [compute_accepted (hacc P) res, hv]
    rfl⟩, fun i => ?_, ?_, ?_⟩
  · have hlim : Tendsto (fun P => (Z P - 1) - Real.log (Z P - beta e T P x) -
        (1 + abar e T x i / amix e T x - bbar e i / bmix e x) * q e T x * cI (epsilon e.model) (sigma e.model) (beta e T P x) (Z P)) (𝓝[>] 0) (𝓝 0) := by
      have := ((hZ.sub_const 1).sub hlog).sub (hI.const_mul ((1 + abar e T x i / amix e T x - bbar e i / bmix e x) * q e T x))
      simpa using this
    refine hlim.congr' ?_
    filter_upwards [hreg] with P h
    exact (C47_closed_form e res T P x (Z P) h (hroot P) i (hTc i) (hPc i)).symm
  · show Tendsto (fun P => R * T * (Z P - 1 - Real.log (Z P - beta e T P x) - q e T x * cI (epsilon e.model) (sigma e.model) (beta e T P x) (Z P))) _ _
    have := (((hZ.sub_const 1).sub hlog).sub (hI.const_mul (q e T x))).const_mul (R * T)
    simpa using this
  · show Tendsto (fun P => R * T * (Z P - 1 + T * qT e T x * cI (epsilon e.model) (sigma e.model) (beta e T P x) (Z P))) _ _
    have := ((hZ.sub_const 1).add (hI.const_mul (T * qT e T x))).const_mul (R * T)
    simpa using this

/-- The code's solver is exact when its tolerance is zero. -/
theorem exact_cardano : Exact fun A B C => Cardano.realRoots (Cardano.cardano 0 A B C) := by
  intro A B C
  refine ⟨?_, fun z => Cardano.C21_real_roots_partial 0 A B C le_rfl ?_ z⟩
  · rcases le_or_gt (Cardano.discr A B C) 0 with h | h
    · obtain ⟨r1, r2, r3, -, -, -, h'⟩ := (Cardano.C21_ascending 0 A B C le_rfl).1 h
      exact Or.inr (by show (Cardano.realRoots _).length = 3; rw [h']; rfl)
    · obtain ⟨r1, -, h'⟩ := (Cardano.C21_ascending 0 A B C le_rfl).2 h
      exact Or.inl (by show (Cardano.realRoots _).length = 1; rw [h']; rfl)
  · rcases eq_or_ne (Cardano.discr A B C) 0 with h | h
    · exact Or.inr h
    · exact Or.inl (abs_pos.2 h)

/-- A pure fluid to which `C92_ideal_gas` applies. -/
noncomputable def pure : Eos 1 :=
  { fluidtype := .vapor, model := .vanDerWaals, method := .none, Tcr := fun _ => 1, Pcr := fun _ => 1, omega := fun _ => 0, interaction := fun _ => {} }

example : 0 < bmix pure (fun _ => 1) ∧ 0 < amix pure 300 (fun _ => 1) := by
  have := R_pos
  constructor
  · simp only [bmix, bbar, pure, Omega, Finset.univ_unique, Finset.sum_singleton]
    positivity
  · simp only [amix, aij, r, s, a, factor, alpha, pure, Psi, Finset.univ_unique, Finset.sum_singleton]
    positivity

/-- Carbon dioxide, registered under its formula. -/
def registry : List Substance := [⟨⟨30420 / 100, 7383000, 224 / 1000⟩, [c!"CO2"]⟩]
def carbonDioxide : Sp := ⟨c!"carbon dioxide", c!"CO2", c!"CO2(g)", .gas⟩
def unknown : Sp := ⟨c!"X", c!"X", c!"X(g)", .gas⟩

/-- A model is built for carbon dioxide. -/
example (kind : Kind) (method : Method) (ip : ℝ → Ip 1) : ∃ e, build registry kind method [carbonDioxide] ip = .ok e := by
  unfold build
  rw [show [carbonDioxide].mapM (m := Res) (critical registry) = .ok [⟨30420 / 100, 7383000, 224 / 1000⟩] by decide +kernel]
  exact ⟨_, rfl⟩

/-- The hypotheses of `C92_missing` are met by an unknown species after carbon dioxide. -/
example : (∀ t ∈ [carbonDioxide], ∃ d, critical registry t = .ok d) ∧ NoneWith registry unknown.substance ∧ NoneWith registry unknown.formula ∧
    NoneWith registry unknown.name := by
  refine ⟨fun t ht => ?_, ⟨c!"X", by decide +kernel, by decide +kernel⟩, ⟨c!"X", by decide +kernel, by decide +kernel⟩,
    ⟨c!"X", by decide +kernel, by decide +kernel⟩⟩
  rw [List.mem_singleton.1 ht]
  exact ⟨⟨30420 / 100, 7383000, 224 / 1000⟩, by decide +kernel⟩

/-- Three species of which the first and the last are the same: their fractions add up. -/
example : total (fun i : Fin 3 => if i = 1 then (1 : Fin 2) else 0) (fun _ => 1 / 3) 0 = 2 / 3 := by
  simp [total, Fin.sum_univ_three]
  norm_num

end Verif.ActivityCubicEOS
