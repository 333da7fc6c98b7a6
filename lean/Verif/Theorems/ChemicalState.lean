import Verif.Spec.ChemicalState
import Verif.Theorems.Units

/-!
# Theorems C31: setters of a chemical state
-/

namespace Verif.ChemicalState

open Chem

theorem index_cases (species : List Species) (name : Str) :
    (∃ i, index species name = .ok i ∧ i < species.length ∧ (Ref.name name).Means species i) ∨
    (index species name = .throw ∧ ∀ s ∈ species, s.name ≠ name) := by
  unfold index findWithName indexfn
  dsimp only
  by_cases h : species.findIdx (fun s => decide (s.name = name)) ≥ species.length
  · right
    rw [if_pos h]
    refine ⟨rfl, fun s hs he => ?_⟩
    have := List.findIdx_lt_length_of_exists (xs := species) (p := fun s => decide (s.name = name)) ⟨s, hs, by simpa using he⟩
    omega
  · left
    rw [if_neg h]
    have hlt := Nat.lt_of_not_le h
    refine ⟨_, rfl, hlt, ?_, ?_⟩
    · have := List.findIdx_getElem (xs := species) (p := fun s => decide (s.name = name)) (w := hlt)
      rw [List.getElem?_eq_getElem hlt]
      simpa using this
    · intro j hj
      have := List.not_of_lt_findIdx hj
      rw [List.getElem?_eq_getElem (by omega)]
      simpa using this

theorem setAmount_cases (debug : Bool) (species : List Species) (st : St) (i : Nat) (x : Rat) :
    (setAmount debug species st i x = (st, .aborted) ∧ debug = true) ∨
    (setAmount debug species st i x = (st, .undefined) ∧ st.n.length ≤ i) ∨
    (setAmount debug species st i x = ({ st with n := st.n.set i x }, .returned) ∧ i < st.n.length ∧ (debug = true → 0 ≤ x)) := by
  unfold setAmount asserted
  by_cases h1 : (debug && !decide (i < species.length)) = true
  · rw [if_pos h1]; left; simp only [Bool.and_eq_true] at h1; exact ⟨rfl, h1.1⟩
  · rw [if_neg h1]
    by_cases h2 : (debug && !decide (0 ≤ x)) = true
    · rw [if_pos h2]; left; simp only [Bool.and_eq_true] at h2; exact ⟨rfl, h2.1⟩
    · rw [if_neg h2]
      by_cases h3 : i < st.n.length
      · rw [if_pos h3]
        right; right
        refine ⟨rfl, h3, fun hd => ?_⟩
        simpa [hd] using h2
      · rw [if_neg h3]; right; left; exact ⟨rfl, by omega⟩

theorem setMass_cases (debug : Bool) (me : Rat) (species : List Species) (st : St) (i : Nat) (x : Rat) :
    (setMass debug me species st i x = (st, .aborted) ∧ debug = true) ∨
    (setMass debug me species st i x = (st, .undefined) ∧ (species.length ≤ i ∨ st.n.length ≤ i)) ∨
    (∃ s, species[i]? = some s ∧ setMass debug me species st i x = ({ st with n := st.n.set i (x / s.molarMass me) }, .returned) ∧
      i < st.n.length ∧ (debug = true → 0 < x ∧ 0 ≤ x / s.molarMass me)) := by
  unfold setMass
  generalize hf : andThen st (at! species i) (fun s => setAmount debug species st i (x / s.molarMass me)) = f
  unfold asserted
  by_cases h1 : (debug && !decide (i < species.length)) = true
  · rw [if_pos h1]; left; simp only [Bool.and_eq_true] at h1; exact ⟨rfl, h1.1⟩
  · rw [if_neg h1]
    by_cases h2 : (debug && !decide (0 < x)) = true
    · rw [if_pos h2]; left; simp only [Bool.and_eq_true] at h2; exact ⟨rfl, h2.1⟩
    · rw [if_neg h2, ← hf]
      by_cases hi : i < species.length
      · rw [at!_of_lt _ _ hi]
        simp only [andThen]
        rcases setAmount_cases debug species st i (x / species[i].molarMass me) with h | h | h
        · exact Or.inl h
        · exact Or.inr (Or.inl ⟨h.1, Or.inr h.2⟩)
        · exact Or.inr (Or.inr ⟨_, List.getElem?_eq_getElem hi, h.1, h.2.1, fun hd => ⟨by simpa [hd] using h2, h.2.2 hd⟩⟩)
      · rw [at!_of_ge _ _ (by omega)]
        exact Or.inr (Or.inl ⟨rfl, Or.inl (by omega)⟩)

theorem andThen_cases {α : Type} (st : St) (r : Res α) (f : α → Out) :
    (∃ a, r = .ok a ∧ andThen st r f = f a) ∨ (r = .throw ∧ andThen st r f = (st, .threw)) ∨ (r = .ub ∧ andThen st r f = (st, .undefined)) := by
  cases r <;> simp [andThen]

theorem effect_amount (me : Rat) (species : List Species) (st : St) (op : Op) (ref : Ref) (unit : Option Str) (x y : Rat) (i : Nat)
    (hop : op = match ref, unit with
        | .index i, none => .amount i x | .index i, some u => .amountUnit i x u
        | .name s, none => .amountName s x | .name s, some u => .amountNameUnit s x u)
    (hi : ref.Means species i) (hy : InBase c!"mol" unit x y) (hlt : i < st.n.length) :
    Effect me species st op { st with n := st.n.set i y } :=
  Effect.amount op ref unit x y i _ hop hi hy (by rw [List.getElem?_set_self hlt]) (by simp) (fun j hj => by
    rw [List.getElem?_set_ne (Ne.symm hj)])

theorem effect_mass (me : Rat) (species : List Species) (st : St) (op : Op) (ref : Ref) (unit : Option Str) (x y : Rat) (i : Nat) (s : Species)
    (hop : op = match ref, unit with
        | .index i, none => .mass i x | .index i, some u => .massUnit i x u
        | .name s, none => .massName s x | .name s, some u => .massNameUnit s x u)
    (hi : ref.Means species i) (hs : species[i]? = some s) (hy : InBase c!"kg" unit x y) (hlt : i < st.n.length) :
    Effect me species st op { st with n := st.n.set i (y / s.molarMass me) } :=
  Effect.mass op ref unit x y i s _ hop hi hs hy (by rw [List.getElem?_set_self hlt]) (by simp) (fun j hj => by
    rw [List.getElem?_set_ne (Ne.symm hj)])

/-- **C31 (effects).** In debug and release builds, a setter that returns has the requested effect, and nothing else
changes; one that throws (or ends the program) leaves the state as it was. -/
theorem C31_effects (debug : Bool) (me : Rat) (species : List Species) (st : St) (op : Op) :
    ((step debug me species st op).2 = .returned → Effect me species st op (step debug me species st op).1) ∧
    ((step debug me species st op).2 ≠ .returned → (step debug me species st op).1 = st) := by
  have key : ∀ o : Out, (o.2 = .returned ∧ Effect me species st op o.1) ∨ (o.2 ≠ .returned ∧ o.1 = st) →
      ((o.2 = .returned → Effect me species st op o.1) ∧ (o.2 ≠ .returned → o.1 = st)) := by
    rintro o (⟨h1, h2⟩ | ⟨h1, h2⟩)
    · exact ⟨fun _ => h2, fun h => absurd h1 h⟩
    · exact ⟨fun h => absurd h h1, fun _ => h2⟩
  apply key
  have amt : ∀ (ref : Ref) (unit : Option Str) (x y : Rat) (i : Nat), (op = match ref, unit with
        | .index i, none => .amount i x | .index i, some u => .amountUnit i x u
        | .name s, none => .amountName s x | .name s, some u => .amountNameUnit s x u) → ref.Means species i → InBase c!"mol" unit x y →
      ((setAmount debug species st i y).2 = .returned ∧ Effect me species st op (setAmount debug species st i y).1) ∨
        ((setAmount debug species st i y).2 ≠ .returned ∧ (setAmount debug species st i y).1 = st) := by
    intro ref unit x y i h1 h2 h3
    rcases setAmount_cases debug species st i y with h | h | h
    · rw [h.1]; right; exact ⟨by simp, rfl⟩
    · rw [h.1]; right; exact ⟨by simp, rfl⟩
    · rw [h.1]; left; exact ⟨rfl, effect_amount me species st op ref unit x y i h1 h2 h3 h.2.1⟩
  have mss : ∀ (ref : Ref) (unit : Option Str) (x y : Rat) (i : Nat), (op = match ref, unit with
        | .index i, none => .mass i x | .index i, some u => .massUnit i x u
        | .name s, none => .massName s x | .name s, some u => .massNameUnit s x u) → ref.Means species i → InBase c!"kg" unit x y →
      ((setMass debug me species st i y).2 = .returned ∧ Effect me species st op (setMass debug me species st i y).1) ∨
        ((setMass debug me species st i y).2 ≠ .returned ∧ (setMass debug me species st i y).1 = st) := by
    intro ref unit x y i h1 h2 h3
    rcases setMass_cases debug me species st i y with h | h | ⟨s, h0, h⟩
    · rw [h.1]; right; exact ⟨by simp, rfl⟩
    · rw [h.1]; right; exact ⟨by simp, rfl⟩
    · rw [h.1]; left; exact ⟨rfl, effect_mass me species st op ref unit x y i s h1 h2 h0 h3 h.2.1⟩
  have tmp : ∀ (unit : Option Str) (x y : Rat), (op = match unit with | none => .temperature x | some u => .temperatureUnit x u) →
      InBase c!"K" unit x y → ((setTemperature st y).2 = .returned ∧ Effect me species st op (setTemperature st y).1) ∨
        ((setTemperature st y).2 ≠ .returned ∧ (setTemperature st y).1 = st) := by
    intro unit x y h1 h2
    unfold setTemperature
    by_cases h : y ≤ 0
    · rw [if_pos h]; right; exact ⟨by simp, rfl⟩
    · rw [if_neg h]; left; exact ⟨rfl, Effect.temperature op unit x y h1 h2⟩
  have prs : ∀ (unit : Option Str) (x y : Rat), (op = match unit with | none => .pressure x | some u => .pressureUnit x u) →
      InBase c!"Pa" unit x y → ((setPressure st y).2 = .returned ∧ Effect me species st op (setPressure st y).1) ∨
        ((setPressure st y).2 ≠ .returned ∧ (setPressure st y).1 = st) := by
    intro unit x y h1 h2
    unfold setPressure
    by_cases h : y ≤ 0
    · rw [if_pos h]; right; exact ⟨by simp, rfl⟩
    · rw [if_neg h]; left; exact ⟨rfl, Effect.pressure op unit x y h1 h2⟩
  have bnd : ∀ {α : Type} (r : Res α) (f : α → Out), (∀ a, r = .ok a → ((f a).2 = .returned ∧ Effect me species st op (f a).1) ∨
        ((f a).2 ≠ .returned ∧ (f a).1 = st)) →
      ((andThen st r f).2 = .returned ∧ Effect me species st op (andThen st r f).1) ∨
        ((andThen st r f).2 ≠ .returned ∧ (andThen st r f).1 = st) := by
    intro α r f h
    rcases andThen_cases st r f with ⟨a, h1, h2⟩ | ⟨-, h2⟩ | ⟨-, h2⟩
    · rw [h2]; exact h a h1
    · rw [h2]; right; exact ⟨by simp, rfl⟩
    · rw [h2]; right; exact ⟨by simp, rfl⟩
  have idx : ∀ (s : Str) (f : Nat → Out), (∀ i, (Ref.name s).Means species i → ((f i).2 = .returned ∧ Effect me species st op (f i).1) ∨
        ((f i).2 ≠ .returned ∧ (f i).1 = st)) →
      ((andThen st (index species s) f).2 = .returned ∧ Effect me species st op (andThen st (index species s) f).1) ∨
        ((andThen st (index species s) f).2 ≠ .returned ∧ (andThen st (index species s) f).1 = st) := by
    intro s f h
    apply bnd
    intro i hi
    rcases index_cases species s with ⟨j, h1, -, h2⟩ | ⟨h1, -⟩
    · rw [h1] at hi; cases hi; exact h _ h2
    · rw [h1] at hi; cases hi
  cases op with
  | temperature v => exact tmp none v v rfl rfl
  | temperatureUnit v u => exact bnd _ _ fun y hy => tmp (some u) v y rfl hy
  | pressure v => exact prs none v v rfl rfl
  | pressureUnit v u =>
    simp only [step]
    unfold setPressureUnit
    by_cases h : v ≤ 0
    · rw [if_pos h]; right; exact ⟨by simp, rfl⟩
    · rw [if_neg h]; exact bnd _ _ fun y hy => prs (some u) v y rfl hy
  | allAmounts v =>
    simp only [step]
    unfold setAllAmounts
    by_cases h : v < 0
    · rw [if_pos h]; right; exact ⟨by simp, rfl⟩
    · rw [if_neg h]; left; exact ⟨rfl, Effect.allAmounts v _ (by simp) (fun y hy => (List.mem_replicate.1 hy).2)⟩
  | amounts vs =>
    simp only [step]
    unfold setAmounts
    generalize hc : (vs != [] && vs.all (fun x => decide (0 ≤ x))) = c
    unfold asserted
    by_cases h1 : (debug && !(st.n.length == vs.length)) = true
    · rw [if_pos h1]; right; exact ⟨by simp, rfl⟩
    · rw [if_neg h1]
      by_cases h2 : (debug && !c) = true
      · rw [if_pos h2]; right; exact ⟨by simp, rfl⟩
      · rw [if_neg h2]; left; exact ⟨rfl, Effect.amounts vs⟩
  | amount i v => exact amt (.index i) none v v i rfl rfl rfl
  | amountName s v => exact idx s _ fun i hi => amt (.name s) none v v i rfl hi rfl
  | amountUnit i v u => exact bnd _ _ fun y hy => amt (.index i) (some u) v y i rfl rfl hy
  | amountNameUnit s v u => exact idx s _ fun i hi => bnd _ _ fun y hy => amt (.name s) (some u) v y i rfl hi hy
  | mass i v => exact mss (.index i) none v v i rfl rfl rfl
  | massName s v => exact idx s _ fun i hi => mss (.name s) none v v i rfl hi rfl
  | massUnit i v u => exact bnd _ _ fun y hy => mss (.index i) (some u) v y i rfl rfl hy
  | massNameUnit s v u => exact idx s _ fun i hi => bnd _ _ fun y hy => mss (.name s) (some u) v y i rfl hi hy

theorem valid_set (count : Nat) (st : St) (h : Valid count st) (i : Nat) (x : Rat) (hx : 0 ≤ x) :
    Valid count { st with n := st.n.set i x } := by
  refine ⟨h.T, h.P, by simpa using h.len, ?_⟩
  intro y hy
  rcases List.mem_or_eq_of_mem_set hy with hy | rfl
  · exact h.n y hy
  · exact hx

/-- One call keeps the state meaningful in a debug build, or if the arguments are meaningful. -/
theorem step_valid (debug : Bool) (me : Rat) (species : List Species) (st : St) (op : Op) (hv : Valid species.length st)
    (h : debug = true ∨ (GoodArgs species.length op ∧ ∀ s ∈ species, 0 ≤ s.molarMass me)) :
    Valid species.length (step debug me species st op).1 := by
  have bnd : ∀ {α : Type} (r : Res α) (f : α → Out), (∀ a, r = .ok a → Valid species.length (f a).1) →
      Valid species.length (andThen st r f).1 := by
    intro α r f h
    rcases andThen_cases st r f with ⟨a, h1, h2⟩ | ⟨-, h2⟩ | ⟨-, h2⟩
    · rw [h2]; exact h a h1
    · rw [h2]; exact hv
    · rw [h2]; exact hv
  have amt : ∀ i x, (debug = true ∨ 0 ≤ x) → Valid species.length (setAmount debug species st i x).1 := by
    intro i x hx
    rcases setAmount_cases debug species st i x with h | h | h
    · rw [h.1]; exact hv
    · rw [h.1]; exact hv
    · rw [h.1]; exact valid_set _ _ hv _ _ (hx.elim h.2.2 id)
  have mss : ∀ i x, (debug = true ∨ (0 ≤ x ∧ ∀ s ∈ species, 0 ≤ s.molarMass me)) →
      Valid species.length (setMass debug me species st i x).1 := by
    intro i x hx
    rcases setMass_cases debug me species st i x with h | h | ⟨s, h0, h⟩
    · rw [h.1]; exact hv
    · rw [h.1]; exact hv
    · rw [h.1]
      exact valid_set _ _ hv _ _ (hx.elim (fun hd => (h.2.2 hd).2) (fun hx => div_nonneg hx.1 (hx.2 s (List.mem_of_getElem? h0))))
  have tmp : ∀ x, Valid species.length (setTemperature st x).1 := by
    intro x
    unfold setTemperature
    by_cases h : x ≤ 0
    · rw [if_pos h]; exact hv
    · rw [if_neg h]; exact ⟨not_le.1 h, hv.P, hv.len, hv.n⟩
  have prs : ∀ x, Valid species.length (setPressure st x).1 := by
    intro x
    unfold setPressure
    by_cases h : x ≤ 0
    · rw [if_pos h]; exact hv
    · rw [if_neg h]; exact ⟨hv.T, not_le.1 h, hv.len, hv.n⟩
  cases op with
  | temperature v => exact tmp v
  | temperatureUnit v u => exact bnd _ _ fun y _ => tmp y
  | pressure v => exact prs v
  | pressureUnit v u =>
    simp only [step]
    unfold setPressureUnit
    by_cases h : v ≤ 0
    · rw [if_pos h]; exact hv
    · rw [if_neg h]; exact bnd _ _ fun y _ => prs y
  | allAmounts v =>
    simp only [step]
    unfold setAllAmounts
    by_cases h : v < 0
    · rw [if_pos h]; exact hv
    · rw [if_neg h]
      exact ⟨hv.T, hv.P, by simpa using hv.len, fun y hy => by rw [(List.mem_replicate.1 hy).2]; exact not_lt.1 h⟩
  | amounts vs =>
    simp only [step]
    unfold setAmounts
    generalize hc : (vs != [] && vs.all (fun x => decide (0 ≤ x))) = c
    unfold asserted
    by_cases h1 : (debug && !(st.n.length == vs.length)) = true
    · rw [if_pos h1]; exact hv
    · rw [if_neg h1]
      by_cases h2 : (debug && !c) = true
      · rw [if_pos h2]; exact hv
      · rw [if_neg h2]
        rcases h with hd | ⟨hg, -⟩
        · subst hc
          simp only [hd, Bool.true_and, Bool.not_eq_true', beq_eq_false_iff_ne, ne_eq, not_not, Bool.not_eq_false, Bool.and_eq_true,
            List.all_eq_true, decide_eq_true_eq] at h1 h2
          exact ⟨hv.T, hv.P, by rw [← h1]; exact hv.len, h2.2⟩
        · exact ⟨hv.T, hv.P, hg.1, hg.2⟩
  | amount i v => exact amt i v (h.imp_right And.left)
  | amountName s v => exact bnd _ _ fun i _ => amt i v (h.imp_right And.left)
  | amountUnit i v u => exact bnd _ _ fun y hy => amt i y (h.imp_right fun h => h.1 y hy)
  | amountNameUnit s v u => exact bnd _ _ fun i _ => bnd _ _ fun y hy => amt i y (h.imp_right fun h => h.1 y hy)
  | mass i v => exact mss i v h
  | massName s v => exact bnd _ _ fun i _ => mss i v h
  | massUnit i v u => exact bnd _ _ fun y hy => mss i y (h.imp_right fun h => ⟨h.1 y hy, h.2⟩)
  | massNameUnit s v u => exact bnd _ _ fun i _ => bnd _ _ fun y hy => mss i y (h.imp_right fun h => ⟨h.1 y hy, h.2⟩)

theorem run_valid (debug : Bool) (me : Rat) (species : List Species) (ops : List Op) (st : St) (hv : Valid species.length st)
    (h : debug = true ∨ ((∀ op ∈ ops, GoodArgs species.length op) ∧ ∀ s ∈ species, 0 ≤ s.molarMass me)) :
    Valid species.length (run debug me species st ops).1 := by
  induction ops generalizing st with
  | nil => exact hv
  | cons op ops ih =>
    have h1 := step_valid debug me species st op hv (h.imp_right fun h => ⟨h.1 op List.mem_cons_self, h.2⟩)
    have h2 := h.imp_right fun h => (⟨fun o ho => h.1 o (List.mem_cons_of_mem _ ho), h.2⟩ :
      (∀ op ∈ ops, GoodArgs species.length op) ∧ ∀ s ∈ species, 0 ≤ s.molarMass me)
    unfold run
    cases he : step debug me species st op with
    | mk st' e =>
      rw [he] at h1
      cases e
      · exact ih st' h1 h2
      · exact ih st' h1 h2
      · exact h1
      · exact h1

theorem initial_valid (species : List Species) : Valid species.length (initial species) :=
  ⟨by norm_num [initial], by norm_num [initial], by simp [initial], fun x hx => by rw [(List.mem_replicate.1 hx).2]⟩

/-- **C31 (debug builds).** After any history of setter calls, whatever their arguments, the state is meaningful. -/
theorem C31_debug (me : Rat) (species : List Species) (ops : List Op) :
    Valid species.length (run true me species (initial species) ops).1 :=
  run_valid true me species ops _ (initial_valid species) (Or.inl rfl)

/-- **C31 (release builds, partial).** Full statement: the same without assertions; it is false
(`C31_release_negative_amount`). It holds for histories in which the arguments of the setters that only assert are meaningful. -/
theorem C31_release_partial (me : Rat) (species : List Species) (hm : ∀ s ∈ species, 0 ≤ s.molarMass me) (ops : List Op)
    (h : ∀ op ∈ ops, GoodArgs species.length op) :
    Valid species.length (run false me species (initial species) ops).1 :=
  run_valid false me species ops _ (initial_valid species) (Or.inr ⟨h, hm⟩)

/-- **C31 (temperature and pressure).** In all builds temperature and pressure stay positive, whatever the arguments. -/
theorem C31_temperature_pressure (debug : Bool) (me : Rat) (species : List Species) (ops : List Op) :
    0 < (run debug me species (initial species) ops).1.T ∧ 0 < (run debug me species (initial species) ops).1.P := by
  have key : ∀ (ops : List Op) (st : St), 0 < st.T → 0 < st.P →
      0 < (run debug me species st ops).1.T ∧ 0 < (run debug me species st ops).1.P := by
    intro ops
    induction ops with
    | nil => intro st h1 h2; exact ⟨h1, h2⟩
    | cons op ops ih =>
      intro st h1 h2
      have h3 : 0 < (step debug me species st op).1.T ∧ 0 < (step debug me species st op).1.P := by
        have tmp : ∀ x, 0 < (setTemperature st x).1.T ∧ 0 < (setTemperature st x).1.P := by
          intro x
          unfold setTemperature
          by_cases h : x ≤ 0
          · rw [if_pos h]; exact ⟨h1, h2⟩
          · rw [if_neg h]; exact ⟨not_le.1 h, h2⟩
        have prs : ∀ x, 0 < (setPressure st x).1.T ∧ 0 < (setPressure st x).1.P := by
          intro x
          unfold setPressure
          by_cases h : x ≤ 0
          · rw [if_pos h]; exact ⟨h1, h2⟩
          · rw [if_neg h]; exact ⟨h1, not_le.1 h⟩
        have bnd : ∀ {α : Type} (r : Res α) (f : α → Out), (∀ a, 0 < (f a).1.T ∧ 0 < (f a).1.P) →
            0 < (andThen st r f).1.T ∧ 0 < (andThen st r f).1.P := by
          intro α r f h
          cases r
          · exact h _
          · exact ⟨h1, h2⟩
          · exact ⟨h1, h2⟩
        rcases (em ((step debug me species st op).2 = .returned)) with hr | hr
        · have he := (C31_effects debug me species st op).1 hr
          cases op with
          | temperature v => exact tmp v
          | temperatureUnit v u => exact bnd _ _ tmp
          | pressure v => exact prs v
          | pressureUnit v u =>
            simp only [step, setPressureUnit]
            by_cases h : v ≤ 0
            · rw [if_pos h]; exact ⟨h1, h2⟩
            · rw [if_neg h]; exact bnd _ _ prs
          | _ =>
            revert he
            generalize (step debug me species st _).1 = st'
            intro he
            cases he with
            | temperature op unit x y hop => cases unit <;> cases hop
            | pressure op unit x y hop => cases unit <;> cases hop
            | _ => exact ⟨h1, h2⟩
        · rw [(C31_effects debug me species st op).2 hr]; exact ⟨h1, h2⟩
      unfold run
      cases he : step debug me species st op with
      | mk st' e =>
        rw [he] at h3
        cases e
        · exact ih st' h3.1 h3.2
        · exact ih st' h3.1 h3.2
        · exact h3
        · exact h3
  exact key ops _ (initial_valid species).T (initial_valid species).P

/-- **C31 (reading back an amount).** An amount set in a unit is read back in the same unit. -/
theorem C31_read_back_amount (debug : Bool) (me : Rat) (species : List Species) (st st' : St) (name : Str) (x : Rat) (unit : Str)
    (h : step debug me species st (.amountNameUnit name x unit) = (st', .returned)) :
    amountNameUnit debug species st' name unit = .ok x := by
  simp only [step, setAmountNameUnit, setAmountUnit] at h
  unfold amountNameUnit
  rcases index_cases species name with ⟨i, h1, h2, -⟩ | ⟨h1, -⟩
  · rw [h1] at h ⊢
    simp only [andThen] at h
    rcases andThen_cases st (Units.convert x unit c!"mol") (setAmount debug species st i) with ⟨y, h3, h4⟩ | ⟨-, h4⟩ | ⟨-, h4⟩
    · simp only [andThen] at h4
      rw [h4] at h
      rcases setAmount_cases debug species st i y with h5 | h5 | h5
      · rw [h5.1] at h; simp at h
      · rw [h5.1] at h; simp at h
      · rw [h5.1] at h
        simp only [Prod.mk.injEq, and_true] at h
        subst h
        have : amount debug species { st with n := st.n.set i y } i = .ok y := by
          unfold amount
          rw [if_neg (by simp [h2]), at!_of_lt _ _ (by simpa using h5.2.1)]
          simp
        simp only [Res.bind_ok', amountUnit, this]
        exact Units.C15_round_trip _ _ _ _ h3
    · simp only [andThen] at h4
      rw [h4] at h; simp at h
    · simp only [andThen] at h4
      rw [h4] at h; simp at h
  · rw [h1] at h; simp [andThen] at h

/-- **C31 (reading back a mass).** A mass set in a unit is read back in the same unit, if the molar mass is not zero. -/
theorem C31_read_back_mass (debug : Bool) (me : Rat) (species : List Species) (hm : ∀ s ∈ species, s.molarMass me ≠ 0) (st st' : St)
    (name : Str) (x : Rat) (unit : Str) (h : step debug me species st (.massNameUnit name x unit) = (st', .returned)) :
    massNameUnit debug me species st' name unit = .ok x := by
  simp only [step, setMassNameUnit, setMassUnit] at h
  unfold massNameUnit
  rcases index_cases species name with ⟨i, h1, h2, -⟩ | ⟨h1, -⟩
  · rw [h1] at h ⊢
    simp only [andThen] at h
    rcases andThen_cases st (Units.convert x unit c!"kg") (setMass debug me species st i) with ⟨y, h3, h4⟩ | ⟨-, h4⟩ | ⟨-, h4⟩
    · simp only [andThen] at h4
      rw [h4] at h
      rcases setMass_cases debug me species st i y with h5 | h5 | ⟨s, h0, h5⟩
      · rw [h5.1] at h; simp at h
      · rw [h5.1] at h; simp at h
      · rw [h5.1] at h
        simp only [Prod.mk.injEq, and_true] at h
        subst h
        have hs := hm s (List.mem_of_getElem? h0)
        have : mass debug me species { st with n := st.n.set i (y / s.molarMass me) } i = .ok y := by
          unfold mass
          rw [if_neg (by simp [h2]), at!_of_lt _ _ (by simpa using h5.2.1), at!_of_lt _ _ h2]
          rw [List.getElem?_eq_getElem h2, Option.some.injEq] at h0
          simp only [Res.bind_ok', List.getElem_set_self, h0]
          rw [div_mul_cancel₀ _ hs]
        simp only [Res.bind_ok', massUnit, this]
        exact Units.C15_round_trip _ _ _ _ h3
    · simp only [andThen] at h4
      rw [h4] at h; simp at h
    · simp only [andThen] at h4
      rw [h4] at h; simp at h
  · rw [h1] at h; simp [andThen] at h

/-- **C31 (temperature scales).** Setting the reading of a thermodynamic temperature on any scale sets that temperature, or throws
if it is not positive. -/
theorem C31_set_temperature (debug : Bool) (me : Rat) (species : List Species) (st : St) (unit : Str) (sc : Units.Scale)
    (h : (unit, sc) ∈ Units.scaleNames) (t : Rat) :
    step debug me species st (.temperatureUnit (sc.reading t) unit) =
      if 0 < t then ({ st with T := t }, .returned) else (st, .threw) := by
  have hk : (c!"K", Units.Scale.kelvin) ∈ Units.scaleNames := by decide
  have := Units.C14_temperature_scales unit c!"K" sc .kelvin h hk t
  rw [show Units.Scale.kelvin.reading t = t from rfl] at this
  simp only [step, setTemperatureUnit, this, andThen, setTemperature]
  by_cases ht : 0 < t
  · rw [if_neg (not_le.2 ht), if_pos ht]
  · rw [if_pos (not_lt.1 ht), if_neg ht]

/-! ### Examples and counterexamples -/

/-- Two species for the examples: water and dioxygen with made-up molar masses. -/
def exampleSpecies : List Species :=
  [⟨c!"H2O", c!"H2O", [(⟨c!"H", 1/1000, [], []⟩, 2), (⟨c!"O", 16/1000, [], []⟩, 1)], 0, .Liquid, [], [], []⟩,
   ⟨c!"O2", c!"O2", [(⟨c!"O", 16/1000, [], []⟩, 2)], 0, .Gas, [], [], []⟩]

example : run true 0 exampleSpecies (initial exampleSpecies)
      [.temperatureUnit 25 c!"degC", .amountNameUnit c!"O2" 3 c!"mmol", .temperature (-5), .massNameUnit c!"H2O" 18 c!"g",
        .pressureUnit 1 c!"bar"] = (⟨29815 / 100, 100000, [1, 3 / 1000]⟩, .returned) := by decide +kernel

/-- **C31 is false of release builds.** A negative amount is stored. -/
theorem C31_release_negative_amount :
    run false 0 exampleSpecies (initial exampleSpecies) [.amountName c!"O2" (-1)] = (⟨29815 / 100, 100000, [0, -1]⟩, .returned) ∧
    run false 0 exampleSpecies (initial exampleSpecies) [.amounts [1]] = (⟨29815 / 100, 100000, [1]⟩, .returned) := by
  decide +kernel

/-- A zero mass, which is meaningful, ends the program in debug builds. -/
theorem C31_zero_mass_aborts :
    run true 0 exampleSpecies (initial exampleSpecies) [.massName c!"O2" 0] = (initial exampleSpecies, .aborted) := by decide +kernel

end Verif.ChemicalState
