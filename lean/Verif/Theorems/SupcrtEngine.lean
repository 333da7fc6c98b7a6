import Verif.Theorems.SupcrtMineral

/-!
# C81: the energies and the memory of the SUPCRT engine
-/

namespace Verif.Supcrt

open Verif.Water

/-! ### Internal and Helmholtz energies -/

/-- C81, energies of solutes: `U = H - P V` and `A = U - T S`, with the volume that is reported. -/
theorem C81_energies_solute (p : Solute) (T P : ℝ) (aes : HKF.BornState) (wes : ElectroState) :
    let s := soluteProps p T P aes wes
    s.internalEnergy = s.enthalpy - P * s.volume ∧ s.helmholtz = s.internalEnergy - T * s.entropy := by
  intro s
  constructor <;> simp only [s, soluteProps, cal, bar] <;> norm_num <;> ring

/-- C81, energies of gases: the enthalpy, the entropy and the Gibbs energy agree (`G = H - T S` up to a constant of
the gas), but the internal energy is `H - R T` with the second term multiplied by `4.184e-5`. -/
theorem C81_energies_gas_wrong (p : Gas) (T P : ℝ) (hP : P ≠ 0) :
    let s := gasState p T P
    s.gibbs = s.enthalpy - T * s.entropy + (p.Gf - p.Hf + Tr * p.Sr) * cal ∧
    s.internalEnergy = s.enthalpy - 4.184e-5 * (P * s.volume) ∧
    s.helmholtz = s.internalEnergy - T * s.entropy ∧
    (s.internalEnergy = s.enthalpy - P * s.volume ↔ T = 0) := by
  intro s
  have hV : P * s.volume = R * T := by simp only [s, gasState]; field_simp
  have hU : s.internalEnergy = s.enthalpy - 4.184e-5 * (P * s.volume) := by
    simp only [s, gasState, cal]; norm_num; ring
  refine ⟨by simp only [s, gasState, cal]; ring, hU, by simp only [s, gasState]; ring, ?_⟩
  rw [hU, hV]
  unfold R
  constructor
  · intro h; norm_num at h; linarith
  · rintro rfl; simp

/-- C81, energies of minerals: the internal energy is `H - P V` with the second term multiplied by 41.84, because the
volume in cubic centimetres times the pressure in bars is taken for calories. -/
theorem C81_energies_mineral_wrong (p : Mineral) (T P : ℝ) :
    let s := mineralState p T P
    s.internalEnergy = s.enthalpy - 41.84 * (P * s.volume) ∧
    s.helmholtz = s.internalEnergy - T * s.entropy ∧
    (s.internalEnergy = s.enthalpy - P * s.volume ↔ P * s.volume = 0) := by
  intro s
  have hU : s.internalEnergy = s.enthalpy - 41.84 * (P * s.volume) := by
    simp only [s, mineralState, cal, cm3]; norm_num; ring
  refine ⟨hU, by simp only [s, mineralState]; ring, ?_⟩
  rw [hU]
  constructor
  · intro h; norm_num at h; linarith
  · intro h; rw [h]; simp

/-- C81, energies of the solvent: when the state of water has `U = H - P V`, the reported internal energy misses
`H - P V` by the constant 880 cal/mol, and the Helmholtz energy misses `U - T S` by the constant
`Ttr Str + Atr - Utr`. -/
theorem C81_energies_solvent (T P : ℝ) (wt : ThermoState) (h : wt.internalEnergy = wt.enthalpy - P * wt.volume) :
    let s := solventProps T wt
    s.internalEnergy = s.enthalpy - P * s.volume + 880 * cal ∧
    s.helmholtz = s.internalEnergy - T * s.entropy + (273.16 * 15.1320 - 55415 + 67887) * cal := by
  intro s
  constructor
  · simp only [s, solventProps, h]; norm_num; ring
  · simp only [s, solventProps]; norm_num; ring

/-! ### The memory of earlier calls -/

/-- The kinds whose properties use the state of water. -/
def Params.usesWater : Params → Prop
  | .solvent => True
  | .solute _ => True
  | _ => False

/-- What is remembered, if anything, is the value of the function. -/
def Good {R : Type} (f : ℝ × ℝ → Res R) (c : Memo.Cell (ℝ × ℝ) R) : Prop := c.first = false → f c.cache = .ok c.result

theorem callLast_good {R : Type} (f : ℝ × ℝ → Res R) (on : Bool) (c : Memo.Cell (ℝ × ℝ) R) (x : ℝ × ℝ) (hc : Good f c)
    (r : R) (hx : f x = .ok r) : Good f (Memo.callLast f same on c x).1 ∧ (Memo.callLast f same on c x).2 = .ok r := by
  unfold Memo.callLast
  by_cases h1 : on = false
  · rw [if_pos h1]; exact ⟨hc, hx⟩
  rw [if_neg h1]
  by_cases h2 : (same c.cache x && !c.first) = true
  · rw [if_pos h2]
    simp only [same, Bool.and_eq_true, decide_eq_true_eq, Bool.not_eq_true'] at h2
    refine ⟨hc, ?_⟩
    have := hc h2.2
    rw [h2.1, hx] at this
    simpa using this.symm
  · rw [if_neg h2]
    simp only [hx]
    exact ⟨fun _ => hx, trivial⟩

/-- The electrostatic state of water as a function of the temperature and the pressure. -/
noncomputable def electroAt (water : ℝ × ℝ → Res ThermoState) (x : ℝ × ℝ) : Res ElectroState :=
  (water x).bind fun wts => .ok (electroState x.1 wts)

structure Engine.Good (water : ℝ × ℝ → Res ThermoState) (e : Engine) : Prop where
  thermo : Supcrt.Good water e.thermo
  inner : Supcrt.Good water e.inner
  electro : Supcrt.Good (electroAt water) e.electro

theorem callElectro_good (water : ℝ × ℝ → Res ThermoState) (on : Bool) (e : Engine) (x : ℝ × ℝ) (he : e.Good water)
    (w : ThermoState) (hx : water x = .ok w) :
    (callElectro water on e x).1.Good water ∧ (callElectro water on e x).2 = .ok (electroState x.1 w) := by
  obtain ⟨hi, hv⟩ := callLast_good water on e.inner x he.inner w hx
  have hx' : electroAt water x = .ok (electroState x.1 w) := by simp [electroAt, hx]
  unfold callElectro electroBody
  simp only [hv, Res.bind_ok']
  by_cases h1 : on = false
  · rw [if_pos h1]; exact ⟨⟨he.thermo, hi, he.electro⟩, rfl⟩
  rw [if_neg h1]
  by_cases h2 : (same e.electro.cache x && !e.electro.first) = true
  · rw [if_pos h2]
    simp only [same, Bool.and_eq_true, decide_eq_true_eq, Bool.not_eq_true'] at h2
    refine ⟨he, ?_⟩
    have := he.electro h2.2
    rw [h2.1, hx'] at this
    simpa using this.symm
  · rw [if_neg h2]
    exact ⟨⟨he.thermo, hi, fun _ => hx'⟩, rfl⟩

theorem call_good (water : ℝ × ℝ → Res ThermoState) (on : Bool) (e : Engine) (k : Params) (T P : ℝ) (he : e.Good water)
    (hw : k.usesWater → ∃ w, water (T, P) = .ok w) :
    (e.call water on k T P).1.Good water ∧ (e.call water on k T P).2 = props water k T P := by
  cases k with
  | solvent =>
    obtain ⟨w, hw⟩ := hw trivial
    obtain ⟨h1, h2⟩ := callLast_good water on e.thermo (T, P) he.thermo w hw
    simp only [Engine.call, props, h2, hw, Res.bind_ok']
    exact ⟨⟨h1, he.inner, he.electro⟩, trivial⟩
  | solute p =>
    obtain ⟨w, hw⟩ := hw trivial
    obtain ⟨h1, h2⟩ := callLast_good water on e.thermo (T, P) he.thermo w hw
    obtain ⟨h3, h4⟩ := callElectro_good water on { e with thermo := (Memo.callLast water same on e.thermo (T, P)).1 } (T, P)
      ⟨h1, he.inner, he.electro⟩ w hw
    simp only [Engine.call, props, h2, hw, h4, Res.bind_ok']
    exact ⟨h3, trivial⟩
  | gas p => exact ⟨he, rfl⟩
  | mineral p => exact ⟨he, rfl⟩

/-- C81, history: an engine may be asked for any species at any temperatures and pressures in any order, with the
switch of memoization turned on and off in between; as long as the equation of state of water has a solution at each
state where a solvent or a solute is asked for, every answer is the one given without memory. -/
theorem C81_history (water : ℝ × ℝ → Res ThermoState) (t0 : ThermoState) (e0 : ElectroState)
    (calls : List (Bool × Params × ℝ × ℝ))
    (hw : ∀ c ∈ calls, c.2.1.usesWater → ∃ w, water (c.2.2.1, c.2.2.2) = .ok w) :
    (Engine.run water (Engine.new t0 e0) calls).2 = calls.map fun c => props water c.2.1 c.2.2.1 c.2.2.2 := by
  have key : ∀ (calls : List (Bool × Params × ℝ × ℝ)) (e : Engine), e.Good water →
      (∀ c ∈ calls, c.2.1.usesWater → ∃ w, water (c.2.2.1, c.2.2.2) = .ok w) →
      (Engine.run water e calls).2 = calls.map fun c => props water c.2.1 c.2.2.1 c.2.2.2 := by
    intro calls
    induction calls with
    | nil => intros; rfl
    | cons c rest ih =>
      intro e he hw
      obtain ⟨on, k, T, P⟩ := c
      obtain ⟨h1, h2⟩ := call_good water on e k T P he (hw (on, k, T, P) (by simp))
      simp only [Engine.run, List.map_cons, h2]
      rw [ih _ h1 fun c hc => hw c (List.mem_cons_of_mem _ hc)]
  refine key calls _ ⟨?_, ?_, ?_⟩ hw <;> intro h <;> simp [Engine.new, Memo.Cell.init] at h

/-- C81, history, without the condition on water: the claim is false.  When the equation of state has no solution at a
state, the first call fails, and the second call at the same state returns, without any error, the properties
computed from the state of water of an earlier call (or from a default-constructed one). -/
theorem C81_history_wrong (water : ℝ × ℝ → Res ThermoState) (e : Engine) (T P : ℝ)
    (hnew : (e.thermo.cache = (T, P) → e.thermo.first = true)) (hf : water (T, P) = .throw) :
    (Engine.run water e [(true, .solvent, T, P), (true, .solvent, T, P)]).2
      = [.throw, .ok (convert (solventProps T e.thermo.result))] ∧
    props water .solvent T P = .throw := by
  have h2 : ¬ (same e.thermo.cache (T, P) && !e.thermo.first) = true := by
    simp only [same, Bool.and_eq_true, decide_eq_true_eq, Bool.not_eq_true', not_and]
    intro h; rw [hnew h]; simp
  constructor
  · simp only [Engine.run, Engine.call, Memo.callLast, if_neg h2, hf]
    simp [same]
  · simp only [props, hf, Res.bind_throw']

/-- C81, history: solutes too.  After the failure for the solvent, a solute at the same state gets the electrostatic
state computed afresh, which fails once; the call after that returns stale values. -/
theorem C81_history_solute_wrong (water : ℝ × ℝ → Res ThermoState) (t0 : ThermoState) (e0 : ElectroState) (p : Solute) (T P : ℝ)
    (hf : water (T, P) = .throw) :
    (Engine.run water (Engine.new t0 e0) [(true, .solute p, T, P), (true, .solute p, T, P), (true, .solute p, T, P)]).2
      = [.throw, .throw, .ok (convert (soluteProps p T P (electroStateHKF (functionG T P t0) p) e0))] ∧
    props water (.solute p) T P = .throw := by
  constructor
  · simp [Engine.run, Engine.call, Memo.callLast, callElectro, electroBody, Engine.new, Memo.Cell.init, hf, same]
  · simp only [props, hf, Res.bind_throw']

/-- The hypothesis of `C81_history_wrong` is met: the equation of state of water fails when its density does not
converge. -/
example : ∃ e : Engine, (e.thermo.cache = (298.15, 100000) → e.thermo.first = true) ∧
    (fun _ : ℝ × ℝ => (Res.throw : Res ThermoState)) (298.15, 100000) = .throw :=
  ⟨Engine.new (stateAt idealFluid (fun t p => p / t) 298.15 149075) (electroState 298.15 (stateAt idealFluid (fun t p => p / t) 298.15 149075)),
    fun _ => rfl, rfl⟩

/-- Concrete calls for `C81_history`: one gas and the solvent at two states, the switch turned off for one of them. -/
example (p : Gas) : ∃ calls : List (Bool × Params × ℝ × ℝ), calls.length = 3 ∧
    ∀ c ∈ calls, c.2.1.usesWater → ∃ w, (fun x : ℝ × ℝ => (Res.ok (stateAt idealFluid (fun t p => p / t) x.1 x.2)))
      (c.2.2.1, c.2.2.2) = .ok w :=
  ⟨[(true, .gas p, 300, 100000), (true, .solvent, 298.15, 149075), (false, .solvent, 298.15, 298150)], rfl,
    fun _ _ _ => ⟨_, rfl⟩⟩

end Verif.Supcrt
